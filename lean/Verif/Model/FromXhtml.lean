import Verif.Model.Format
/-!
# `helpers/lxml.py`: an element of XHTML as a string without namespaces

`lxml_convert_from_reqif_ns_xhtml_string`, `lxml.py` 222-228.  The result is made by lxml's
`tostring`, not by the printers of `helpers/lxml.py`.
-/
namespace ReqIF.Format

/-- libxml2's `xmlSerializeHexCharRef`. -/
def hexRef (n : Nat) : Str := c!"&#x" ++ (Nat.toDigits 16 n).map Char.toUpper ++ c!";"

/-- How libxml2 prints one character of an attribute value if no output encoding is asked
for (`xmlBufAttrSerializeTxtContent`).  `declared`: the document has an encoding; if it has
none, characters outside ASCII become hexadecimal references. -/
def uniAttrChar (declared : Bool) (c : Char) : Str :=
  if c = '&' then c!"&amp;"
  else if c = '<' then c!"&lt;"
  else if c = '>' then c!"&gt;"
  else if c = '"' then c!"&quot;"
  else if c = '\n' then c!"&#10;"
  else if c = '\r' then c!"&#13;"
  else if c = '\t' then c!"&#9;"
  else if c.toNat < 128 || declared then [c]
  else hexRef c.toNat

def uniAttr (declared : Bool) (s : Str) : Str := s.flatMap (uniAttrChar declared)

/-- One attribute or declaration of a tag.  (Declarations: the simplification of `serDecl`.) -/
def uniAttrOut (declared : Bool) (name value : Str) : Str := c!" " ++ name ++ c!"=\"" ++ uniAttr declared value ++ c!"\""

/-- The name of a declaration. -/
def uniDeclName : Option Str → Str
  | none => c!"xmlns"
  | some p => c!"xmlns:" ++ p

mutual
/-- libxml2's `xmlNodeDumpOutputInternal` as in `dump`, for an output that is a Python
string: characters outside ASCII are printed as they are. -/
def uniDump (declared pretty : Bool) (level : Nat) : Node → Str
  | .text s => serText s
  | .comment s => c!"<!--" ++ s ++ c!"-->"
  | .pi t d => c!"<?" ++ t ++ (if d = [] then [] else ' ' :: d) ++ c!"?>"
  | .elem i ks =>
    c!"<" ++ qnameOut i.pfx i.name ++ i.nsdefs.flatMap (fun d => uniAttrOut declared (uniDeclName d.1) d.2) ++
      i.attrs.flatMap (fun a => uniAttrOut declared (qnameOut a.pfx a.name) a.value) ++
      if ks = [] then c!"/>"
      else if pretty && !ks.any Node.isText then
        c!">\n" ++ uniDumpKids declared true (level + 1) ks ++ indent level ++ c!"</" ++ qnameOut i.pfx i.name ++ c!">"
      else c!">" ++ uniDumpKids declared false (level + 1) ks ++ c!"</" ++ qnameOut i.pfx i.name ++ c!">"

def uniDumpKids (declared pretty : Bool) (level : Nat) : List Node → Str
  | [] => []
  | k :: ks =>
    if pretty then indent level ++ uniDump declared true level k ++ c!"\n" ++ uniDumpKids declared true level ks
    else uniDump declared false level k ++ uniDumpKids declared false level ks
end

/-- lxml's `tostring(node, encoding=str, pretty_print=True)`: the element, its tail, and a
line end. -/
def toUnicode (declared : Bool) (node : Node) (tail : Str) : Str := uniDump declared true 0 node ++ serText tail ++ c!"\n"

/-- `helpers/lxml.py` 222-228, `lxml_convert_from_reqif_ns_xhtml_string`.  `tail` is the text
behind the element in its parent (empty if there is none): `deepcopy` copies it and
`tostring` prints it. -/
def convertFromReqifNs (declared : Bool) (node : Node) (tail : Str) : Py Str :=
  match stripNamespace true node.detach with
  | .error e => .error e
  | .ok r => .ok (rstrip (toUnicode declared r tail))

end ReqIF.Format
