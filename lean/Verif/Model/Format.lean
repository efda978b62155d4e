import Verif.Model.Commands
/-!
# The format command

`reqif/commands/format/format.py`: the document is read with lxml's
`remove_blank_text` and written with `pretty_print`.  Both are libxml2's work;
the definitions below are its contract, from which the command's effect follows.

Simplifications: the input is UTF-8; white space written as character references
or CDATA is treated like any other white space; numeric references are decimal (in
attribute values of a document without declared encoding libxml2 writes them
hexadecimal); a processing instruction without data is printed without the space
some documents have there; DOCTYPE is refused as by the reader.
-/
namespace ReqIF.Format

/-- Text that is only white space. -/
def isBlank (s : Str) : Bool := s.all isWs

/-- A text node that is not only white space. -/
def isWords : Node → Bool
  | .text s => !isBlank s
  | _ => false

/-- `xml:space` in effect inside an element: `preserve` and `default` change what the
parent had (libxml2 `xmlParseStartTag2`). -/
def spaceOf (i : Info) (sp : Bool) : Bool :=
  match i.attrs.find? (fun a => a.ns == some xmlNs && a.name == c!"space") with
  | some a => if a.value = c!"preserve" then true else if a.value = c!"default" then false else sp
  | none => sp

/-- Does the list begin with text that is not only white space? -/
def wordsFirst : List Node → Bool
  | n :: _ => isWords n
  | [] => false

mutual
/-- `format.py` 9-10: `etree.XMLParser(remove_blank_text=True)`, libxml2's `areBlanks`
without a DTD.  White space next to other nodes is removed, unless `xml:space` says
`preserve`.  In an element that also has other text it depends on how the parser
meets that text: never when such text comes first; else as `keep` says for the node
at that path (positions, innermost first).  Text without sibling nodes stays. -/
def unblank (keep : List Nat → Bool) (sp : Bool) (path : List Nat) : Node → Node
  | .elem i ks =>
    let sp' := spaceOf i sp
    if ks.all Node.isText then .elem i ks
    else .elem i (unblankKids keep sp' (sp' || wordsFirst ks) (ks.any isWords) path 0 ks)
  | n => n

/-- The children from position `k` on: `all` keeps white space, `mixed` leaves it to `keep`. -/
def unblankKids (keep : List Nat → Bool) (sp all mixed : Bool) (path : List Nat) (k : Nat) : List Node → List Node
  | [] => []
  | n :: ks =>
    if n.isText && !isWords n && !all && !(mixed && keep (k :: path)) then
      unblankKids keep sp all mixed path (k + 1) ks
    else unblank keep sp (k :: path) n :: unblankKids keep sp all mixed path (k + 1) ks
end

/-- How libxml2 prints one character of text (`xmlEscapeEntities`). -/
def serTextChar (c : Char) : Str :=
  if c = '&' then c!"&amp;"
  else if c = '<' then c!"&lt;"
  else if c = '>' then c!"&gt;"
  else if c = '\r' then c!"&#13;"
  else [c]

def serText (s : Str) : Str := s.flatMap serTextChar

/-- What is not ASCII becomes a character reference, wherever it stands: lxml's default
encoding is ASCII. -/
def asciiChar (c : Char) : Str :=
  if c.toNat < 128 then [c] else c!"&#" ++ Nat.toDigits 10 c.toNat ++ c!";"

def toAscii (s : Str) : Str := s.flatMap asciiChar

/-- Indentation: two spaces a level, at most thirty levels (`xmlOutputBufferWriteWSNonSig`). -/
def indent (level : Nat) : Str := List.replicate (2 * min level 30) ' '

def serAttrOut (a : Attr) : Str :=
  c!" " ++ qnameOut a.pfx a.name ++ c!"=\"" ++ serAttr a.value ++ c!"\""

mutual
/-- libxml2's `xmlNodeDumpOutputInternal`.  An element that has a text child is printed
without any formatting, with everything in it. -/
def dump (pretty : Bool) (level : Nat) : Node → Str
  | .text s => serText s
  | .comment s => c!"<!--" ++ s ++ c!"-->"
  | .pi t d => c!"<?" ++ t ++ (if d = [] then [] else ' ' :: d) ++ c!"?>"
  | .elem i ks =>
    c!"<" ++ qnameOut i.pfx i.name ++ i.nsdefs.flatMap serDecl ++ i.attrs.flatMap serAttrOut ++
      if ks = [] then c!"/>"
      else if pretty && !ks.any Node.isText then
        c!">\n" ++ dumpKids true (level + 1) ks ++ indent level ++ c!"</" ++ qnameOut i.pfx i.name ++ c!">"
      else c!">" ++ dumpKids false (level + 1) ks ++ c!"</" ++ qnameOut i.pfx i.name ++ c!">"

def dumpKids (pretty : Bool) (level : Nat) : List Node → Str
  | [] => []
  | k :: ks =>
    if pretty then indent level ++ dump true level k ++ c!"\n" ++ dumpKids true level ks
    else dump false level k ++ dumpKids false level ks
end

/-- Is it an element? -/
def isElem : Node → Bool
  | .elem _ _ => true
  | _ => false

/-- What stands before the root element. -/
def before (ns : List Node) : List Node := ns.takeWhile (fun n => !isElem n)

/-- What stands after the root element. -/
def after (ns : List Node) : List Node := (ns.dropWhile (fun n => !isElem n)).drop 1

/-- `format.py` 13: the "doctype". -/
def declaration : Str := c!"<?xml version=\"1.0\" encoding=\"UTF-8\"?>"

/-- `format.py` 11-15, `tree.write(..., doctype=..., pretty_print=True)`: lxml's
`_writeNodeToBuffer` for a whole document. -/
def written (nodes : List Node) (root : Node) : Str :=
  toAscii (declaration ++ c!"\n" ++ (before nodes).flatMap (fun n => dump true 0 n ++ c!"\n") ++ dump true 0 root ++
    (after nodes).flatMap (fun n => '\n' :: dump true 0 n) ++ c!"\n")

/-- `format.py` 9-15 on the text of a file. -/
def formatText (keep : List Nat → Bool) (text : Str) : Option Str :=
  (readDoc text).map (fun d => written d.nodes (unblank keep false [] d.root))

/-- `format.py` 7-15, `FormatCommand.execute`. -/
noncomputable def formatCommand (os : OsEnv) (keep : List Nat → Bool) (input output : Str) : M Files CommandEnd := fun fs =>
  match readFile fs input with
  | .error e => (.error e, fs)
  | .ok bytes =>
    match decodeUtf8 bytes with
    | .error _ => (.error (.xmlParsing .notWellFormed), fs)
    | .ok text =>
      match formatText keep text with
      | none => (.error (.xmlParsing .notWellFormed), fs)
      | some out => M.bind (writeFile os output out.utf8Encode) (fun _ => M.pure .success) fs

end ReqIF.Format
