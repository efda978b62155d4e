import Verif.Base.Err
import Verif.Model.Escape
import Verif.Xml.Resolve
/-!
# `helpers/lxml.py`

Printing of XHTML content and removal of namespaces.  Recursion over child
nodes follows the order lxml gives: the element's text, then each child with its
tail; in this model these are the child nodes in order, text nodes included.
-/
namespace ReqIF

def xhtmlNs : Str := c!"http://www.w3.org/1999/xhtml"

/-- `str.casefold() == "object"`.  No character outside ASCII case-folds to one
of the letters of `object`. -/
def isObjectTag (t : Str) : Bool := t.map asciiLower == c!"object"

/-- The attributes of a tag as `lxml.py` 95-96 and 167-168 print them. -/
def attrsOut : List Attr → Str
  | [] => []
  | a :: as => c!" " ++ a.key ++ c!"=\"" ++ lxmlEscapeForHtml a.value ++ c!"\"" ++ attrsOut as

/-- `helpers/lxml.py` 73-80: the element's namespace is the default namespace in scope.
Simplification: the regular expression `{(.+?)}` on the tag is taken to yield the
namespace, which holds for URIs without `}` and line feed. -/
def hasOwnNs (i : Info) : Bool :=
  match i.ns with
  | none => false
  | some u => i.nsmap.any (fun d => d.2 == u && d.1 == none)

/-- `helpers/lxml.py` 82-90: the tag to print.  `forced`: a namespace tag was passed. -/
def nsTagOut (nskey : Option Str) (forced : Bool) (i : Info) : Str :=
  if hasOwnNs i then i.name
  else if i.ns.isSome || forced then fmtOpt nskey ++ c!":" ++ i.name
  else i.tag

/-- `helpers/lxml.py` 92-93: the namespace declaration printed with the tag. -/
def nsDeclOut (i : Info) : Str :=
  if hasOwnNs i then c!" xmlns=\"" ++ fmtOpt (NsMap.get? i.nsmap none) ++ c!"\"" else []

mutual
/-- `helpers/lxml.py` 59-115, `_lxml_stringify_reqif_ns_node` (without the tail). -/
def stringifyNsNode (nskey : Option Str) (forced : Bool) : Node → Py Str
  | .text s => .ok (lxmlEscapeForHtml s)
  | .comment _ => .error .valueError
  | .pi _ _ => .error .valueError
  | .elem i ks =>
    let open_ := c!"<" ++ nsTagOut nskey forced i ++ nsDeclOut i ++ attrsOut i.attrs
    if !ks.isEmpty || isObjectTag i.tag then
      match stringifyNsKids nskey forced ks with
      | .error e => .error e
      | .ok body => .ok (open_ ++ c!">" ++ body ++ c!"</" ++ nsTagOut nskey forced i ++ c!">")
    else .ok (open_ ++ c!"/>")

/-- Text, children and tails in order (`lxml.py` 105-108, 113-114, 117-122). -/
def stringifyNsKids (nskey : Option Str) (forced : Bool) : List Node → Py Str
  | [] => .ok []
  | n :: ns =>
    match stringifyNsNode nskey forced n with
    | .error e => .error e
    | .ok a =>
      match stringifyNsKids nskey forced ns with
      | .error e => .error e
      | .ok b => .ok (a ++ b)
end

/-- First key of a namespace map: `next(iter(node.nsmap.keys()))`. -/
def NsMap.firstKey : NsMap → Option Str
  | [] => none
  | d :: _ => d.1

/-- `helpers/lxml.py` 49-122, `lxml_stringify_namespaced_children(node)`. -/
def stringifyNamespacedChildren (node : Node) : Py Str :=
  if node.nsmap.isEmpty then .error .assertion
  else stringifyNsKids node.nsmap.firstKey false node.kids

/-- `lxml_stringify_namespaced_children(node, namespace_tag)`. -/
def stringifyNamespacedChildrenAs (nsTag : Str) (node : Node) : Py Str :=
  stringifyNsKids (some nsTag) true node.kids

/-- `helpers/lxml.py` 155-165: tag printed by `lxml_stringify_node`. -/
def nodeTagOut (i : Info) : Str :=
  match i.nsmap with
  | (some k, _) :: _ => if i.ns.isSome then k ++ c!":" ++ i.name else i.name
  | _ => i.name

/-- `helpers/lxml.py` 169-170. -/
def nodeDeclOut (root : Bool) (i : Info) : Str :=
  match i.nsmap with
  | (_, v) :: _ => if root then c!" xmlns=\"" ++ v ++ c!"\"" else []
  | [] => []

mutual
/-- `helpers/lxml.py` 125-189, `lxml_stringify_node` (without the tail). -/
def stringifyNode (root : Bool) : Node → Py Str
  | .text s => .ok (lxmlEscapeForHtml s)
  | .comment s => .ok (c!"<!--" ++ s ++ c!"-->")
  | .pi _ _ => .error .valueError
  | .elem i ks =>
    let open_ := c!"<" ++ nodeTagOut i ++ attrsOut i.attrs ++ nodeDeclOut root i
    if !ks.isEmpty || isObjectTag i.tag then
      match stringifyKids ks with
      | .error e => .error e
      | .ok body => .ok (open_ ++ c!">" ++ body ++ c!"</" ++ nodeTagOut i ++ c!">")
    else .ok (open_ ++ c!"/>")

def stringifyKids : List Node → Py Str
  | [] => .ok []
  | n :: ns =>
    match stringifyNode false n with
    | .error e => .error e
    | .ok a =>
      match stringifyKids ns with
      | .error e => .error e
      | .ok b => .ok (a ++ b)
end

/-- The children part of `lxml_stringify_children` (`lxml.py` 198-205): every
child is printed with its escaped tail, and then the tail is printed once more,
not escaped. -/
def stringifyChildrenGo : List Node → Py Str
  | [] => .ok []
  | .text t :: ns =>
    match stringifyChildrenGo ns with
    | .error e => .error e
    | .ok b => .ok (lxmlEscapeForHtml t ++ t ++ b)
  | n :: ns =>
    match stringifyNode true n with
    | .error e => .error e
    | .ok a =>
      match stringifyChildrenGo ns with
      | .error e => .error e
      | .ok b => .ok (a ++ b)

/-- `helpers/lxml.py` 193-213, `lxml_stringify_children`: the text before the
first child is printed as it is. -/
def stringifyChildren (node : Node) : Py Str :=
  match node.kids with
  | .text t :: ks =>
    match stringifyChildrenGo ks with
    | .error e => .error e
    | .ok b => .ok (t ++ b)
  | ks => stringifyChildrenGo ks

/-- `helpers/lxml.py` 238-244, `lxml_is_self_closed_tag`. -/
def isSelfClosedTag (n : Node) : Bool :=
  if n.len > 0 then false
  else if n.text?.isSome then false
  else true

mutual
/-- `helpers/lxml.py` 248-256: the tag loop of `lxml_strip_namespace_from_xml`.  The
loop stops at the first processing instruction: `in` raises `TypeError` on its
tag, `QName` raises `ValueError`. -/
def stripTags (full : Bool) : Node → Py Node
  | .text s => .ok (.text s)
  | .comment s => .ok (.comment s)
  | .pi _ _ => if full then .error .valueError else .error .typeError
  | .elem i ks =>
    match stripTagsList full ks with
    | .error e => .error e
    | .ok ks' =>
      if !full && containsStr xhtmlNs i.tag then .ok (.elem i ks')
      else .ok (.elem { i with ns := none, pfx := none } ks')

def stripTagsList (full : Bool) : List Node → Py (List Node)
  | [] => .ok []
  | n :: ns =>
    match stripTags full n with
    | .error e => .error e
    | .ok n' =>
      match stripTagsList full ns with
      | .error e => .error e
      | .ok ns' => .ok (n' :: ns')
end

/-- `helpers/lxml.py` 247-259, `lxml_strip_namespace_from_xml` on a tree without parent. -/
def stripNamespace (full : Bool) (root : Node) : Py Node :=
  match stripTags full root with
  | .error e => .error e
  | .ok r => .ok (cleanup [] r)

/-- `helpers/lxml.py` 231-235, `lxml_convert_children_from_reqif_ns_xhtml_string`.
(`detach` leaves stale namespace maps below the root; `cleanup` recomputes them.) -/
def convertChildrenFromReqifNs (node : Node) : Py Str :=
  match stripNamespace true node.detach with
  | .error e => .error e
  | .ok r => stringifyChildren r

/-- `helpers/lxml.py` 216-219, `lxml_convert_to_reqif_ns_xhtml_string`.  `fragment` is
lxml's `fragment_fromstring(string, create_parent="NOT-USED")`: the HTML parser, with
the content below one parent. -/
def convertToReqifNs (fragment : Str → Py Node) (string : Str) (reqifXhtml : Bool) : Py Str :=
  match fragment string with
  | .error e => .error e
  | .ok node => stringifyNamespacedChildrenAs (if reqifXhtml then c!"reqif-xhtml" else c!"xhtml") node

/-! ## The REQ-IF tag -/

/-- How libxml2 prints one character of an attribute value into an ASCII document. -/
def serAttrChar (c : Char) : Str :=
  if c = '&' then c!"&amp;"
  else if c = '<' then c!"&lt;"
  else if c = '>' then c!"&gt;"
  else if c = '"' then c!"&quot;"
  else if c = '\n' then c!"&#10;"
  else if c = '\r' then c!"&#13;"
  else if c = '\t' then c!"&#9;"
  else if c.toNat < 128 then [c]
  else c!"&#" ++ Nat.toDigits 10 c.toNat ++ c!";"

/-- libxml2's serialisation of an attribute value with lxml's default (ASCII) encoding. -/
def serAttr (s : Str) : Str := (s.map serAttrChar).flatten

/-- Prints a declaration.  Simplification: the URI is escaped like an attribute
value (some libxml2 versions print it raw; the two agree on URIs that are
printable ASCII without the markup characters). -/
def serDecl (d : Option Str × Str) : Str :=
  match d.1 with
  | none => c!" xmlns=\"" ++ serAttr d.2 ++ c!"\""
  | some p => c!" xmlns:" ++ p ++ c!"=\"" ++ serAttr d.2 ++ c!"\""

/-- The first prefix bound to a URI (`_searchNsByHref`, for elements). -/
def prefixFor (m : NsMap) (u : Str) : Option Str :=
  match m.find? (fun d => d.2 == u) with
  | some d => d.1
  | none => none

/-- The first non-empty prefix bound to a URI (`_searchNsByHref`, for attributes). -/
def attrPrefixFor (m : NsMap) (u : Str) : Option Str :=
  if u = xmlNs then some c!"xml"
  else match m.find? (fun d => d.2 == u && d.1.isSome) with
    | some d => d.1
    | none => none

def qnameOut (p : Option Str) (l : Str) : Str :=
  match p with
  | none => l
  | some p => p ++ c!":" ++ l

/-- Prints an attribute of the copied root. -/
def serRootAttr (m : NsMap) (a : Attr) : Str :=
  let p := match a.ns with
    | none => none
    | some u => attrPrefixFor m u
  c!" " ++ qnameOut p a.name ++ c!"=\"" ++ serAttr a.value ++ c!"\""

/-- `parser.py` 159-173: the text of the root's start tag.  The root is copied
with `etree.Element(tag, nsmap=nsmap)` and an empty text, serialised, and
`</REQ-IF>` is removed. -/
def rootTagDump (i : Info) : Str :=
  let p := match i.ns with
    | none => none
    | some u => prefixFor i.nsmap u
  let name := qnameOut p i.name
  let tag := c!"<" ++ name ++ (i.nsmap.map serDecl).flatten ++
    (i.attrs.map (serRootAttr i.nsmap)).flatten ++ c!"></" ++ name ++ c!">\n"
  strip (replaceStr c!"</REQ-IF>" [] tag)

end ReqIF
