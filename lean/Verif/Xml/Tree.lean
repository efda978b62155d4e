import Verif.Xml.Chars
/-!
# XML trees

`Xml` is the tree as written (prefixed names, namespace declarations among the
attributes, values decoded).  `Node` is the tree libxml2 holds and lxml shows:
names are resolved, each element knows its own namespace declarations and the
namespace map in scope.

Text nodes are children, as in libxml2.  lxml's `element.text` is the text node
before the first other child, `child.tail` the text node after a child.  The
reader never produces two adjacent text nodes.
-/
namespace ReqIF

/-- A tree as written. -/
inductive Xml where
  | elem (name : Str) (attrs : List (Str × Str)) (kids : List Xml)
  | text (s : Str)
  | comment (s : Str)
  | pi (target data : Str)

/-- Namespace declarations: prefix (`none` for the default namespace) and URI. -/
abbrev NsMap := List (Option Str × Str)

/-- An attribute with a resolved name. -/
structure Attr where
  ns : Option Str
  pfx : Option Str
  name : Str
  value : Str
  deriving DecidableEq

/-- Name in Clark notation (`{uri}local`), the form lxml uses. -/
def clark (ns : Option Str) (name : Str) : Str :=
  match ns with
  | none => name
  | some u => c!"{" ++ u ++ c!"}" ++ name

/-- The key of an attribute in lxml's `attrib`. -/
def Attr.key (a : Attr) : Str := clark a.ns a.name

/-- Everything about an element but its children. -/
structure Info where
  ns : Option Str
  pfx : Option Str
  name : Str
  /-- `xmlns` declarations on this element, in order -/
  nsdefs : NsMap
  /-- lxml's `nsmap`: own declarations, then those of the ancestors, inner ones first -/
  nsmap : NsMap
  attrs : List Attr
  deriving DecidableEq

/-- A resolved tree. -/
inductive Node where
  | elem (info : Info) (kids : List Node)
  | text (s : Str)
  | comment (s : Str)
  | pi (target data : Str)

/-- A node's `tag` attribute in lxml: a string for elements, one of two
functions for comments and processing instructions. -/
inductive Tag where
  | name (s : Str)
  | comment
  | pi
  deriving DecidableEq, Repr

/-- lxml's `element.tag`. -/
def Info.tag (i : Info) : Str := clark i.ns i.name

namespace Node

/-- `node.tag` (never applied to text nodes). -/
def tag : Node → Tag
  | elem i _ => .name i.tag
  | text _ => .name []
  | comment _ => .comment
  | pi _ _ => .pi

def isText : Node → Bool
  | text _ => true
  | _ => false

/-- All child nodes, text included. -/
def kids : Node → List Node
  | elem _ ks => ks
  | _ => []

/-- `list(node)`, `node.getchildren()`: elements, comments, processing instructions. -/
def children (n : Node) : List Node := n.kids.filter (fun k => !k.isText)

/-- `node.text`.  For comments and processing instructions lxml returns their content. -/
def text? : Node → Option Str
  | elem _ (.text s :: _) => some s
  | elem _ _ => none
  | text _ => none
  | comment s => some s
  | pi _ d => some d

/-- `node.attrib` as an association list.  lxml gives comments an empty mapping.
Simplification: it gives processing instructions their pseudo-attributes; the
model gives them none. -/
def attrs : Node → List Attr
  | elem i _ => i.attrs
  | _ => []

/-- `node.attrib.get(key)` -/
def attr? (n : Node) (key : Str) : Option Str :=
  (n.attrs.find? (fun a => a.key == key)).map (·.value)

/-- `node.nsmap` -/
def nsmap : Node → NsMap
  | elem i _ => i.nsmap
  | _ => []

/-- `node.find(tag)` for a plain tag name: the first child element with that tag. -/
def find (n : Node) (t : Str) : Option Node :=
  n.kids.find? (fun k => !k.isText && k.tag == .name t)

/-- `len(node)` -/
def len (n : Node) : Nat := n.children.length

end Node

end ReqIF
