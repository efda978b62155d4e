import Verif.Spec.RoundTrip
/-!
# What an element says

The content of a ReqIF element without its layout: namespaces, prefixes, the order of
attributes, white space between elements, and the order of child elements where ReqIF
identifies them by name.
-/
namespace ReqIF.Xsd
open Spec

/-- Elements holding a list: the order of their child elements counts. -/
def listNames : List Str := [c!"DATATYPES", c!"SPEC-TYPES", c!"SPEC-OBJECTS", c!"SPEC-RELATIONS", c!"SPECIFICATIONS",
  c!"SPEC-RELATION-GROUPS", c!"SPECIFIED-VALUES", c!"SPEC-ATTRIBUTES", c!"VALUES", c!"CHILDREN", c!"EDITABLE-ATTS",
  c!"TOOL-EXTENSIONS"]

/-- Fields of the header. -/
def headerNames : List Str := [c!"COMMENT", c!"CREATION-TIME", c!"REPOSITORY-ID", c!"REQ-IF-TOOL-ID", c!"REQ-IF-VERSION",
  c!"SOURCE-TOOL-ID", c!"TITLE"]

/-- Elements holding a text: fields of the header, and references. -/
def holdsText (name : Str) : Bool := headerNames.contains name || c!"-REF".isSuffixOf name

/-- Elements holding XHTML. -/
def xhtmlNames : List Str := [c!"THE-VALUE", c!"THE-ORIGINAL-VALUE"]

/-- What an element says. -/
inductive Said
  /-- a text -/
  | text (name : Str) (attrs : Str → Option Str) (text : Option Str)
  /-- XHTML content: elements with attributes, and texts -/
  | xhtml (name : Str) (attrs : Str → Option Str) (content : List XTree)
  /-- a list of elements -/
  | list (name : Str) (attrs : Str → Option Str) (kids : List Said)
  /-- elements by name -/
  | record (name : Str) (attrs : Str → Option Str) (kids : Str → List Said)

/-- The name of the element. -/
def Said.name : Said → Str
  | .text n _ _ => n
  | .xhtml n _ _ => n
  | .list n _ _ => n
  | .record n _ _ => n

/-- Elements by name. -/
def byName (l : List Said) (name : Str) : List Said := l.filter (fun s => s.name == name)

mutual
/-- XHTML content as a tree. -/
def treeOf : Node → XTree
  | .elem i ks => .elem i.name (i.attrs.map (fun a => (a.key, a.value))) (treesOf ks)
  | .text s => .text s
  | _ => .text []

def treesOf : List Node → List XTree
  | [] => []
  | n :: ns => treeOf n :: treesOf ns
end

mutual
/-- What an element says. -/
def said : Node → Said
  | .elem i ks =>
    if xhtmlNames.contains i.name then .xhtml i.name (Node.elem i ks).attr? (treesOf ks)
    else if holdsText i.name then .text i.name (Node.elem i ks).attr? (Node.elem i ks).text?
    else if listNames.contains i.name then .list i.name (Node.elem i ks).attr? (saidAll ks)
    else .record i.name (Node.elem i ks).attr? (byName (saidAll ks))
  | _ => .text [] (fun _ => none) none

/-- What the elements among these nodes say. -/
def saidAll : List Node → List Said
  | [] => []
  | .text _ :: ns => saidAll ns
  | n :: ns => said n :: saidAll ns
end

/-- What the elements inside an element say, by name. -/
def saidInside (n : Node) : Str → List Said := byName (saidAll n.kids)

end ReqIF.Xsd
