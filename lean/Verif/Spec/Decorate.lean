import Verif.Spec.Sources
/-!
# Documents that differ in attributes ReqIF does not have

`Decorated .root x x'`: the trees `x` and `x'` are the same but for attributes that are in no namespace and have
a name that is no name of a ReqIF attribute.  The root element, which is remembered as it is written, and XHTML
content are the same in both.
-/
namespace ReqIF.Spec
open ReqIF

/-- The names of the attributes of ReqIF elements that are read. -/
def readNames : List Str :=
  [c!"ACCURACY", c!"DESC", c!"IDENTIFIER", c!"IS-EDITABLE", c!"IS-TABLE-INTERNAL", c!"KEY", c!"LAST-CHANGE", c!"LONG-NAME",
   c!"MAX", c!"MAX-LENGTH", c!"MIN", c!"MULTI-VALUED", c!"OTHER-CONTENT", c!"THE-VALUE"]

/-- A name of a ReqIF attribute, or a name with its namespace (`{…}…`). -/
def isReadName (k : Str) : Bool := readNames.contains k || k.head? == some '{'

/-- The attribute is in a namespace or has a name that is read. -/
def isReadAttr (a : Attr) : Bool := a.ns.isSome || isReadName a.key

mutual
/-- The same element but for unknown attributes, in the places where they are not read. -/
inductive Decorated : Part → Node → Node → Prop
  | same (p : Part) (n : Node) : Decorated p n n
  | elem {p : Part} {i : Info} {attrs : List Attr} {ks ks' : List Node} (hp : p ≠ .fixed)
      (hr : p = .root → i.attrs = attrs) (ha : i.attrs.filter isReadAttr = attrs.filter isReadAttr)
      (hk : DecoratedKids p ks ks') : Decorated p (.elem i ks) (.elem { i with attrs := attrs } ks')

/-- The same for the children of an element, one by one. -/
inductive DecoratedKids : Part → List Node → List Node → Prop
  | nil (p : Part) : DecoratedKids p [] []
  | cons {p : Part} {k k' : Node} {ks ks' : List Node} (h : Decorated (p.inner (localName k)) k k')
      (hk : DecoratedKids p ks ks') : DecoratedKids p (k :: ks) (k' :: ks')
end

mutual
/-- A tree without the unknown attributes. -/
def undecorated (p : Part) : Node → Node
  | .elem i ks =>
    if p = .fixed then .elem i ks
    else .elem { i with attrs := if p = .root then i.attrs else i.attrs.filter isReadAttr } (undecoratedKids p ks)
  | n => n

/-- The same for the children of an element. -/
def undecoratedKids (p : Part) : List Node → List Node
  | [] => []
  | k :: ks => undecorated (p.inner (localName k)) k :: undecoratedKids p ks
end

end ReqIF.Spec
