import Verif.Spec.Sources
/-!
# Documents that differ in the order of attributes

`Reordered .root x x'`: the trees `x` and `x'` are the same but for the order in which elements give
their attributes.  The root element, which is remembered as it is written, and XHTML content
are the same in both.

`ordered .root x` is the tree `x` with the attributes sorted by name, in the same places; it is used to
say that two bundles are the same but for the order of attributes in their source elements.
-/
namespace ReqIF.Spec
open ReqIF

mutual
/-- The same element but for the order of attributes, in the places where it does not matter. -/
inductive Reordered : Part → Node → Node → Prop
  | same (p : Part) (n : Node) : Reordered p n n
  | elem {p : Part} {i : Info} {attrs : List Attr} {ks ks' : List Node} (hp : p ≠ .fixed)
      (hr : p = .root → i.attrs = attrs) (ha : i.attrs.Perm attrs) (hk : ReorderedKids p ks ks') :
      Reordered p (.elem i ks) (.elem { i with attrs := attrs } ks')

/-- The same for the children of an element, one by one. -/
inductive ReorderedKids : Part → List Node → List Node → Prop
  | nil (p : Part) : ReorderedKids p [] []
  | cons {p : Part} {k k' : Node} {ks ks' : List Node} (h : Reordered (p.inner (localName k)) k k')
      (hk : ReorderedKids p ks ks') : ReorderedKids p (k :: ks) (k' :: ks')
end

/-- Alphabetical order, by code point. -/
def strLe : Str → Str → Bool
  | [], _ => true
  | _ :: _, [] => false
  | a :: s, b :: t => if a = b then strLe s t else decide (a.toNat < b.toNat)

/-- Puts an attribute into its place in a sorted list. -/
def attrPut (a : Attr) : List Attr → List Attr
  | [] => [a]
  | b :: l => if strLe a.key b.key then a :: b :: l else b :: attrPut a l

/-- The attributes sorted by name. -/
def attrsByKey (l : List Attr) : List Attr := l.foldr attrPut []

mutual
/-- A tree with the attributes sorted by name, in the places where their order does not matter. -/
def ordered (p : Part) : Node → Node
  | .elem i ks =>
    if p = .fixed then .elem i ks
    else .elem { i with attrs := if p = .root then i.attrs else attrsByKey i.attrs } (orderedKids p ks)
  | n => n

/-- The same for the children of an element. -/
def orderedKids (p : Part) : List Node → List Node
  | [] => []
  | k :: ks => ordered (p.inner (localName k)) k :: orderedKids p ks
end

/-- A bundle with its source elements taken with sorted attributes. -/
abbrev orderedBundle (b : Bundle) : Bundle := bundleBy ordered b

end ReqIF.Spec
