import Verif.Spec.Reorder
/-!
# Documents that differ in the order of the parts of elements

The schema leaves the order of the parts of most elements open (`xsd:all`): a specification object may give
its type before or after its values.  `Shuffled .root x x'`: the trees `x` and `x'` are the same but for the order
of parts with different names.  Where order means something it is the same in both: in lists of things, in a
`SPEC-HIERARCHY` (whose order is remembered) and in XHTML content.

`unshuffled .root x` is the tree `x` with the parts sorted by name, in the same places; it is used to say that
two bundles are the same but for the order of parts in their source elements.
-/
namespace ReqIF.Spec
open ReqIF

/-- The same items, and those of the same name in the same order. -/
def SameByName (ks ls : List Node) : Prop :=
  ∀ name, ks.filter (fun k => localName k == name) = ls.filter (fun k => localName k == name)

mutual
/-- The same element but for the order of parts, in the places where it does not matter. -/
inductive Shuffled : Part → Node → Node → Prop
  | same (p : Part) (n : Node) : Shuffled p n n
  | listed {p : Part} {i : Info} {ks ls : List Node} (hp : p ≠ .fixed) (hk : ShuffledKids p ks ls) :
      Shuffled p (.elem i ks) (.elem i ls)
  | free {p : Part} {i : Info} {ks ls ms : List Node} (hp : p ≠ .fixed) (ho : p.inOrder i.name = false)
      (hk : ShuffledKids p ks ls) (hs : SameByName ls ms) : Shuffled p (.elem i ks) (.elem i ms)

/-- The same for the children of an element, one by one. -/
inductive ShuffledKids : Part → List Node → List Node → Prop
  | nil (p : Part) : ShuffledKids p [] []
  | cons {p : Part} {k k' : Node} {ks ks' : List Node} (h : Shuffled (p.inner (localName k)) k k')
      (hk : ShuffledKids p ks ks') : ShuffledKids p (k :: ks) (k' :: ks')
end

/-- Puts an item into its place in a list sorted by name. -/
def namePut (k : Node) : List Node → List Node
  | [] => [k]
  | b :: l => if strLe (localName k) (localName b) then k :: b :: l else b :: namePut k l

/-- The items sorted by name. -/
def byName (l : List Node) : List Node := l.foldr namePut []

mutual
/-- A tree with the parts sorted by name, in the places where their order does not matter. -/
def unshuffled (p : Part) : Node → Node
  | .elem i ks =>
    if p = .fixed then .elem i ks
    else if p.inOrder i.name then .elem i (unshuffledKids p ks)
    else .elem i (byName (unshuffledKids p ks))
  | n => n

/-- The same for the children of an element. -/
def unshuffledKids (p : Part) : List Node → List Node
  | [] => []
  | k :: ks => unshuffled (p.inner (localName k)) k :: unshuffledKids p ks
end

/-- A bundle with its source elements taken with sorted parts. -/
abbrev unshuffledBundle (b : Bundle) : Bundle := bundleBy unshuffled b

/-- A bundle without its source elements. -/
def sourceless (b : Bundle) : Bundle := bundleBy (fun _ _ => .text []) b

end ReqIF.Spec
