import Verif.Spec.RoundTrip
/-!
# The arrangement of the elements of a hierarchy

How the `SPEC-HIERARCHY` elements that are written compare with those that were read,
at every depth.
-/
namespace ReqIF.Spec

/-- The children of a written `SPEC-HIERARCHY`, from those of the source: only the exact
list `OBJECT`, `CHILDREN` is taken over; every other source with `CHILDREN` gives
`CHILDREN`, `OBJECT`. -/
def arrangement (source : List Tag) : List Tag :=
  if source = [.name c!"OBJECT", .name c!"CHILDREN"] then source
  else if .name c!"CHILDREN" ∈ source then [.name c!"CHILDREN", .name c!"OBJECT"]
  else [.name c!"OBJECT"]

mutual
/-- `Follows n m`: element `m` is written for `n`; at every depth its children are
arranged by `arrangement`. -/
inductive Follows : Node → Node → Prop
  | leaf {n m : Node} : childTags m = arrangement (childTags n) → n.find c!"CHILDREN" = none → Follows n m
  | node {n m c d : Node} : childTags m = arrangement (childTags n) → n.find c!"CHILDREN" = some c →
      m.find c!"CHILDREN" = some d → FollowAll c.children d.children → Follows n m

/-- One by one. -/
inductive FollowAll : List Node → List Node → Prop
  | nil : FollowAll [] []
  | cons {n m : Node} {ns ms : List Node} : Follows n m → FollowAll ns ms → FollowAll (n :: ns) (m :: ms)
end

mutual
/-- `SameArrangement n m`: at every depth the written element has the same children in
the same order as the source. -/
inductive SameArrangement : Node → Node → Prop
  | leaf {n m : Node} : childTags m = childTags n → n.find c!"CHILDREN" = none → SameArrangement n m
  | node {n m c d : Node} : childTags m = childTags n → n.find c!"CHILDREN" = some c →
      m.find c!"CHILDREN" = some d → SameArrangements c.children d.children → SameArrangement n m

inductive SameArrangements : List Node → List Node → Prop
  | nil : SameArrangements [] []
  | cons {n m : Node} {ns ms : List Node} : SameArrangement n m → SameArrangements ns ms → SameArrangements (n :: ns) (m :: ms)
end

mutual
/-- At every depth the element has just an `OBJECT` and perhaps `CHILDREN`, in either
order: no comment, no `EDITABLE-ATTS`. -/
inductive Bare : Node → Prop
  | leaf {n : Node} : childTags n = [.name c!"OBJECT"] → Bare n
  | node {n c : Node} : childTags n = [.name c!"OBJECT", .name c!"CHILDREN"] ∨ childTags n = [.name c!"CHILDREN", .name c!"OBJECT"] →
      n.find c!"CHILDREN" = some c → Bares c.children → Bare n

inductive Bares : List Node → Prop
  | nil : Bares []
  | cons {n : Node} {ns : List Node} : Bare n → Bares ns → Bares (n :: ns)
end

end ReqIF.Spec
