import Verif.Spec.Items
/-!
# Specification: the order of the items of a document

The six lists of a document may give their items in any order.
-/
namespace ReqIF.Jumbled
open Items

/-- Both elements have the container or neither has it; if they have it, it holds the same items in any order. -/
def SameHeld (c : Container) (x x' : Node) : Prop :=
  (x.find c.tag = none ∧ x'.find c.tag = none) ∨
  ∃ a a', x.find c.tag = some a ∧ x'.find c.tag = some a' ∧ a.children.Perm a'.children

/-- Content elements with the same items, in any order in each container. -/
def SameItems (x x' : Node) : Prop := ∀ c : Container, SameHeld c x x'

/-- No two items have the same identifier. -/
def Distinct {α : Type} (key : α → Str) (l : List α) : Prop := (l.map key).Nodup

/-- Elements with the same start tag and the same children in any order; text between them does not count. -/
def Permuted (x y : Node) : Prop :=
  ∃ i ks ks', x = .elem i ks ∧ y = .elem i ks' ∧ (Node.elem i ks).children.Perm (Node.elem i ks').children

/-- Lists whose members are equal or related, one by one. -/
inductive Each (S : Node → Node → Prop) : List Node → List Node → Prop
  | nil : Each S [] []
  | same {k : Node} {ks ls : List Node} : Each S ks ls → Each S (k :: ks) (k :: ls)
  | rel {k l : Node} {ks ls : List Node} : S k l → Each S ks ls → Each S (k :: ks) (l :: ls)

/-- Elements with the same start tag and with children that are equal or related. -/
def Within (S : Node → Node → Prop) (x y : Node) : Prop :=
  ∃ i ks ks', x = .elem i ks ∧ y = .elem i ks' ∧ Each S ks ks'

/-- Documents that differ in the order of the items: root element, `CORE-CONTENT`, `REQ-IF-CONTENT`, containers, items. -/
def JumbledDocs (x y : Node) : Prop := Within (Within (Within Permuted)) x y

end ReqIF.Jumbled
