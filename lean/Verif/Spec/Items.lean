import Verif.Proofs.ParseInv
import Verif.Spec.Renamed
import Verif.Spec.Comments
/-!
# Documents put together

`Together c r r' s`: three root elements that are the same but for the container `c` of the content; in the third, the
container holds the items of the first followed by the items of the second.  `joined c b b'` is the bundle put together in the same
way.
-/
namespace ReqIF.Items
open ReqIF Spec

/-- The containers of the content. -/
inductive Container
  | dataTypes
  | specTypes
  | specObjects
  | specRelations
  | specifications
  | relationGroups

def Container.tag : Container → Str
  | .dataTypes => c!"DATATYPES"
  | .specTypes => c!"SPEC-TYPES"
  | .specObjects => c!"SPEC-OBJECTS"
  | .specRelations => c!"SPEC-RELATIONS"
  | .specifications => c!"SPECIFICATIONS"
  | .relationGroups => c!"SPEC-RELATION-GROUPS"

mutual
/-- The element uses a declaration of the prefix `p` made above it: it, or an element in it, is an XHTML element with the
prefix or has an attribute with the prefix. -/
def needs (p : Option Str) : Node → Bool
  | .elem i ks =>
    !i.declares p && ((inXhtml i && i.ns.isSome && i.pfx == p) || i.attrs.any (fun a => a.ns.isSome && a.pfx == p) || needsAny p ks)
  | _ => false

def needsAny (p : Option Str) : List Node → Bool
  | [] => false
  | n :: ns => needs p n || needsAny p ns
end

/-- The two lists of items use the same declarations. -/
def SameNeeds (xs ys : List Node) : Prop := ∀ p, needsAny p xs = needsAny p ys

/-- Lists of children that are related one by one: those with the name `t` by `S`, all others equal. -/
inductive Beside (t : Str) (S : Node → Node → Node → Prop) : List Node → List Node → List Node → Prop
  | nil : Beside t S [] [] []
  | same {k : Node} {as bs cs : List Node} : localName k ≠ t → Beside t S as bs cs → Beside t S (k :: as) (k :: bs) (k :: cs)
  | part {a b c : Node} {as bs cs : List Node} : localName a = t → S a b c → Beside t S as bs cs → Beside t S (a :: as) (b :: bs) (c :: cs)

/-- Elements that are the same but below the path; there the third has the children of the first, then those of the
second, which are in the relation `Q`. -/
def Along (Q : List Node → List Node → Prop) : List Str → Node → Node → Node → Prop
  | [], a, b, c => ∃ i xs ys, a = .elem i xs ∧ b = .elem i ys ∧ c = .elem i (xs ++ ys) ∧ Q xs ys
  | t :: ts, a, b, c => ∃ i as bs cs, a = .elem i as ∧ b = .elem i bs ∧ c = .elem i cs ∧ Beside t (Along Q ts) as bs cs

/-- Three documents, the third with the items of the first and the second. -/
def Together (c : Container) : Node → Node → Node → Prop :=
  Along SameNeeds [c!"CORE-CONTENT", c!"REQ-IF-CONTENT", c.tag]

/-- Lists one after the other, where there is a list. -/
def joinedLists {α : Type} : Option (List α) → Option (List α) → Option (List α)
  | some xs, some ys => some (xs ++ ys)
  | xs, _ => xs

def joinedContent (c : Container) (a b : Content) : Content :=
  match c with
  | .dataTypes => { a with dataTypes := joinedLists a.dataTypes b.dataTypes }
  | .specTypes => { a with specTypes := joinedLists a.specTypes b.specTypes }
  | .specObjects => { a with specObjects := joinedLists a.specObjects b.specObjects }
  | .specRelations => { a with specRelations := joinedLists a.specRelations b.specRelations }
  | .specifications => { a with specifications := joinedLists a.specifications b.specifications }
  | .relationGroups => { a with specRelationGroups := joinedLists a.specRelationGroups b.specRelationGroups }

/-- The dictionary of the container follows its list. -/
def joinedLookup (c : Container) (l : Lookup) (s : Content) : Lookup :=
  match c with
  | .dataTypes => { l with dataTypes := indexBy DataType.identifier (s.dataTypes.getD []) }
  | .specTypes => { l with specTypes := indexBy SpecType.identifier (s.specTypes.getD []) }
  | .specObjects => { l with specObjects := indexBy SpecObject.identifier (s.specObjects.getD []) }
  | .specRelations => { l with parents := (s.specRelations.getD []).foldl (fun d r => appendParent d r.source r.target) [] }
  | .specifications => l
  | .relationGroups => l

def joinedExceptions (c : Container) (a b : List MissingTag) : List MissingTag :=
  match c with
  | .specRelations => a ++ b
  | _ => a

/-- The bundle `a` with the items of `b` in the container `c` after its own. -/
def joined (c : Container) (a b : Bundle) : Bundle :=
  match a.coreContent, b.coreContent with
  | some (some s), some (some t) =>
    { a with coreContent := some (some (joinedContent c s t)), lookup := joinedLookup c a.lookup (joinedContent c s t),
             exceptions := joinedExceptions c a.exceptions b.exceptions }
  | _, _ => a

/-- Outcomes: the third is a result if the first two are, put together by `j`; an exception of it is an exception of one of them. -/
def Both {α : Type} (j : α → α → α) (r r' s : Py α) : Prop :=
  match s with
  | .ok v => ∃ a b, r = .ok a ∧ r' = .ok b ∧ v = j a b
  | .error e => r = .error e ∨ r' = .error e

end ReqIF.Items
