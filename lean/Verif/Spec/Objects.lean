import Verif.Model.Objects
/-!
# What the objects of a store stand for
-/
namespace ReqIF.Build

/-- The fields of a node and its children. -/
inductive Has (s : Store) (a : Nat) : HInfo → Option (List Nat) → Prop
  | none {i : HInfo} : s.nodes[a]? = some ⟨i, none⟩ → Has s a i none
  | some {i : HInfo} {l : Nat} {xs : List Nat} : s.nodes[a]? = some ⟨i, some l⟩ → s.lists[l]? = some xs → Has s a i (some xs)

mutual
/-- The node at an address, with all that is below it, is the tree. -/
inductive Stands (s : Store) : Nat → Hierarchy → Prop
  | leaf {a : Nat} {i : HInfo} : Has s a i none → Stands s a (.leaf i)
  | node {a : Nat} {i : HInfo} {xs : List Nat} {ts : List Hierarchy} : Has s a i (some xs) → StandAll s xs ts → Stands s a (.node i ts)

inductive StandAll (s : Store) : List Nat → List Hierarchy → Prop
  | nil : StandAll s [] []
  | cons {a : Nat} {t : Hierarchy} {xs : List Nat} {ts : List Hierarchy} : Stands s a t → StandAll s xs ts → StandAll s (a :: xs) (t :: ts)
end

/-- One node is below another one. -/
inductive Below (s : Store) : Nat → Nat → Prop
  | child {a b : Nat} {i : HInfo} {xs : List Nat} : Has s a i (some xs) → b ∈ xs → Below s a b
  | trans {a b c : Nat} : Below s a b → Below s b c → Below s a c

/-- The call is made with objects there are, and if a list is given to the constructor it is given to one node
only and its items are one level deeper. -/
def Careful (s : Store) : Call → Prop
  | .newList _ => True
  | .create _ none => True
  | .create i (some l) => ∃ xs, s.lists[l]? = some xs ∧ (∀ c ∈ xs, ∃ C, s.nodes[c]? = some C ∧ C.info.level = i.level + 1) ∧
      ∀ (a : Nat) (P : NodeObject), s.nodes[a]? = some P → P.children ≠ some l
  | .addChild p c => (∃ P, s.nodes[p]? = some P) ∧ ∃ C, s.nodes[c]? = some C

/-- The store after some careful calls, successful or not. -/
inductive Reached : Store → Prop
  | start : Reached ⟨[], []⟩
  | step {s : Store} (call : Call) : Reached s → Careful s call → Reached (s.step call).2

/-- The calls are careful, each when it is made. -/
def CarefulRun (s : Store) : List Call → Prop
  | [] => True
  | c :: cs => Careful s c ∧ CarefulRun (s.step c).2 cs

/-- No child is added to a node that was yielded before the current one. -/
def InTime (turns : List (List Call)) (yielded : List Nat) : Prop :=
  ∀ (k : Nat) (calls : List Call) (p c : Nat), turns[k]? = some calls → .addChild p c ∈ calls → p ∉ yielded.take k

end ReqIF.Build
