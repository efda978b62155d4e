import Verif.Spec.Hierarchy
/-!
# Which choices of sections the conversion iteration can handle

A node is *left* when the iteration comes to its next sibling.  At that moment the last node
visited is the end of the way from the node over last children.  The choice of sections has a gap
there if on this way a section comes after a node that is not a section.
-/
namespace ReqIF.Sections

mutual
/-- The choice along the way from the node over last children, the node itself first. -/
def way (isSection : Hierarchy → Bool) : Hierarchy → List Bool
  | .leaf i => [isSection (.leaf i)]
  | .node i cs => isSection (.node i cs) :: wayLast isSection cs

/-- The way from the last node of a list of siblings; empty if there is none. -/
def wayLast (isSection : Hierarchy → Bool) : List Hierarchy → List Bool
  | [] => []
  | [h] => way isSection h
  | _ :: h :: hs => wayLast isSection (h :: hs)
end

/-- No section after a node that is not a section. -/
def NoGap (l : List Bool) : Prop := l.Pairwise fun a b => b = true → a = true

mutual
/-- Every node of the tree that has a next sibling is left without a gap. -/
def Closed (isSection : Hierarchy → Bool) : Hierarchy → Prop
  | .leaf _ => True
  | .node _ cs => ClosedList isSection cs

def ClosedList (isSection : Hierarchy → Bool) : List Hierarchy → Prop
  | [] => True
  | h :: hs => Closed isSection h ∧ (hs ≠ [] → NoGap (way isSection h)) ∧ ClosedList isSection hs
end

/-- The callback answers with the choice of sections, and a node converted to a section has the
level of the hierarchy node. -/
def Answers {σ ν : Type} (getLevel : ν → Int) (f : Hierarchy → ν → M σ (ν × Bool))
    (isSection : Hierarchy → Bool) : Prop :=
  ∀ h sec s n b s', f h sec s = (.ok (n, b), s') →
    b = isSection h ∧ (b = true → getLevel n = (h.info.level : Int))

/-- The callback that converts a node to its level and notes the section it was given. -/
def noting (isSection : Hierarchy → Bool) : Hierarchy → Int → M (List Int) (Int × Bool) :=
  fun h sec log => (.ok ((h.info.level : Int), isSection h), log ++ [sec])

end ReqIF.Sections
