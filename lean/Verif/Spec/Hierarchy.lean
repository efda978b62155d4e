import Verif.Model.Bundle
/-!
# Specification of hierarchy traversal
-/
namespace ReqIF.Spec

mutual
/-- The nodes of a tree, the node itself before its children, children in order. -/
def preorder : Hierarchy → List Hierarchy
  | .leaf i => [.leaf i]
  | .node i cs => .node i cs :: preorderList cs

def preorderList : List Hierarchy → List Hierarchy
  | [] => []
  | h :: hs => preorder h ++ preorderList hs
end

mutual
/-- The root of the tree has level `n`, its children `n + 1`, and so on. -/
def LevelsFrom (n : Nat) : Hierarchy → Prop
  | .leaf i => i.level = n
  | .node i cs => i.level = n ∧ LevelsFromList (n + 1) cs

def LevelsFromList (n : Nat) : List Hierarchy → Prop
  | [] => True
  | h :: hs => LevelsFrom n h ∧ LevelsFromList n hs
end

section
variable {σ ν : Type}

mutual
/-- Conversion of a tree, by recursion: the node is converted with the section it lies
in, then its children, with the node itself as section if it was declared one. -/
def convertTree (f : Hierarchy → ν → M σ (ν × Bool)) (sec : ν) : Hierarchy → M σ Unit
  | .leaf i => M.bind (f (.leaf i) sec) fun _ => M.pure ()
  | .node i cs => M.bind (f (.node i cs) sec) fun r => convertForest f (if r.2 then r.1 else sec) cs

def convertForest (f : Hierarchy → ν → M σ (ν × Bool)) (sec : ν) : List Hierarchy → M σ Unit
  | [] => M.pure ()
  | h :: hs => M.bind (convertTree f sec h) fun _ => convertForest f sec hs
end
end

mutual
/-- No section below a node that is not a section. -/
def SectionsOnTop (isSection : Hierarchy → Bool) : Hierarchy → Prop
  | .leaf _ => True
  | .node i cs =>
    (isSection (.node i cs) = false → ∀ h ∈ preorderList cs, isSection h = false) ∧
    SectionsOnTopList isSection cs

def SectionsOnTopList (isSection : Hierarchy → Bool) : List Hierarchy → Prop
  | [] => True
  | h :: hs => SectionsOnTop isSection h ∧ SectionsOnTopList isSection hs
end

end ReqIF.Spec
