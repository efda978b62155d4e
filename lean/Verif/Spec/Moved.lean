import Verif.Model.Specification
/-!
# Specification: moving a part of a hierarchy

`deeper` gives all nodes a level that is larger by a constant.  `pushed` moves the lines of a text to the right.
-/
namespace ReqIF.Moved

mutual
/-- The hierarchy with all levels larger by `k`, and nothing else changed. -/
def deeper (k : Nat) : Hierarchy → Hierarchy
  | .leaf i => .leaf { i with level := i.level + k }
  | .node i cs => .node { i with level := i.level + k } (deeperAll k cs)

/-- The same for a list of hierarchies. -/
def deeperAll (k : Nat) : List Hierarchy → List Hierarchy
  | [] => []
  | h :: hs => deeper k h :: deeperAll k hs
end

/-- The part of an element: `[2, 0]` is the first node below the third node below it. -/
def elementAt : List Nat → Node → Option Node
  | [], x => some x
  | i :: p, x => (x.find c!"CHILDREN").bind fun c => (c.children[i]?).bind (elementAt p)

/-- The part of a hierarchy. -/
def partAt : List Nat → Hierarchy → Option Hierarchy
  | [], h => some h
  | i :: p, h => h.children.bind fun cs => (cs[i]?).bind (partAt p)

/-- `k` blanks in front of every line; the flag tells whether a line starts here. -/
def pushedFrom (k : Nat) : Bool → Str → Str
  | _, [] => []
  | start, c :: cs => (if start then List.replicate k ' ' else []) ++ c :: pushedFrom k (c == '\n') cs

/-- All lines of a text moved to the right by `k` columns. -/
def pushed (k : Nat) (s : Str) : Str := pushedFrom k true s

/-- Nothing that is printed of the node itself contains a line break. -/
def OneLined (i : HInfo) : Prop :=
  '\n' ∉ i.identifier ∧ '\n' ∉ i.specObject.getD [] ∧ '\n' ∉ i.lastChange.getD [] ∧ '\n' ∉ i.longName.getD []

end ReqIF.Moved
