import Verif.Model.Parser
/-!
# `reqif_bundle.py`, `object_lookup.py`, `specification_iterator.py`
-/
namespace ReqIF

/-- `deque.extendleft(xs)`: the items are pushed to the left one after the other. -/
def extendLeft {α : Type} (d xs : List α) : List α := xs.foldl (fun acc x => x :: acc) d

theorem extendLeft_reverse {α : Type} (d xs : List α) : extendLeft d xs.reverse = xs ++ d := by
  unfold extendLeft
  rw [List.foldl_reverse]
  induction xs with
  | nil => rfl
  | cons x xs ih => simp [List.foldr_cons, ih]

mutual
/-- Number of nodes of a tree (only used to show that the loop ends). -/
def Hierarchy.size : Hierarchy → Nat
  | .leaf _ => 1
  | .node _ cs => 1 + Hierarchy.sizeList cs

def Hierarchy.sizeList : List Hierarchy → Nat
  | [] => 0
  | h :: hs => h.size + Hierarchy.sizeList hs
end

theorem Hierarchy.sizeList_append (a b : List Hierarchy) :
    Hierarchy.sizeList (a ++ b) = Hierarchy.sizeList a + Hierarchy.sizeList b := by
  induction a with
  | nil => simp [Hierarchy.sizeList]
  | cons h t ih => simp [Hierarchy.sizeList, ih, Nat.add_assoc]

/-- `reqif_bundle.py` 66-76 and `specification_iterator.py` 10-20: the loop over the
task list; the nodes it yields, in order. -/
def iterLoop : List Hierarchy → List Hierarchy
  | [] => []
  | .leaf i :: tasks => .leaf i :: iterLoop tasks
  | .node i cs :: tasks =>
    .node i cs :: iterLoop (extendLeft tasks cs.reverse)
termination_by l => Hierarchy.sizeList l
decreasing_by
  · simp [Hierarchy.sizeList, Hierarchy.size]
  · have h : Hierarchy.sizeList (extendLeft tasks cs.reverse) <
        Hierarchy.sizeList (.node i cs :: tasks) := by
      rw [extendLeft_reverse, Hierarchy.sizeList_append]
      simp only [Hierarchy.sizeList, Hierarchy.size]
      omega
    simpa using h

/-- `specification_iterator.py` 8-20, `iterate_specification`:
`deque(None)` raises `TypeError`. -/
def iterateSpecification (s : Specification) : Py (List Hierarchy) :=
  match s.children with
  | none => .error .typeError
  | some hs => .ok (iterLoop hs)

/-- The specifications of a bundle, if there is a list of them. -/
def Bundle.specifications? (b : Bundle) : Option (List Specification) :=
  match b.coreContent with
  | some (some c) => c.specifications
  | _ => none

/-- `reqif_bundle.py` 55-76, `iterate_specification_hierarchy`.  The specification
is given by its position in the bundle (Python compares by identity); a position
out of range stands for an object that is not one of the bundle's. -/
def Bundle.iterate (b : Bundle) (i : Nat) : Py (List Hierarchy) :=
  match b.specifications? with
  | none => .error .assertion
  | some ss =>
    match ss[i]? with
    | none => .error .assertion
    | some s =>
      match s.children with
      | none => .ok []
      | some hs => .ok (iterLoop hs)

/-- `reqif_bundle.py` 92-97: the inner loop, `n` times `assert len(stack) > 0; stack.pop()`.  The top of
the stack is the head of the list. -/
def popN {ν : Type} : Nat → List ν → Py (List ν)
  | 0, st => .ok st
  | _ + 1, [] => .error .assertion
  | n + 1, _ :: st => popN n st

/-- `section_stack[-1]` -/
def stackTop {ν : Type} : List ν → Py ν
  | [] => .error .indexError
  | t :: _ => .ok t

/-- `reqif_bundle.py` 91-97: the stack after leaving the sections that ended. -/
def leaveSections {ν : Type} (level : Int) (sectionLevel : Int) (st : List ν) : Py (List ν) :=
  if level ≤ sectionLevel then popN (sectionLevel - level + 1).toNat st else .ok st

/-- `reqif_bundle.py` 87-104: the loop.  `getLevel` is taken to be a function of the
node that does not raise; `nodeLambda` may change a state and raise. -/
def convertLoop {σ ν : Type} (getLevel : ν → Int) (nodeLambda : Hierarchy → ν → M σ (ν × Bool)) :
    List ν → List Hierarchy → M σ Unit
  | _, [] => M.pure ()
  | st, h :: hs =>
    M.bind (M.lift (stackTop st)) fun top =>
    M.bind (M.lift (leaveSections (h.info.level : Int) (getLevel top) st)) fun st' =>
    M.bind (M.lift (stackTop st')) fun sec =>
    M.bind (nodeLambda h sec) fun r =>
    convertLoop getLevel nodeLambda (if r.2 then r.1 :: st' else st') hs

/-- `reqif_bundle.py` 78-104, `iterate_specification_hierarchy_for_conversion`. -/
def Bundle.iterateForConversion {σ ν : Type} (b : Bundle) (i : Nat) (rootNode : ν)
    (getLevel : ν → Int) (nodeLambda : Hierarchy → ν → M σ (ν × Bool)) : M σ Unit :=
  M.bind (M.lift (b.iterate i)) fun hs => convertLoop getLevel nodeLambda [rootNode] hs

/-! ## Lookup.  A reference may be `None`, which is never a key of the first three
dictionaries. -/

/-- `object_lookup.py` 30-31, `spec_object_exists`. -/
def Lookup.specObjectExists (l : Lookup) (ref : Option Str) : Bool :=
  match ref with
  | none => false
  | some r => l.specObjects.has r

/-- `object_lookup.py` 33-34, `get_data_type_by_ref`. -/
def Lookup.dataTypeByRef (l : Lookup) (ref : Str) : Py DataType := l.dataTypes.getItem ref

/-- `object_lookup.py` 36-37, `get_spec_type_by_ref`. -/
def Lookup.specTypeByRef (l : Lookup) (ref : Str) : Py SpecType := l.specTypes.getItem ref

/-- `object_lookup.py` 39-40, `get_spec_object_by_ref`. -/
def Lookup.specObjectByRef (l : Lookup) (ref : Str) : Py SpecObject := l.specObjects.getItem ref

/-- `object_lookup.py` 42-43, `get_spec_object_parents`: result and the lookup
afterwards (`defaultdict.__getitem__` inserts an empty list for a new key). -/
def Lookup.specObjectParents (l : Lookup) (ref : Option Str) : Py (List (Option Str)) × Lookup :=
  match l.parents.get? ref with
  | some ps => (.ok ps, l)
  | none =>
    if l.parentsDefault then (.ok [], { l with parents := l.parents.set ref [] })
    else (.error .keyError, l)

/-- `reqif_bundle.py` 119-125: the loop of `get_spec_object_type_by_ref`. -/
def findSpecObjectType (ref : Str) : List SpecType → Option SpecObjectType
  | [] => none
  | .object t :: ts => if t.identifier = ref then some t else findSpecObjectType ref ts
  | _ :: ts => findSpecObjectType ref ts

/-- `reqif_bundle.py` 109-125, `get_spec_object_type_by_ref`. -/
def Bundle.specObjectTypeByRef (b : Bundle) (ref : Str) : Option SpecObjectType :=
  match b.coreContent with
  | none => none
  | some none => none
  | some (some c) =>
    match c.specTypes with
    | none => none
    | some ts => findSpecObjectType ref ts

end ReqIF
