import Verif.Model.Bundle
/-!
# Nodes of a hierarchy as mutable objects: `models/reqif_spec_hierarchy.py`

In the other modules a hierarchy is a tree.  In Python its nodes are objects that the
user creates one after the other and puts together with `add_child`; a node, and also a
list of children, may be referred to from several places.  Here nodes and lists are
cells of a store, and addresses are numbers in the order of creation.
-/
namespace ReqIF.Build

/-- A `ReqIFSpecHierarchy` object: its fields, and the address of the list `children`. -/
structure NodeObject where
  info : HInfo
  children : Option Nat

/-- All nodes and all lists of nodes. -/
structure Store where
  nodes : List NodeObject
  lists : List (List Nat)

/-- What the user can do. -/
inductive Call
  /-- `[...]`: a new list object -/
  | newList (items : List Nat)
  /-- `reqif_spec_hierarchy.py` 8-42, the constructor: the list object is kept, not copied -/
  | create (info : HInfo) (children : Option Nat)
  /-- `parent.add_child(child)` -/
  | addChild (parent child : Nat)

/-- The result of a call and the store after it.  `reqif_spec_hierarchy.py` 44-51, `add_child`: the list
is created before the levels are compared.  A call on an object that does not exist is not possible; it is
given an error here. -/
def Store.step (s : Store) : Call → Py Unit × Store
  | .newList items => (.ok (), { s with lists := s.lists ++ [items] })
  | .create info children => (.ok (), { s with nodes := s.nodes ++ [⟨info, children⟩] })
  | .addChild parent child =>
    match s.nodes[parent]?, s.nodes[child]? with
    | some p, some c =>
      let s1 : Store × Nat := match p.children with
        | some l => (s, l)
        | none => (⟨s.nodes.set parent { p with children := some s.lists.length }, s.lists ++ [[]]⟩, s.lists.length)
      if p.info.level + 1 = c.info.level then
        (.ok (), { s1.1 with lists := s1.1.lists.modify s1.2 (· ++ [child]) })
      else (.error .assertion, s1.1)
    | _, _ => (.error .attributeError, s)

/-- The store after some calls. -/
def Store.run (s : Store) (calls : List Call) : Store := calls.foldl (fun s c => (s.step c).2) s

/-- The children of a node, as addresses. -/
def Store.kids (s : Store) (a : Nat) : List Nat :=
  match s.nodes[a]? with
  | some ⟨_, some l⟩ => s.lists[l]?.getD []
  | _ => []

/-- `specification_iterator.py` 8-20, the loop on `task_list`, for at most so many steps. -/
def Store.walk (s : Store) : Nat → List Nat → Option (List Nat)
  | _, [] => some []
  | 0, _ :: _ => none
  | n + 1, a :: tasks => (s.walk n (s.kids a ++ tasks)).map (a :: ·)

/-- The same loop when calls are made while it runs: `turns` are the calls made after each node that is yielded,
before the next one is asked for.  The children of a node are read when the loop goes on
(`specification_iterator.py` 12-20, `reqif_bundle.py` 68-76).  The nodes yielded if the loop ends after these turns. -/
def Store.walkWith (s : Store) : List Nat → List (List Call) → Option (List Nat)
  | [], [] => some []
  | a :: tasks, calls :: turns =>
    ((s.run calls).walkWith ((s.run calls).kids a ++ tasks) turns).map (a :: ·)
  | _, _ => none

end ReqIF.Build
