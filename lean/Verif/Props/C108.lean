import Verif.Proofs.Moved
import Verif.Props.C13_17
/-!
# C108: a part of a hierarchy means the same wherever it stands

A hierarchy that is moved to another depth is read and written as before, except for the levels of its nodes and
the indentation of its lines.
-/
namespace ReqIF
open Spec Moved

/-- **C108**: parsing a hierarchy element for another level gives the same tree with all levels changed by the
difference, or the same exception. -/
theorem C108_read (x : Node) (l k : Nat) :
    (∀ h, parseHierarchy l x = .ok h → parseHierarchy (l + k) x = .ok (deeper k h)) ∧
    (∀ e, parseHierarchy l x = .error e → parseHierarchy (l + k) x = .error e) := by
  rw [hierarchy_deeper]
  constructor
  · intro h hh; rw [hh]; rfl
  · intro e he; rw [he]; rfl

/-- Any part of a parsed hierarchy is what parsing the element of this part alone gives, with the levels changed by
the depth of the part; and the parts of the hierarchy are exactly the parts of the element. -/
theorem C108_part (x : Node) (l : Nat) (h : Hierarchy) (hp : parseHierarchy l x = .ok h) (p : List Nat) :
    (elementAt p x = none ∧ partAt p h = none) ∨
    ∃ y g, elementAt p x = some y ∧ parseHierarchy l y = .ok g ∧ partAt p h = some (deeper p.length g) := by
  have := part_parsed p hp
  cases he : elementAt p x with
  | none =>
    rw [he] at this
    cases hg : partAt p h with
    | none => exact .inl ⟨rfl, rfl⟩
    | some g => rw [hg] at this; cases this
  | some y =>
    rw [he] at this
    cases hg : partAt p h with
    | none => rw [hg] at this; cases this
    | some g' =>
      rw [hg] at this
      have this : parseHierarchy (l + p.length) y = .ok g' := Option.some.inj this
      rw [hierarchy_deeper] at this
      cases hy : parseHierarchy l y with
      | error e => rw [hy] at this; cases this
      | ok g =>
        rw [hy] at this
        cases this
        exact .inr ⟨y, g, rfl, hy, rfl⟩

/-- In a document: parsing the element that a node of a specification remembers, alone and for the default level 1,
gives the node with everything below it, except that levels start at 1. -/
theorem C108_again (text : Str) (b : Bundle) (h : parseString text = .ok b) (ss : List Specification)
    (hss : b.specifications? = some ss) (s : Specification) (hs : s ∈ ss) (n : Hierarchy)
    (hn : n ∈ preorderList (s.children.getD [])) :
    ∃ y g, n.info.xmlNode = some y ∧ parseHierarchy 1 y = .ok g ∧ g.info.level = 1 ∧ n = deeper (n.info.level - 1) g := by
  have hr : Remembers 1 n := by
    rcases parseString_inv h with ⟨_, h1, _⟩ | ⟨x, c, _, hc, hp⟩
    · unfold Bundle.specifications? at hss
      split at hss
      · rename_i c hc; exact absurd hc (h1 c)
      · cases hss
    · obtain ⟨_, _, _, h3, _⟩ := parseContent_inv hp
      unfold Bundle.specifications? at hss
      rw [hc] at hss
      dsimp only at hss
      unfold parsedItems at h3
      rw [hss] at h3
      split at h3
      · cases h3
      · split at h3
        · cases h3
        · rename_i hm
          cases h3
          obtain ⟨y, _, hy⟩ := mapPy_mem hm hs
          exact specification_remembers hy n hn
  obtain ⟨hl, y, hy, hp⟩ := hr
  rw [show n.info.level = 1 + (n.info.level - 1) by omega, hierarchy_deeper] at hp
  cases hg : parseHierarchy 1 y with
  | error e => rw [hg] at hp; cases hp
  | ok g =>
    rw [hg] at hp
    have hp : deeper (n.info.level - 1) g = n := Except.ok.inj hp
    refine ⟨y, g, hy, hg, ?_, hp.symm⟩
    have : (deeper (n.info.level - 1) g).info.level = n.info.level := by rw [hp]
    have e : (deeper (n.info.level - 1) g).info.level = g.info.level + (n.info.level - 1) := by cases g <;> rfl
    omega

/-- A hierarchy at a larger depth is written as the same lines, moved to the right by four columns per level, if what it
prints contains no line breaks. -/
theorem C108_written (h : Hierarchy) (k : Nat) (s : Str) (hs : unparseHierarchy h = .ok s)
    (ho : ∀ n ∈ preorder h, OneLined n.info) : unparseHierarchy (deeper k h) = .ok (pushed (4 * k) s) := by
  obtain ⟨t, h1, h2⟩ := hierarchy_pushed k h s hs ho
  rw [h1, h2.eq]

/-! ## A case -/

/-- An element in no namespace. -/
def movedElem (name : Str) (attrs : List Attr) (ks : List Node) : Node := .elem ⟨none, none, name, [], [], attrs⟩ ks

/-- A node of a hierarchy, as an element. -/
def movedNode (id : Str) (below : List Node) : Node :=
  movedElem c!"SPEC-HIERARCHY" [⟨none, none, c!"IDENTIFIER", id⟩]
    [movedElem c!"OBJECT" [] [movedElem c!"SPEC-OBJECT-REF" [] [.text c!"o"]], .text c!"\n", movedElem c!"CHILDREN" [] below]

/-- `a` with the children `b` and `c`, and `d` below `c`. -/
def movedTree : Node := movedNode c!"a" [movedNode c!"b" [], .text c!" ", movedNode c!"c" [movedNode c!"d" []]]

/-- The part at `[1, 0]` is `d`, in the element and in the hierarchy, and its level is 3; there is no part at `[2]`. -/
example : ∃ h, parseHierarchy 1 movedTree = .ok h ∧ elementAt [1, 0] movedTree = some (movedNode c!"d" []) ∧
    (partAt [1, 0] h).map (fun g => (g.info.identifier, g.info.level)) = some (c!"d", 3) ∧
    elementAt [2] movedTree = none ∧ partAt [2] h = none :=
  ⟨_, rfl, rfl, rfl, rfl, rfl⟩

/-- A node that refers to `r`. -/
def movedLeaf (r : Str) : Hierarchy :=
  .leaf { identifier := c!"a", specObject := some r, level := 1, longName := none, refThenChildrenOrder := true,
          lastChange := none, editable := some false, isTableInternal := none, isSelfClosed := false, xmlNode := none }

/-- The hypotheses of `C108_written` are met. -/
example : unparseHierarchy (movedLeaf c!"o") = .ok (spaces 12 ++ c!"<SPEC-HIERARCHY IDENTIFIER=\"a\" IS-EDITABLE=\"false\">\n" ++
      spaces 14 ++ c!"<OBJECT>\n" ++ spaces 16 ++ c!"<SPEC-OBJECT-REF>o</SPEC-OBJECT-REF>\n" ++ spaces 14 ++ c!"</OBJECT>\n" ++
      spaces 12 ++ c!"</SPEC-HIERARCHY>\n") ∧
    (∀ n ∈ preorder (movedLeaf c!"o"), OneLined n.info) := by
  refine ⟨rfl, ?_⟩
  intro n hn
  simp only [movedLeaf, preorder, List.mem_singleton] at hn
  subst hn
  exact ⟨by decide, by decide, by decide, by decide⟩

/-- The nodes of a document that `C108_again` is about: `hierarchyDoc` has two, `b` below `a` (see C13-C15). -/
example : ((match parseString hierarchyDoc with
    | .ok b => ((b.specifications?.getD []).flatMap fun s => preorderList (s.children.getD [])).map
        fun h => (h.info.identifier, h.info.level, h.info.xmlNode.isSome)
    | .error _ => []) = [(c!"a", 1, true), (c!"b", 2, true)]) := by
  set_option maxRecDepth 20000 in decide +kernel

example : pushed 4 c!"<a>\n  <b/>\n</a>\n" = c!"    <a>\n      <b/>\n    </a>\n" := by decide

/-- What is written is text: a line break in a reference stays where it is, so the rest of the reference is not moved. -/
theorem C108_break : ∃ s t, unparseHierarchy (movedLeaf c!"o\np") = .ok s ∧ unparseHierarchy (deeper 1 (movedLeaf c!"o\np")) = .ok t ∧
    t ≠ pushed 4 s := by
  refine ⟨_, _, rfl, rfl, ?_⟩
  decide

end ReqIF
