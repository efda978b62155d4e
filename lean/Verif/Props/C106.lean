import Verif.Proofs.Sections
import Verif.Props.C13_17
/-!
# C106: exactly which choices of sections the conversion iteration can handle
-/
namespace ReqIF
open Spec Sections

/-- **C106.** If no node with a next sibling is left with a gap, the conversion iteration hands
every node its nearest enclosing section, whatever the callback does and whether or not it raises. -/
theorem C106_conversion {σ ν : Type} (b : Bundle) (i : Nat) (ss : List Specification) (s : Specification)
    (root : ν) (getLevel : ν → Int) (f : Hierarchy → ν → M σ (ν × Bool)) (isSection : Hierarchy → Bool) (t : σ)
    (hss : b.specifications? = some ss) (hi : ss[i]? = some s)
    (hlev : LevelsFromList 1 (s.children.getD []))
    (hcl : ClosedList isSection (s.children.getD []))
    (hroot : getLevel root = 0) (hf : Answers getLevel f isSection) :
    b.iterateForConversion i root getLevel f t = convertForest f root (s.children.getD []) t := by
  unfold Bundle.iterateForConversion
  rw [C13_preorder b i ss s hss hi]
  exact loop_follows hf _ hlev hcl root hroot t

/-- **C106**, exactly: the iteration hands every callback the right sections if and only if no
node is left with a gap. -/
theorem C106_exactly (b : Bundle) (i : Nat) (ss : List Specification) (s : Specification)
    (isSection : Hierarchy → Bool)
    (hss : b.specifications? = some ss) (hi : ss[i]? = some s)
    (hlev : LevelsFromList 1 (s.children.getD [])) :
    (∀ (σ ν : Type) (root : ν) (getLevel : ν → Int) (f : Hierarchy → ν → M σ (ν × Bool)) (t : σ),
      getLevel root = 0 → Answers getLevel f isSection →
      b.iterateForConversion i root getLevel f t = convertForest f root (s.children.getD []) t) ↔
    ClosedList isSection (s.children.getD []) := by
  constructor
  · intro h
    have h1 := h (List Int) Int 0 id (noting isSection) [] rfl (by
      intro x sec s n b s' hx
      simp only [noting, Prod.mk.injEq, Except.ok.injEq] at hx
      obtain ⟨⟨rfl, rfl⟩, -⟩ := hx
      exact ⟨rfl, fun _ => rfl⟩)
    unfold Bundle.iterateForConversion at h1
    rw [C13_preorder b i ss s hss hi] at h1
    exact loop_closed _ hlev h1
  · intro hcl σ ν root getLevel f t hroot hf
    exact C106_conversion b i ss s root getLevel f isSection t hss hi hlev hcl hroot hf

/-- **C106**, the callback that only notes the level of the section it was given tells the two cases
apart: with a gap it is not told the right sections, or the iteration raises. -/
theorem C106_gap (b : Bundle) (i : Nat) (ss : List Specification) (s : Specification)
    (isSection : Hierarchy → Bool)
    (hss : b.specifications? = some ss) (hi : ss[i]? = some s)
    (hlev : LevelsFromList 1 (s.children.getD []))
    (hgap : ¬ ClosedList isSection (s.children.getD [])) :
    b.iterateForConversion i (0 : Int) id (noting isSection) [] ≠
      convertForest (noting isSection) (0 : Int) (s.children.getD []) [] := by
  intro h
  unfold Bundle.iterateForConversion at h
  rw [C13_preorder b i ss s hss hi] at h
  exact hgap (loop_closed _ hlev h)

/-- **C106**, for parsed documents the levels need no assumption. -/
theorem C106_parsed {σ ν : Type} (text : Str) (b : Bundle) (h : parseString text = .ok b)
    (i : Nat) (ss : List Specification) (s : Specification)
    (root : ν) (getLevel : ν → Int) (f : Hierarchy → ν → M σ (ν × Bool)) (isSection : Hierarchy → Bool) (t : σ)
    (hss : b.specifications? = some ss) (hi : ss[i]? = some s)
    (hcl : ClosedList isSection (s.children.getD []))
    (hroot : getLevel root = 0) (hf : Answers getLevel f isSection) :
    b.iterateForConversion i root getLevel f t = convertForest f root (s.children.getD []) t :=
  C106_conversion b i ss s root getLevel f isSection t hss hi
    (C15_levels text b h ss hss s (List.mem_of_getElem? hi)) hcl hroot hf

/-- **C106**, the condition of C16 is a special case: sections that all hang below sections. -/
theorem C106_on_top (isSection : Hierarchy → Bool) (hs : List Hierarchy)
    (h : SectionsOnTopList isSection hs) : ClosedList isSection hs :=
  (onTop_list hs h).2

/-! ## Examples -/

/-- A section `c` below the node `b`, which is none, below the section `a`; `d` follows `b`. -/
def gapInside : List Hierarchy :=
  [.node (plainInfo c!"a" 1) [.node (plainInfo c!"b" 2) [.leaf (plainInfo c!"c" 3)], .leaf (plainInfo c!"d" 2)]]

/-- The same with `d` before `b`: nothing follows the gap. -/
def gapAtEnd : List Hierarchy :=
  [.node (plainInfo c!"a" 1) [.leaf (plainInfo c!"d" 2), .node (plainInfo c!"b" 2) [.leaf (plainInfo c!"c" 3)]]]

def isAC (h : Hierarchy) : Bool := h.info.identifier == c!"a" || h.info.identifier == c!"c"

/-- **C106**, a gap need not raise: `d`, which lies in the section `a` (level 1), is silently handed
the root node (level 0). -/
theorem C106_silently :
    (bundleWith gapInside).iterateForConversion 0 (0 : Int) id (noting isAC) [] = (.ok (), [0, 1, 1, 0]) ∧
    convertForest (noting isAC) (0 : Int) gapInside [] = (.ok (), [0, 1, 1, 1]) := by
  refine ⟨?_, rfl⟩
  unfold Bundle.iterateForConversion
  rw [C13_preorder (bundleWith gapInside) 0 _ _ rfl rfl]
  rfl

/-- The hypotheses of `C106_conversion` hold for a tree that C16 does not cover. -/
example : LevelsFromList 1 gapAtEnd ∧ ClosedList isAC gapAtEnd ∧ ¬ SectionsOnTopList isAC gapAtEnd := by
  refine ⟨by simp [gapAtEnd, LevelsFromList, LevelsFrom, plainInfo], ?_, ?_⟩
  · refine ⟨⟨trivial, fun _ => List.pairwise_singleton _ _, ?_⟩, fun h => absurd rfl h, trivial⟩
    exact ⟨⟨trivial, fun h => absurd rfl h, trivial⟩, fun h => absurd rfl h, trivial⟩
  · intro h
    have := h.1.2.2.1.1 rfl (.leaf (plainInfo c!"c" 3)) (by simp [preorderList, preorder])
    exact absurd this (by decide)

/-- The hypothesis of `C106_gap` holds. -/
example : LevelsFromList 1 gapInside ∧ ¬ ClosedList isAC gapInside := by
  refine ⟨by simp [gapInside, LevelsFromList, LevelsFrom, plainInfo], fun h => ?_⟩
  have := (List.pairwise_cons.1 (h.1.2.1 (by simp))).1 true (by decide) rfl
  exact absurd this (by decide)

example : (bundleWith gapAtEnd).iterateForConversion 0 (0 : Int) id (noting isAC) [] = (.ok (), [0, 1, 1, 1]) := by
  unfold Bundle.iterateForConversion
  rw [C13_preorder (bundleWith gapAtEnd) 0 _ _ rfl rfl]
  rfl

end ReqIF
