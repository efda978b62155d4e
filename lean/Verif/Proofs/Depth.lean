import Verif.Proofs.Stack
import Verif.Props.C86
import Verif.Proofs.Harmless
import Verif.Proofs.BundleRound
/-! How deep the parsed document is, in terms of what was parsed. -/
namespace ReqIF
open Spec

mutual
theorem height_stripTags (full : Bool) : ∀ (x y : Node), stripTags full x = .ok y → height y = height x
  | .text _, y, h => by unfold stripTags at h; cases h; rfl
  | .comment _, y, h => by unfold stripTags at h; cases h; rfl
  | .pi _ _, y, h => by unfold stripTags at h; split at h <;> cases h
  | .elem i ks, y, h => by
    unfold stripTags at h
    cases hk : stripTagsList full ks with
    | error e => rw [hk] at h; cases h
    | ok ls =>
      rw [hk] at h
      dsimp only at h
      have := height_stripTagsList full ks ls hk
      split at h <;> (cases h; simp only [height, this])

theorem height_stripTagsList (full : Bool) : ∀ (xs ys : List Node), stripTagsList full xs = .ok ys → heightAll ys = heightAll xs
  | [], ys, h => by unfold stripTagsList at h; cases h; rfl
  | x :: xs, ys, h => by
    unfold stripTagsList at h
    cases h1 : stripTags full x with
    | error e => rw [h1] at h; cases h
    | ok y =>
      rw [h1] at h
      dsimp only at h
      cases h2 : stripTagsList full xs with
      | error e => rw [h2] at h; cases h
      | ok zs =>
        rw [h2] at h
        cases h
        rw [heightAll, heightAll, height_stripTags full x y h1, height_stripTagsList full xs zs h2]
end

mutual
theorem height_cleanup : ∀ (m : NsMap) (x : Node), height (cleanup m x) = height x
  | m, .text _ => by unfold cleanup; rfl
  | m, .comment _ => by unfold cleanup; rfl
  | m, .pi _ _ => by unfold cleanup; rfl
  | m, .elem i ks => by unfold cleanup; simp only [height, height_cleanupList _ ks]

theorem height_cleanupList : ∀ (m : NsMap) (xs : List Node), heightAll (cleanupList m xs) = heightAll xs
  | m, [] => by unfold cleanupList; rfl
  | m, x :: xs => by unfold cleanupList; simp only [heightAll, height_cleanup m x, height_cleanupList m xs]
end

theorem height_strippedRoot {r s : Node} (h : strippedRoot r = .ok s) : height s = height r := by
  unfold strippedRoot at h
  split at h
  · unfold stripNamespace at h
    cases ht : stripTags false r with
    | error e => rw [ht] at h; cases h
    | ok t =>
      rw [ht] at h
      cases h
      rw [height_cleanup, height_stripTags false r t ht]
  · cases h; rfl

theorem child_lower {k n : Node} (h : k ∈ n.children) : height k < height n := by
  cases n with
  | elem i ks =>
    have hk : k ∈ ks := by
      unfold Node.children at h
      exact (List.mem_filter.mp h).1
    have := height_kid hk
    rw [height]
    omega
  | _ => unfold Node.children at h; cases h

theorem find_is_child {n c : Node} {t : Str} (h : n.find t = some c) : c ∈ n.children ∧ c.tag = .name t := by
  rw [find_in_children] at h
  exact ⟨List.mem_of_find?_eq_some h, by simpa using List.find?_some h⟩

theorem find_lower {n c : Node} {t : Str} (h : n.find t = some c) : height c < height n := child_lower (find_is_child h).1

theorem levels_le {h : Hierarchy} {hs : List Hierarchy} (hm : h ∈ hs) : levels h ≤ levelsAll hs := by
  induction hs with
  | nil => cases hm
  | cons x xs ih =>
    rw [levelsAll]
    rcases List.mem_cons.mp hm with rfl | hm
    · omega
    · have := ih hm; omega

theorem levelsAll_le {hs : List Hierarchy} {n : Nat} (h : ∀ x ∈ hs, levels x ≤ n) : levelsAll hs ≤ n := by
  induction hs with
  | nil => rw [levelsAll]; omega
  | cons x xs ih =>
    rw [levelsAll]
    have h1 := h x (by simp)
    have h2 := ih (fun y hy => h y (by simp [hy]))
    omega

theorem parsed_object {level : Nat} {x : Node} {h : Hierarchy} (hp : parseHierarchy level x = .ok h) :
    ∃ o r, x.find c!"OBJECT" = some o ∧ o.find c!"SPEC-OBJECT-REF" = some r := by
  cases x with
  | elem i ks =>
    rw [parseHierarchy] at hp
    dsimp only at hp
    split at hp
    · split at hp
      · cases hp
      · split at hp
        · cases hp
        · rename_i o ho
          split at hp
          · cases hp
          · rename_i r hr
            exact ⟨o, r, ho, hr⟩
    · cases hp
  | _ => cases hp

theorem hierarchy_height : ∀ (h : Hierarchy) (level : Nat) (x : Node), parseHierarchy level x = .ok h →
    2 * levels h + 1 ≤ height x
  | h, level, x, hp => by
    obtain ⟨o, r, ho, hr⟩ := parsed_object hp
    have h1 := find_lower ho
    have h2 := find_lower hr
    have h3 : 1 ≤ height r := by
      have := (find_is_child hr).2
      cases r with
      | elem i ks => rw [height]; omega
      | text s => exact absurd this (by intro e; cases e)
      | comment s => cases this
      | pi a b => cases this
    rcases parseHierarchy_inv hp with ⟨-, i, rfl⟩ | ⟨c, cs, i, hc, hm, hh, -⟩
    · rw [levels]; omega
    · rw [hh, levels]
      have h4 := find_lower hc
      cases hcs : cs with
      | nil => rw [levelsAll]; omega
      | cons y ys =>
        have h5 : 2 * levelsAll cs + 1 < height c := by
          have : ∀ z ∈ cs, 2 * levels z + 1 < height c := by
            intro z hz
            obtain ⟨k, hk, hkz⟩ := mapPy_mem hm hz
            have := hierarchy_height z (level + 1) k hkz
            have := child_lower hk
            omega
          have hb : levelsAll cs ≤ (height c - 2) / 2 := levelsAll_le (fun z hz => by have := this z hz; omega)
          have := this y (by rw [hcs]; simp)
          have : 1 ≤ levels y := by cases y <;> simp [levels]
          omega
        rw [← hcs]
        omega
termination_by h => sizeOf h
decreasing_by
  have := List.sizeOf_lt_of_mem hz
  rw [hh]
  simp only [Hierarchy.node.sizeOf_spec]
  omega

theorem specification_height {x : Node} {s : Specification} (h : parseSpecification x = .ok s) :
    ∀ y ∈ s.children.getD [], 2 * levels y + 3 ≤ height x := by
  unfold parseSpecification at h
  obtain ⟨_, _, h⟩ := py_bind_inv h
  obtain ⟨_, _, h⟩ := py_bind_inv h
  obtain ⟨_, _, h⟩ := py_bind_inv h
  obtain ⟨ch, hch, h⟩ := py_bind_inv h
  obtain ⟨_, _, h⟩ := py_bind_inv h
  cases h
  dsimp only
  intro y hy
  split at hch
  · cases hch; cases hy
  · rename_i c hc
    obtain ⟨hs, h1, h2⟩ := py_bind_inv hch
    cases h2
    obtain ⟨k, hk, hx⟩ := mapPy_mem h1 hy
    have e1 := hierarchy_height y 1 k hx
    have e2 := child_lower hk
    have e3 : c ∈ x.children := by
      unfold findLast at hc
      exact (List.mem_filter.mp (List.mem_of_getLast? hc)).1
    have e4 := child_lower e3
    omega

/-- A document is at least as deep as its hierarchies need. -/
theorem document_height {text : Str} {d : Doc} {b : Bundle} (hd : readDoc text = some d) (h : parseString text = .ok b)
    {s : Specification} (hs : s ∈ specificationsOf b) {y : Hierarchy} (hy : y ∈ s.children.getD []) :
    2 * levels y + 7 ≤ height d.root := by
  rcases parseString_inv h with ⟨_, h1, _⟩ | ⟨x, c, hn, hc, hp⟩
  · unfold specificationsOf at hs
    split at hs
    · rename_i c hc; exact absurd hc (h1 c)
    · cases hs
  · obtain ⟨_, _, _, h3, _⟩ := parseContent_inv hp
    unfold specificationsOf at hs
    rw [hc] at hs
    dsimp only at hs
    unfold parsedItems at h3
    split at h3
    · rw [← Except.ok.inj h3] at hs; cases hs
    · rename_i l hl
      cases hm : mapPy parseSpecification l.children with
      | error e => rw [hm] at h3; cases h3
      | ok ss =>
        rw [hm] at h3
        have h3 := Except.ok.inj h3
        rw [← h3] at hs
        obtain ⟨k, hk, hks⟩ := mapPy_mem hm hs
        have e1 := specification_height hks y hy
        have e2 := child_lower hk
        have e3 := find_lower hl
        unfold contentNode at hn
        rw [hd] at hn
        dsimp only at hn
        cases hr : strippedRoot d.root with
        | error e => rw [hr] at hn; cases hn
        | ok r =>
          rw [hr] at hn
          dsimp only at hn
          unfold contentOf at hn
          cases hcc : r.find c!"CORE-CONTENT" with
          | none => rw [hcc] at hn; cases hn
          | some cc =>
            rw [hcc] at hn
            have e4 := find_lower hn
            have e5 := find_lower hcc
            have e6 := height_strippedRoot hr
            omega

end ReqIF
