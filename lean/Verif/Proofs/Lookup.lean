import Verif.Spec.Lookup
import Verif.Proofs.ParseInv
/-! Lemmas about dictionaries built by loops. -/
namespace ReqIF
open Spec

section
variable {κ ν : Type} [DecidableEq κ]

theorem Dict.get?_set (d : Dict κ ν) (k k' : κ) (v : ν) :
    (d.set k v).get? k' = if k = k' then some v else d.get? k' := by
  induction d with
  | nil =>
    simp only [Dict.set, Dict.get?]
  | cons x d ih =>
    obtain ⟨a, w⟩ := x
    simp only [Dict.set]
    by_cases h : a = k
    · subst h
      simp only [if_true, Dict.get?]
      split <;> rfl
    · simp only [if_neg h, Dict.get?, ih]
      by_cases h2 : a = k'
      · subst h2
        simp [Ne.symm h]
      · simp [h2]

theorem Dict.keys_set (d : Dict κ ν) (k : κ) (v : ν) :
    (d.set k v).map (·.1) = if k ∈ d.map (·.1) then d.map (·.1) else d.map (·.1) ++ [k] := by
  induction d with
  | nil => simp [Dict.set]
  | cons x d ih =>
    obtain ⟨a, w⟩ := x
    simp only [Dict.set]
    by_cases h : a = k
    · subst h; simp
    · simp only [if_neg h, List.map_cons, ih]
      have : (k ∈ a :: List.map (·.1) d) ↔ k ∈ List.map (·.1) d := by
        simp [Ne.symm h]
      by_cases h2 : k ∈ List.map (·.1) d
      · simp [h2]
      · simp [h2, Ne.symm h]

theorem Dict.nodup_set {d : Dict κ ν} (h : (d.map (·.1)).Nodup) (k : κ) (v : ν) :
    ((d.set k v).map (·.1)).Nodup := by
  rw [Dict.keys_set]
  split
  · exact h
  · rename_i hk
    rw [List.nodup_append]
    refine ⟨h, by simp, ?_⟩
    intro a ha b hb
    rw [List.mem_singleton] at hb
    subst hb
    rintro rfl
    exact hk ha
end

section
variable {α κ : Type} [DecidableEq κ] (key : α → κ)

theorem foldl_set_get? (l : List α) (d : Dict κ α) (k : κ) :
    (l.foldl (fun d x => d.set (key x) x) d).get? k = (lastWith key k l).or (d.get? k) := by
  induction l generalizing d with
  | nil => simp [lastWith]
  | cons x xs ih =>
    rw [List.foldl_cons, ih, Dict.get?_set]
    unfold lastWith
    by_cases h : key x = k
    · simp only [h, List.filter_cons, beq_self_eq_true, if_true]
      cases hx : xs.filter (fun x => key x == k) with
      | nil => simp
      | cons y ys => simp [List.getLast?_cons]
    · simp [h]

theorem indexBy_get? (l : List α) (k : κ) : (indexBy key l).get? k = lastWith key k l := by
  unfold indexBy
  rw [foldl_set_get?]
  simp [Dict.get?]

theorem foldl_set_nodup (l : List α) (d : Dict κ α) (h : (d.map (·.1)).Nodup) :
    ((l.foldl (fun d x => d.set (key x) x) d).map (·.1)).Nodup := by
  induction l generalizing d with
  | nil => exact h
  | cons x xs ih => exact ih _ (Dict.nodup_set h _ _)

theorem lastWith_isSome (l : List α) (k : κ) : (lastWith key k l).isSome ↔ ∃ x ∈ l, key x = k := by
  unfold lastWith
  constructor
  · intro h
    obtain ⟨x, hx⟩ := Option.isSome_iff_exists.mp h
    have hx := List.mem_of_getLast? hx
    rw [List.mem_filter] at hx
    exact ⟨x, hx.1, by simpa using hx.2⟩
  · rintro ⟨x, hx, hk⟩
    have : l.filter (fun x => key x == k) ≠ [] :=
      List.ne_nil_of_mem (List.mem_filter.mpr ⟨hx, by simpa using hk⟩)
    rw [List.getLast?_eq_some_getLast this]
    rfl
end

theorem appendParent_get? (d : Dict (Option Str) (List (Option Str))) (k v k' : Option Str) :
    (appendParent d k v).get? k' = if k = k' then some ((d.get? k').getD [] ++ [v]) else d.get? k' := by
  unfold appendParent
  rw [Dict.get?_set]
  by_cases h : k = k'
  · subst h; rfl
  · simp [h]

theorem parents_get? (rs : List SpecRelation) (d : Dict (Option Str) (List (Option Str))) (k : Option Str) :
    ((rs.foldl (fun d r => appendParent d r.source r.target) d).get? k).getD [] =
      (d.get? k).getD [] ++ targetsFrom k rs := by
  induction rs generalizing d with
  | nil => simp [targetsFrom]
  | cons r rs ih =>
    rw [List.foldl_cons, ih, appendParent_get?]
    unfold targetsFrom
    by_cases h : r.source = k
    · simp [h]
    · simp [h]

end ReqIF
