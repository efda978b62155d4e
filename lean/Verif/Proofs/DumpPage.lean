import Verif.Spec.Dump
import Verif.Proofs.Hierarchy
/-!
# Reading the dump page
-/
namespace ReqIF.Dump
open Spec

theorem not_prefix_append {y : Char} {r : Str} : ∀ {pat w : Str}, ¬ pat <+: w → y ∉ pat →
    ¬ pat <+: w ++ y :: r
  | [], _, h, _ => (h List.nil_prefix).elim
  | x :: xs, [], _, hy => by
    intro hp
    rw [List.nil_append, List.cons_prefix_cons] at hp
    exact hy (hp.1 ▸ List.mem_cons_self)
  | x :: xs, c :: w, h, hy => by
    intro hp
    rw [List.cons_append, List.cons_prefix_cons] at hp
    refine not_prefix_append (pat := xs) (w := w) (fun h' => h ?_)
      (fun h' => hy (List.mem_cons_of_mem _ h')) hp.2
    rw [List.cons_prefix_cons]
    exact ⟨hp.1, h'⟩

theorem breakAt_pat {x : Char} {xs r : Str} :
    breakAt (x :: xs) (x :: xs ++ r) = some ([], r) := by
  have hp : (x :: xs).isPrefixOf (x :: (xs ++ r)) = true :=
    List.isPrefixOf_iff_prefix.mpr ⟨r, rfl⟩
  rw [List.cons_append, breakAt, if_pos hp]
  have e : (x :: (xs ++ r)).drop (x :: xs).length = r :=
    List.drop_left (l₁ := x :: xs) (l₂ := r)
  rw [e]

theorem breakAt_skip {x : Char} {xs r : Str} : ∀ {p : Str}, (∀ c ∈ p, c ≠ x) →
    breakAt (x :: xs) (p ++ r) = (breakAt (x :: xs) r).map fun q => (p ++ q.1, q.2)
  | [], _ => by
    rw [List.nil_append]
    cases breakAt (x :: xs) r <;> rfl
  | c :: p, h => by
    rw [List.cons_append, breakAt, if_neg, breakAt_skip (fun d hd => h d (List.mem_cons_of_mem _ hd))]
    · cases breakAt (x :: xs) r <;> rfl
    · intro hp
      rw [List.isPrefixOf_iff_prefix, List.cons_prefix_cons] at hp
      exact h c List.mem_cons_self hp.1.symm

theorem breakAt_free {x y : Char} {xs r : Str} (hy : y ∉ xs) : ∀ {v : Str},
    containsStr (x :: xs) v = false →
    breakAt (x :: xs) (v ++ y :: r) =
      (breakAt (x :: xs) (y :: r)).map fun q => (v ++ q.1, q.2)
  | [], _ => by
    rw [List.nil_append]
    cases breakAt (x :: xs) (y :: r) <;> rfl
  | c :: v, h => by
    rw [containsStr, Bool.or_eq_false_iff] at h
    rw [List.cons_append, breakAt, if_neg, breakAt_free hy h.2]
    · cases breakAt (x :: xs) (y :: r) <;> rfl
    · intro hp
      rw [List.isPrefixOf_iff_prefix, List.cons_prefix_cons] at hp
      refine not_prefix_append (pat := xs) (w := v) (fun h' => ?_) hy hp.2
      have : (x :: xs).isPrefixOf (c :: v) = true := by
        rw [List.isPrefixOf_iff_prefix, List.cons_prefix_cons]
        exact ⟨hp.1, h'⟩
      rw [this] at h
      cases h.1

/-- No element begins in the text, whatever follows it. -/
def quiet : Str → Bool
  | [] => true
  | c :: s =>
    (shownTags.all fun t =>
      !(c!"<" ++ t).isPrefixOf (c :: s) && !(c :: s).isPrefixOf (c!"<" ++ t)) && quiet s

/-- Reading a text gives these elements, whatever follows it. -/
def Emits (s : Str) (l : List (Str × Str)) : Prop := ∀ r, elements (s ++ r) = l ++ elements r

theorem prefix_append_iff {a s r : Str} (h1 : ¬ a <+: s) (h2 : ¬ s <+: a) : ¬ a <+: s ++ r := by
  intro h
  rcases Nat.le_total a.length s.length with hl | hl
  · exact h1 (List.prefix_of_prefix_length_le h (List.prefix_append s r) hl)
  · exact h2 (List.prefix_of_prefix_length_le (List.prefix_append s r) h hl)

theorem emits_quiet : ∀ {s : Str}, quiet s = true → Emits s []
  | [], _ => fun _ => rfl
  | c :: s, h => by
    rw [quiet, Bool.and_eq_true, List.all_eq_true] at h
    intro r
    rw [List.cons_append, elements]
    have hn : shownTags.find? (fun t => (c!"<" ++ t).isPrefixOf (c :: (s ++ r))) = none := by
      rw [List.find?_eq_none]
      intro t ht hp
      have h1 := h.1 t ht
      rw [Bool.and_eq_true, Bool.not_eq_true', Bool.not_eq_true', Bool.eq_false_iff,
        Bool.eq_false_iff, Ne, Ne, List.isPrefixOf_iff_prefix, List.isPrefixOf_iff_prefix] at h1
      exact prefix_append_iff h1.1 h1.2 (List.isPrefixOf_iff_prefix.mp hp)
    split
    · exact emits_quiet h.2 r
    · rename_i t ht
      rw [hn] at ht
      cases ht

theorem Emits.append {s s' : Str} {l l' : List (Str × Str)} (h : Emits s l) (h' : Emits s' l') :
    Emits (s ++ s') (l ++ l') := by
  intro r
  rw [List.append_assoc, h, h', List.append_assoc]

theorem Emits.nil : Emits [] [] := fun _ => rfl

theorem emits_element {t a v : Str}
    (hf : ∀ u, shownTags.find? (fun t' => (c!"<" ++ t').isPrefixOf ('<' :: (t ++ u))) = some t)
    (ha : ∀ c ∈ t ++ a, c ≠ '>')
    (hv : ∀ r, breakAt (c!"</" ++ t ++ c!">") (v ++ (c!"</" ++ t ++ c!">") ++ r) = some (v, r)) :
    Emits (c!"<" ++ t ++ a ++ c!">" ++ v ++ (c!"</" ++ t ++ c!">")) [(t, strip v)] := by
  intro r
  have e : c!"<" ++ t ++ a ++ c!">" ++ v ++ (c!"</" ++ t ++ c!">") ++ r =
      '<' :: (t ++ (a ++ (c!">" ++ (v ++ (c!"</" ++ t ++ c!">") ++ r)))) := by
    simp [List.append_assoc]
  have e1 : breakAt c!">" (t ++ (a ++ (c!">" ++ (v ++ (c!"</" ++ t ++ c!">") ++ r)))) =
      some (t ++ a, v ++ (c!"</" ++ t ++ c!">") ++ r) := by
    rw [← List.append_assoc t, breakAt_skip ha]
    have : breakAt c!">" (c!">" ++ (v ++ (c!"</" ++ t ++ c!">") ++ r)) =
      some ([], v ++ (c!"</" ++ t ++ c!">") ++ r) := breakAt_pat
    rw [this]
    simp
  rw [e, elements]
  split
  · rename_i h
    rw [hf] at h
    cases h
  · rename_i t' h
    rw [hf] at h
    cases h
    split
    · rename_i h
      rw [e1] at h
      cases h
    · rename_i x inner h
      rw [e1] at h
      cases h
      split
      · rename_i h
        rw [hv] at h
        cases h
      · rename_i content rest h
        rw [hv] at h
        cases h
        rfl

theorem mem_takeWhile {p : Char → Bool} : ∀ {l : Str}, (∀ c ∈ l, p c = true) →
    l.dropWhile p = []
  | [], _ => rfl
  | c :: l, h => by
    rw [List.dropWhile_cons, if_pos (h c List.mem_cons_self)]
    exact mem_takeWhile fun d hd => h d (List.mem_cons_of_mem _ hd)

theorem dropWhile_pad {p : Char → Bool} {r : Str} : ∀ {l : Str}, (∀ c ∈ l, p c = true) →
    (l ++ r).dropWhile p = r.dropWhile p
  | [], _ => rfl
  | c :: l, h => by
    rw [List.cons_append, List.dropWhile_cons, if_pos (h c List.mem_cons_self)]
    exact dropWhile_pad fun d hd => h d (List.mem_cons_of_mem _ hd)

theorem rstrip_pad {s p : Str} (h : ∀ c ∈ p, isPySpace c = true) : rstrip (s ++ p) = rstrip s := by
  unfold rstrip
  rw [List.reverse_append, dropWhile_pad]
  intro c hc
  exact h c (List.mem_reverse.mp hc)

theorem lstrip_append {s p : Str} (h : ∀ c ∈ p, isPySpace c = true) :
    lstrip (s ++ p) = lstrip s ++ p ∨ lstrip (s ++ p) = lstrip p ∧ lstrip s = [] := by
  unfold lstrip
  induction s with
  | nil => exact .inr ⟨rfl, rfl⟩
  | cons c s ih =>
    rw [List.cons_append, List.dropWhile_cons, List.dropWhile_cons]
    split
    · exact ih
    · exact .inl rfl

/-- White space around a text does not count. -/
theorem strip_pad {p s q : Str} (hp : ∀ c ∈ p, isPySpace c = true)
    (hq : ∀ c ∈ q, isPySpace c = true) : strip (p ++ s ++ q) = strip s := by
  unfold strip
  have e : lstrip (p ++ s ++ q) = lstrip (s ++ q) := by
    rw [List.append_assoc]
    exact dropWhile_pad hp
  rw [e]
  rcases lstrip_append (s := s) hq with h | ⟨h, h'⟩
  · rw [h, rstrip_pad hq]
  · rw [h, h']
    unfold lstrip
    rw [mem_takeWhile hq]

/-- A cell, or a heading, with white space around its text. -/
theorem emits_cell {a p v q : Str} (ha : ∀ c ∈ c!"td" ++ a, c ≠ '>')
    (hp : ∀ c ∈ p, isPySpace c = true ∧ c ≠ '<') (hq : ∀ c ∈ q, isPySpace c = true ∧ c ≠ '<')
    (hq' : ∀ y ys, q = y :: ys → y ∉ c!"/td>")
    (hv : CellSafe v) :
    Emits (c!"<td" ++ a ++ c!">" ++ (p ++ v ++ q) ++ c!"</td>") [cell v] := by
  have h := emits_element (t := c!"td") (a := a) (v := p ++ v ++ q) (fun _ => rfl) ha (by
    intro r
    have h1 : breakAt c!"</td>" (v ++ (q ++ (c!"</td>" ++ r))) = some (v ++ q, r) := by
      have h2 : breakAt c!"</td>" (q ++ (c!"</td>" ++ r)) = some (q, r) := by
        rw [breakAt_skip fun c hc => (hq c hc).2]
        have : breakAt c!"</td>" (c!"</td>" ++ r) = some ([], r) := breakAt_pat
        rw [this]
        simp
      cases q with
      | nil =>
        have e : v ++ ([] ++ (c!"</td>" ++ r)) = v ++ '<' :: (c!"/td>" ++ r) := rfl
        rw [e, breakAt_free (by decide) hv]
        have e2 : breakAt c!"</td>" ('<' :: (c!"/td>" ++ r)) = some ([], r) := h2
        rw [e2]
        simp
      | cons y ys =>
        rw [List.cons_append, breakAt_free (hq' y ys rfl) hv]
        have e2 : breakAt c!"</td>" (y :: (ys ++ (c!"</td>" ++ r))) = some (y :: ys, r) := h2
        rw [e2]
        simp
    have e : p ++ v ++ q ++ (c!"</" ++ c!"td" ++ c!">") ++ r =
        p ++ (v ++ (q ++ (c!"</td>" ++ r))) := by
      simp [List.append_assoc]
    have e' : (c!"</" ++ c!"td" ++ c!">" : Str) = c!"</td>" := rfl
    rw [e, e', breakAt_skip fun c hc => (hp c hc).2, h1]
    simp [List.append_assoc])
  rw [strip_pad (fun c hc => (hp c hc).1) (fun c hc => (hq c hc).1)] at h
  exact h

theorem emits_td {v : Str} (hv : CellSafe v) : Emits (c!"<td>" ++ v ++ c!"</td>") [cell v] := by
  have h := emits_cell (a := []) (p := []) (q := []) (v := v) (by decide) (by simp) (by simp)
    (by simp) hv
  have e : c!"<td" ++ [] ++ c!">" ++ ([] ++ v ++ []) ++ c!"</td>" = c!"<td>" ++ v ++ c!"</td>" := by
    simp
  rw [e] at h
  exact h

theorem emits_h1 {v : Str} (hv : containsStr c!"</h1>" v = false) :
    Emits (c!"<h1>" ++ v ++ c!"</h1>") [heading v] := by
  have h := emits_element (t := c!"h1") (a := []) (v := v) (fun _ => rfl) (by decide) (by
    intro r
    have e : v ++ (c!"</" ++ c!"h1" ++ c!">") ++ r = v ++ '<' :: (c!"/h1>" ++ r) := by
      simp [List.append_assoc]
    have e' : (c!"</" ++ c!"h1" ++ c!">" : Str) = c!"</h1>" := rfl
    have e2 : breakAt c!"</h1>" ('<' :: (c!"/h1>" ++ r)) = some ([], r) := breakAt_pat
    rw [e, e', breakAt_free (by decide) hv, e2]
    simp)
  have e : c!"<" ++ c!"h1" ++ [] ++ c!">" ++ v ++ (c!"</" ++ c!"h1" ++ c!">") =
      c!"<h1>" ++ v ++ c!"</h1>" := by
    simp
  rw [e] at h
  exact h

end ReqIF.Dump
