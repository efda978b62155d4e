import Verif.Proofs.Bare
import Verif.Proofs.Indent
/-!
# Unindenting keeps the tags

Removing runs of 16 spaces, and space at the ends, does not change the names of the tags.
-/
namespace ReqIF
open Spec

/-- The text without its runs of 16 spaces. -/
abbrev unrun (s : Str) : Str := replaceStr (spaces 16) [] s

theorem unrun_nil : unrun [] = [] := rfl

theorem unrun_cons {c : Char} {s : Str} (h : (spaces 16).isPrefixOf (c :: s) = false) : unrun (c :: s) = c :: unrun s := by
  unfold unrun replaceStr
  rw [replaceStrGo, h]
  simp

theorem unrun_cons_ne {c : Char} {s : Str} (h : c ≠ ' ') : unrun (c :: s) = c :: unrun s := by
  apply unrun_cons
  show List.isPrefixOf (' ' :: spaces 15) (c :: s) = false
  rw [List.isPrefixOf_cons₂]
  simp [h.symm]

theorem unrun_match (s : Str) : unrun (spaces 16 ++ s) = unrun s :=
  replaceStrGo_match (old := spaces 16) (by simp [spaces]) [] s

theorem spaces_prefix {n : Nat} {a b : Str} {c : Char} (hc : c ≠ ' ') (h : (spaces n).isPrefixOf (a ++ c :: b) = true) :
    ∃ a', a = spaces n ++ a' := by
  induction n generalizing a with
  | zero => exact ⟨a, rfl⟩
  | succ n ih =>
    cases a with
    | nil =>
      have h' : List.isPrefixOf (' ' :: spaces n) (c :: b) = true := h
      rw [List.isPrefixOf_cons₂] at h'
      simp [hc.symm] at h'
    | cons x a =>
      have h' : List.isPrefixOf (' ' :: spaces n) (x :: (a ++ c :: b)) = true := h
      rw [List.isPrefixOf_cons₂, Bool.and_eq_true, beq_iff_eq] at h'
      obtain ⟨a', e⟩ := ih h'.2
      exact ⟨a', by rw [← h'.1, e]; rfl⟩

theorem unrun_split {c : Char} (hc : c ≠ ' ') (b : Str) : ∀ (n : Nat) (a : Str), a.length ≤ n → unrun (a ++ c :: b) = unrun a ++ c :: unrun b
  | _, [], _ => by
    rw [List.nil_append, unrun_cons_ne hc]; rfl
  | 0, _ :: _, h => by simp at h
  | n + 1, x :: a, h => by
    cases hp : (spaces 16).isPrefixOf (x :: (a ++ c :: b)) with
    | true =>
      obtain ⟨a', e⟩ := spaces_prefix (a := x :: a) hc hp
      have hl : a'.length ≤ n := by
        have := congrArg List.length e
        simp [spaces] at this h
        omega
      rw [e, List.append_assoc, unrun_match, unrun_match, unrun_split hc b n a' hl]
    | false =>
      have hq : (spaces 16).isPrefixOf (x :: a) = false := by
        cases hq : (spaces 16).isPrefixOf (x :: a) with
        | false => rfl
        | true =>
          have h1 := List.isPrefixOf_iff_prefix.1 hq
          have h2 : spaces 16 <+: x :: (a ++ c :: b) := h1.trans (List.prefix_append (x :: a) (c :: b))
          rw [List.isPrefixOf_iff_prefix.2 h2] at hp
          cases hp
      rw [List.cons_append, unrun_cons hp, unrun_cons hq, unrun_split hc b n a (by simpa using h)]
      rfl

theorem unrun_append {c : Char} (hc : c ≠ ' ') (a b : Str) : unrun (a ++ c :: b) = unrun a ++ c :: unrun b :=
  unrun_split hc b _ a (Nat.le_refl _)

theorem unrun_go_sub (old : Str) : ∀ (s : Str) (k : Nat), (replaceStrGo old [] k s).Sublist s
  | [], k => by cases k <;> simp [replaceStrGo]
  | c :: s, k + 1 => by rw [replaceStrGo]; exact (unrun_go_sub old s k).cons c
  | c :: s, 0 => by
    rw [replaceStrGo]
    split
    · exact (unrun_go_sub old s _).cons c
    · exact (unrun_go_sub old s 0).cons₂ c

theorem unrun_notMem {c : Char} {s : Str} (h : c ∉ s) : c ∉ unrun s := fun hm => h ((unrun_go_sub _ s 0).subset hm)

theorem unrun_noSpace {a : Str} (h : ' ' ∉ a) (b : Str) : unrun (a ++ b) = a ++ unrun b := by
  induction a with
  | nil => rfl
  | cons c a ih =>
    rw [List.mem_cons, not_or] at h
    rw [List.cons_append, unrun_cons_ne (Ne.symm h.1), ih h.2]; rfl

/-! ## The bodies of the tags -/

/-- What is between `<` and `>`. -/
def bodies : Option Str → Str → List Str
  | none, [] => []
  | none, c :: s => if c = '<' then bodies (some []) s else bodies none s
  | some _, [] => []
  | some b, c :: s => if c = '>' then b.reverse :: bodies none s else bodies (some (c :: b)) s

theorem tags_scan : ∀ (s : Str) (m : Option Str), tagsOf (scan m s) = (bodies m s).map tagTok
  | [], none => rfl
  | [], some _ => rfl
  | c :: s, none => by
    rw [scan, bodies]
    split
    · exact tags_scan s _
    · exact tags_scan s none
  | c :: s, some b => by
    rw [scan, bodies]
    split
    · have ih := tags_scan s none
      rw [List.map_cons, ← ih]
      unfold tagsOf
      rw [List.filter_cons, if_pos]
      have : ∀ d : Char, tagTok b.reverse ≠ .char d := by
        intro d
        unfold tagTok
        split
        · simp
        · split <;> simp
      revert this
      cases tagTok b.reverse <;> simp
    · exact tags_scan s _

theorem tags_toks (s : Str) : tagsOf (toks s) = (bodies none s).map tagTok := tags_scan s none

theorem bodies_text {a : Str} (h : '<' ∉ a) (s : Str) : bodies none (a ++ s) = bodies none s := by
  induction a with
  | nil => rfl
  | cons c a ih =>
    rw [List.mem_cons, not_or] at h
    rw [List.cons_append, bodies, if_neg (Ne.symm h.1), ih h.2]

theorem bodies_inside {a : Str} (h : '>' ∉ a) (b s : Str) : bodies (some b) (a ++ s) = bodies (some (a.reverse ++ b)) s := by
  induction a generalizing b with
  | nil => rfl
  | cons c a ih =>
    rw [List.mem_cons, not_or] at h
    rw [List.cons_append, bodies, if_neg (Ne.symm h.1), ih h.2]; simp

theorem bodies_tag {a b : Str} (h1 : '<' ∉ a) (h2 : '>' ∉ b) (s : Str) :
    bodies none (a ++ '<' :: (b ++ '>' :: s)) = b :: bodies none s := by
  rw [bodies_text h1, bodies, if_pos rfl, bodies_inside h2, bodies, if_pos rfl]
  simp

theorem bodies_open {a b : Str} (h1 : '<' ∉ a) (h2 : '>' ∉ b) : bodies none (a ++ '<' :: b) = [] := by
  rw [bodies_text h1, bodies, if_pos rfl]
  have := bodies_inside h2 [] []
  rw [List.append_nil] at this
  rw [this, bodies]

theorem takeWhile_imp {p : Char → Bool} {c : Char} : ∀ {l : Str}, c ∈ l.takeWhile p → p c = true
  | [], h => by cases h
  | x :: l, h => by
    rw [List.takeWhile_cons] at h
    split at h
    · rcases List.mem_cons.1 h with rfl | h
      · assumption
      · exact takeWhile_imp h
    · cases h

/-- The first occurrence of a character. -/
theorem first_split {c : Char} : ∀ {s : Str}, c ∈ s → ∃ a b, s = a ++ c :: b ∧ c ∉ a
  | [], h => by cases h
  | x :: s, h => by
    by_cases e : x = c
    · exact ⟨[], s, by rw [e]; rfl, by simp⟩
    · rcases List.mem_cons.1 h with h | h
      · exact absurd h.symm e
      · obtain ⟨a, b, e1, e2⟩ := first_split h
        exact ⟨x :: a, b, by rw [e1]; rfl, by simp [Ne.symm e, e2]⟩

theorem bodies_unrun : ∀ (n : Nat) (s : Str), s.length ≤ n → bodies none (unrun s) = (bodies none s).map unrun
  | n, s, hn => by
    by_cases h1 : '<' ∈ s
    · obtain ⟨a, t, rfl, ha⟩ := first_split h1
      by_cases h2 : '>' ∈ t
      · obtain ⟨b, r, rfl, hb⟩ := first_split h2
        cases n with
        | zero => simp at hn
        | succ n =>
          have ih := bodies_unrun n r (by simp at hn; omega)
          rw [unrun_append (by decide), unrun_append (by decide), bodies_tag (unrun_notMem ha) (unrun_notMem hb), bodies_tag ha hb, ih]
          rfl
      · rw [unrun_append (by decide), bodies_open (unrun_notMem ha) (unrun_notMem h2), bodies_open ha h2]; rfl
    · have e1 := bodies_text h1 []
      have e2 := bodies_text (unrun_notMem h1) []
      rw [List.append_nil] at e1 e2
      rw [e1, e2]; rfl

theorem bodies_end {w : Str} (h : '>' ∉ w) : ∀ (s : Str) (m : Option Str), bodies m (s ++ w) = bodies m s
  | [], none => by
    rw [List.nil_append]
    by_cases h1 : '<' ∈ w
    · obtain ⟨a, t, rfl, ha⟩ := first_split h1
      rw [bodies_open ha (fun hm => h (by simp [hm]))]; rfl
    · have := bodies_text h1 []
      rwa [List.append_nil] at this
  | [], some b => by
    have := bodies_inside h b []
    rw [List.append_nil] at this
    rw [List.nil_append, this]
    rfl
  | c :: s, none => by
    rw [List.cons_append, bodies, bodies, bodies_end h s none, bodies_end h s]
  | c :: s, some b => by
    rw [List.cons_append, bodies, bodies, bodies_end h s none, bodies_end h s]

theorem bodies_strip (s : Str) : bodies none (strip s) = bodies none s := by
  have hl : ∀ t : Str, bodies none (lstrip t) = bodies none t := by
    intro t
    unfold lstrip
    have e := List.takeWhile_append_dropWhile (p := isPySpace) (l := t)
    have h : '<' ∉ t.takeWhile isPySpace := fun hm => by
      have := takeWhile_imp hm
      revert this; decide
    conv => rhs; rw [← e, bodies_text h]
  have hr : ∀ t : Str, bodies none (rstrip t) = bodies none t := by
    intro t
    unfold rstrip
    have e := List.takeWhile_append_dropWhile (p := isPySpace) (l := t.reverse)
    have e2 : t = (t.reverse.dropWhile isPySpace).reverse ++ (t.reverse.takeWhile isPySpace).reverse := by
      rw [← List.reverse_append, e, List.reverse_reverse]
    have h : '>' ∉ (t.reverse.takeWhile isPySpace).reverse := fun hm => by
      have := takeWhile_imp (List.mem_reverse.1 hm)
      revert this; decide
    conv => rhs; rw [e2, bodies_end h]
  unfold strip
  rw [hr, hl]

/-- What is required of the tags so that removing runs of 16 spaces leaves their names. -/
def TokSafe : Tok → Prop
  | .start n r => ' ' ∉ n ∧ (r = [] ∨ ∃ k r' l, k ≠ ' ' ∧ l ≠ ' ' ∧ l ≠ '/' ∧ r = ' ' :: k :: r' ++ [l])
  | .empty n r => ' ' ∉ n ∧ (r = [] ∨ ∃ k r' l, k ≠ ' ' ∧ l ≠ ' ' ∧ l ≠ '/' ∧ r = ' ' :: k :: r' ++ [l])
  | .stop n => ' ' ∉ n
  | .char _ => True

theorem bodyName_append (b : Str) : bodyName b ++ bodyRest b = b := List.takeWhile_append_dropWhile

theorem unrun_rest {r : Str} (h : r = [] ∨ ∃ k r' l, k ≠ ' ' ∧ l ≠ ' ' ∧ l ≠ '/' ∧ r = ' ' :: k :: r' ++ [l]) :
    unrun r = [] ∧ r = [] ∨ ∃ k r' l, k ≠ ' ' ∧ l ≠ ' ' ∧ l ≠ '/' ∧ unrun r = ' ' :: k :: r' ++ [l] := by
  rcases h with rfl | ⟨k, r', l, h1, h2, h3, rfl⟩
  · exact .inl ⟨rfl, rfl⟩
  · refine .inr ⟨k, unrun r', l, h1, h2, h3, ?_⟩
    rw [List.cons_append, List.cons_append, unrun_cons, unrun_cons_ne h1, unrun_append h2]
    · rfl
    · show List.isPrefixOf (' ' :: ' ' :: spaces 14) (' ' :: k :: (r' ++ [l])) = false
      rw [List.isPrefixOf_cons₂, List.isPrefixOf_cons₂]
      simp [h1.symm]

theorem noSpace_all {n : Str} (h : ' ' ∉ n) : ∀ c ∈ n, (c != ' ') = true := by
  intro c hc
  simp only [bne_iff_ne, ne_eq]
  rintro rfl
  exact h hc

theorem bodyName_of {n r : Str} (hn : ' ' ∉ n) (hr : r = [] ∨ ∃ r', r = ' ' :: r') : bodyName (n ++ r) = n ∧ bodyRest (n ++ r) = r := by
  unfold bodyName bodyRest
  rw [List.takeWhile_append_of_pos (noSpace_all hn), List.dropWhile_append_of_pos (noSpace_all hn)]
  rcases hr with rfl | ⟨r', rfl⟩ <;> simp

theorem getLast_append_ne {a : Str} {b : Str} {l : Char} : (a ++ (b ++ [l])).getLast? = some l := by
  rw [← List.append_assoc, List.getLast?_append]; rfl

theorem tagTok_notStop {b : Str} (h : b.head? ≠ some '/') : tagTok b = if b.getLast? = some '/' then
    .empty (bodyName b.dropLast) (bodyRest b.dropLast) else .start (bodyName b) (bodyRest b) := by
  unfold tagTok
  split
  · simp at h
  · rfl

theorem tagTok_unrun {b : Str} (h : TokSafe (tagTok b)) : tagTok (unrun b) = unrunTok (tagTok b) := by
  by_cases hs : b.head? = some '/'
  · cases b with
    | nil => simp at hs
    | cons c n =>
      simp at hs
      subst hs
      have h' : ' ' ∉ n := h
      have e := unrun_noSpace h' []
      rw [List.append_nil, unrun_nil, List.append_nil] at e
      rw [unrun_cons_ne (by decide), e]
      rfl
  · rw [tagTok_notStop hs] at h ⊢
    split at h
    · rename_i hl
      rw [if_pos hl]
      have hb : b = b.dropLast ++ ['/'] := by
        have hne : b ≠ [] := by rintro rfl; simp at hl
        have e := List.dropLast_concat_getLast hne
        rw [List.getLast?_eq_some_getLast hne] at hl
        rw [Option.some.inj hl] at e
        exact e.symm
      generalize b.dropLast = d at *
      subst hb
      obtain ⟨h1, h2⟩ := h
      have hd := bodyName_append d
      generalize hn : bodyName d = n at *
      generalize hr : bodyRest d = r at *
      rw [unrun_append (by decide), unrun_nil, ← hd, unrun_noSpace h1]
      have hr' : unrun r = [] ∨ ∃ r', unrun r = ' ' :: r' := by
        rcases unrun_rest h2 with h | ⟨k, r', l, -, -, -, e⟩
        · exact .inl h.1
        · exact .inr ⟨_, e⟩
      rw [tagTok_notStop, if_pos (by rw [List.getLast?_append]; rfl), List.dropLast_concat, (bodyName_of h1 hr').1, (bodyName_of h1 hr').2]
      · rfl
      · cases n with
        | nil =>
          rcases hr' with h | ⟨r', h⟩
          · rw [h]
            rcases unrun_rest h2 with h' | ⟨k, r', l, -, -, -, e⟩
            · rw [← hd, h'.2] at hs; simpa using hs
            · rw [h] at e; cases e
          · rw [h]; simp
        | cons c n =>
          rw [← hd] at hs
          simpa using hs
    · rename_i hl
      rw [if_neg hl]
      obtain ⟨h1, h2⟩ := h
      have hd := bodyName_append b
      generalize hn : bodyName b = n at *
      generalize hr : bodyRest b = r at *
      have hr' : unrun r = [] ∨ ∃ r', unrun r = ' ' :: r' := by
        rcases unrun_rest h2 with h | ⟨k, r', l, -, -, -, e⟩
        · exact .inl h.1
        · exact .inr ⟨_, e⟩
      rw [← hd, unrun_noSpace h1, tagTok_notStop, if_neg, (bodyName_of h1 hr').1, (bodyName_of h1 hr').2]
      · rfl
      · rcases unrun_rest h2 with h' | ⟨k, r', l, -, -, h3, e⟩
        · rw [h'.1, List.append_nil]
          rw [← hd, h'.2, List.append_nil] at hl
          exact hl
        · rw [e, getLast_append_ne]
          simpa using h3
      · cases n with
        | nil =>
          rcases hr' with h | ⟨r', h⟩
          · rw [h]; simp
          · rw [h]; simp
        | cons c n =>
          rw [← hd] at hs
          simpa using hs

/-- The tags of the unindented text. -/
theorem tags_unindent {s : Str} (h : ∀ t ∈ toks s, TokSafe t) :
    tagsOf (toks (reqifUnindentXhtmlString s)) = (tagsOf (toks s)).map unrunTok := by
  unfold reqifUnindentXhtmlString
  rw [tags_toks, bodies_strip, bodies_unrun _ _ (Nat.le_refl _), tags_toks, List.map_map, List.map_map]
  apply List.map_congr_left
  intro b hb
  refine tagTok_unrun (h _ ?_)
  have : tagTok b ∈ tagsOf (toks s) := by rw [tags_toks]; exact List.mem_map_of_mem hb
  exact (List.mem_filter.1 this).1

end ReqIF
