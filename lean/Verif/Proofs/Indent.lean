import Verif.Model.Escape
import Verif.Spec.Escape
import Verif.Proofs.Str
/-! Lemmas on stripping and XHTML indentation. -/
namespace ReqIF
open Spec

theorem dropWhile_all_append {p : Char → Bool} {a b : Str} (h : ∀ c ∈ a, p c = true) :
    (a ++ b).dropWhile p = b.dropWhile p := by
  induction a with
  | nil => rfl
  | cons c a ih =>
    simp only [List.cons_append, List.dropWhile_cons, h c (by simp), if_true]
    exact ih (fun d hd => h d (by simp [hd]))

theorem dropWhile_id {p : Char → Bool} {s : Str} (h : ∀ c, s.head? = some c → p c = false) : s.dropWhile p = s := by
  cases s with
  | nil => rfl
  | cons c s => simp [List.dropWhile_cons, h c rfl]

/-- Stripping is determined: whatever `Stripped` describes is what `strip` computes. -/
theorem strip_of_stripped {s t : Str} (h : Stripped s t) : strip s = t := by
  obtain ⟨a, b, rfl, ha, hb, h1, h2⟩ := h
  unfold strip lstrip rstrip
  rw [List.append_assoc, dropWhile_all_append ha]
  cases t with
  | nil =>
    have : ([] ++ b).dropWhile isPySpace = [] := by
      have := dropWhile_all_append (b := []) hb
      simpa using this
    rw [this]; rfl
  | cons c t =>
    rw [dropWhile_id (s := (c :: t) ++ b) (by simpa using h1), List.reverse_append,
      dropWhile_all_append (by simpa using hb), dropWhile_id (by rw [List.head?_reverse]; exact h2),
      List.reverse_reverse]

theorem dropWhile_split (p : Char → Bool) (s : Str) :
    ∃ a, s = a ++ s.dropWhile p ∧ (∀ c ∈ a, p c = true) ∧ (∀ c, (s.dropWhile p).head? = some c → p c = false) := by
  induction s with
  | nil => exact ⟨[], rfl, by simp, by simp⟩
  | cons c s ih =>
    by_cases hc : p c = true
    · obtain ⟨a, h1, h2, h3⟩ := ih
      refine ⟨c :: a, ?_, ?_, ?_⟩
      · simp only [List.dropWhile_cons, hc, if_true, List.cons_append, ← h1]
      · intro d hd
        rcases List.mem_cons.1 hd with rfl | hd
        · exact hc
        · exact h2 d hd
      · simpa only [List.dropWhile_cons, hc, if_true] using h3
    · refine ⟨[], by simp [hc], by simp, ?_⟩
      simp only [List.dropWhile_cons, hc]
      intro d hd
      simp at hd
      subst hd
      simpa using hc

/-- `strip` does strip. -/
theorem stripped_strip (s : Str) : Stripped s (strip s) := by
  obtain ⟨a, ha1, ha2, ha3⟩ := dropWhile_split isPySpace s
  obtain ⟨b, hb1, hb2, hb3⟩ := dropWhile_split isPySpace (lstrip s).reverse
  have e : lstrip s = strip s ++ b.reverse := by
    have := congrArg List.reverse hb1
    simpa [strip, rstrip] using this
  refine ⟨a, b.reverse, ?_, ha2, by simpa using hb2, ?_, ?_⟩
  · rw [List.append_assoc, ← e]; exact ha1
  · intro c hc
    apply ha3 c
    change (lstrip s).head? = some c
    rw [e]
    cases h : strip s with
    | nil => rw [h] at hc; simp at hc
    | cons d t => rw [h] at hc; simpa using hc
  · intro c hc
    apply hb3 c
    simpa [strip, rstrip, List.getLast?_reverse] using hc

/-- The text after `\n` gets sixteen spaces. -/
def indent16 (t : Str) : Str := replaceChar '\n' (c!"\n" ++ spaces 16) t

theorem indent16_cons_nl (t : Str) : indent16 ('\n' :: t) = '\n' :: (spaces 16 ++ indent16 t) := rfl

theorem indent16_cons {c : Char} (h : c ≠ '\n') (t : Str) : indent16 (c :: t) = c :: indent16 t := by
  simp [indent16, replaceChar, h]

theorem indent_eq (s : Str) :
    reqifIndentXhtmlString s = '\n' :: (spaces 16 ++ indent16 (strip s)) ++ '\n' :: spaces 14 := by
  simp [reqifIndentXhtmlString, indent16, replaceChar]

theorem indent16_lines (t : Str) :
    spaces 16 ++ indent16 t = joinLines ((lines t).map (spaces 16 ++ ·)) := by
  have key : ∀ t : Str, ∀ l ls, lines t = l :: ls →
      indent16 t = joinLines (l :: ls.map (spaces 16 ++ ·)) := by
    intro t
    induction t with
    | nil => intro l ls h; simp [lines] at h; obtain ⟨rfl, rfl⟩ := h; rfl
    | cons c t ih =>
      intro l ls h
      by_cases hc : c = '\n'
      · subst hc
        simp only [lines, if_true, List.cons.injEq] at h
        obtain ⟨rfl, h2⟩ := h
        rw [indent16_cons_nl]
        cases hl : lines t with
        | nil => exfalso; cases t <;> simp [lines] at hl; split at hl <;> (try split at hl) <;> simp at hl
        | cons l2 ls2 =>
          rw [ih l2 ls2 hl, ← h2, hl]
          cases ls2 <;> simp [joinLines]
      · rw [indent16_cons hc]
        simp only [lines, if_neg hc] at h
        cases hl : lines t with
        | nil => exfalso; cases t <;> simp [lines] at hl; split at hl <;> (try split at hl) <;> simp at hl
        | cons l2 ls2 =>
          rw [hl] at h
          simp only [List.cons.injEq] at h
          obtain ⟨rfl, rfl⟩ := h
          rw [ih l2 ls2 hl]
          cases ls2 <;> simp [joinLines]
  cases hl : lines t with
  | nil => exfalso; cases t <;> simp [lines] at hl; split at hl <;> (try split at hl) <;> simp at hl
  | cons l ls =>
    rw [key t l ls hl]
    cases ls <;> simp [joinLines]

/-- A run of spaces at the front of the indented text was there before. -/
theorem prefix_indent16 (k : Nat) (t r : Str) (h : List.replicate k ' ' <+: indent16 t ++ '\n' :: r) :
    List.replicate k ' ' <+: t := by
  induction t generalizing k with
  | nil =>
    cases k with
    | zero => simp
    | succ k => simp [indent16, replaceChar, List.replicate_succ] at h
  | cons c t ih =>
    cases k with
    | zero => simp
    | succ k =>
      by_cases hc : c = '\n'
      · subst hc
        rw [indent16_cons_nl, List.replicate_succ, List.cons_append, List.cons_prefix_cons] at h
        exact absurd h.1 (by decide)
      · rw [indent16_cons hc, List.replicate_succ, List.cons_append, List.cons_prefix_cons] at h
        rw [List.replicate_succ, List.cons_prefix_cons]
        exact ⟨h.1, ih k h.2⟩

theorem replaceStrGo_skip (old new a s : Str) : replaceStrGo old new a.length (a ++ s) = replaceStrGo old new 0 s := by
  induction a with
  | nil => rfl
  | cons c a ih => simp [replaceStrGo, ih]

theorem replaceStrGo_match {old : Str} (h : old ≠ []) (new s : Str) :
    replaceStrGo old new 0 (old ++ s) = new ++ replaceStrGo old new 0 s := by
  cases old with
  | nil => exact absurd rfl h
  | cons c old =>
    rw [List.cons_append, replaceStrGo, if_pos]
    · have := replaceStrGo_skip (c :: old) new old s
      simpa using this
    · rw [List.isPrefixOf_iff_prefix]; exact ⟨s, by simp⟩

theorem indent16_spaces (k : Nat) (t : Str) : indent16 (List.replicate k ' ' ++ t) = List.replicate k ' ' ++ indent16 t := by
  induction k with
  | zero => rfl
  | succ k ih => simp only [List.replicate_succ, List.cons_append]; rw [indent16_cons (by decide), ih]

/-- Removing the runs of sixteen spaces from the indented text: a text comes
back that is shorter exactly when the original had such a run. -/
theorem unindent_core (n : Nat) (t : Str) (hn : t.length ≤ n) :
    ∃ y, replaceStrGo (spaces 16) [] 0 (indent16 t ++ '\n' :: spaces 14) = y ++ '\n' :: spaces 14 ∧
      (NoSpaceRun 16 t → y = t) ∧ (¬ NoSpaceRun 16 t → y.length < t.length) := by
  have le_of : ∀ (y t : Str), (NoSpaceRun 16 t → y = t) → (¬ NoSpaceRun 16 t → y.length < t.length) →
      y.length ≤ t.length := by
    intro y t h1 h2
    by_cases h : NoSpaceRun 16 t
    · rw [h1 h]; exact Nat.le_refl _
    · exact Nat.le_of_lt (h2 h)
  induction n generalizing t with
  | zero =>
    have : t = [] := List.length_eq_zero_iff.1 (by omega)
    subst this
    exact ⟨[], by decide, fun _ => rfl, fun h => absurd (by intro a b h; simp at h) h⟩
  | succ n ih =>
    by_cases hp : List.replicate 16 ' ' <+: t
    · obtain ⟨t', rfl⟩ := hp
      simp only [List.length_append, List.length_replicate] at hn
      obtain ⟨y, h1, h2, h3⟩ := ih t' (by omega)
      refine ⟨y, ?_, ?_, ?_⟩
      · rw [indent16_spaces, List.append_assoc]
        change replaceStrGo (spaces 16) [] 0 (spaces 16 ++ _) = _
        rw [replaceStrGo_match (by decide)]
        simpa using h1
      · intro h; exact absurd (by simp) (h [] t')
      · intro _
        have := le_of y t' h2 h3
        simp; omega
    · cases t with
      | nil => exact ⟨[], by decide, fun _ => rfl, fun h => absurd (by intro a b h; simp at h) h⟩
      | cons c t =>
        simp only [List.length_cons] at hn
        obtain ⟨y, h1, h2, h3⟩ := ih t (by omega)
        have tailRun : NoSpaceRun 16 (c :: t) ↔ NoSpaceRun 16 t := by
          constructor
          · intro h a b hab
            exact h (c :: a) b (by rw [hab]; simp)
          · intro h a b hab
            cases a with
            | nil => exact hp ⟨b, by simpa using hab.symm⟩
            | cons d a => simp at hab; exact h a b (by simpa using hab.2)
        have step1 : replaceStrGo (spaces 16) [] 0 (indent16 (c :: t) ++ '\n' :: spaces 14) =
            c :: replaceStrGo (spaces 16) [] 0 (indent16 t ++ '\n' :: spaces 14) := by
          by_cases hc : c = '\n'
          · subst hc
            rw [indent16_cons_nl, List.cons_append, replaceStrGo, if_neg (by simp [spaces, List.replicate_succ]), List.append_assoc,
              replaceStrGo_match (by decide)]
            rfl
          · rw [indent16_cons hc, List.cons_append, replaceStrGo, if_neg]
            rw [List.isPrefixOf_iff_prefix]
            intro h
            apply hp
            apply prefix_indent16 16 (c :: t) (spaces 14)
            rw [indent16_cons hc]; exact h
        refine ⟨c :: y, ?_, ?_, ?_⟩
        · rw [step1, h1]; rfl
        · intro h; rw [h2 (tailRun.1 h)]
        · intro h
          have := h3 (fun h' => h (tailRun.2 h'))
          simp; omega

theorem strip_length_le (s : Str) : (strip s).length ≤ s.length := by
  obtain ⟨a, b, h, _⟩ := stripped_strip s
  have := congrArg List.length h
  simp only [List.length_append] at this
  omega

theorem strip_cons_space {c : Char} (h : isPySpace c = true) (s : Str) : strip (c :: s) = strip s := by
  simp [strip, lstrip, h]

theorem strip_append_spaces {b : Str} (h : ∀ c ∈ b, isPySpace c = true) (s : Str) : strip (s ++ b) = strip s := by
  obtain ⟨a, b', h0, h1, h2, h3, h4⟩ := stripped_strip s
  apply strip_of_stripped
  refine ⟨a, b' ++ b, ?_, h1, ?_, h3, h4⟩
  · conv => lhs; rw [h0]
    simp
  · intro c hc
    rcases List.mem_append.1 hc with hc | hc
    · exact h2 c hc
    · exact h c hc

theorem unindent_indent (s : Str) :
    ∃ y, reqifUnindentXhtmlString (reqifIndentXhtmlString s) = strip y ∧
      (NoSpaceRun 16 (strip s) → y = strip s) ∧ (¬ NoSpaceRun 16 (strip s) → y.length < (strip s).length) := by
  obtain ⟨y, h1, h2, h3⟩ := unindent_core _ (strip s) (Nat.le_refl _)
  refine ⟨y, ?_, h2, h3⟩
  unfold reqifUnindentXhtmlString replaceStr
  rw [indent_eq, List.cons_append, replaceStrGo, if_neg (by simp [spaces, List.replicate_succ]), List.append_assoc, replaceStrGo_match (by decide),
    List.nil_append, h1, strip_cons_space (by decide), strip_append_spaces (by decide)]

theorem strip_strip (s : Str) : strip (strip s) = strip s := by
  obtain ⟨a, b', h0, h1, h2, h3, h4⟩ := stripped_strip s
  exact strip_of_stripped ⟨[], [], by simp, by simp, by simp, h3, h4⟩

end ReqIF
