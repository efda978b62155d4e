import Verif.Base.Str
import Verif.Xml.Decode
/-! Lemmas on text. -/
namespace ReqIF

theorem replaceChar_eq_flatMap (c : Char) (new s : Str) :
    replaceChar c new s = s.flatMap (fun d => if d = c then new else [d]) := by
  induction s with
  | nil => rfl
  | cons d s ih => simp only [replaceChar, List.flatMap_cons, ih]; split <;> rfl

theorem replaceChar_append (c : Char) (new a b : Str) :
    replaceChar c new (a ++ b) = replaceChar c new a ++ replaceChar c new b := by
  simp [replaceChar_eq_flatMap]

theorem replaceChar_of_notMem {c : Char} {new s : Str} (h : c ∉ s) : replaceChar c new s = s := by
  induction s with
  | nil => rfl
  | cons d s ih =>
    simp only [List.mem_cons, not_or] at h
    simp [replaceChar, Ne.symm h.1, ih h.2]

/-- A string without carriage return is not changed by line-end normalisation. -/
theorem normEol_of_noCr {s : Str} (h : '\r' ∉ s) : normEol s = s := by
  fun_induction normEol s with
  | case1 => rfl
  | case2 s ih => simp at h
  | case3 c s hx ih =>
    simp only [List.mem_cons, not_or] at h
    rw [ih h.2, if_neg (Ne.symm h.1)]

theorem normEol_cons_of_ne {c : Char} (h : c ≠ '\r') (s : Str) : normEol (c :: s) = c :: normEol s := by
  rw [normEol]
  · simp [h]
  · intro s' h1 h2; exact absurd h1 h

theorem normEol_append_left {a : Str} (h : '\r' ∉ a) (b : Str) : normEol (a ++ b) = a ++ normEol b := by
  induction a with
  | nil => rfl
  | cons c a ih =>
    simp only [List.mem_cons, not_or] at h
    rw [List.cons_append, normEol_cons_of_ne (Ne.symm h.1), ih h.2, List.cons_append]

/-- Normalisation of the first part is not affected by what follows, unless that starts with a line feed. -/
theorem normEol_append {b : Str} (a : Str) (h : b.head? ≠ some '\n') : normEol (a ++ b) = normEol a ++ normEol b := by
  fun_induction normEol a with
  | case1 => rfl
  | case2 s ih => simp [normEol, ih]
  | case3 c s hx ih =>
    rw [List.cons_append, normEol]
    · rw [ih]; rfl
    · intro s' h1 h2
      subst h1
      cases s with
      | nil => simp at h2; subst h2; simp at h
      | cons d s => simp at h2; exact hx s rfl (by rw [h2.1])

end ReqIF
