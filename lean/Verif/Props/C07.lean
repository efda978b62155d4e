import Verif.Spec.Datetime
/-!
# C07: formatted timestamps
-/
namespace ReqIF
open Spec

theorem digits_length (w n : Nat) : (digits w n).length = w := by
  induction w generalizing n with
  | zero => rfl
  | succ w ih => simp [digits, ih]

theorem digits_zero (w : Nat) : digits w 0 = List.replicate w '0' := by
  induction w with
  | zero => rfl
  | succ w ih => rw [digits, Nat.zero_div, ih, List.replicate_succ']; rfl

/-- Zero-padding a number below `10^w` gives its last `w` digits. -/
theorem padDec_eq (w n : Nat) (hw : 0 < w) (h : n < 10 ^ w) : padDec w n = digits w n := by
  induction w generalizing n with
  | zero => cases hw
  | succ w ih =>
    unfold padDec
    dsimp only
    by_cases hn : n < 10
    · rw [Nat.toDigits_of_lt_base hn]
      have h0 : n / 10 = 0 := Nat.div_eq_of_lt hn
      rw [digits, h0, digits_zero, digit, Nat.mod_eq_of_lt hn]
      simp
    · have hn : 10 ≤ n := Nat.le_of_not_lt hn
      rw [Nat.toDigits_of_base_le (by decide) hn]
      have hw : 0 < w := by
        rcases w with _ | w
        · simp at h; omega
        · omega
      have hlt : n / 10 < 10 ^ w := by
        rw [Nat.div_lt_iff_lt_mul (by decide)]
        rw [Nat.pow_succ] at h
        exact h
      rw [digits, ← ih (n / 10) hw hlt]
      unfold padDec digit
      simp

theorem toDigits4 (n : Nat) (h1 : 1000 ≤ n) (h2 : n ≤ 9999) : Nat.toDigits 10 n = digits 4 n := by
  rw [← padDec_eq 4 n (by decide) (by omega)]
  unfold padDec
  have hlen : (Nat.toDigits 10 n).length = 4 := by
    have a : ¬ (Nat.toDigits 10 n).length ≤ 3 := by
      rw [Nat.length_toDigits_le_iff (by decide) (by decide)]; omega
    have b : (Nat.toDigits 10 n).length ≤ 4 := by
      rw [Nat.length_toDigits_le_iff (by decide) (by decide)]; omega
    omega
  simp [hlen]

/-- Six digits are three digits and three digits. -/
theorem digits_six (n : Nat) : digits 6 n = digits 3 (n / 1000) ++ digits 3 n := by
  simp only [digits, List.append_assoc, Nat.div_div_eq_div_mul]
  rfl

theorem take_exact {α : Type} (a b : List α) (n : Nat) (h : a.length = n) : (a ++ b).take n = a := by
  subst h; simp

theorem lastN_append (a b : Str) : lastN b.length (a ++ b) = b := by
  unfold lastN
  simp

/-- The first 23 characters of every printed datetime. -/
def front (d : DateTime) : Str :=
  digits 4 d.year ++ c!"-" ++ digits 2 d.month ++ c!"-" ++ digits 2 d.day ++ c!"T" ++
  digits 2 d.hour ++ c!":" ++ digits 2 d.minute ++ c!":" ++ digits 2 d.second ++ c!"." ++
  digits 3 (d.microsecond / 1000)

theorem front_length (d : DateTime) : (front d).length = 23 := by
  simp [front, digits_length]

theorem strftime_eq (d : DateTime) (h : d.valid) (hy : 1000 ≤ d.year) :
    strftimeReqif d = front d ++ digits 3 d.microsecond ++ formatZ d.offset := by
  obtain ⟨_, h2, _, h4, _, h6, h7, h8, h9, h10, _⟩ := h
  unfold strftimeReqif front
  rw [toDigits4 _ hy h2, padDec_eq 2 _ (by decide) (by omega), padDec_eq 2 _ (by decide) (by omega),
    padDec_eq 2 _ (by decide) (by omega), padDec_eq 2 _ (by decide) (by omega),
    padDec_eq 2 _ (by decide) (by omega), padDec_eq 6 _ (by decide) (by omega), digits_six]
  simp only [List.append_assoc]

/-- The result in terms of the last five characters of the printed datetime. -/
theorem format_eq (d : DateTime) (h : d.valid) (hy : 1000 ≤ d.year) :
    datetimeFormat d = front d ++ ((lastN 5 (strftimeReqif d)).take 3 ++ c!":" ++ lastN 2 (strftimeReqif d)) := by
  have hs := strftime_eq d h hy
  have hl : (lastN 5 (strftimeReqif d)).length = 5 := by
    unfold lastN
    rw [List.length_drop]
    have : 23 ≤ (strftimeReqif d).length := by
      rw [hs]; simp only [List.length_append, front_length, digits_length]; omega
    omega
  unfold datetimeFormat
  dsimp only
  rw [hl, hs, List.append_assoc (front d), take_exact _ _ 23 (front_length d)]
  simp only [List.append_assoc]

/-- **C07.** An aware datetime with a four-digit year and an offset of whole minutes is
printed in the ReqIF shape, with every field in its place and the microseconds cut
to milliseconds. -/
theorem C07_format (d : DateTime) (h : d.valid) (hy : 1000 ≤ d.year) (minutes : Int)
    (ho : d.offset = some (minutes * 60000000)) :
    datetimeFormat d =
      timestamp d.year d.month d.day d.hour d.minute d.second (d.microsecond / 1000) minutes := by
  have hb := h.2.2.2.2.2.2.2.2.2.2 _ ho
  have habs : (minutes * 60000000).natAbs = minutes.natAbs * 60000000 := by
    rw [Int.natAbs_mul]; rfl
  have hz : formatZ d.offset = (if minutes < 0 then c!"-" else c!"+") ++
      digits 2 (minutes.natAbs / 60) ++ digits 2 (minutes.natAbs % 60) := by
    rw [ho]
    unfold formatZ
    dsimp only
    rw [habs]
    have e1 : minutes.natAbs * 60000000 % 1000000 = 0 := by omega
    have e2 : minutes.natAbs * 60000000 / 1000000 % 60 = 0 := by omega
    have e3 : minutes.natAbs * 60000000 / 3600000000 = minutes.natAbs / 60 := by omega
    have e4 : minutes.natAbs * 60000000 / 60000000 % 60 = minutes.natAbs % 60 := by omega
    rw [e1, e2, e3, e4, padDec_eq 2 _ (by decide) (by omega), padDec_eq 2 _ (by decide) (by omega)]
    have hlt : (minutes * 60000000 < 0) ↔ minutes < 0 := by omega
    simp only [hlt, and_self, if_true, List.append_nil]
  have hs : strftimeReqif d = (front d ++ digits 3 d.microsecond) ++
      ((if minutes < 0 then c!"-" else c!"+") ++
      digits 2 (minutes.natAbs / 60) ++ digits 2 (minutes.natAbs % 60)) := by
    rw [strftime_eq d h hy, hz]
  have hsl : ((if minutes < 0 then c!"-" else c!"+") : Str).length = 1 := by split <;> rfl
  have h5 : lastN 5 (strftimeReqif d) = (if minutes < 0 then c!"-" else c!"+") ++
      digits 2 (minutes.natAbs / 60) ++ digits 2 (minutes.natAbs % 60) := by
    rw [hs]
    have := lastN_append (front d ++ digits 3 d.microsecond) ((if minutes < 0 then c!"-" else c!"+") ++
      digits 2 (minutes.natAbs / 60) ++ digits 2 (minutes.natAbs % 60))
    simpa only [List.length_append, hsl, digits_length] using this
  have h2 : lastN 2 (strftimeReqif d) = digits 2 (minutes.natAbs % 60) := by
    rw [hs]
    have := lastN_append (front d ++ digits 3 d.microsecond ++ ((if minutes < 0 then c!"-" else c!"+") ++
      digits 2 (minutes.natAbs / 60))) (digits 2 (minutes.natAbs % 60))
    simpa only [List.length_append, digits_length, List.append_assoc] using this
  rw [format_eq d h hy, h5, h2, take_exact _ _ 3 (by simp only [List.length_append, hsl, digits_length])]
  unfold timestamp front
  simp only [List.append_assoc]

theorem digits_isDigit (w n : Nat) : ∀ c ∈ digits w n, c.isDigit = true := by
  induction w generalizing n with
  | zero => intro c hc; cases hc
  | succ w ih =>
    intro c hc
    rw [digits, List.mem_append, List.mem_singleton] at hc
    rcases hc with hc | rfl
    · exact ih _ c hc
    · unfold digit
      rw [Nat.isDigit_digitChar]
      simp only [decide_eq_true_eq]
      omega

/-- The fifth character from the end, whatever stands before and after it. -/
theorem fifth_from_end (a x y : Str) (hy : y.length ≤ 4) (hx : 5 ≤ (x ++ y).length)
    (hd : ∀ c ∈ x, c.isDigit = true) : ∃ c, (lastN 5 (a ++ (x ++ y)))[0]? = some c ∧ c.isDigit = true := by
  have e5 : lastN 5 (a ++ (x ++ y)) = (x ++ y).drop ((x ++ y).length - 5) := by
    unfold lastN
    rw [List.length_append, List.drop_append, List.drop_of_length_le (by omega), List.nil_append]
    congr 1
    omega
  have hlen : (x ++ y).length = x.length + y.length := List.length_append
  rw [e5, List.getElem?_drop, List.getElem?_append_left (by omega)]
  exact ⟨_, List.getElem?_eq_getElem (by omega), hd _ (List.getElem_mem _)⟩

/-- **C07**, the other datetimes: where the sign of the offset belongs there is a digit. -/
theorem C07_other_shape (d : DateTime) (h : d.valid) (hy : 1000 ≤ d.year)
    (ho : ∀ m : Int, d.offset ≠ some (m * 60000000)) :
    ∃ c, (datetimeFormat d)[23]? = some c ∧ c.isDigit = true := by
  have hget : (datetimeFormat d)[23]? = (lastN 5 (strftimeReqif d))[0]? := by
    rw [format_eq d h hy, List.getElem?_append_right (by rw [front_length]; omega), front_length]
    have hl : (lastN 5 (strftimeReqif d)).length = 5 := by
      unfold lastN
      rw [List.length_drop]
      have : 23 ≤ (strftimeReqif d).length := by
        rw [strftime_eq d h hy]; simp only [List.length_append, front_length, digits_length]; omega
      omega
    revert hl
    generalize lastN 5 (strftimeReqif d) = l
    intro hl
    cases l with
    | nil => cases hl
    | cons a l => rfl
  rw [hget]
  have key : ∀ a x y : Str, strftimeReqif d = a ++ (x ++ y) → y.length ≤ 4 → 5 ≤ (x ++ y).length →
      (∀ c ∈ x, c.isDigit = true) → ∃ c, (lastN 5 (strftimeReqif d))[0]? = some c ∧ c.isDigit = true := by
    intro a x y e
    rw [e]
    exact fifth_from_end a x y
  have hs := strftime_eq d h hy
  cases hz : d.offset with
  | none =>
    rw [hz] at hs
    refine key (digits 4 d.year ++ c!"-" ++ digits 2 d.month ++ c!"-" ++ digits 2 d.day ++ c!"T" ++
      digits 2 d.hour ++ c!":" ++ digits 2 d.minute ++ c!":" ++ digits 2 d.second ++ c!".")
      (digits 3 (d.microsecond / 1000) ++ digits 3 d.microsecond) [] ?_ (by simp) (by simp [digits_length]) ?_
    · rw [hs]; simp only [front, formatZ, List.append_assoc, List.append_nil]
    · intro c hc
      rw [List.mem_append] at hc
      rcases hc with hc | hc
      · exact digits_isDigit _ _ c hc
      · exact digits_isDigit _ _ c hc
  | some o =>
    have hb := h.2.2.2.2.2.2.2.2.2.2 _ hz
    have hne : ¬ (o.natAbs / 1000000 % 60 = 0 ∧ o.natAbs % 1000000 = 0) := by
      rintro ⟨h1, h2⟩
      have e : o = o / 60000000 * 60000000 := by omega
      exact ho (o / 60000000) (hz.trans (congrArg some e))
    rw [hz] at hs
    unfold formatZ at hs
    dsimp only at hs
    rw [if_neg hne, padDec_eq 2 _ (by decide) (by omega), padDec_eq 2 _ (by decide) (by omega),
      padDec_eq 2 _ (by decide) (by omega), padDec_eq 6 _ (by decide) (by omega)] at hs
    by_cases hu : o.natAbs % 1000000 = 0
    · rw [if_pos hu] at hs
      refine key (front d ++ digits 3 d.microsecond ++ (if o < 0 then c!"-" else c!"+"))
        (digits 2 (o.natAbs / 3600000000) ++ digits 2 (o.natAbs / 60000000 % 60) ++
          digits 2 (o.natAbs / 1000000 % 60)) [] ?_ (by simp) (by simp [digits_length]) ?_
      · rw [hs]; simp only [List.append_assoc, List.append_nil]
      · intro c hc
        simp only [List.mem_append] at hc
        rcases hc with (hc | hc) | hc <;> exact digits_isDigit _ _ c hc
    · rw [if_neg hu] at hs
      refine key (front d ++ digits 3 d.microsecond ++ (if o < 0 then c!"-" else c!"+") ++
        digits 2 (o.natAbs / 3600000000) ++ digits 2 (o.natAbs / 60000000 % 60) ++
          digits 2 (o.natAbs / 1000000 % 60) ++ c!".")
        (digits 6 (o.natAbs % 1000000)) [] ?_ (by simp) (by simp [digits_length]) ?_
      · rw [hs]; simp only [List.append_assoc, List.append_nil]
      · exact digits_isDigit _ _

/-- 2024-06-16 22:39:18.543210, offset +02:00. -/
def someTime : DateTime := ⟨2024, 6, 16, 22, 39, 18, 543210, some 7200000000⟩

example : someTime.valid ∧ someTime.offset = some (120 * 60000000) ∧
    datetimeFormat someTime = c!"2024-06-16T22:39:18.543+02:00" := by
  refine ⟨⟨by decide, by decide, by decide, by decide, by decide, by decide, by decide, by decide, by decide,
    by decide, ?_⟩, rfl, by decide⟩
  intro o h
  cases h
  omega

/-- A naive datetime meets the hypotheses of `C07_other_shape`. -/
example : ({ someTime with offset := none } : DateTime).valid ∧
    (∀ m : Int, ({ someTime with offset := none } : DateTime).offset ≠ some (m * 60000000)) ∧
    datetimeFormat { someTime with offset := none } = c!"2024-06-16T22:39:18.543432:10" := by
  refine ⟨⟨by decide, by decide, by decide, by decide, by decide, by decide, by decide, by decide, by decide,
    by decide, ?_⟩, ?_, by decide⟩
  · intro o h; cases h
  · intro m h; cases h

end ReqIF
