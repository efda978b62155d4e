import Verif.Model.Now
import Verif.Spec.Calendar
import Verif.Props.C07
/-!
# C70: the timestamp of now denotes the moment the clock shows
-/
namespace ReqIF
open Spec

/-- The days before a year in closed form. -/
theorem daysBeforeYear_closed : ∀ y : Nat, daysBeforeYear (y + 1) + y / 100 = y * 365 + y / 4 + y / 400
  | 0 => rfl
  | y + 1 => by
    have ih := daysBeforeYear_closed y
    rw [daysBeforeYear]
    have hl : leapYear (y + 1) = true ↔ (y + 1) % 4 = 0 ∧ ((y + 1) % 100 ≠ 0 ∨ (y + 1) % 400 = 0) := by
      unfold leapYear
      simp
    by_cases h : leapYear (y + 1) = true
    · rw [if_pos h]
      rw [hl] at h
      omega
    · rw [if_neg h]
      rw [hl] at h
      omega

theorem monthAndDay_all : ∀ leap : Bool, ∀ n, n < (if leap then 366 else 365) →
    1 ≤ (monthAndDay leap n).1 ∧ (monthAndDay leap n).1 ≤ 12 ∧ 1 ≤ (monthAndDay leap n).2 ∧
    (monthAndDay leap n).2 ≤ monthLength leap (monthAndDay leap n).1 ∧
    daysBeforeMonth leap (monthAndDay leap n).1 + ((monthAndDay leap n).2 - 1) = n := by
  decide +kernel

/-- Python's calendar is the calendar: the date of a day exists and has that many days before it. -/
theorem ord2ymd_ok (n : Nat) : realDate (ord2ymd n).1 (ord2ymd n).2.1 (ord2ymd n).2.2 ∧
    dayNumber (ord2ymd n).1 (ord2ymd n).2.1 (ord2ymd n).2.2 = n := by
  unfold ord2ymd
  dsimp only
  generalize h400 : n / 146097 = n400
  generalize hr400 : n % 146097 = r400
  generalize h100 : r400 / 36524 = n100
  generalize hr100 : r400 % 36524 = r100
  generalize h4 : r100 / 1461 = n4
  generalize hr4 : r100 % 1461 = r4
  generalize h1 : r4 / 365 = n1
  generalize hr1 : r4 % 365 = r1
  have b1 : n100 ≤ 4 := by omega
  have b2 : n4 ≤ 24 := by omega
  have b3 : n1 ≤ 4 := by omega
  have b4 : r1 < 365 := by omega
  by_cases hc : n1 = 4 ∨ n100 = 4
  · rw [if_pos hc]
    obtain ⟨Y, hY⟩ : ∃ Y, n400 * 400 + 1 + n100 * 100 + n4 * 4 + n1 - 1 = Y + 1 :=
      ⟨n400 * 400 + n100 * 100 + n4 * 4 + n1 - 1, by omega⟩
    rw [hY]
    have hl : leapYear (Y + 1) = true := by
      unfold leapYear
      simp
      omega
    have hcl := daysBeforeYear_closed Y
    have hd : daysBeforeMonth true 12 = 335 := by decide
    have hm : monthLength true 12 = 31 := by decide
    refine ⟨⟨Nat.le_add_left 1 Y, (by decide : 1 ≤ 12), (by decide : 12 ≤ 12), (by decide : 1 ≤ 31), ?_⟩, ?_⟩
    · dsimp only; rw [hl, hm]; exact Nat.le_refl 31
    · unfold dayNumber
      dsimp only
      rw [hl, hd]
      by_cases hcc : n100 = 4
      · have e1 : r100 = 0 := by omega
        have e2 : n4 = 0 := by omega
        have e3 : n1 = 0 := by omega
        have f1 : Y = 400 * n400 + 399 := by omega
        have f2 : Y / 400 = n400 := by omega
        have f3 : Y / 100 = 4 * n400 + 3 := by omega
        have f4 : Y / 4 = 100 * n400 + 99 := by omega
        rw [f2, f3, f4] at hcl
        omega
      · have e1 : n1 = 4 := by omega
        have e2 : r4 = 1460 := by omega
        have f1 : Y = 400 * n400 + 100 * n100 + 4 * n4 + 3 := by omega
        have f2 : Y / 400 = n400 := by omega
        have f3 : Y / 100 = 4 * n400 + n100 := by omega
        have f4 : Y / 4 = 100 * n400 + 25 * n100 + n4 := by omega
        rw [f2, f3, f4] at hcl
        omega
  · rw [if_neg hc]
    obtain ⟨Y, hY⟩ : ∃ Y, n400 * 400 + 1 + n100 * 100 + n4 * 4 + n1 = Y + 1 :=
      ⟨n400 * 400 + n100 * 100 + n4 * 4 + n1, by omega⟩
    rw [hY]
    have hl : leapYear (Y + 1) = (n1 == 3 && (n4 != 24 || n100 == 3)) := by
      rw [Bool.eq_iff_iff]
      unfold leapYear
      simp
      omega
    dsimp only
    rw [← hl]
    have hcl := daysBeforeYear_closed Y
    have hmd := monthAndDay_all (leapYear (Y + 1)) r1 (by split <;> omega)
    refine ⟨⟨by omega, hmd.1, hmd.2.1, hmd.2.2.1, hmd.2.2.2.1⟩, ?_⟩
    unfold dayNumber
    rw [Nat.add_assoc, hmd.2.2.2.2]
    clear hmd hl
    have f1 : Y = 400 * n400 + 100 * n100 + 4 * n4 + n1 := by omega
    have f2 : Y / 400 = n400 := by omega
    have f3 : Y / 100 = 4 * n400 + n100 := by omega
    have f4 : Y / 4 = 100 * n400 + 25 * n100 + n4 := by omega
    rw [f2, f3, f4] at hcl
    omega

theorem daysBeforeYear_mono : ∀ {a b : Nat}, a ≤ b → daysBeforeYear (a + 1) ≤ daysBeforeYear (b + 1) := by
  intro a b h
  induction h with
  | refl => exact Nat.le_refl _
  | step _ ih =>
    refine Nat.le_trans ih ?_
    rw [daysBeforeYear]
    exact Nat.le_add_right _ _

theorem epoch_eq : dayNumber 1970 1 1 = epochDays := by
  have h1 : daysBeforeYear 1970 + 1969 / 100 = 1969 * 365 + 1969 / 4 + 1969 / 400 := daysBeforeYear_closed 1969
  have h2 : daysBeforeMonth (leapYear 1970) 1 = 0 := by decide
  unfold dayNumber epochDays
  rw [h2]
  omega

/-- The first day of a year and later are not before that year. -/
theorem year_ge {n Y : Nat} (h : daysBeforeYear (Y + 1) ≤ n) : Y + 1 ≤ (ord2ymd n).1 := by
  obtain ⟨⟨h1, h2, h3, h4, h5⟩, h6⟩ := ord2ymd_ok n
  generalize (ord2ymd n).1 = y at *
  generalize (ord2ymd n).2.1 = m at *
  generalize (ord2ymd n).2.2 = d at *
  apply Classical.byContradiction
  intro hlt
  have hlt : y ≤ Y := by omega
  obtain ⟨z, rfl⟩ : ∃ z, y = z + 1 := ⟨y - 1, by omega⟩
  have hyear : daysBeforeMonth (leapYear (z + 1)) m + (d - 1) < (if leapYear (z + 1) then 366 else 365) := by
    have key : ∀ leap : Bool, ∀ m, m < 13 → daysBeforeMonth leap m + monthLength leap m ≤ (if leap then 366 else 365) := by decide
    have := key (leapYear (z + 1)) m (by omega)
    omega
  have hnext : daysBeforeYear (z + 2) ≤ daysBeforeYear (Y + 1) := daysBeforeYear_mono (a := z + 1) hlt
  rw [daysBeforeYear] at hnext
  unfold dayNumber at h6
  omega

/-- C07 for a date that exists. -/
theorem format_fields (y mo d ho mi se us : Nat) (minutes : Int) (hr : realDate y mo d) (hy : 1000 ≤ y) (hy9 : y ≤ 9999)
    (h1 : ho < 24) (h2 : mi < 60) (h3 : se < 60) (h4 : us < 1000000) (hm : -86400 < minutes * 60 ∧ minutes * 60 < 86400) :
    datetimeFormat ⟨y, mo, d, ho, mi, se, us, some (minutes * 60 * 1000000)⟩ = timestamp y mo d ho mi se (us / 1000) minutes := by
  have hml : ∀ leap m, monthLength leap m ≤ 31 := by
    intro leap m
    unfold monthLength
    split <;> first | omega | (split <;> omega)
  have e : minutes * 60 * 1000000 = minutes * 60000000 := by omega
  refine C07_format _ ⟨hr.1, hy9, hr.2.1, hr.2.2.1, hr.2.2.2.1, Nat.le_trans hr.2.2.2.2 (hml _ _), h1, h2, h3, h4, ?_⟩ hy minutes
    (by rw [e])
  intro o ho2
  injection ho2 with ho2
  omega

/-- **C70.** The timestamp of now: the date exists, the fields are in range, the offset is the one
chosen, and the moment denoted is the clock's, cut to milliseconds, whichever offset is chosen. -/
theorem C70_now (isDst timezone altzone clock : Int) (s : Str) (h : createDatetimeNow isDst timezone altzone clock = .ok s)
    (minutes : Int) (hm : utcOffset isDst timezone altzone = minutes * 60)
    (hy : millisecondsSince1970 1000 1 1 0 0 0 0 ≤ clock / 1000 + minutes * 60000) :
    ∃ y mo d ho mi se ms : Nat, realDate y mo d ∧ y ≤ 9999 ∧ ho < 24 ∧ mi < 60 ∧ se < 60 ∧ ms < 1000 ∧
      s = timestamp y mo d ho mi se ms minutes ∧
      millisecondsSince1970 y mo d ho mi se ms - minutes * 60000 = clock / 1000 := by
  unfold createDatetimeNow at h
  dsimp only at h
  rw [hm] at h
  by_cases ho : ¬ (-86400 < minutes * 60 ∧ minutes * 60 < 86400)
  · rw [if_pos ho] at h; cases h
  rw [if_neg ho] at h
  have ho : -86400 < minutes * 60 ∧ minutes * 60 < 86400 := Classical.not_not.1 ho
  unfold datetimeNow at h
  dsimp only at h
  unfold millisecondsSince1970 at hy ⊢
  rw [epoch_eq] at hy ⊢
  unfold epochDays at h hy ⊢
  by_cases hn : clock + minutes * 60 * 1000000 + ((719162 : Nat) : Int) * 86400000000 < 0
  · rw [if_pos hn] at h; cases h
  rw [if_neg hn] at h
  generalize ht : (clock + minutes * 60 * 1000000 + ((719162 : Nat) : Int) * 86400000000).toNat = t at h
  obtain ⟨hr, hd⟩ := ord2ymd_ok (t / 86400000000)
  have hyear : 1000 ≤ (ord2ymd (t / 86400000000)).1 := by
    refine year_ge (Y := 999) ?_
    have e1 : dayNumber 1000 1 1 = daysBeforeYear 1000 := by
      have : daysBeforeMonth (leapYear 1000) 1 = 0 := by decide
      unfold dayNumber
      rw [this]
      simp only [Nat.sub_self, Nat.add_zero]
    rw [e1] at hy
    show daysBeforeYear 1000 ≤ _
    omega
  generalize (ord2ymd (t / 86400000000)) = ymd at *
  by_cases hbig : ymd.1 > 9999
  · rw [if_pos hbig] at h; cases h
  rw [if_neg hbig] at h
  injection h with h
  have hv := format_fields ymd.1 ymd.2.1 ymd.2.2 (t / 3600000000 % 24) (t / 60000000 % 60) (t / 1000000 % 60) (t % 1000000)
    minutes hr hyear (by omega) (by omega) (by omega) (by omega) (by omega) ho
  rw [← h]
  refine ⟨ymd.1, ymd.2.1, ymd.2.2, t / 3600000000 % 24, t / 60000000 % 60, t / 1000000 % 60, t % 1000000 / 1000,
    hr, by omega, by omega, by omega, by omega, by omega, hv, ?_⟩
  rw [hd]
  omega

/-- **C70**, when it fails: the offset is a day or more, or the local year is before 1 or after 9999. -/
theorem C70_fails (isDst timezone altzone clock : Int) :
    (∃ s, createDatetimeNow isDst timezone altzone clock = .ok s) ↔
      (utcOffset isDst timezone altzone).natAbs < 86400 ∧
      millisecondsSince1970 1 1 1 0 0 0 0 * 1000 ≤ clock + utcOffset isDst timezone altzone * 1000000 ∧
      clock + utcOffset isDst timezone altzone * 1000000 < millisecondsSince1970 10000 1 1 0 0 0 0 * 1000 := by
  unfold createDatetimeNow
  dsimp only
  generalize utcOffset isDst timezone altzone = off
  unfold millisecondsSince1970
  rw [epoch_eq]
  have e1 : dayNumber 1 1 1 = 0 := by decide
  have e2 : dayNumber 10000 1 1 = daysBeforeYear 10000 := by
    have : daysBeforeMonth (leapYear 10000) 1 = 0 := by decide
    unfold dayNumber
    rw [this]
    simp only [Nat.sub_self, Nat.add_zero]
  have e3 : daysBeforeYear 10000 + 9999 / 100 = 9999 * 365 + 9999 / 4 + 9999 / 400 := daysBeforeYear_closed 9999
  rw [e1, e2]
  by_cases ho : ¬ (-86400 < off ∧ off < 86400)
  · rw [if_pos ho]
    constructor
    · rintro ⟨s, hs⟩; cases hs
    · rintro ⟨h, -⟩
      exact absurd ⟨by omega, by omega⟩ ho
  rw [if_neg ho]
  have ho : -86400 < off ∧ off < 86400 := Classical.not_not.1 ho
  unfold datetimeNow epochDays
  dsimp only
  by_cases hn : clock + off * 1000000 + ((719162 : Nat) : Int) * 86400000000 < 0
  · rw [if_pos hn]
    constructor
    · rintro ⟨s, hs⟩; cases hs
    · rintro ⟨-, h, -⟩
      omega
  rw [if_neg hn]
  generalize ht : (clock + off * 1000000 + ((719162 : Nat) : Int) * 86400000000).toNat = t
  have hyear : (ord2ymd (t / 86400000000)).1 > 9999 ↔ daysBeforeYear 10000 ≤ t / 86400000000 := by
    constructor
    · intro h
      obtain ⟨-, hd⟩ := ord2ymd_ok (t / 86400000000)
      obtain ⟨z, hz⟩ : ∃ z, (ord2ymd (t / 86400000000)).1 = z + 1 := ⟨(ord2ymd (t / 86400000000)).1 - 1, by omega⟩
      have : daysBeforeYear (9999 + 1) ≤ daysBeforeYear (z + 1) := daysBeforeYear_mono (by omega)
      rw [← hd, hz]
      unfold dayNumber
      exact Nat.le_trans this (by omega)
    · intro h
      exact year_ge (Y := 9999) h
  by_cases hb : (ord2ymd (t / 86400000000)).1 > 9999
  · rw [if_pos hb]
    rw [hyear] at hb
    constructor
    · rintro ⟨s, hs⟩; cases hs
    · rintro ⟨-, -, h⟩
      omega
  · rw [if_neg hb]
    rw [hyear] at hb
    constructor
    · rintro -
      exact ⟨by omega, by omega, by omega⟩
    · rintro -
      exact ⟨_, rfl⟩

/-- **C70**, the offset: that of standard time if summer time is not in force, else that of summer time. -/
theorem C70_offset (timezone altzone : Int) : utcOffset 0 timezone altzone = -timezone ∧ utcOffset 1 timezone altzone = -altzone :=
  ⟨rfl, rfl⟩

/-- Non-vacuity: one second before a leap day in the zone one hour east of Greenwich. -/
example : createDatetimeNow 0 (-3600) (-7200) 1709161199999999 = .ok c!"2024-02-28T23:59:59.999+01:00" ∧
    utcOffset 0 (-3600) (-7200) = 60 * 60 := ⟨rfl, by decide⟩

example : createDatetimeNow 0 (-3600) (-7200) 1709161200000000 = .ok c!"2024-02-29T00:00:00.000+01:00" := rfl

/-- **C70**, the opposite: in a zone whose offset has seconds the timestamp has no sign. -/
theorem C70_seconds : createDatetimeNow 0 (-1172) (-1172) 0 = .ok c!"1970-01-01T00:19:32.000019:32" := rfl

/-- **C70**, the opposite: if the system does not know whether summer time is in force, the offset is
that of summer time. -/
theorem C70_unknown (timezone altzone : Int) : utcOffset (-1) timezone altzone = -altzone := rfl

end ReqIF
