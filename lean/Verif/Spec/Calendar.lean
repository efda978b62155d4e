import Verif.Base.Str
/-!
# The calendar

Days, and milliseconds since the beginning of 1970 in UTC, counted year by year and month by month.
-/
namespace ReqIF.Spec

def leapYear (y : Nat) : Bool := y % 4 == 0 && (y % 100 != 0 || y % 400 == 0)

/-- The length of a month. -/
def monthLength (leap : Bool) : Nat → Nat
  | 1 => 31
  | 2 => if leap then 29 else 28
  | 3 => 31
  | 4 => 30
  | 5 => 31
  | 6 => 30
  | 7 => 31
  | 8 => 31
  | 9 => 30
  | 10 => 31
  | 11 => 30
  | 12 => 31
  | _ => 0

/-- The days of the years 1, 2, … before this one. -/
def daysBeforeYear : Nat → Nat
  | 0 => 0
  | 1 => 0
  | y + 2 => daysBeforeYear (y + 1) + (if leapYear (y + 1) then 366 else 365)

/-- The days of the year before this month. -/
def daysBeforeMonth (leap : Bool) : Nat → Nat
  | 0 => 0
  | m + 1 => daysBeforeMonth leap m + monthLength leap m

/-- A date that exists. -/
def realDate (y m d : Nat) : Prop := 1 ≤ y ∧ 1 ≤ m ∧ m ≤ 12 ∧ 1 ≤ d ∧ d ≤ monthLength (leapYear y) m

/-- The days before a date. -/
def dayNumber (y m d : Nat) : Nat := daysBeforeYear y + daysBeforeMonth (leapYear y) m + (d - 1)

/-- Milliseconds from the beginning of 1970 to this moment on a clock that shows UTC. -/
def millisecondsSince1970 (y m d hour minute second ms : Nat) : Int :=
  ((((dayNumber y m d * 24 + hour) * 60 + minute) * 60 + second) * 1000 + ms : Nat) - (dayNumber 1970 1 1 * 86400000 : Nat)

end ReqIF.Spec
