import Verif.Model.Datetime
import Verif.Base.Err
/-!
# `create_reqif_datetime_now`

The clock is a parameter: microseconds since the beginning of 1970 in UTC.  `datetime.now(tz)`
is modelled by Python's own calendar (`_ord2ymd` of `Lib/_pydatetime.py`).
-/
namespace ReqIF

/-- `_DAYS_BEFORE_MONTH` of `datetime` -/
def daysBeforeMonthTable : List Nat := [0, 0, 31, 59, 90, 120, 151, 181, 212, 243, 273, 304, 334]

/-- `_DAYS_IN_MONTH` of `datetime` -/
def daysInMonthTable : List Nat := [0, 31, 28, 31, 30, 31, 30, 31, 31, 30, 31, 30, 31]

/-- The end of `_ord2ymd`: month and day of the day `n` (from 0) of a year. -/
def monthAndDay (leap : Bool) (n : Nat) : Nat × Nat :=
  let month := (n + 50) / 32
  let preceding := daysBeforeMonthTable.getD month 0 + (if month > 2 ∧ leap = true then 1 else 0)
  if preceding > n then
    let month' := month - 1
    let preceding' := preceding - (daysInMonthTable.getD month' 0 + (if month' = 2 ∧ leap = true then 1 else 0))
    (month', n - preceding' + 1)
  else (month, n - preceding + 1)

/-- `_ord2ymd`; `n` counts from 0. -/
def ord2ymd (n : Nat) : Nat × Nat × Nat :=
  let n400 := n / 146097
  let r400 := n % 146097
  let n100 := r400 / 36524
  let r100 := r400 % 36524
  let n4 := r100 / 1461
  let r4 := r100 % 1461
  let n1 := r4 / 365
  let r1 := r4 % 365
  let year := n400 * 400 + 1 + n100 * 100 + n4 * 4 + n1
  if n1 = 4 ∨ n100 = 4 then (year - 1, 12, 31)
  else
    let leap := n1 == 3 && (n4 != 24 || n100 == 3)
    (year, monthAndDay leap r1)

/-- The days before 1970-01-01. -/
def epochDays : Nat := 719162

/-- `datetime.now(timezone(offset))` when the clock shows `clock` microseconds; the offset is in
seconds.  Years outside 1 to 9999 are an error. -/
def datetimeNow (clock : Int) (offset : Int) : Py DateTime :=
  let us := clock + offset * 1000000 + epochDays * 86400000000
  if us < 0 then .error .valueError
  else
    let t := us.toNat
    let ymd := ord2ymd (t / 86400000000)
    if ymd.1 > 9999 then .error .valueError
    else .ok {
      year := ymd.1, month := ymd.2.1, day := ymd.2.2
      hour := t / 3600000000 % 24, minute := t / 60000000 % 60, second := t / 1000000 % 60
      microsecond := t % 1000000, offset := some (offset * 1000000) }

/-- `helpers/reqif_datetime.py` 11-14: the offset in seconds.  `isDst`, `timezone` and `altzone` are
`local_time.tm_isdst`, `time.timezone` and `time.altzone`. -/
def utcOffset (isDst timezone altzone : Int) : Int := if isDst = 0 then -timezone else -altzone

/-- `helpers/reqif_datetime.py` 5-25, `create_reqif_datetime_now`. -/
def createDatetimeNow (isDst timezone altzone clock : Int) : Py Str :=
  let offset := utcOffset isDst timezone altzone
  -- `timezone(...)` wants less than a day
  if ¬ (-86400 < offset ∧ offset < 86400) then .error .valueError
  else
    match datetimeNow clock offset with
    | .error e => .error e
    | .ok d => .ok (datetimeFormat d)

end ReqIF
