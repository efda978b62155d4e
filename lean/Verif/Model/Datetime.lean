import Verif.Base.Str
/-!
# `helpers/reqif_datetime.py`
-/
namespace ReqIF

/-- The fields of a `datetime.datetime`.  `offset`: `None` for a naive one, else
the UTC offset in microseconds. -/
structure DateTime where
  year : Nat
  month : Nat
  day : Nat
  hour : Nat
  minute : Nat
  second : Nat
  microsecond : Nat
  offset : Option Int

/-- The ranges the constructor of `datetime` enforces. -/
def DateTime.valid (d : DateTime) : Prop :=
  1 ≤ d.year ∧ d.year ≤ 9999 ∧ 1 ≤ d.month ∧ d.month ≤ 12 ∧ 1 ≤ d.day ∧ d.day ≤ 31 ∧
  d.hour < 24 ∧ d.minute < 60 ∧ d.second < 60 ∧ d.microsecond < 1000000 ∧
  ∀ o, d.offset = some o → -86400000000 < o ∧ o < 86400000000

/-- `%z`: `+HHMM[SS[.ffffff]]`, empty for a naive datetime. -/
def formatZ : Option Int → Str
  | none => []
  | some o =>
    let a := o.natAbs
    let us := a % 1000000
    let s := a / 1000000 % 60
    (if o < 0 then c!"-" else c!"+") ++ padDec 2 (a / 3600000000) ++ padDec 2 (a / 60000000 % 60) ++
    (if s = 0 ∧ us = 0 then []
     else padDec 2 s ++ (if us = 0 then [] else c!"." ++ padDec 6 us))

/-- `strftime("%Y-%m-%dT%H:%M:%S.%f%z")`.  Years below 1000 are printed without
padding here (in Python this depends on the platform). -/
def strftimeReqif (d : DateTime) : Str :=
  Nat.toDigits 10 d.year ++ c!"-" ++ padDec 2 d.month ++ c!"-" ++ padDec 2 d.day ++ c!"T" ++
  padDec 2 d.hour ++ c!":" ++ padDec 2 d.minute ++ c!":" ++ padDec 2 d.second ++ c!"." ++
  padDec 6 d.microsecond ++ formatZ d.offset

/-- `s[a:]` for a negative `a` (`-n`). -/
def lastN (n : Nat) (s : Str) : Str := s.drop (s.length - n)

/-- `helpers/reqif_datetime.py` 28-39, `reqif_datetime_format`. -/
def datetimeFormat (d : DateTime) : Str :=
  let t := strftimeReqif d
  t.take 23 ++ (lastN 5 t).take ((lastN 5 t).length - 2) ++ c!":" ++ lastN 2 t

end ReqIF
