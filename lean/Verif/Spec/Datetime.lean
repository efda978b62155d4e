import Verif.Model.Datetime
/-!
# The shape of a ReqIF timestamp (independent of the code)
-/
namespace ReqIF.Spec

/-- The last decimal digit of a number. -/
def digit (n : Nat) : Char := Nat.digitChar (n % 10)

/-- The last `w` decimal digits of a number. -/
def digits : Nat → Nat → Str
  | 0, _ => []
  | w + 1, n => digits w (n / 10) ++ [digit n]

/-- `YYYY-MM-DDThh:mm:ss.mmm+hh:mm`; the offset is given in minutes. -/
def timestamp (year month day hour minute second millisecond : Nat) (offset : Int) : Str :=
  digits 4 year ++ c!"-" ++ digits 2 month ++ c!"-" ++ digits 2 day ++ c!"T" ++
  digits 2 hour ++ c!":" ++ digits 2 minute ++ c!":" ++ digits 2 second ++ c!"." ++ digits 3 millisecond ++
  (if offset < 0 then c!"-" else c!"+") ++
  digits 2 (offset.natAbs / 60) ++ c!":" ++ digits 2 (offset.natAbs % 60)

end ReqIF.Spec
