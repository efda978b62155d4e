import Verif.Spec.Escape
/-!
# Integers as Python's `int` reads them

Only ASCII digits (Python reads the decimal digits of other scripts too).
-/
namespace ReqIF.Spec

/-- Decimal digits, single underscores between them allowed, and their value. -/
inductive Digits : Str → Nat → Prop
  | digit {c : Char} : c.isDigit = true → Digits [c] (c.toNat - '0'.toNat)
  | next {s : Str} {n : Nat} {c : Char} : Digits s n → c.isDigit = true → Digits (s ++ [c]) (10 * n + (c.toNat - '0'.toNat))
  | underscore {s : Str} {n : Nat} {c : Char} : Digits s n → c.isDigit = true → Digits (s ++ ['_', c]) (10 * n + (c.toNat - '0'.toNat))

/-- Digits with or without a sign. -/
inductive Numeral : Str → Int → Prop
  | bare {s : Str} {n : Nat} : Digits s n → Numeral s n
  | plus {s : Str} {n : Nat} : Digits s n → Numeral ('+' :: s) n
  | minus {s : Str} {n : Nat} : Digits s n → Numeral ('-' :: s) (-(n : Int))

/-- A text denotes a number: a numeral with white space around it. -/
def Denotes (s : Str) (n : Int) : Prop := ∃ t, Stripped s t ∧ Numeral t n

end ReqIF.Spec
