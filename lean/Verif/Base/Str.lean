/-!
# Text

Python `str` values are modelled as lists of Unicode scalar values.  (Python
strings may also hold lone surrogates; those are not modelled: XML cannot
contain them.)  `c!"..."` is a literal: it expands, when the file is
elaborated, to the explicit list of its characters, so the kernel computes
with plain list cells.
-/

open Lean in
/-- Literal for `List Char`. -/
syntax:max (name := charListLit) "c!" noWs str : term

open Lean in
macro_rules
  | `(c!$s:str) => do
    let mut r : Term ← `(@List.nil Char)
    for c in s.getString.toList.reverse do
      r ← `(@List.cons Char $(Syntax.mkCharLit c) $r)
    return r

namespace ReqIF

/-- A Python string. -/
abbrev Str := List Char

/-- Python `s.replace(c, new)` for a one-character pattern. -/
def replaceChar (c : Char) (new : Str) : Str → Str
  | [] => []
  | d :: s => if d = c then new ++ replaceChar c new s else d :: replaceChar c new s

/-- Worker for `replaceStr`: `skip` characters of a match are still to be dropped. -/
def replaceStrGo (old new : Str) : Nat → Str → Str
  | _, [] => []
  | skip + 1, _ :: s => replaceStrGo old new skip s
  | 0, c :: s =>
    if old.isPrefixOf (c :: s) then new ++ replaceStrGo old new (old.length - 1) s
    else c :: replaceStrGo old new 0 s

/-- Python `s.replace(old, new)` for a non-empty `old` (leftmost, non-overlapping). -/
def replaceStr (old new s : Str) : Str := replaceStrGo old new 0 s

/-- `sub in s` for Python strings. -/
def containsStr (sub : Str) : Str → Bool
  | [] => sub.isEmpty
  | c :: s => sub.isPrefixOf (c :: s) || containsStr sub s

/-- The characters `str.strip()` removes: those for which `str.isspace()` holds
(Python's table: ASCII 9-13, 28-32, U+0085, U+00A0, U+1680, U+2000-U+200A,
U+2028, U+2029, U+202F, U+205F, U+3000). -/
def isPySpace (c : Char) : Bool :=
  let n := c.toNat
  (9 ≤ n && n ≤ 13) || (28 ≤ n && n ≤ 32) || n == 0x85 || n == 0xA0 || n == 0x1680 ||
  (0x2000 ≤ n && n ≤ 0x200A) || n == 0x2028 || n == 0x2029 || n == 0x202F ||
  n == 0x205F || n == 0x3000

/-- `s.lstrip()` -/
def lstrip (s : Str) : Str := s.dropWhile isPySpace

/-- `s.rstrip()` -/
def rstrip (s : Str) : Str := (s.reverse.dropWhile isPySpace).reverse

/-- `s.strip()` -/
def strip (s : Str) : Str := rstrip (lstrip s)

/-- `" " * n` -/
def spaces (n : Nat) : Str := List.replicate n ' '

/-- `f"{x}"` for `x : Optional[str]`: Python prints `None` for an absent value. -/
def fmtOpt : Option Str → Str
  | none => c!"None"
  | some s => s

/-- Python truthiness of `Optional[str]`. -/
def truthy : Option Str → Bool
  | none => false
  | some s => !s.isEmpty

/-- Zero-padded decimal digits, at least `w` of them (`%0wd`). -/
def padDec (w n : Nat) : Str :=
  let d := (Nat.toDigits 10 n)
  List.replicate (w - d.length) '0' ++ d

end ReqIF
