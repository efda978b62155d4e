import Verif.Base.Str
/-!
# The character classes of XML

Tables of code points, after XML 1.0 (fifth edition) and Namespaces in XML 1.0.
-/
namespace ReqIF.Grammar

/-- The code point is in one of the ranges (both ends included). -/
def InRanges (rs : List (Nat × Nat)) (c : Char) : Prop := ∃ r ∈ rs, r.1 ≤ c.toNat ∧ c.toNat ≤ r.2

/-- [2] Char.  (A `Char` of Lean is never a surrogate.) -/
def charRanges : List (Nat × Nat) := [(0x9, 0x9), (0xA, 0xA), (0xD, 0xD), (0x20, 0xD7FF), (0xE000, 0xFFFD), (0x10000, 0x10FFFF)]

/-- [3] S -/
def spaceRanges : List (Nat × Nat) := [(0x20, 0x20), (0x9, 0x9), (0xD, 0xD), (0xA, 0xA)]

/-- [4] NameStartChar, without the colon -/
def nameStartRanges : List (Nat × Nat) :=
  [(0x41, 0x5A), (0x5F, 0x5F), (0x61, 0x7A), (0xC0, 0xD6), (0xD8, 0xF6), (0xF8, 0x2FF), (0x370, 0x37D), (0x37F, 0x1FFF), (0x200C, 0x200D),
   (0x2070, 0x218F), (0x2C00, 0x2FEF), (0x3001, 0xD7FF), (0xF900, 0xFDCF), (0xFDF0, 0xFFFD), (0x10000, 0xEFFFF)]

/-- [4a] NameChar, without the colon -/
def nameRanges : List (Nat × Nat) := nameStartRanges ++ [(0x2D, 0x2D), (0x2E, 0x2E), (0x30, 0x39), (0xB7, 0xB7), (0x300, 0x36F), (0x203F, 0x2040)]

/-- [4] NCName of Namespaces in XML -/
def NCName (s : Str) : Prop := ∃ c t, s = c :: t ∧ InRanges nameStartRanges c ∧ ∀ d ∈ t, InRanges nameRanges d

/-- [7] QName of Namespaces in XML -/
def QName (s : Str) : Prop := NCName s ∨ ∃ p l, s = p ++ ':' :: l ∧ NCName p ∧ NCName l

end ReqIF.Grammar
