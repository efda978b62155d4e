import Verif.Spec.Chars
import Verif.Xml.Chars
import Verif.Proofs.Final
import Verif.Proofs.RootInfo
/-!
# C79: the character classes

What the reader takes for characters, white space and names is what XML 1.0 and Namespaces
in XML say (tables in `Spec/Chars`).
-/
namespace ReqIF.Grammar

/-- **C79.** Characters. -/
theorem C79_char (c : Char) : isXmlChar c = true ↔ InRanges charRanges c := by
  simp only [isXmlChar, InRanges, charRanges, List.mem_cons, List.not_mem_nil, or_false, exists_eq_or_imp, exists_eq_left, Bool.or_eq_true, Bool.and_eq_true,
    decide_eq_true_eq, beq_iff_eq]
  omega

theorem char_nat {c d : Char} : c = d ↔ c.toNat = d.toNat := by
  constructor
  · rintro rfl; rfl
  · intro h
    apply Char.ext
    exact UInt32.toNat_inj.1 h

/-- **C79.** White space. -/
theorem C79_space (c : Char) : isWs c = true ↔ InRanges spaceRanges c := by
  simp only [isWs, InRanges, spaceRanges, List.mem_cons, List.not_mem_nil, or_false, exists_eq_or_imp, exists_eq_left, Bool.or_eq_true, beq_iff_eq, char_nat]
  show (((c.toNat = 32 ∨ c.toNat = 9) ∨ c.toNat = 10) ∨ c.toNat = 13) ↔ _
  omega

/-- **C79.** First characters of names. -/
theorem C79_nameStart (c : Char) : isNameStart c = true ↔ InRanges nameStartRanges c := by
  have hle : ∀ a b : Char, a ≤ b ↔ a.toNat ≤ b.toNat := fun a b => Iff.rfl
  simp only [isNameStart, InRanges, nameStartRanges, List.mem_cons, List.not_mem_nil, or_false, exists_eq_or_imp, exists_eq_left, Bool.or_eq_true, Bool.and_eq_true,
    decide_eq_true_eq, beq_iff_eq, char_nat, hle]
  have e1 : 'a'.toNat = 97 := rfl
  have e2 : 'z'.toNat = 122 := rfl
  have e3 : 'A'.toNat = 65 := rfl
  have e4 : 'Z'.toNat = 90 := rfl
  have e5 : '_'.toNat = 95 := rfl
  rw [e1, e2, e3, e4, e5]
  omega

theorem inRanges_append {a b : List (Nat × Nat)} {c : Char} : InRanges (a ++ b) c ↔ InRanges a c ∨ InRanges b c := by
  simp only [InRanges, List.mem_append, or_and_right, exists_or]

/-- **C79.** Characters of names. -/
theorem C79_nameChar (c : Char) : isNameChar c = true ↔ InRanges nameRanges c := by
  have hle : ∀ a b : Char, a ≤ b ↔ a.toNat ≤ b.toNat := fun a b => Iff.rfl
  unfold nameRanges
  rw [inRanges_append, ← C79_nameStart]
  simp only [isNameChar, InRanges, List.mem_cons, List.not_mem_nil, or_false, exists_eq_or_imp, exists_eq_left, Bool.or_eq_true, Bool.and_eq_true,
    decide_eq_true_eq, beq_iff_eq, char_nat, hle]
  have e1 : '-'.toNat = 0x2D := rfl
  have e2 : '.'.toNat = 0x2E := rfl
  have e3 : '0'.toNat = 0x30 := rfl
  have e4 : '9'.toNat = 0x39 := rfl
  rw [e1, e2, e3, e4]
  simp only [or_assoc]
  refine or_congr Iff.rfl ?_
  omega

/-- **C79.** Names without colon. -/
theorem C79_ncname (s : Str) : isNCName s = true ↔ NCName s := by
  cases s with
  | nil => exact ⟨fun h => (by cases h), fun ⟨_, _, h, _⟩ => (by cases h)⟩
  | cons c t =>
    simp only [isNCName, Bool.and_eq_true, List.all_eq_true, C79_nameStart, C79_nameChar, NCName]
    constructor
    · intro h; exact ⟨c, t, rfl, h⟩
    · rintro ⟨_, _, e, h⟩; cases e; exact h

theorem ncName_noColon {s : Str} (h : NCName s) : ':' ∉ s := ncname_noColon ((C79_ncname s).2 h)

/-- **C79.** Qualified names. -/
theorem C79_qname (s : Str) : isQName s = true ↔ QName s := by
  unfold isQName QName
  constructor
  · intro h
    rcases splitQName_eq s with e | ⟨p, l, e, e2⟩
    · rw [e] at h; exact .inl ((C79_ncname s).1 h)
    · rw [e] at h
      simp only [Bool.and_eq_true, C79_ncname] at h
      exact .inr ⟨p, l, by rw [e2], h⟩
  · rintro (h | ⟨p, l, rfl, h1, h2⟩)
    · rcases splitQName_eq s with e | ⟨p, l, e, e2⟩
      · rw [e]; exact (C79_ncname s).2 h
      · exact absurd (by rw [e2]; simp) (ncName_noColon h)
    · rw [splitQName_colon (ncName_noColon h1)]
      simp only [Bool.and_eq_true, C79_ncname]
      exact ⟨h1, h2⟩
/-- Non-vacuity: a name with a prefix and letters that are not ASCII; a digit does not start a name. -/
example : QName c!"xhtml:größe-1" ∧ ¬ NCName c!"1a" ∧ ¬ QName c!"a:b:c" :=
  ⟨(C79_qname _).1 (by decide), (by rw [← C79_ncname]; decide), (by rw [← C79_qname]; decide)⟩

end ReqIF.Grammar
