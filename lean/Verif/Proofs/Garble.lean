import Verif.Spec.Encoding
import Verif.Props.C79
/-!
# Characters of a garbled text
-/
set_option linter.unusedSimpArgs false
namespace ReqIF.Spec
open Grammar

theorem ofNat_toNat {n : Nat} (h : n < 256) : (Char.ofNat n).toNat = n := by
  have hv : n.isValidChar := .inl (by omega)
  simp [Char.ofNat, hv, Char.toNat, Char.ofNatAux]

theorem garbledChar_ascii {c : Char} (h : c.toNat < 128) : garbledChar c = [c] := by
  have h' : c.val.toNat < 128 := h
  unfold garbledChar String.utf8EncodeChar
  rw [if_pos (by omega)]
  simp only [List.map_cons, List.map_nil]
  congr 1
  apply Char.ext
  apply UInt32.toNat.inj
  have := ofNat_toNat (n := (UInt8.ofNat c.val.toNat).toNat) (by have := (UInt8.ofNat c.val.toNat).toNat_lt; omega)
  show (Char.ofNat _).toNat = _
  rw [this]
  simp
  omega

theorem ofByte_toNat (n : Nat) : (Char.ofNat (UInt8.ofNat n).toNat).toNat = n % 256 := by
  rw [ofNat_toNat (by have := (UInt8.ofNat n).toNat_lt; omega)]
  simp

theorem garbledChar_high {c : Char} (h : 128 ≤ c.toNat) : (∀ d ∈ garbledChar c, 128 ≤ d.toNat ∧ d.toNat < 256) ∧ 2 ≤ (garbledChar c).length := by
  have h' : 128 ≤ c.val.toNat := h
  unfold garbledChar String.utf8EncodeChar
  generalize c.val.toNat = n at h'
  rw [if_neg (by omega)]
  by_cases h1 : n ≤ 0x7ff
  · rw [if_pos h1]
    refine ⟨?_, by simp⟩
    intro d hd
    simp only [List.map_cons, List.map_nil, List.mem_cons, List.not_mem_nil, or_false] at hd
    rcases hd with rfl | rfl <;> rw [ofByte_toNat] <;> omega
  · rw [if_neg h1]
    by_cases h2 : n ≤ 0xffff
    · rw [if_pos h2]
      refine ⟨?_, by simp⟩
      intro d hd
      simp only [List.map_cons, List.map_nil, List.mem_cons, List.not_mem_nil, or_false] at hd
      rcases hd with rfl | rfl | rfl <;> rw [ofByte_toNat] <;> omega
    · rw [if_neg h2]
      refine ⟨?_, by simp⟩
      intro d hd
      simp only [List.map_cons, List.map_nil, List.mem_cons, List.not_mem_nil, or_false] at hd
      rcases hd with rfl | rfl | rfl | rfl <;> rw [ofByte_toNat] <;> omega

theorem garbled_nil : garbled [] = [] := rfl
theorem garbled_cons (c : Char) (s : Str) : garbled (c :: s) = garbledChar c ++ garbled s := rfl
theorem garbled_append (a b : Str) : garbled (a ++ b) = garbled a ++ garbled b := by simp [garbled]

theorem garbled_consAscii {c : Char} (h : c.toNat < 128) (s : Str) : garbled (c :: s) = c :: garbled s := by
  rw [garbled_cons, garbledChar_ascii h]; rfl

theorem garbled_ascii : ∀ {s : Str}, Ascii s → garbled s = s
  | [], _ => rfl
  | c :: s, h => by rw [garbled_consAscii (h c (by simp)), garbled_ascii (fun d hd => h d (by simp [hd]))]

/-- Only an ASCII text is not altered. -/
theorem garbled_length (s : Str) : s.length ≤ (garbled s).length ∧ (s.length = (garbled s).length ↔ Ascii s) := by
  induction s with
  | nil => exact ⟨Nat.le_refl _, by simp [garbled_nil, Ascii]⟩
  | cons c s ih =>
    rw [garbled_cons]
    by_cases h : c.toNat < 128
    · rw [garbledChar_ascii h]
      simp only [List.length_append, List.length_cons, List.length_nil]
      refine ⟨by omega, ?_⟩
      have : Ascii (c :: s) ↔ Ascii s := by simp [Ascii, h]
      rw [this, ← ih.2]; omega
    · have := (garbledChar_high (Nat.le_of_not_lt h)).2
      simp only [List.length_append, List.length_cons]
      refine ⟨by omega, ?_⟩
      constructor
      · intro; omega
      · intro ha; exact absurd (ha c (by simp)) h

theorem garbled_eq_iff {s : Str} : garbled s = s ↔ Ascii s :=
  ⟨fun h => (garbled_length s).2.1 (by rw [h]), garbled_ascii⟩

/-- An ASCII character in a garbled text was there before. -/
theorem garbled_split {a r : Str} {c : Char} (hc : c.toNat < 128) : ∀ {s : Str}, garbled s = a ++ c :: r →
    ∃ s₁ s₂, s = s₁ ++ c :: s₂ ∧ garbled s₁ = a ∧ garbled s₂ = r := by
  intro s
  induction s generalizing a with
  | nil => intro h; rw [garbled_nil] at h; simp at h
  | cons x s ih =>
    intro h
    by_cases hx : x.toNat < 128
    · rw [garbled_consAscii hx] at h
      cases a with
      | nil =>
        simp only [List.nil_append, List.cons.injEq] at h
        obtain ⟨rfl, h⟩ := h
        exact ⟨[], s, rfl, rfl, h⟩
      | cons y a =>
        simp only [List.cons_append, List.cons.injEq] at h
        obtain ⟨rfl, h⟩ := h
        obtain ⟨s₁, s₂, rfl, h1, h2⟩ := ih h
        exact ⟨x :: s₁, s₂, rfl, by rw [garbled_consAscii hx, h1], h2⟩
    · rw [garbled_cons] at h
      have hg := (garbledChar_high (Nat.le_of_not_lt hx)).1
      rcases List.append_eq_append_iff.1 h with ⟨a', ha, hb⟩ | ⟨c', ha, hb⟩
      · obtain ⟨s₁, s₂, rfl, h1, h2⟩ := ih hb
        exact ⟨x :: s₁, s₂, rfl, by rw [garbled_cons, h1, ha], h2⟩
      · cases c' with
        | nil =>
          simp only [List.append_nil, List.nil_append] at ha hb
          obtain ⟨s₁, s₂, rfl, h1, h2⟩ := ih (a := []) hb.symm
          exact ⟨x :: s₁, s₂, rfl, by rw [garbled_cons, h1, ha]; simp, h2⟩
        | cons y c' =>
          simp only [List.cons_append, List.cons.injEq] at hb
          obtain ⟨rfl, _⟩ := hb
          have := hg c (by rw [ha]; simp)
          omega

theorem garbled_prefix : ∀ {p r s : Str}, Ascii p → garbled s = p ++ r → ∃ s', s = p ++ s' ∧ garbled s' = r
  | [], r, s, _, h => ⟨s, rfl, h⟩
  | c :: p, r, s, hp, h => by
    obtain ⟨s₁, s₂, rfl, h1, h2⟩ := garbled_split (a := []) (hp c (by simp)) h
    have : s₁ = [] := by
      cases s₁ with
      | nil => rfl
      | cons x l =>
        have := (garbled_length (x :: l)).1
        rw [h1] at this; simp at this
    subst this
    obtain ⟨s', rfl, h3⟩ := garbled_prefix (fun d hd => hp d (by simp [hd])) h2
    exact ⟨s', rfl, h3⟩

theorem mem_garbled {c : Char} (hc : c.toNat < 128) {s : Str} : c ∈ garbled s ↔ c ∈ s := by
  constructor
  · intro h
    obtain ⟨a, r, h⟩ := List.append_of_mem h
    obtain ⟨s₁, s₂, rfl, _⟩ := garbled_split hc h
    simp
  · intro h
    exact List.mem_flatMap.2 ⟨c, h, by rw [garbledChar_ascii hc]; simp⟩

theorem has_garbled {c : Char} {p s : Str} (hp : Ascii (c :: p)) : Has (c :: p) (garbled s) ↔ Has (c :: p) s := by
  constructor
  · rintro ⟨a, b, h⟩
    rw [List.append_assoc, List.cons_append] at h
    obtain ⟨s₁, s₂, rfl, _, h2⟩ := garbled_split (hp c (by simp)) h
    obtain ⟨s', rfl, _⟩ := garbled_prefix (fun d hd => hp d (by simp [hd])) h2
    exact ⟨s₁, s', by simp⟩
  · rintro ⟨a, b, rfl⟩
    exact ⟨garbled a, garbled b, by rw [garbled_append, garbled_append, garbled_ascii hp]⟩

/-- Every character of a garbled text is an ASCII character that was there, or one from 128 to 255. -/
theorem garbled_mem {d : Char} {s : Str} (h : d ∈ garbled s) : d ∈ s ∧ d.toNat < 128 ∨ 128 ≤ d.toNat ∧ d.toNat < 256 := by
  by_cases hd : d.toNat < 128
  · exact .inl ⟨(mem_garbled hd).1 h, hd⟩
  · obtain ⟨c, hc, h⟩ := List.mem_flatMap.1 h
    by_cases hc' : c.toNat < 128
    · rw [garbledChar_ascii hc'] at h
      simp at h; subst h; exact absurd hc' hd
    · exact .inr ((garbledChar_high (Nat.le_of_not_lt hc')).1 d h)

theorem high_char {c : Char} (h : 128 ≤ c.toNat) (h' : c.toNat < 256) : isXmlChar c = true ∧ isWs c = false := by
  constructor
  · simp only [isXmlChar]; simp; omega
  · have : ∀ d : Char, d.toNat < 128 → c ≠ d := by rintro d hd rfl; omega
    simp [isWs, this ' ' (by decide), this '\t' (by decide), this '\n' (by decide), this '\r' (by decide)]

theorem garbled_xmlChars {s : Str} (h : ∀ c ∈ s, isXmlChar c = true) : ∀ c ∈ garbled s, isXmlChar c = true := by
  intro c hc
  rcases garbled_mem hc with ⟨h1, _⟩ | ⟨h1, h2⟩
  · exact h c h1
  · exact (high_char h1 h2).1

theorem isWs_ascii {c : Char} (h : isWs c = true) : c.toNat < 128 := by
  simp only [isWs, Bool.or_eq_true, beq_iff_eq] at h
  rcases h with ((rfl | rfl) | rfl) | rfl <;> decide

theorem space_ascii {s : Str} (h : OptSpace s) : Ascii s := fun c hc => isWs_ascii (h c hc)

theorem garbled_space {s : Str} (h : OptSpace s) : garbled s = s := garbled_ascii (space_ascii h)

theorem garbled_inj {s t : Str} (h : garbled s = garbled t) : s = t := by
  have e : (s.flatMap String.utf8EncodeChar) = (t.flatMap String.utf8EncodeChar) := by
    have hm : ∀ u : Str, garbled u = (u.flatMap String.utf8EncodeChar).map (fun b => Char.ofNat b.toNat) := by
      intro u
      simp only [garbled, garbledChar, List.map_flatMap]
      rfl
    rw [hm, hm] at h
    refine List.map_inj_right ?_ |>.1 h
    intro x y hxy
    have h1 := ofNat_toNat (n := x.toNat) (by have := x.toNat_lt; omega)
    have h2 := ofNat_toNat (n := y.toNat) (by have := y.toNat_lt; omega)
    apply UInt8.toNat.inj
    rw [← h1, ← h2, hxy]
  have e2 : s.utf8Encode = t.utf8Encode := by
    rw [List.utf8Encode, List.utf8Encode, e]
  have h1 := List.utf8Decode?_utf8Encode (l := s)
  rw [e2, List.utf8Decode?_utf8Encode] at h1
  simpa using h1.symm

end ReqIF.Spec
