import Verif.Proofs.FromXhtml
import Verif.Spec.Grammar
/-! References, text and attribute values: the grammar and the reader agree. -/
set_option linter.unusedSimpArgs false
namespace ReqIF.Grammar
open ReqIF.Format (readDigits_append)

/-! ## Numerals -/

theorem decVal_iff {c : Char} {d : Nat} : decVal c = some d ↔ Digit c d := by
  unfold decVal Digit
  by_cases h : ('0' ≤ c && c ≤ '9') = true
  · rw [if_pos h]
    simp only [Bool.and_eq_true, decide_eq_true_eq] at h
    simp only [Option.some.injEq, h.1, h.2, true_and]
    exact eq_comm
  · rw [if_neg h]
    simp only [Bool.and_eq_true, decide_eq_true_eq, not_and] at h
    constructor
    · intro h'; cases h'
    · rintro ⟨h1, h2, -⟩; exact absurd h2 (h h1)

theorem hexVal_iff {c : Char} {d : Nat} : hexVal c = some d ↔ HexDigit c d := by
  unfold hexVal HexDigit Digit
  simp only [Bool.and_eq_true, decide_eq_true_eq, Char.le_def, UInt32.le_iff_toNat_le]
  have e0 : ('0' : Char).val.toNat = 48 := rfl
  have e9 : ('9' : Char).val.toNat = 57 := rfl
  have ea : ('a' : Char).val.toNat = 97 := rfl
  have ef : ('f' : Char).val.toNat = 102 := rfl
  have eA : ('A' : Char).val.toNat = 65 := rfl
  have eF : ('F' : Char).val.toNat = 70 := rfl
  have f0 : ('0' : Char).toNat = 48 := rfl
  have fa : ('a' : Char).toNat = 97 := rfl
  have fA : ('A' : Char).toNat = 65 := rfl
  have fc : c.toNat = c.val.toNat := rfl
  rw [e0, e9, ea, ef, eA, eF, f0, fa, fA, fc]
  generalize c.val.toNat = n
  constructor
  · intro h
    split at h
    · cases h; left; omega
    · split at h
      · cases h; right; left; omega
      · split at h
        · cases h; right; right; omega
        · cases h
  · rintro (⟨h1, h2, rfl⟩ | ⟨h1, h2, rfl⟩ | ⟨h1, h2, rfl⟩)
    · rw [if_pos ⟨h1, h2⟩]
    · rw [if_neg (by omega), if_pos ⟨h1, h2⟩]
    · rw [if_neg (by omega), if_neg (by omega), if_pos ⟨h1, h2⟩]

theorem numeral_read {base : Nat} {val : Char → Option Nat} {digit : Char → Nat → Prop} (hv : ∀ c d, val c = some d ↔ digit c d) {s : Str} {n : Nat}
    (h : Numeral base digit s n) : s ≠ [] ∧ readDigits base val 0 s = some n := by
  induction h with
  | one hc =>
    refine ⟨by simp, ?_⟩
    rw [readDigits, (hv _ _).2 hc]
    simp [readDigits]
  | more _ hc ih =>
    refine ⟨by simp, ?_⟩
    rw [readDigits_append, ih.2, Option.bind_some, readDigits, (hv _ _).2 hc]
    simp [readDigits]

theorem read_numeral' {base : Nat} {val : Char → Option Nat} {digit : Char → Nat → Prop} (hv : ∀ c d, val c = some d ↔ digit c d) :
    ∀ (s pre : Str) (acc n : Nat), Numeral base digit pre acc → readDigits base val acc s = some n → Numeral base digit (pre ++ s) n
  | [], pre, acc, n, hp, h => by rw [readDigits] at h; cases h; rw [List.append_nil]; exact hp
  | c :: s, pre, acc, n, hp, h => by
    rw [readDigits] at h
    split at h
    · cases h
    · rename_i d hd
      have := read_numeral' hv s (pre ++ [c]) _ n (.more hp ((hv _ _).1 hd)) h
      rwa [List.append_assoc] at this

theorem read_numeral {base : Nat} {val : Char → Option Nat} {digit : Char → Nat → Prop} (hv : ∀ c d, val c = some d ↔ digit c d)
    {c : Char} {s : Str} {n : Nat} (h : readDigits base val 0 (c :: s) = some n) : Numeral base digit (c :: s) n := by
  rw [readDigits] at h
  split at h
  · cases h
  · rename_i d hd
    have := read_numeral' hv s [c] _ n (.one ((hv _ _).1 hd)) (by simpa using h)
    exact this

theorem charOfCode_iff {n : Nat} {c : Char} : charOfCode n = some c ↔ c.toNat = n ∧ isXmlChar c = true := by
  unfold charOfCode
  constructor
  · intro h
    split at h
    · rename_i hv
      dsimp only at h
      split at h
      · rename_i hx
        cases h
        refine ⟨?_, hx⟩
        rw [Char.ofNat, dif_pos hv]
        rfl
      · cases h
    · cases h
  · rintro ⟨rfl, hx⟩
    have hv : c.toNat.isValidChar := c.valid
    rw [if_pos hv]
    dsimp only
    rw [Char.ofNat_toNat, if_pos hx]

/-! ## References -/

theorem entityChar_reference {nm : Str} {c : Char} (h : entityChar nm = some c) : Reference ('&' :: nm ++ c!";") c := by
  unfold entityChar at h
  split at h; · rename_i e; cases h; rw [e]; exact .amp
  split at h; · rename_i e; cases h; rw [e]; exact .lt
  split at h; · rename_i e; cases h; rw [e]; exact .gt
  split at h; · rename_i e; cases h; rw [e]; exact .quot
  split at h; · rename_i e; cases h; rw [e]; exact .apos
  split at h
  · rename_i d ds
    rw [Option.bind_eq_some_iff] at h
    obtain ⟨n, h1, h2⟩ := h
    obtain ⟨rfl, hx⟩ := charOfCode_iff.1 h2
    exact Reference.hex (read_numeral (fun c d => hexVal_iff) h1) hx
  · rename_i d ds _
    rw [Option.bind_eq_some_iff] at h
    obtain ⟨n, h1, h2⟩ := h
    obtain ⟨rfl, hx⟩ := charOfCode_iff.1 h2
    exact Reference.dec (read_numeral (fun c d => decVal_iff) h1) hx
  · cases h

theorem numeral_chars {base : Nat} {digit : Char → Nat → Prop} {s : Str} {n : Nat} (h : Numeral base digit s n) : ∀ c ∈ s, ∃ d, digit c d := by
  induction h with
  | one hc =>
    rename_i d
    intro c hm
    rw [List.mem_singleton] at hm
    rw [hm]; exact ⟨d, hc⟩
  | more _ hc ih =>
    rename_i d _
    intro c hm
    rcases List.mem_append.1 hm with hm | hm
    · exact ih c hm
    · rw [List.mem_singleton] at hm
      rw [hm]; exact ⟨_, hc⟩

theorem hexDigit_ne {x : Char} (hx : hexVal x = none) {base : Nat} {s : Str} {n : Nat} (h : Numeral base HexDigit s n) : x ∉ s := by
  intro hm
  obtain ⟨d, hd⟩ := numeral_chars h x hm
  rw [hexVal_iff.2 hd] at hx
  cases hx

theorem digit_ne {x : Char} (hx : decVal x = none) {base : Nat} {s : Str} {n : Nat} (h : Numeral base Digit s n) : x ∉ s := by
  intro hm
  obtain ⟨d, hd⟩ := numeral_chars h x hm
  rw [decVal_iff.2 hd] at hx
  cases hx

theorem reference_entity {r : Str} {c : Char} (h : Reference r c) : ∃ nm, r = '&' :: nm ++ c!";" ∧ ';' ∉ nm ∧ '<' ∉ nm ∧ entityChar nm = some c := by
  cases h with
  | amp => exact ⟨c!"amp", rfl, by decide, by decide, rfl⟩
  | lt => exact ⟨c!"lt", rfl, by decide, by decide, rfl⟩
  | gt => exact ⟨c!"gt", rfl, by decide, by decide, rfl⟩
  | quot => exact ⟨c!"quot", rfl, by decide, by decide, rfl⟩
  | apos => exact ⟨c!"apos", rfl, by decide, by decide, rfl⟩
  | dec hn hx =>
    rename_i s
    obtain ⟨h1, h2⟩ := numeral_read (fun c d => decVal_iff) hn
    refine ⟨c!"#" ++ s, by simp, ?_, ?_, ?_⟩
    · have := digit_ne (x := ';') (by decide) hn
      simp [this]
    · have := digit_ne (x := '<') (by decide) hn
      simp [this]
    · cases s with
      | nil => exact absurd rfl h1
      | cons d ds =>
        have hd : d ≠ 'x' := by
          rintro rfl
          exact digit_ne (x := 'x') (by decide) hn (by simp)
        unfold entityChar
        simp only [List.cons_append, List.nil_append]
        rw [if_neg (by simp), if_neg (by simp), if_neg (by simp), if_neg (by simp), if_neg (by simp)]
        split
        · rename_i heq; simp only [List.cons.injEq] at heq; exact absurd heq.2.1 hd
        · rename_i heq
          simp only [List.cons.injEq] at heq
          obtain ⟨-, rfl, rfl⟩ := heq
          rw [h2, Option.bind_some]
          exact charOfCode_iff.2 ⟨rfl, hx⟩
        · rename_i heq; exact absurd rfl (heq _ _)
  | hex hn hx =>
    rename_i s
    obtain ⟨h1, h2⟩ := numeral_read (fun c d => hexVal_iff) hn
    refine ⟨c!"#x" ++ s, by simp, ?_, ?_, ?_⟩
    · have := hexDigit_ne (x := ';') (by decide) hn
      simp [this]
    · have := hexDigit_ne (x := '<') (by decide) hn
      simp [this]
    · cases s with
      | nil => exact absurd rfl h1
      | cons d ds =>
        unfold entityChar
        simp only [List.cons_append, List.nil_append]
        rw [if_neg (by simp), if_neg (by simp), if_neg (by simp), if_neg (by simp), if_neg (by simp)]
        rw [h2, Option.bind_some]
        exact charOfCode_iff.2 ⟨rfl, hx⟩

/-! ## Letters -/

theorem decodeGo_pend {lit : Char → Option Char} {s : Str} : ∀ (a : Str) (nm : Str), ';' ∉ a →
    decodeGo lit (some nm) (a ++ ';' :: s) =
      (entityChar (nm.reverse ++ a)).bind (fun d => (decodeGo lit none s).map (d :: ·))
  | [], nm, _ => by
    rw [List.nil_append, decodeGo, if_pos rfl, List.append_nil]
    cases entityChar nm.reverse <;> rfl
  | c :: a, nm, h => by
    rw [List.mem_cons, not_or] at h
    rw [List.cons_append, decodeGo, if_neg (fun e => h.1 e.symm), decodeGo_pend a (c :: nm) h.2]
    simp

theorem decodeGo_letters {lit : Char → Option Char} : ∀ (k : Nat) (s : Str), s.length ≤ k →
    (∀ t, decodeGo lit none s = some t → Letters (fun c d => lit c = some d) s t) ∧
    (∀ nm t, decodeGo lit (some nm) s = some t → ∃ a s' d t', s = a ++ ';' :: s' ∧ ';' ∉ a ∧ entityChar (nm.reverse ++ a) = some d ∧ t = d :: t' ∧
      Letters (fun c d => lit c = some d) s' t')
  | _, [], _ => by
    refine ⟨?_, ?_⟩
    · intro t h; rw [decodeGo] at h; cases h; exact .none
    · intro nm t h; rw [decodeGo] at h; cases h
  | 0, _ :: _, h => by simp at h
  | k + 1, c :: s, h => by
    obtain ⟨ih1, ih2⟩ := decodeGo_letters (lit := lit) k s (by simpa using h)
    refine ⟨?_, ?_⟩
    · intro t h
      rw [decodeGo] at h
      split at h
      · rename_i hc
        obtain ⟨a, s', d, t', rfl, ha, h1, rfl, h2⟩ := ih2 [] t h
        have := Letters.ref (entityChar_reference h1) h2
        rw [hc]
        simpa using this
      · rename_i hc
        split at h
        · cases h
        · rename_i d hd
          rw [Option.map_eq_some_iff] at h
          obtain ⟨t', h1, rfl⟩ := h
          exact .char hc hd (ih1 t' h1)
    · intro nm t h
      rw [decodeGo] at h
      split at h
      · rename_i hc
        split at h
        · cases h
        · rename_i d hd
          rw [Option.map_eq_some_iff] at h
          obtain ⟨t', h1, rfl⟩ := h
          exact ⟨[], s, d, t', by rw [hc]; rfl, by simp, by simpa using hd, rfl, ih1 t' h1⟩
      · rename_i hc
        obtain ⟨a, s', d, t', rfl, ha, h1, rfl, h2⟩ := ih2 (c :: nm) t h
        refine ⟨c :: a, s', d, t', rfl, ?_, by simpa using h1, rfl, h2⟩
        rw [List.mem_cons, not_or]
        exact ⟨fun e => hc e.symm, ha⟩

theorem letters_decodeGo {lit : Char → Option Char} {s t : Str} (h : Letters (fun c d => lit c = some d) s t) : decodeGo lit none s = some t := by
  induction h with
  | none => rfl
  | char hc hl _ ih =>
    rw [decodeGo, if_neg hc, hl, ih]
    rfl
  | ref hr _ ih =>
    obtain ⟨nm, rfl, h1, -, h2⟩ := reference_entity hr
    rw [List.append_assoc, List.cons_append, decodeGo, if_pos rfl]
    refine (decodeGo_pend (lit := lit) nm [] h1).trans ?_
    rw [show ([] : Str).reverse ++ nm = nm from rfl, h2, Option.bind_some]
    exact congrArg (Option.map _) ih

theorem decodeGo_iff {lit : Char → Option Char} {s t : Str} : decodeGo lit none s = some t ↔ Letters (fun c d => lit c = some d) s t :=
  ⟨(decodeGo_letters s.length s (Nat.le_refl _)).1 t, letters_decodeGo⟩

theorem Letters.congr {l l' : Char → Char → Prop} (h : ∀ c d, l c d → l' c d) {s t : Str} (hs : Letters l s t) : Letters l' s t := by
  induction hs with
  | none => exact .none
  | char hc hl _ ih => exact .char hc (h _ _ hl) ih
  | ref hr _ ih => exact .ref hr ih

theorem litText_iff {c d : Char} : litText c = some d ↔ TextChar c d := by
  unfold litText TextChar
  by_cases h : (isXmlChar c && c != '<') = true
  · rw [if_pos h]
    simp only [Bool.and_eq_true, bne_iff_ne, ne_eq] at h
    simp only [Option.some.injEq, h.1, true_and, ne_eq, h.2, not_false_eq_true]
    exact eq_comm
  · rw [if_neg h]
    simp only [Bool.and_eq_true, bne_iff_ne, ne_eq] at h
    constructor
    · intro h'; cases h'
    · rintro ⟨h1, h2, -⟩; exact absurd ⟨h1, h2⟩ h

theorem litAttr_iff {c d : Char} : litAttr c = some d ↔ AttrChar c d := by
  unfold litAttr AttrChar
  by_cases h : (isXmlChar c && c != '<') = true
  · rw [if_pos h]
    simp only [Bool.and_eq_true, bne_iff_ne, ne_eq] at h
    simp only [h.1, true_and, ne_eq, h.2, not_false_eq_true]
    split
    · simp only [Option.some.injEq]; exact eq_comm
    · simp only [Option.some.injEq]; exact eq_comm
  · rw [if_neg h]
    simp only [Bool.and_eq_true, bne_iff_ne, ne_eq] at h
    constructor
    · intro h'; cases h'
    · rintro ⟨h1, h2, -⟩; exact absurd ⟨h1, h2⟩ h

theorem decodeAttr_iff {s t : Str} : decodeAttr s = some t ↔ Letters AttrChar s t := by
  unfold decodeAttr
  rw [decodeGo_iff]
  exact ⟨Letters.congr (fun _ _ => litAttr_iff.1), Letters.congr (fun _ _ => litAttr_iff.2)⟩

theorem has_iff {p s : Str} : Has p s ↔ containsStr p s = true := containsStr_iff.symm

theorem decodeText_iff {raw t : Str} (h0 : raw ≠ []) (hlt : '<' ∉ raw) : decodeText raw = some t ↔ Text raw t := by
  unfold decodeText Text
  rw [has_iff]
  have e : decodeGo litText none raw = some t ↔ Letters TextChar raw t := by
    rw [decodeGo_iff]
    exact ⟨Letters.congr (fun _ _ => litText_iff.1), Letters.congr (fun _ _ => litText_iff.2)⟩
  constructor
  · intro h
    split at h
    · cases h
    · rename_i hc
      exact ⟨h0, hlt, hc, e.1 h⟩
  · rintro ⟨-, -, h1, h2⟩
    rw [if_neg h1]
    exact e.2 h2

end ReqIF.Grammar
