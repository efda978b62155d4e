import Verif.Model.Encoding
import Verif.Proofs.GarbleDoc
import Verif.Props.C73
/-!
# C80: declared encodings

The parser encodes the text in UTF-8 and gives the bytes to the XML reader, which goes by the
encoding that the document declares.
-/
set_option linter.unusedSimpArgs false
namespace ReqIF.Spec
open Grammar

variable {σ : Type}

/-! ## Bytes -/

theorem latin1_utf8 (s : Str) : latin1 (utf8Bytes s) = garbled s := by
  simp only [latin1, utf8Bytes, garbled, garbledChar, List.map_flatMap]
  rfl

theorem utf8_array (s : Str) : (utf8Bytes s).toByteArray = s.utf8Encode := by
  rw [List.utf8Encode, utf8Bytes]

theorem readUtf8_eq (s : Str) : readUtf8 (utf8Bytes s) = readDoc s := by
  unfold readUtf8
  rw [utf8_array, decodeUtf8_encode]

theorem utf8_append (a b : Str) : utf8Bytes (a ++ b) = utf8Bytes a ++ utf8Bytes b := by simp [utf8Bytes]

theorem utf8_bom : utf8Bytes [Char.ofNat 0xFEFF] = bomBytes := by decide

theorem bom_cons (u : Str) : utf8Bytes (Char.ofNat 0xFEFF :: u) = bomBytes ++ utf8Bytes u := by
  rw [← utf8_bom, ← utf8_append]; rfl

theorem bom_head {s : Str} (h : bomBytes.isPrefixOf (utf8Bytes s) = true) : s.head? = some (Char.ofNat 0xFEFF) := by
  obtain ⟨r, hr⟩ := List.isPrefixOf_iff_prefix.1 h
  have e : s.utf8Encode = ([Char.ofNat 0xFEFF] : List Char).utf8Encode ++ r.toByteArray := by
    rw [← utf8_array, ← utf8_array, utf8_bom, ← List.toByteArray_append, hr]
  obtain ⟨q, hq⟩ := List.isPrefix_of_utf8Encode_append_eq_utf8Encode r.toByteArray e.symm
  rw [← hq]; rfl

/-- The two cases of a byte order mark. -/
theorem bom_cases (s : Str) :
    (s.head? ≠ some (Char.ofNat 0xFEFF) ∧ bomBytes.isPrefixOf (utf8Bytes s) = false) ∨
    (∃ u, s = Char.ofNat 0xFEFF :: u ∧ bomBytes.isPrefixOf (utf8Bytes s) = true ∧ (utf8Bytes s).drop 3 = utf8Bytes u) := by
  by_cases h : s.head? = some (Char.ofNat 0xFEFF)
  · right
    cases s with
    | nil => cases h
    | cons c u =>
      simp only [List.head?_cons, Option.some.injEq] at h
      subst h
      refine ⟨u, rfl, ?_, ?_⟩
      · rw [bom_cons]; exact List.isPrefixOf_iff_prefix.2 ⟨_, rfl⟩
      · rw [bom_cons]; rfl
  · left
    refine ⟨h, ?_⟩
    cases hb : bomBytes.isPrefixOf (utf8Bytes s) with
    | false => rfl
    | true => exact absurd (bom_head hb) h

theorem declaredName_iff {u e : Str} : declaredName (utf8Bytes u) = some e ↔ ∃ t h r, Lines u t ∧ t = h ++ r ∧ Declaration h (some e) := by
  unfold declaredName
  rw [latin1_utf8, normEol_garbled]
  constructor
  · intro h
    split at h
    · rename_i e' r hd
      cases h
      obtain ⟨h, hs, hdecl⟩ := decl_sound hd
      obtain ⟨r', hr, _⟩ := garbled_prefix (declaration_ascii hdecl) hs
      exact ⟨_, h, r', lines_iff.2 rfl, hr, hdecl⟩
    · cases h
  · rintro ⟨t, h, r, hl, rfl, hd⟩
    rw [lines_iff.1 hl, garbled_append, garbled_ascii (declaration_ascii hd), decl_complete hd]

/-- The encoding that is found is the one the declaration names. -/
theorem declared_of_names {s e : Str} (h : NamesEncoding s e) :
    declaredName (if bomBytes.isPrefixOf (utf8Bytes s) then (utf8Bytes s).drop 3 else utf8Bytes s) = some e := by
  obtain ⟨u, t, h, r, hu, hl, ht, hd⟩ := h
  rcases bom_cases s with ⟨h1, h2⟩ | ⟨v, h1, h2, h3⟩
  · rw [h2]
    rcases hu with ⟨rfl, _⟩ | rfl
    · exact declaredName_iff.2 ⟨t, h, r, hl, ht, hd⟩
    · exact absurd rfl h1
  · rw [h2, if_pos rfl, h3]
    rcases hu with ⟨_, hne⟩ | e
    · rw [h1] at hne; exact absurd rfl hne
    · rw [e] at h1
      cases h1
      exact declaredName_iff.2 ⟨t, h, r, hl, ht, hd⟩

theorem names_of_declared {s e : Str}
    (h : declaredName (if bomBytes.isPrefixOf (utf8Bytes s) then (utf8Bytes s).drop 3 else utf8Bytes s) = some e) : NamesEncoding s e := by
  rcases bom_cases s with ⟨h1, h2⟩ | ⟨v, h1, h2, h3⟩
  · rw [h2] at h
    obtain ⟨t, h, r, hl, ht, hd⟩ := declaredName_iff.1 h
    exact ⟨s, t, h, r, .inl ⟨rfl, h1⟩, hl, ht, hd⟩
  · rw [h2, if_pos rfl, h3] at h
    obtain ⟨t, h, r, hl, ht, hd⟩ := declaredName_iff.1 h
    exact ⟨v, t, h, r, .inr h1, hl, ht, hd⟩

theorem parse_of_read {x : Libxml} {s : Str} (h : readBytes x (utf8Bytes s) = readDoc s) (progress : Option (Callback σ)) :
    parseFromBytes x progress s = parseFromString progress s := by
  unfold parseFromBytes parseFromString
  rw [h]
  split
  · rfl
  · cases readDoc s <;> rfl

/-- **C80**, UTF-8: a text that declares no encoding, or UTF-8, is parsed as the text it is. -/
theorem C80_utf8 (x : Libxml) {s : Str} (h : ∀ e, NamesEncoding s e → isUtf8Name e = true) (progress : Option (Callback σ)) :
    readBytes x (utf8Bytes s) = readDoc s ∧ parseFromBytes x progress s = parseFromString progress s := by
  have key : readBytes x (utf8Bytes s) = readDoc s := by
    unfold readBytes
    dsimp only
    cases hd : declaredName (if bomBytes.isPrefixOf (utf8Bytes s) then (utf8Bytes s).drop 3 else utf8Bytes s) with
    | none => exact readUtf8_eq s
    | some e =>
      dsimp only
      rw [h e (names_of_declared hd), Bool.true_or, if_pos rfl]
      exact readUtf8_eq s
  exact ⟨key, parse_of_read key progress⟩

theorem readBytes_latin1 (x : Libxml) {s e : Str} (h : NamesEncoding s e) (he : isLatin1Name e = true) (hb : s.head? ≠ some (Char.ofNat 0xFEFF)) :
    readBytes x (utf8Bytes s) = readDoc (garbled s) := by
  have hd := declared_of_names h
  rcases bom_cases s with ⟨_, h2⟩ | ⟨v, h1, _, _⟩
  · have hu : isUtf8Name e = false := by
      simp only [isLatin1Name, Bool.or_eq_true, beq_iff_eq] at he
      unfold isUtf8Name
      rcases he with he | he <;> rw [he] <;> decide
    unfold readBytes
    dsimp only
    rw [hd]
    dsimp only
    rw [hu, h2, he]
    simp only [Bool.false_and, Bool.or_self, Bool.false_eq_true, if_false, if_true]
    rw [latin1_utf8]
  · rw [h1] at hb; exact absurd rfl hb

theorem bytes_ascii (s : Str) : (utf8Bytes s).all (· < 128) = true ↔ Ascii s := by
  rw [List.all_eq_true]
  constructor
  · intro h c hc
    by_cases hh : c.toNat < 128
    · exact hh
    · have hg := garbledChar_high (Nat.le_of_not_lt hh)
      cases hl : String.utf8EncodeChar c with
      | nil => exact absurd hl String.utf8EncodeChar_ne_nil
      | cons b l =>
        have h1 := h b (List.mem_flatMap.2 ⟨c, hc, by rw [hl]; simp⟩)
        have h2 := hg.1 (Char.ofNat b.toNat) (by unfold garbledChar; rw [hl]; simp)
        rw [ofNat_toNat b.toNat_lt] at h2
        have h3 : b.toNat < (128 : UInt8).toNat := UInt8.lt_iff_toNat_lt.1 (by simpa using h1)
        have : (128 : UInt8).toNat = 128 := rfl
        omega
  · intro h b hb
    obtain ⟨c, hc, hb⟩ := List.mem_flatMap.1 hb
    have h1 : Char.ofNat b.toNat ∈ garbledChar c := List.mem_map.2 ⟨b, hb, rfl⟩
    rw [garbledChar_ascii (h c hc)] at h1
    simp only [List.mem_cons, List.not_mem_nil, or_false] at h1
    have h2 := h c hc
    rw [← h1, ofNat_toNat b.toNat_lt] at h2
    have : (128 : UInt8).toNat = 128 := rfl
    simp only [decide_eq_true_eq]
    rw [UInt8.lt_iff_toNat_lt]
    omega

/-- **C80**, ASCII: an ASCII text that declares UTF-8, ISO-8859-1 or ASCII is parsed as the text it is. -/
theorem C80_ascii (x : Libxml) {s : Str} (ha : Ascii s) (h : ∀ e, NamesEncoding s e → (isUtf8Name e || isLatin1Name e || isAsciiName e) = true)
    (progress : Option (Callback σ)) : readBytes x (utf8Bytes s) = readDoc s ∧ parseFromBytes x progress s = parseFromString progress s := by
  have key : readBytes x (utf8Bytes s) = readDoc s := by
    have hb : bomBytes.isPrefixOf (utf8Bytes s) = false := by
      rcases bom_cases s with ⟨_, h2⟩ | ⟨v, rfl, _, _⟩
      · exact h2
      · exact absurd (ha (Char.ofNat 0xFEFF) (by simp)) (by decide)
    unfold readBytes
    dsimp only
    cases hd : declaredName (if bomBytes.isPrefixOf (utf8Bytes s) then (utf8Bytes s).drop 3 else utf8Bytes s) with
    | none => exact readUtf8_eq s
    | some e =>
      have he := h e (names_of_declared hd)
      dsimp only
      rw [hb]
      simp only [Bool.false_eq_true, if_false, Bool.false_and, Bool.or_false]
      rw [(bytes_ascii s).2 ha, latin1_utf8, garbled_ascii ha, readUtf8_eq]
      cases h1 : isUtf8Name e
      · cases h2 : isLatin1Name e
        · cases h3 : isAsciiName e
          · rw [h1, h2, h3] at he; cases he
          · simp
        · simp
      · simp
  exact ⟨key, parse_of_read key progress⟩

/-- **C80**, US-ASCII: a text with other characters that declares ASCII is refused. -/
theorem C80_us_ascii (x : Libxml) {s e : Str} (h : NamesEncoding s e) (he : isAsciiName e = true) (ha : ¬ Ascii s) (hb : s.head? ≠ some (Char.ofNat 0xFEFF))
    (progress : Option (Callback σ)) (st : σ) : parseFromBytes x progress s st = (.error (.xmlParsing .notWellFormed), st) := by
  have hd := declared_of_names h
  rcases bom_cases s with ⟨_, h2⟩ | ⟨v, h1, _, _⟩
  · have hu : isUtf8Name e = false ∧ isLatin1Name e = false := by
      simp only [isAsciiName, Bool.or_eq_true, beq_iff_eq] at he
      unfold isUtf8Name isLatin1Name
      rcases he with he | he <;> rw [he] <;> decide
    have hall : (utf8Bytes s).all (· < 128) = false := by
      cases hx : (utf8Bytes s).all (· < 128) with
      | false => rfl
      | true => exact absurd ((bytes_ascii s).1 hx) ha
    have hn : readBytes x (utf8Bytes s) = none := by
      unfold readBytes
      dsimp only
      rw [hd]
      dsimp only
      rw [hu.1, hu.2, h2, he]
      simp only [Bool.false_and, Bool.or_self, Bool.false_eq_true, if_false, if_true, hall]
    unfold parseFromBytes
    rw [hn]
    cases s with
    | nil => exact absurd (fun c hc => by cases hc) ha
    | cons c s => rfl
  · rw [h1] at hb; exact absurd rfl hb

theorem garbledNodes_mem : ∀ {ns : List Node} {n : Node}, n ∈ ns → garbledNode n ∈ garbledNodes ns
  | m :: ns, n, h => by
    rcases List.mem_cons.1 h with rfl | h'
    · simp [garbledNodes]
    · simp only [garbledNodes, List.mem_cons]; exact .inr (garbledNodes_mem h')

theorem garbled_head_bom {s : Str} : (garbled s).head? ≠ some (Char.ofNat 0xFEFF) := by
  intro h
  have : Char.ofNat 0xFEFF ∈ garbled s := List.mem_of_head? h
  rcases garbled_mem this with ⟨_, h2⟩ | ⟨_, h2⟩
  · exact absurd h2 (by decide)
  · exact absurd h2 (by decide)

/-- A garbled well-formed document is well-formed. -/
theorem wellFormed_garbled {s : Str} {decl : Option (Option Str)} {ns : List Node} {r : Node} (h : WellFormed s decl ns r)
    (hb : s.head? ≠ some (Char.ofNat 0xFEFF)) (hn : ∀ n ∈ nodesNames ns, Ascii n) (hr : ∀ t, Lines s t → AsciiReferences t) :
    WellFormed (garbled s) decl (garbledNodes ns) (garbledNode r) := by
  obtain ⟨⟨ks, ⟨u, t, hu, hl, hd⟩, hk⟩, hm, i, l, rfl⟩ := h
  rcases hu with ⟨rfl, _⟩ | rfl
  · refine ⟨⟨garbledXmls ks, ⟨garbled s, garbled t, .inl ⟨rfl, garbled_head_bom⟩, lines_garbled hl, ?_⟩, namedAll_garbled hk⟩,
      garbledNodes_mem hm, _, _, rfl⟩
    exact document_garbled hd (namedAll_names hk hn) (hr t hl)
  · exact absurd rfl hb

/-- **C80**, ISO-8859-1: a well-formed text that declares ISO-8859-1 (or LATIN-1) is parsed as a document with
the same elements and names, where every string that has other characters than ASCII is garbled: each
of these characters is replaced by two to four others.  (Names are ASCII; a character
reference is not garbled, so those to other characters are left out.) -/
theorem C80_latin1 (x : Libxml) {s e : Str} {ns : List Node} {r : Node} (h : WellFormed s (some (some e)) ns r) (he : isLatin1Name e = true)
    (hb : s.head? ≠ some (Char.ofNat 0xFEFF)) (hn : ∀ n ∈ nodesNames ns, Ascii n) (hr : ∀ t, Lines s t → AsciiReferences t)
    (progress : Option (Callback σ)) :
    readBytes x (utf8Bytes s) = some ⟨some ⟨some e⟩, garbledNodes ns, garbledNode r⟩ ∧
      parseFromBytes x progress s = parseReqif progress ⟨some ⟨some e⟩, garbledNodes ns, garbledNode r⟩ := by
  have hname : NamesEncoding s e := by
    obtain ⟨⟨ks, ⟨u, t, hu, hl, h0, a, el, b, _, _, _, ht, hd, _⟩, _⟩, _⟩ := h
    rcases hd with ⟨h, _⟩ | ⟨enc, h, hd⟩
    · cases h
    · cases h
      exact ⟨u, t, h0, a ++ el ++ b, hu, hl, by rw [ht]; simp, hd⟩
  have h1 : readBytes x (utf8Bytes s) = some ⟨some ⟨some e⟩, garbledNodes ns, garbledNode r⟩ := by
    rw [readBytes_latin1 x hname he hb]
    exact (C79_tree _ _).2 (wellFormed_garbled h hb hn hr)
  refine ⟨h1, ?_⟩
  unfold parseFromBytes
  rw [h1, if_neg]
  intro h0
  rw [readBytes_latin1 x hname he hb, List.length_eq_zero_iff.1 h0] at h1
  cases h1

/-- **C80**, what garbling does: exactly the ASCII texts stay the same, all others become longer, and different
texts stay different. -/
theorem C80_garbled (s : Str) : (garbled s = s ↔ Ascii s) ∧ (¬ Ascii s → s.length < (garbled s).length) ∧
    ∀ t, garbled s = garbled t → s = t := by
  refine ⟨garbled_eq_iff, ?_, fun t => garbled_inj⟩
  intro h
  have h1 := garbled_length s
  have : s.length ≠ (garbled s).length := fun e => h (h1.2.1 e)
  omega

/-! ## Files -/

theorem noBareLead {bs : List UInt8} {s : Str} (h : bs = utf8Bytes s) {a c : List UInt8} {b : UInt8} (hb : 0xC0 ≤ b.toNat) (he : bs = a ++ b :: c) :
    ∃ d c', c = d :: c' ∧ 128 ≤ d.toNat := by
  subst h
  induction s generalizing a with
  | nil => simp [utf8Bytes] at he
  | cons x s ih =>
    have e : utf8Bytes (x :: s) = String.utf8EncodeChar x ++ utf8Bytes s := rfl
    rw [e] at he
    rcases List.append_eq_append_iff.1 he with ⟨a', ha, hb'⟩ | ⟨c', ha, hb'⟩
    · exact ih hb'
    · cases c' with
      | nil => exact ih (a := []) hb'.symm
      | cons y c' =>
        simp only [List.cons_append, List.cons.injEq] at hb'
        obtain ⟨rfl, hc⟩ := hb'
        have hx : ¬ x.toNat < 128 := by
          intro hx
          have h1 : Char.ofNat b.toNat ∈ garbledChar x := List.mem_map.2 ⟨b, by rw [ha]; simp, rfl⟩
          rw [garbledChar_ascii hx] at h1
          simp only [List.mem_cons, List.not_mem_nil, or_false] at h1
          rw [← h1, ofNat_toNat b.toNat_lt] at hx
          omega
        cases c' with
        | cons z c' =>
          refine ⟨z, c' ++ utf8Bytes s, by rw [hc]; rfl, ?_⟩
          have h1 := (garbledChar_high (Nat.le_of_not_lt hx)).1 (Char.ofNat z.toNat) (List.mem_map.2 ⟨z, by rw [ha]; simp, rfl⟩)
          rw [ofNat_toNat z.toNat_lt] at h1
          exact h1.1
        | nil =>
          exfalso
          have hl : ∀ l : List UInt8, l = a ++ [b] → 2 ≤ l.length → l.getLast? = some b := by
            rintro l rfl _; simp
          have h2 := hl _ ha (by have := (garbledChar_high (Nat.le_of_not_lt hx)).2; simpa [garbledChar] using this)
          have hx' : ¬ x.val.toNat ≤ 0x7f := by
            have : ¬ x.val.toNat < 128 := hx
            omega
          unfold String.utf8EncodeChar at h2
          generalize x.val.toNat = n at h2 hx'
          rw [if_neg hx'] at h2
          split at h2
          · simp at h2
            rw [← h2] at hb
            simp at hb
            omega
          · split at h2
            · simp at h2
              rw [← h2] at hb
              simp at hb
              omega
            · simp at h2
              rw [← h2] at hb
              simp at hb
              omega

/-- **C80**, files in ISO-8859-1: a file is refused, whatever its declaration says, if one of the letters from `À` to `ÿ` stands
before an ASCII character or at the end.  The error is `UnicodeDecodeError`, and nothing is reported. -/
theorem C80_file_refused (x : Libxml) {bs : ByteArray} {a c : List UInt8} {b : UInt8} (he : bs.data.toList = a ++ b :: c) (hb : 0xC0 ≤ b.toNat)
    (hc : ∀ d, c.head? = some d → d.toNat < 128) (progress : Option (Callback σ)) (st : σ) :
    parseFileBytes x progress (.ok bs) st = (.error .unicode, st) := by
  have hd : decodeUtf8 bs = .error .unicode := by
    cases h : decodeUtf8 bs with
    | error e =>
      unfold decodeUtf8 at h
      split at h <;> cases h
      rfl
    | ok s =>
      have h1 := decodeUtf8_eq h
      have h2 : bs.data.toList = utf8Bytes s := by
        rw [h1, ← utf8_array]; simp
      obtain ⟨d, c', rfl, h3⟩ := noBareLead h2 hb he
      have := hc d rfl
      omega
  show (M.lift (decodeUtf8 bs)).bind (fun s => parseFromBytes x progress (normEol s)) st = _
  rw [hd]

/-- **C80**, other encodings: the text is read as the codec of that name decodes its UTF-8 bytes; if the codec is not known or
cannot decode them, the text is refused. -/
theorem C80_other (x : Libxml) {s e : Str} (h : NamesEncoding s e) (he : (isUtf8Name e || isLatin1Name e || isAsciiName e) = false)
    (hb : s.head? ≠ some (Char.ofNat 0xFEFF)) (progress : Option (Callback σ)) (st : σ) :
    parseFromBytes x progress s st =
      match (x.codec e).bind (fun decode => (decode (utf8Bytes s)).bind readDoc) with
      | some d => parseReqif progress d st
      | none => (.error (.xmlParsing .notWellFormed), st) := by
  have hd := declared_of_names h
  simp only [Bool.or_eq_false_iff] at he
  rcases bom_cases s with ⟨_, h2⟩ | ⟨v, h1, _, _⟩
  · have hn : readBytes x (utf8Bytes s) = (x.codec e).bind (fun decode => (decode (utf8Bytes s)).bind readDoc) := by
      unfold readBytes
      dsimp only
      rw [hd]
      dsimp only
      rw [he.1.1, he.1.2, h2, he.2]
      simp only [Bool.false_and, Bool.or_self, Bool.false_eq_true, if_false]
      cases x.codec e <;> rfl
    unfold parseFromBytes
    rw [hn]
    have hl : s.length ≠ 0 := by
      intro h0
      obtain rfl := List.eq_nil_of_length_eq_zero h0
      obtain ⟨u, t, h0, r, hu, hl, ht, v, _, _, _, _, hd, _⟩ := h
      rcases hu with ⟨rfl, _⟩ | h
      · cases hl
        rw [hd] at ht
        simp at ht
      · cases h
    rw [if_neg hl]
    cases (x.codec e).bind (fun decode => (decode (utf8Bytes s)).bind readDoc) <;> rfl
  · rw [h1] at hb; exact absurd rfl hb

theorem normEol_twice (s : Str) : normEol (normEol s) = normEol s := by
  apply normEol_of_noCr
  have h := lines_iff.2 (rfl : normEol s = normEol s)
  generalize normEol s = t at h
  induction h with
  | none => simp
  | crlf _ ih => simp [ih]
  | cr _ _ ih => simp [ih]
  | other hc _ ih => simp only [List.mem_cons, not_or]; exact ⟨fun e => hc e.symm, ih⟩

theorem dropBom_noBom {s : Str} (h : s.head? ≠ some (Char.ofNat 0xFEFF)) : dropBom s = s := by
  cases s with
  | nil => rfl
  | cons c s => rw [dropBom, if_neg (by simpa using h)]

theorem readDoc_eolBom {s : Str} (h : s.head? ≠ some (Char.ofNat 0xFEFF)) (h' : (normEol s).head? ≠ some (Char.ofNat 0xFEFF)) :
    readDoc (normEol s) = readDoc s := by
  unfold readDoc readRaw
  rw [dropBom_noBom h, dropBom_noBom h', normEol_twice]

theorem normEol_head {s : Str} (h : (normEol s).head? = some (Char.ofNat 0xFEFF)) : s.head? = some (Char.ofNat 0xFEFF) := by
  have hl := lines_iff.2 (rfl : normEol s = normEol s)
  generalize normEol s = t at h hl
  cases hl with
  | none => cases h
  | crlf _ => exact absurd h (by simp)
  | cr _ _ => exact absurd h (by simp)
  | other _ _ => simpa using h

/-- **C80**, files in ISO-8859-1: a file that is not refused is read by its declaration, so that its bytes are
the characters that ISO-8859-1 gives them. -/
theorem C80_file_latin1 (x : Libxml) {bs : ByteArray} {s e : Str} (hs : decodeUtf8 bs = .ok s) (h : NamesEncoding s e) (he : isLatin1Name e = true)
    (hb : s.head? ≠ some (Char.ofNat 0xFEFF)) (progress : Option (Callback σ)) (st : σ) :
    parseFileBytes x progress (.ok bs) st = parseFromString progress (latin1 bs.data.toList) st := by
  have h2 : latin1 bs.data.toList = garbled s := by
    rw [decodeUtf8_eq hs, ← utf8_array, ← latin1_utf8]; simp
  have hb' : (normEol s).head? ≠ some (Char.ofNat 0xFEFF) := fun e => hb (normEol_head e)
  have hn : NamesEncoding (normEol s) e := by
    obtain ⟨u, t, h0, r, hu, hl, ht, hd⟩ := h
    rcases hu with ⟨rfl, _⟩ | rfl
    · refine ⟨normEol s, t, h0, r, .inl ⟨rfl, hb'⟩, lines_iff.2 ?_, ht, hd⟩
      rw [normEol_twice]; exact lines_iff.1 hl
    · exact absurd rfl hb
  have hr : readBytes x (utf8Bytes (normEol s)) = readDoc (garbled s) := by
    rw [readBytes_latin1 x hn he hb', ← normEol_garbled]
    exact readDoc_eolBom garbled_head_bom (by rw [normEol_garbled]; exact garbled_head_bom)
  have hne : s ≠ [] := by
    rintro rfl
    obtain ⟨u, t, h0, r, hu, hl, ht, v, _, _, _, _, hd, _⟩ := h
    rcases hu with ⟨rfl, _⟩ | h
    · cases hl
      rw [hd] at ht
      simp at ht
    · cases h
  have hne2 : normEol s ≠ [] := by
    intro h0
    have hl := lines_iff.2 h0
    cases hl
    exact hne rfl
  rw [h2]
  show (M.lift (decodeUtf8 bs)).bind (fun s => parseFromBytes x progress (normEol s)) st = _
  rw [hs]
  show parseFromBytes x progress (normEol s) st = _
  unfold parseFromBytes parseFromString
  rw [hr, if_neg (by simpa [List.length_eq_zero_iff] using hne2), if_neg (by simpa [List.length_eq_zero_iff] using garbled_ne_nil hne)]
  cases readDoc (garbled s) <;> rfl

/-! ## A document -/

set_option maxRecDepth 20000 in
/-- A document with a long name that is not ASCII; `head` is its declaration. -/
def sizeDoc (head : Str) : Str :=
  head ++ c!"<REQ-IF xmlns=\"http://www.omg.org/spec/ReqIF/20110401/reqif.xsd\"><CORE-CONTENT><REQ-IF-CONTENT><DATATYPES>" ++
  c!"<DATATYPE-DEFINITION-STRING IDENTIFIER=\"d\" LONG-NAME=\"Größe\"/></DATATYPES></REQ-IF-CONTENT></CORE-CONTENT></REQ-IF>"

def latinHead : Str := c!"<?xml version=\"1.0\" encoding=\"ISO-8859-1\"?>"

/-- The long names of the data types. -/
def dataTypeNames (r : Py Bundle) : Option (List (Option Str)) :=
  match r with
  | .ok b => b.coreContent.bind (fun c => c.bind (fun c => c.dataTypes.map (fun l => l.map (fun d => d.base.longName))))
  | .error _ => none

theorem latinHead_names (t : Str) (ht : '\r' ∉ t) : NamesEncoding (latinHead ++ t) c!"ISO-8859-1" := by
  refine ⟨latinHead ++ t, latinHead ++ t, latinHead, t, .inl ⟨rfl, by show some '<' ≠ some (Char.ofNat 0xFEFF); decide⟩, lines_iff.2 (normEol_of_noCr ?_), rfl, ?_⟩
  · simp only [List.mem_append, not_or]; exact ⟨by decide, ht⟩
  · refine ⟨c!" version=\"1.0\"", c!" encoding=\"ISO-8859-1\"", [], [], c!"1.0", rfl, ?_, ⟨c!"0", rfl, by decide, by decide⟩, .inr ⟨_, rfl, ?_, ?_⟩, .inl rfl, ?_⟩
    · exact ⟨c!" ", [], [], '"', rfl, ⟨by decide, by unfold OptSpace; decide⟩, by unfold OptSpace; decide, by unfold OptSpace; decide, .inl rfl⟩
    · exact ⟨c!" ", [], [], '"', rfl, ⟨by decide, by unfold OptSpace; decide⟩, by unfold OptSpace; decide, by unfold OptSpace; decide, .inl rfl⟩
    · exact isEncName_iff.1 (by decide)
    · unfold OptSpace; decide

set_option maxRecDepth 20000 in
/-- **C80**, where the text is not kept: the same text with another declaration; parsed from a string, the name
`Größe` becomes another one. -/
theorem C80_altered (x : Libxml) :
    dataTypeNames (parseString (sizeDoc [])) = some [some c!"Größe"] ∧
      dataTypeNames (parseFromBytes x (none : Option (Callback Unit)) (sizeDoc []) ()).1 = some [some c!"Größe"] ∧
      dataTypeNames (parseFromBytes x (none : Option (Callback Unit)) (sizeDoc latinHead) ()).1 =
        some [some ['G', 'r', 'Ã', '¶', 'Ã', Char.ofNat 0x9F, 'e']] := by
  have h1 : dataTypeNames (parseString (sizeDoc [])) = some [some c!"Größe"] := by decide +kernel
  refine ⟨h1, ?_, ?_⟩
  · rw [(C80_utf8 x ?_ none).2]
    · exact h1
    · rintro e ⟨u, t, h, r, hu, hl, ht, v, _, _, _, _, hh, _⟩
      exfalso
      have : (sizeDoc []).head? ≠ some (Char.ofNat 0xFEFF) := by decide +kernel
      rcases hu with ⟨rfl, _⟩ | hu
      · have hn : normEol (sizeDoc []) = sizeDoc [] := normEol_of_noCr (by decide +kernel)
        have e := lines_iff.1 hl
        rw [hn, ht, hh] at e
        have e2 := congrArg (fun l => l.drop 1 |>.head?) e
        have e3 : (List.drop 1 (sizeDoc [])).head? = some 'R' := by decide +kernel
        rw [e3] at e2
        simp at e2
      · rw [hu] at this; exact this rfl
  · have hr : readBytes x (utf8Bytes (sizeDoc latinHead)) = readDoc (garbled (sizeDoc latinHead)) := by
      refine readBytes_latin1 x (e := c!"ISO-8859-1") ?_ (by decide) (by decide +kernel)
      rw [sizeDoc, List.append_assoc]
      exact latinHead_names _ (by decide +kernel)
    have e : parseFromBytes x (none : Option (Callback Unit)) (sizeDoc latinHead) () =
        parseFromString (none : Option (Callback Unit)) (garbled (sizeDoc latinHead)) () := by
      unfold parseFromBytes parseFromString
      rw [hr, if_neg (by decide +kernel), if_neg (by decide +kernel)]
      cases readDoc (garbled (sizeDoc latinHead)) <;> rfl
    rw [e]
    show dataTypeNames (parseString (garbled (sizeDoc latinHead))) = _
    decide +kernel

theorem noAmp_references {s : Str} (h : '&' ∉ s) : AsciiReferences s := by
  rintro r d hr ⟨a, b, rfl⟩
  obtain ⟨nm, rfl, _⟩ := reference_entity hr
  exact absurd (by simp) h

set_option maxRecDepth 20000 in
/-- Non-vacuity of `C80_latin1`: the document meets its hypotheses, and it is not ASCII. -/
example : ∃ ns r, WellFormed (sizeDoc latinHead) (some (some c!"ISO-8859-1")) ns r ∧ isLatin1Name c!"ISO-8859-1" = true ∧
    (sizeDoc latinHead).head? ≠ some (Char.ofNat 0xFEFF) ∧ (∀ n ∈ nodesNames ns, Ascii n) ∧
    (∀ t, Lines (sizeDoc latinHead) t → AsciiReferences t) ∧ ¬ Ascii (sizeDoc latinHead) := by
  have h : (readDoc (sizeDoc latinHead)).map (fun d => (d.decl.map (·.encoding), (nodesNames d.nodes).all (fun n => decide (Ascii n)))) =
      some (some (some c!"ISO-8859-1"), true) := by decide +kernel
  cases hd : readDoc (sizeDoc latinHead) with
  | none => rw [hd] at h; cases h
  | some d =>
    rw [hd] at h
    simp only [Option.map_some, Option.some.injEq, Prod.mk.injEq] at h
    have hw := (C79_tree _ d).1 hd
    rw [h.1] at hw
    refine ⟨d.nodes, d.root, hw, by decide, by decide +kernel, ?_, ?_, by decide +kernel⟩
    · intro n hn
      simpa using List.all_eq_true.1 h.2 n hn
    · intro t hl
      have hn : normEol (sizeDoc latinHead) = sizeDoc latinHead := normEol_of_noCr (by decide +kernel)
      rw [← lines_iff.1 hl, hn]
      exact noAmp_references (by decide +kernel)

/-- Non-vacuity of `C80_us_ascii`: a declaration of ASCII before a letter that is none. -/
example : NamesEncoding (c!"<?xml version='1.0' encoding='us-ascii'?><a>" ++ c!"é</a>") c!"us-ascii" ∧ isAsciiName c!"us-ascii" = true ∧
    ¬ Ascii (c!"<?xml version='1.0' encoding='us-ascii'?><a>" ++ c!"é</a>") := by
  refine ⟨?_, by decide, by decide⟩
  refine ⟨_, _, c!"<?xml version='1.0' encoding='us-ascii'?>", c!"<a>é</a>", .inl ⟨rfl, by decide⟩, lines_iff.2 (by decide), rfl, ?_⟩
  refine ⟨c!" version='1.0'", c!" encoding='us-ascii'", [], [], c!"1.0", rfl, ?_, ⟨c!"0", rfl, by decide, by decide⟩, .inr ⟨_, rfl, ?_, ?_⟩, .inl rfl, ?_⟩
  · exact ⟨c!" ", [], [], '\'', rfl, ⟨by decide, by unfold OptSpace; decide⟩, by unfold OptSpace; decide, by unfold OptSpace; decide, .inr rfl⟩
  · exact ⟨c!" ", [], [], '\'', rfl, ⟨by decide, by unfold OptSpace; decide⟩, by unfold OptSpace; decide, by unfold OptSpace; decide, .inr rfl⟩
  · exact isEncName_iff.1 (by decide)
  · unfold OptSpace; decide

/-- Non-vacuity of `C80_other`: a Russian text. -/
example : NamesEncoding (c!"<?xml version='1.0' encoding='KOI8-R'?><a>" ++ c!"да</a>") c!"KOI8-R" ∧
    (isUtf8Name c!"KOI8-R" || isLatin1Name c!"KOI8-R" || isAsciiName c!"KOI8-R") = false := by
  refine ⟨?_, by decide⟩
  refine ⟨_, _, c!"<?xml version='1.0' encoding='KOI8-R'?>", c!"<a>да</a>", .inl ⟨rfl, by decide⟩, lines_iff.2 (by decide), rfl, ?_⟩
  refine ⟨c!" version='1.0'", c!" encoding='KOI8-R'", [], [], c!"1.0", rfl, ?_, ⟨c!"0", rfl, by decide, by decide⟩, .inr ⟨_, rfl, ?_, ?_⟩, .inl rfl, ?_⟩
  · exact ⟨c!" ", [], [], '\'', rfl, ⟨by decide, by unfold OptSpace; decide⟩, by unfold OptSpace; decide, by unfold OptSpace; decide, .inr rfl⟩
  · exact ⟨c!" ", [], [], '\'', rfl, ⟨by decide, by unfold OptSpace; decide⟩, by unfold OptSpace; decide, by unfold OptSpace; decide, .inr rfl⟩
  · exact isEncName_iff.1 (by decide)
  · unfold OptSpace; decide

/-- Non-vacuity of `C80_file_refused`: `Größe` in ISO-8859-1 is `47 72 F6 DF 65`. -/
example : ∃ a c : List UInt8, ∃ b : UInt8, ([0x47, 0x72, 0xF6, 0xDF, 0x65] : List UInt8) = a ++ b :: c ∧ 0xC0 ≤ b.toNat ∧
    ∀ d, c.head? = some d → d.toNat < 128 :=
  ⟨[0x47, 0x72, 0xF6], [0x65], 0xDF, rfl, by decide, by intro d h; cases h; decide⟩

set_option maxRecDepth 20000 in
/-- Non-vacuity of `C80_file_latin1`: a file with the bytes of `sizeDoc`. -/
example : decodeUtf8 (sizeDoc latinHead).utf8Encode = .ok (sizeDoc latinHead) ∧ NamesEncoding (sizeDoc latinHead) c!"ISO-8859-1" :=
  ⟨decodeUtf8_encode _, by rw [sizeDoc, List.append_assoc]; exact latinHead_names _ (by decide +kernel)⟩

end ReqIF.Spec
