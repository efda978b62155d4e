import Verif.Proofs.Cut
import Verif.Proofs.SmallDocs
import Verif.Props.C42_45
import Verif.Props.C66
/-!
# C73: a document cut short is never taken for a smaller one
-/
namespace ReqIF
open Spec

/-- **C73.** If a text is well-formed XML, each beginning of it is either refused as malformed
or gives what the whole text gives. -/
theorem C73_text {p q : Str} {d : Doc} (h : readDoc (p ++ q) = some d) :
    (∃ c, parseString p = .error (.xmlParsing c)) ∨ parseString p = parseString (p ++ q) := by
  by_cases hl : p.length = 0
  · left
    refine ⟨.emptyDocument, ?_⟩
    unfold parseString parseFromString
    rw [if_pos hl]
  · cases hp : readDoc p with
    | none =>
      left
      refine ⟨.notWellFormed, ?_⟩
      unfold parseString parseFromString
      rw [if_neg hl, hp]
    | some d' =>
      right
      obtain ⟨h1, h2⟩ := readDoc_cut h hp
      have hl' : ¬ (p ++ q).length = 0 := by
        rw [List.length_append]; omega
      unfold parseString parseFromString
      rw [if_neg hl, if_neg hl', hp, h]
      dsimp only
      rw [parseReqif_same none h1 h2]

/-- Bytes that decode are the encoding of their text. -/
theorem decodeUtf8_eq {b : ByteArray} {s : Str} (h : decodeUtf8 b = .ok s) : b = s.utf8Encode := by
  unfold decodeUtf8 at h
  cases hd : b.utf8Decode? with
  | none => rw [hd] at h; cases h
  | some cs =>
    rw [hd] at h
    cases h
    obtain ⟨m, hm⟩ := ByteArray.isSome_utf8Decode?_iff.1 (by rw [hd]; rfl)
    rw [hm, List.utf8Decode?_utf8Encode] at hd
    cases hd
    simpa using hm

/-- The beginning of an encoded text is no encoded text or the encoding of its beginning. -/
theorem decodeUtf8_cut {a c : ByteArray} {s p : Str} (h : decodeUtf8 (a ++ c) = .ok s) (ha : decodeUtf8 a = .ok p) :
    ∃ q, s = p ++ q ∧ c = q.utf8Encode := by
  have h1 := decodeUtf8_eq h
  have h2 := decodeUtf8_eq ha
  rw [h2] at h1
  obtain ⟨q, hq⟩ := List.isPrefix_of_utf8Encode_append_eq_utf8Encode c h1
  refine ⟨q, hq.symm, ?_⟩
  rw [← hq, List.utf8Encode_append] at h1
  exact (ByteArray.append_right_inj _).1 h1

/-- Parsing the bytes of a file without a callback (`ReqIFParser.parse`). -/
def parseBytes (bytes : ByteArray) : Py Bundle := (parseFile (none : Option (Callback Unit)) (.ok bytes) ()).1

theorem parseBytes_text {bytes : ByteArray} {text : Str} (h : decodeUtf8 bytes = .ok text) :
    parseBytes bytes = parseString (normEol text) := by
  unfold parseBytes parseFile
  simp only [M.bind, M.lift, h]
  rfl

theorem parseBytes_bad {bytes : ByteArray} {e : PyErr} (h : decodeUtf8 bytes = .error e) : parseBytes bytes = .error .unicode := by
  have : e = .unicode := by
    unfold decodeUtf8 at h
    split at h <;> cases h
    rfl
  subst this
  unfold parseBytes parseFile
  simp only [M.bind, M.lift, h]

/-- **C73**, files: if a file holds well-formed XML in UTF-8, what is left of it after its first
bytes have been lost from the end is refused (as malformed or as no UTF-8), or gives what
the whole file gives. -/
theorem C73_file {a c : ByteArray} {text : Str} {d : Doc} (hd : decodeUtf8 (a ++ c) = .ok text) (h : readDoc (normEol text) = some d) :
    parseBytes a = .error .unicode ∨ (∃ e, parseBytes a = .error (.xmlParsing e)) ∨ parseBytes a = parseBytes (a ++ c) := by
  cases ha : decodeUtf8 a with
  | error e => exact Or.inl (parseBytes_bad ha)
  | ok p =>
    right
    obtain ⟨q, hq, -⟩ := decodeUtf8_cut hd ha
    rw [parseBytes_text ha, parseBytes_text hd]
    obtain ⟨t, ht⟩ := normEol_prefix p q
    rw [hq, ht] at h ⊢
    exact C73_text h

/-- A bundle is printed with the end tag of the root last. -/
theorem unparse_ends {b : Bundle} {out : Str} (h : unparse b = .ok out) : (∃ x, out = x ++ rootEnd) ∧ out.head? = some '<' := by
  unfold unparse unparseM at h
  simp only [M.bind, M.lift] at h
  repeat' split at h
  all_goals first
    | (cases h; done)
    | (cases h; exact ⟨⟨_, rfl⟩, rfl⟩)

/-- **C73**, output: if what is printed for a bundle is well-formed, every beginning of it is
refused as malformed, except the one that lacks only the last line end. -/
theorem C73_output {b : Bundle} {out p q : Str} {d : Doc} (h : unparse b = .ok out) (hd : readDoc out = some d) (hq : out = p ++ q)
    (h0 : q ≠ []) (h1 : q ≠ c!"\n") : ∃ c, parseString p = .error (.xmlParsing c) := by
  obtain ⟨⟨x, hx⟩, hh⟩ := unparse_ends h
  by_cases hl : p.length = 0
  · refine ⟨.emptyDocument, ?_⟩
    unfold parseString parseFromString
    rw [if_pos hl]
  · refine ⟨.notWellFormed, ?_⟩
    have hn : readRaw p = none := by
      cases hp : readRaw p with
      | none => rfl
      | some b =>
        exfalso
        unfold readDoc at hd
        cases ho : readRaw out with
        | none => rw [ho] at hd; cases hd
        | some a =>
          rw [hq] at ho hx hh
          rcases printed_cut hx (by rw [hh]; decide) ho hp with e | e
          · exact h0 e
          · exact h1 e
    unfold parseString parseFromString readDoc
    rw [if_neg hl, hn]

/-- **C73**, output files: a file that holds the printed text of a bundle and has lost two or
more bytes at its end is not parsed. -/
theorem C73_output_file {b : Bundle} {out : Str} {d : Doc} {a c : ByteArray} (h : unparse b = .ok out) (hd : readDoc out = some d)
    (ha : a ++ c = out.utf8Encode) (hc : 2 ≤ c.size) :
    parseBytes a = .error .unicode ∨ ∃ e, parseBytes a = .error (.xmlParsing e) := by
  cases hp : decodeUtf8 a with
  | error e => exact Or.inl (parseBytes_bad hp)
  | ok p =>
    right
    have ho : decodeUtf8 (a ++ c) = .ok out := by rw [ha, decodeUtf8_encode]
    obtain ⟨q, hq, hcq⟩ := decodeUtf8_cut ho hp
    have hq0 : q ≠ [] := by rintro rfl; rw [hcq] at hc; simp at hc
    have hq1 : q ≠ c!"\n" := by
      rintro rfl
      rw [hcq] at hc
      exact absurd hc (by decide)
    obtain ⟨e, he⟩ := C73_output h hd hq hq0 hq1
    rw [parseBytes_text hp]
    cases p with
    | nil => exact ⟨_, he⟩
    | cons y p =>
      have : y = '<' := by
        have := (unparse_ends h).2
        rw [hq] at this
        simpa using this
      subst this
      rw [parseString_normEol]
      exact ⟨e, he⟩

/-- **C73**, safe bundles: their output cannot be cut short unnoticed. -/
theorem C73_safe {as : List (Str × Str)} {pf : Str} {b : Bundle} (h : SafeBundle as pf b) :
    ∃ out, unparse b = .ok out ∧ (∃ b', parseBytes out.utf8Encode = .ok b') ∧
      ∀ a c : ByteArray, a ++ c = out.utf8Encode → 2 ≤ c.size →
        parseBytes a = .error .unicode ∨ ∃ e, parseBytes a = .error (.xmlParsing e) := by
  obtain ⟨out, d, b', h1, h2, -, h3, -⟩ := bundle_survives h
  refine ⟨out, h1, ⟨b', ?_⟩, fun a c ha hc => C73_output_file h1 h2 ha hc⟩
  rw [parseBytes_text (decodeUtf8_encode out)]
  obtain ⟨⟨x, hx⟩, hh⟩ := unparse_ends h1
  cases out with
  | nil => cases hh
  | cons y o =>
    have : y = '<' := by simpa using hh
    subst this
    rw [parseString_normEol]
    exact h3

/-! ## Cases -/

/-- A small document with a comment after its root. -/
def commentedDoc : Str := c!"<REQ-IF xmlns=\"u\"><THE-HEADER/></REQ-IF>\n<!-- end -->\n"

/-- The document can be cut before the comment (then it is read as the whole is), but not inside it or inside
the root. -/
example : (readDoc commentedDoc).isSome = true ∧ (readDoc (commentedDoc.take 41)).isSome = true ∧ (readDoc (commentedDoc.take 50)).isSome = false ∧
    (readDoc (commentedDoc.take 30)).isSome = false := by
  refine ⟨?_, ?_, ?_, ?_⟩ <;> decide +kernel

/-- The condition of `C73_text` is needed: what stands after the root may make the whole
text malformed. -/
theorem C73_malformed : (∃ b, parseString c!"<REQ-IF xmlns=\"u\"/>" = .ok b) ∧ readDoc (c!"<REQ-IF xmlns=\"u\"/>" ++ c!"</REQ-IF>") = none :=
  ⟨⟨_, rfl⟩, rfl⟩

/-- A safe bundle with header and all kinds of items. -/
example : ∃ out, unparse exampleBundle = .ok out ∧ (∃ b', parseBytes out.utf8Encode = .ok b') ∧
    ∀ a c : ByteArray, a ++ c = out.utf8Encode → 2 ≤ c.size →
      parseBytes a = .error .unicode ∨ ∃ e, parseBytes a = .error (.xmlParsing e) :=
  C73_safe exampleBundle_safe

end ReqIF
