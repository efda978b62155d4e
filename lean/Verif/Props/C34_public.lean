import Verif.Props.C01_06
import Verif.Props.C33
import Verif.Props.C34
/-!
# C01, C33, C34: public functions that the program itself does not call

`reqif_escape`, `unparse_xhtml_attribute_value` and `parse_xhtml_attribute_definition`
are part of the library but have no caller in it.
-/
namespace ReqIF
open Spec

/-! ## `reqif_escape` -/

/-- The table of `reqif_escape`. -/
def publicEscChar (c : Char) : Str := if c = Char.ofNat 0xA0 then [c] else escChar c

theorem reqifEscape_eq (s : Str) : reqifEscape s = s.flatMap publicEscChar := by
  simp only [reqifEscape, replaceChar_eq_flatMap, List.flatMap_assoc]
  congr 1; funext c
  unfold publicEscChar escChar
  by_cases h1 : c = '&'; · subst h1; rfl
  by_cases h2 : c = '<'; · subst h2; rfl
  by_cases h3 : c = '>'; · subst h3; rfl
  by_cases h4 : c = '"'; · subst h4; rfl
  by_cases h5 : c = '\''; · subst h5; rfl
  by_cases h6 : c = '\t'; · subst h6; rfl
  by_cases h7 : c = Char.ofNat 0xA0; · subst h7; rfl
  simp [h1, h2, h3, h4, h5, h6, h7]

theorem publicEscChar_notMem (c : Char) : '<' ∉ publicEscChar c ∧ '"' ∉ publicEscChar c ∧ '>' ∉ publicEscChar c := by
  unfold publicEscChar
  split
  · rename_i h; subst h; decide
  · exact ⟨(escChar_notMem c).1, (escChar_notMem c).2.2.1, (escChar_notMem c).2.1⟩

theorem publicEscChar_shape (c : Char) (h1 : c ≠ '\r') (h2 : c ≠ '\n') :
    '\r' ∉ publicEscChar c ∧ (publicEscChar c).head? ≠ some '\n' ∧ publicEscChar c ≠ [] := by
  unfold publicEscChar
  split
  · rename_i h; subst h; decide
  · exact escChar_shape c h1 h2

theorem normEol_public (s : Str) : normEol (reqifEscape s) = reqifEscape (normEol s) := by
  simp only [reqifEscape_eq]; exact normEol_flatMap (by decide) (by decide) publicEscChar_shape s

theorem decodeAttr_public (s : Str) : decodeAttr (reqifEscape s) = mapChars attrBack s := by
  rw [reqifEscape_eq]
  refine decodeGo_flatMap _ _ _ (fun c rest => ?_) s
  unfold publicEscChar
  split
  · rename_i h; subst h; rfl
  · exact decodeGo_escChar_attr c rest

theorem decodeText_public (s : Str) : decodeText (reqifEscape s) = mapChars textBack s := by
  have : containsStr c!"]]>" (reqifEscape s) = false := by
    rw [reqifEscape_eq]
    exact containsStr_of_notMem (x := '>') (by decide) (mem_flatMap_notMem (fun c => (publicEscChar_notMem c).2.2) s)
  unfold decodeText
  rw [this]
  show decodeGo litText none (reqifEscape s) = _
  rw [reqifEscape_eq]
  refine decodeGo_flatMap _ _ _ (fun c rest => ?_) s
  unfold publicEscChar
  split
  · rename_i h; subst h; rfl
  · exact decodeGo_escChar_text c rest

theorem noCr_flatMap {e : Char → Str} (h2 : e '\n' = ['\n'])
    (h3 : ∀ c, c ≠ '\r' → c ≠ '\n' → '\r' ∉ e c ∧ (e c).head? ≠ some '\n' ∧ e c ≠ []) (s : Str) :
    '\r' ∉ (normEol s).flatMap e := by
  intro hm
  simp only [List.mem_flatMap] at hm
  obtain ⟨c, hc, hm⟩ := hm
  have h1 : c ≠ '\r' := noCr_of_normEol_eq c hc
  by_cases h4 : c = '\n'
  · subst h4; rw [h2] at hm; revert hm; decide
  · exact (h3 c h1 h4).1 hm

theorem nil_flatMap {e : Char → Str} (h1 : e '\r' = ['\r']) (h2 : e '\n' = ['\n'])
    (h3 : ∀ c, c ≠ '\r' → c ≠ '\n' → '\r' ∉ e c ∧ (e c).head? ≠ some '\n' ∧ e c ≠ []) (s : Str) :
    s.flatMap e = [] ↔ s = [] := by
  cases s with
  | nil => simp
  | cons c t =>
    simp only [List.flatMap_cons, List.append_eq_nil_iff, reduceCtorEq, iff_false, not_and]
    intro h'
    by_cases g1 : c = '\r'
    · subst g1; rw [h1] at h'; exact absurd h' (by decide)
    by_cases g2 : c = '\n'
    · subst g2; rw [h2] at h'; exact absurd h' (by decide)
    exact absurd h' (h3 c g1 g2).2.2

theorem readDoc_attrEol (tag attr s : Str) {f : Str → Str} (ht : isNCName tag = true) (ha : isNCName attr = true)
    (hf : ∀ s, normEol (f s) = f (normEol s)) : readDoc (attrDoc tag attr (f s)) = readDoc (attrDoc tag attr (f (normEol s))) := by
  have h := readDoc_normEol (tag ++ c!" " ++ attr ++ c!"=\"" ++ f s ++ c!"\"/>")
  have h2 : normEol ('<' :: (tag ++ c!" " ++ attr ++ c!"=\"" ++ f s ++ c!"\"/>")) = attrDoc tag attr (f (normEol s)) := by
    rw [← List.cons_append, normEol_append _ (by decide), ← List.cons_append, normEol_append_left, hf]
    · simp [attrDoc, normEol]
    · simp [qname_noCr (isQName_of_ncname ht), qname_noCr (isQName_of_ncname ha)]
  rw [h2] at h
  rw [← h]; simp [attrDoc]

theorem readDoc_textEol (tag s : Str) {f : Str → Str} (ht : isNCName tag = true)
    (hf : ∀ s, normEol (f s) = f (normEol s)) : readDoc (textDoc tag (f s)) = readDoc (textDoc tag (f (normEol s))) := by
  have h := readDoc_normEol (tag ++ c!">" ++ f s ++ (c!"</" ++ tag ++ c!">"))
  have h2 : normEol ('<' :: (tag ++ c!">" ++ f s ++ (c!"</" ++ tag ++ c!">"))) = textDoc tag (f (normEol s)) := by
    rw [← List.cons_append, normEol_append _ (by simp), ← List.cons_append, normEol_append_left, hf,
      normEol_of_noCr (s := c!"</" ++ tag ++ c!">")]
    · simp [textDoc]
    · simp [qname_noCr (isQName_of_ncname ht)]
    · simp [qname_noCr (isQName_of_ncname ht)]
  rw [h2] at h
  rw [← h]; simp [textDoc]

theorem lxml_normEol (s : Str) : normEol (lxmlEscapeForHtml s) = lxmlEscapeForHtml (normEol s) := by
  simp only [lxmlEscape_eq]; exact normEol_escape s

/-- **C01** for `reqif_escape`: as attribute and as text, a string escaped by it is read
as is a string escaped by `lxml_escape_for_html`; so it is read back unchanged in the
cases of `C01_attr` and `C01_text`. -/
theorem C01_public (tag attr s : Str) (ht : isNCName tag = true) (ha : isNCName attr = true) (hx : attr ≠ c!"xmlns") :
    (ReadsAttr (attrDoc tag attr (reqifEscape s)) attr s ↔ ∀ c ∈ s, isXmlChar c = true ∧ c ≠ '\n' ∧ c ≠ '\r') ∧
    (ReadsText (textDoc tag (reqifEscape s)) s ↔ ∀ c ∈ s, isXmlChar c = true ∧ c ≠ '\r') := by
  rw [← Props.C01_attr tag attr s ht ha hx, ← Props.C01_text tag s ht]
  unfold ReadsAttr ReadsText
  have pn : publicEscChar '\n' = ['\n'] := by decide
  have pr : publicEscChar '\r' = ['\r'] := by decide
  have e1 : readDoc (attrDoc tag attr (reqifEscape s)) = readDoc (attrDoc tag attr (lxmlEscapeForHtml s)) := by
    rw [readDoc_attrEol tag attr s ht ha normEol_public, readDoc_attrEol tag attr s ht ha lxml_normEol,
      readDoc_attrDoc tag attr _ ht ha hx
        (by rw [reqifEscape_eq]; exact mem_flatMap_notMem (fun c => (publicEscChar_notMem c).2.1) _)
        (by rw [reqifEscape_eq]; exact noCr_flatMap pn publicEscChar_shape s),
      readDoc_attrDoc tag attr _ ht ha hx
        (by rw [lxmlEscape_eq]; exact mem_flatMap_notMem (fun c => (escChar_notMem c).2.2.1) _)
        (by rw [lxmlEscape_eq]; exact noCr_flatMap (by decide) escChar_shape s),
      lxmlEscape_eq, decodeAttr_escape, decodeAttr_public]
  have e2 : readDoc (textDoc tag (reqifEscape s)) = readDoc (textDoc tag (lxmlEscapeForHtml s)) := by
    have n1 : reqifEscape (normEol s) = [] ↔ normEol s = [] := by
      rw [reqifEscape_eq]; exact nil_flatMap pr pn publicEscChar_shape _
    have n2 : lxmlEscapeForHtml (normEol s) = [] ↔ normEol s = [] := by
      rw [lxmlEscape_eq]; exact nil_flatMap (by decide) (by decide) escChar_shape _
    rw [readDoc_textEol tag s ht normEol_public, readDoc_textEol tag s ht lxml_normEol,
      readDoc_textDoc tag _ ht
        (by rw [reqifEscape_eq]; exact mem_flatMap_notMem (fun c => (publicEscChar_notMem c).1) _)
        (by rw [reqifEscape_eq]; exact noCr_flatMap pn publicEscChar_shape s),
      readDoc_textDoc tag _ ht
        (by rw [lxmlEscape_eq]; exact mem_flatMap_notMem (fun c => (escChar_notMem c).1) _)
        (by rw [lxmlEscape_eq]; exact noCr_flatMap (by decide) escChar_shape s),
      decodeText_public]
    by_cases hz : normEol s = []
    · rw [if_pos (n1.2 hz), if_pos (n2.2 hz)]
    · rw [if_neg (fun h => hz (n1.1 h)), if_neg (fun h => hz (n2.1 h)), lxmlEscape_eq, decodeText_escape]
  rw [e1, e2]
  exact ⟨Iff.rfl, Iff.rfl⟩

/-- Non-vacuity: the two escapings differ, in the non-breaking space only. -/
example : reqifEscape [Char.ofNat 0xA0, '<', '\t'] = Char.ofNat 0xA0 :: c!"&lt;&#9;" ∧
    lxmlEscapeForHtml [Char.ofNat 0xA0, '<', '\t'] = c!"&#xA0;&lt;&#9;" := by decide

/-! ## `unparse_xhtml_attribute_value` -/

/-- **C33** for `unparse_xhtml_attribute_value`: it prints a value with a text, whatever
its type, as an XHTML value with that text is printed in an object, and refuses a
list of values as the printing of objects does. -/
theorem C33_public (a : SpecObjectAttribute) :
    unparseXhtmlAttributeValue a = unparseAttributeValue { a with type := .xhtml } := by
  cases hv : a.value <;> simp [unparseXhtmlAttributeValue, unparseAttributeValue, hv]

/-- Non-vacuity. -/
example : ∃ t, unparseXhtmlAttributeValue ⟨.xhtml, some c!"d", .str c!"<xhtml:p>t</xhtml:p>", none, none⟩ = .ok t := ⟨_, rfl⟩

/-! ## `parse_xhtml_attribute_definition` -/

/-- **C34** for `parse_xhtml_attribute_definition`: an element of another name is
refused; of an `ATTRIBUTE-DEFINITION-XHTML` everything is read as it is in a document,
except that the definition is marked as not multi-valued instead of unmarked. -/
theorem C34_public (x : Node) :
    (x.tag = .name c!"ATTRIBUTE-DEFINITION-XHTML" → parseXhtmlAttributeDefinition x =
      pyMap (fun a => { a with multiValued := some false }) (parseAttributeDefinition x)) ∧
    (x.tag ≠ .name c!"ATTRIBUTE-DEFINITION-XHTML" → parseXhtmlAttributeDefinition x = .error .assertion) := by
  constructor
  · intro h
    simp only [parseXhtmlAttributeDefinition, parseAttributeDefinition, parseDefinitionBody, h]
    cases attrReq x c!"IDENTIFIER" with
    | error e => rfl
    | ok i =>
      cases hd : parseDatatypeRef x c!"DATATYPE-DEFINITION-XHTML-REF" with
      | error e => simp; rfl
      | ok d =>
        cases hp : parseDefaultXhtml x with
        | error e => simp; rfl
        | ok p => simp; rfl
  · intro h
    unfold parseXhtmlAttributeDefinition
    have : (x.tag == Tag.name c!"ATTRIBUTE-DEFINITION-XHTML") = false := by simpa using h
    rw [this]; rfl

/-- Non-vacuity, and the consequence: printed again, the definition has an attribute
that was not in the document. -/
theorem C34_public_marked : ∃ a, parseXhtmlAttributeDefinition (definitionNode c!"XHTML" []) = .ok a ∧
    parseAttributeDefinition (definitionNode c!"XHTML" []) = .ok { a with multiValued := none } ∧
    a.multiValued = some false := ⟨_, rfl, rfl, rfl⟩

end ReqIF
