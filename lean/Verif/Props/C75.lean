import Verif.Props.C72
import Verif.Proofs.Refs
/-!
# C75: identifiers and references survive passthrough
-/
namespace ReqIF.Xsd
open Spec

/-- **C75.** What is printed for a plain document has the identifiers of the document, each on an
element with the same name, and each as often.  Its references are among those of the
document: same kind, same target, in an element with the same name.  References outside of editable
attributes, definitions, lists of values and specifications of relation groups are all
there. -/
theorem C75_entries {text : Str} {doc : Doc} {p : Str} (hr : readDoc text = some doc) (hv : validRoot .lenient doc.root = true)
    (hs : noSpecials doc.root = true) (hp : plainDocument p doc.root = true) (hk : childNames doc.root.kids ≠ []) :
    ∃ b out d, parseString text = .ok b ∧ unparse b = .ok out ∧ readDoc out = some d ∧
      (documentEntries d.root).Perm (documentEntries (writtenRoot doc.root)) ∧
      (∀ e, (documentEntries d.root).count e ≤ (documentEntries doc.root).count e) ∧
      ((documentEntries d.root).filter Entry.isIdentifier).Perm ((documentEntries doc.root).filter Entry.isIdentifier) ∧
      ∀ holder, losesReferences holder = false → ∀ kind target,
        (documentEntries d.root).count (.reference holder kind target) = (documentEntries doc.root).count (.reference holder kind target) := by
  obtain ⟨b, out, d, h1, h2, h3, h4⟩ := C71_content hr hv hs hp hk
  have hperm : (documentEntries d.root).Perm (documentEntries (writtenRoot doc.root)) :=
    entriesAll_same _ _ (perm_of_filters Said.name _ _ (fun k => congrFun h4 k))
  obtain ⟨g1, g2⟩ : (documentEntries (writtenRoot doc.root)).Sublist (documentEntries doc.root) ∧
      (documentEntries (writtenRoot doc.root)).filter Entry.stays = (documentEntries doc.root).filter Entry.stays := by
    cases hroot : doc.root with
    | elem i ks =>
      rw [hroot] at hv
      unfold validRoot valid at hv
      dsimp only at hv
      rw [validBy] at hv
      simp only [Bool.and_eq_true] at hv
      have := entriesAll_written c!"REQ-IF" ks (t := .reqIf) (by decide) hv.2.2
      unfold documentEntries writtenRoot
      rw [written, if_neg (by decide)]
      exact this
    | _ => rw [hroot] at hv; cases hv
  refine ⟨b, out, d, h1, h2, h3, hperm, (fun e => hperm.count_eq e ▸ g1.count_le e), ?_, ?_⟩
  · refine (hperm.filter _).trans (List.Perm.of_eq ?_)
    have e : ∀ l : List Entry, l.filter Entry.isIdentifier = (l.filter Entry.stays).filter Entry.isIdentifier := by
      intro l
      rw [List.filter_filter]
      refine List.filter_congr (fun e _ => ?_)
      cases e <;> simp [Entry.isIdentifier, Entry.stays]
    rw [e, g2, ← e]
  · intro holder hh kind target
    rw [hperm.count_eq]
    have e : ∀ l : List Entry, l.count (.reference holder kind target) = (l.filter Entry.stays).count (.reference holder kind target) := by
      intro l
      rw [List.count_filter]
      show (!losesReferences holder) = true
      rw [hh]
      rfl
    rw [e, g2, ← e]

theorem identifiersIn_filter (l : List Entry) : identifiersIn (l.filter Entry.isIdentifier) = identifiersIn l := by
  induction l with
  | nil => rfl
  | cons e l ih =>
    cases e with
    | identifier a v =>
      rw [List.filter_cons_of_pos (by rfl)]
      unfold identifiersIn at ih ⊢
      rw [List.filterMap_cons, List.filterMap_cons, ih]
    | reference a k v =>
      rw [List.filter_cons_of_neg (by simp [Entry.isIdentifier]), ih]
      rfl

/-- **C75**, integrity: identifiers are unique in the output if and only if they are in the input; and
if all references of the input resolve, so do all references of the output. -/
theorem C75_integrity {text : Str} {doc : Doc} {p : Str} (hr : readDoc text = some doc) (hv : validRoot .lenient doc.root = true)
    (hs : noSpecials doc.root = true) (hp : plainDocument p doc.root = true) (hk : childNames doc.root.kids ≠ []) :
    ∃ b out d, parseString text = .ok b ∧ unparse b = .ok out ∧ readDoc out = some d ∧
      (identifiersUnique (documentEntries d.root) ↔ identifiersUnique (documentEntries doc.root)) ∧
      (referencesResolve (documentEntries doc.root) → referencesResolve (documentEntries d.root)) := by
  obtain ⟨b, out, d, h1, h2, h3, -, h5, h6, -⟩ := C75_entries hr hv hs hp hk
  refine ⟨b, out, d, h1, h2, h3, ?_, ?_⟩
  · unfold identifiersUnique
    rw [← identifiersIn_filter (documentEntries d.root), ← identifiersIn_filter (documentEntries doc.root)]
    exact (h6.filterMap _).nodup_iff
  · intro h holder kind target hm hf
    obtain ⟨e, he, hid⟩ := h holder kind target (List.count_pos_iff.1 (Nat.lt_of_lt_of_le (List.count_pos_iff.2 hm) (h5 _))) hf
    refine ⟨e, he, ?_⟩
    have : Entry.identifier e target ∈ (documentEntries doc.root).filter Entry.isIdentifier := List.mem_filter.2 ⟨hid, rfl⟩
    exact (List.mem_filter.1 (h6.symm.subset this)).1

/-- **C75**, validity with identifiers: if the input is valid, its identifiers are unique and
its references resolve, then all this holds of the output, if the elements the schema requires
are written. -/
theorem C75_valid {text : Str} {doc : Doc} {p : Str} (hr : readDoc text = some doc) (hx : validRoot .xsd doc.root = true)
    (hv : validRoot .lenient doc.root = true) (hs : noSpecials doc.root = true) (hp : plainDocument p doc.root = true)
    (hu : identifiersUnique (documentEntries doc.root)) (hres : referencesResolve (documentEntries doc.root)) :
    ∃ b out d, parseString text = .ok b ∧ unparse b = .ok out ∧ readDoc out = some d ∧
      validRoot .xsd d.root = keepsRequired .reqIf doc.root ∧ identifiersUnique (documentEntries d.root) ∧
      referencesResolve (documentEntries d.root) := by
  obtain ⟨b, out, d, h1, h2, h3, h4⟩ := C72_valid hr hx hv hs hp
  have hk : childNames doc.root.kids ≠ [] := (strict_full (d := .xsd) rfl hx).1
  obtain ⟨b', out', d', g1, g2, g3, g4, g5⟩ := C75_integrity hr hv hs hp hk
  rw [h1] at g1; cases g1
  rw [h2] at g2; cases g2
  rw [h3] at g3; cases g3
  exact ⟨b, out, d, h1, h2, h3, h4, g4.2 hu, g5 hres⟩

/-- **C75**, files: passthrough keeps unique identifiers unique and resolving references
resolving. -/
theorem C75_passthrough {source : ByteArray} {text : Str} {doc : Doc} {p : Str} (hd : decodeUtf8 source = .ok text)
    (hr : readDoc (normEol text) = some doc) (hv : validRoot .lenient doc.root = true) (hs : noSpecials doc.root = true)
    (hp : plainDocument p doc.root = true) (hk : childNames doc.root.kids ≠ []) :
    ∃ out d, passthroughBytes (.ok source) = .ok out.utf8Encode ∧ readDoc out = some d ∧
      (identifiersUnique (documentEntries d.root) ↔ identifiersUnique (documentEntries doc.root)) ∧
      (referencesResolve (documentEntries doc.root) → referencesResolve (documentEntries d.root)) := by
  obtain ⟨b, out, d, h1, h2, h3, h4⟩ := C75_integrity hr hv hs hp hk
  exact ⟨out, d, passthroughBytes_ok.mpr ⟨text, b, out, hd, h1, h2, rfl⟩, h3, h4⟩

/-! ## Documents -/

/-- `referencesResolve`, as a test. -/
def resolvesAll (es : List Entry) : Bool := es.all fun e => match e with
  | .identifier _ _ => true
  | .reference holder kind target => mayBeForeign holder || es.any fun f => match f with
    | .identifier element v => decide (kind = element ++ c!"-REF") && decide (v = target)
    | .reference _ _ _ => false

theorem resolvesAll_iff {es : List Entry} : resolvesAll es = true ↔ referencesResolve es := by
  unfold resolvesAll referencesResolve
  rw [List.all_eq_true]
  constructor
  · intro h holder kind target hm hf
    have := h _ hm
    dsimp only at this
    rw [hf, Bool.false_or, List.any_eq_true] at this
    obtain ⟨f, hf1, hf2⟩ := this
    cases f with
    | identifier element v =>
      simp only [Bool.and_eq_true, decide_eq_true_eq] at hf2
      exact ⟨element, hf2.1, hf2.2 ▸ hf1⟩
    | reference a k v => cases hf2
  · intro h e he
    cases e with
    | identifier a v => rfl
    | reference holder kind target =>
      dsimp only
      cases hf : mayBeForeign holder with
      | true => rfl
      | false =>
        rw [Bool.false_or, List.any_eq_true]
        obtain ⟨element, h1, h2⟩ := h holder kind target he hf
        exact ⟨_, h2, by simp [h1]⟩

instance (es : List Entry) : Decidable (identifiersUnique es) := inferInstanceAs (Decidable (List.Nodup _))

/-- An attribute definition with an identifier of its own. -/
def namedDef (kind i dataType : Str) : Str :=
  el (c!"ATTRIBUTE-DEFINITION-" ++ kind) (ident i) (el c!"TYPE" [] (el (c!"DATATYPE-DEFINITION-" ++ kind ++ c!"-REF") [] dataType))

/-- A document whose references resolve. -/
def wellReferencedDoc (editable : Str) : Str := xsdDoc (
  el c!"DATATYPES" [] (el c!"DATATYPE-DEFINITION-STRING" (ident c!"d" ++ c!" MAX-LENGTH=\"9\"") []) ++
  el c!"SPEC-TYPES" [] (
    el c!"SPEC-OBJECT-TYPE" (ident c!"ot") (el c!"SPEC-ATTRIBUTES" [] (namedDef c!"STRING" c!"a" c!"d")) ++
    el c!"SPECIFICATION-TYPE" (ident c!"st") []) ++
  el c!"SPEC-OBJECTS" [] (el c!"SPEC-OBJECT" (ident c!"o") (
    el c!"VALUES" [] (el c!"ATTRIBUTE-VALUE-STRING" c!" THE-VALUE=\"z\"" (el c!"DEFINITION" [] (el c!"ATTRIBUTE-DEFINITION-STRING-REF" [] c!"a"))) ++
    el c!"TYPE" [] (el c!"SPEC-OBJECT-TYPE-REF" [] c!"ot"))) ++
  el c!"SPECIFICATIONS" [] (el c!"SPECIFICATION" (ident c!"s") (el c!"TYPE" [] (el c!"SPECIFICATION-TYPE-REF" [] c!"st") ++
    el c!"CHILDREN" [] (el c!"SPEC-HIERARCHY" (ident c!"n") (
      el c!"EDITABLE-ATTS" [] (el c!"ATTRIBUTE-DEFINITION-STRING-REF" [] editable) ++
      el c!"OBJECT" [] (el c!"SPEC-OBJECT-REF" [] c!"o"))))))

/-- Are the hypotheses met?  Do the references resolve, and are identifiers unique, before and after?  How many references are there before and after? -/
def referencesOf (p text : Str) : Option (Bool × (Bool × Bool) × (Bool × Bool) × Nat × Nat) :=
  match readDoc text, parseString text with
  | some d, .ok b =>
    match unparse b with
    | .ok out =>
      match readDoc out with
      | some d' => some (validRoot .xsd d.root && validRoot .lenient d.root && noSpecials d.root && plainDocument p d.root && !(childNames d.root.kids).isEmpty,
          (resolvesAll (documentEntries d.root), resolvesAll (documentEntries d'.root)),
          (identifiersUnique (documentEntries d.root), identifiersUnique (documentEntries d'.root)),
          ((documentEntries d.root).filter (!·.isIdentifier)).length, ((documentEntries d'.root).filter (!·.isIdentifier)).length)
      | none => none
    | .error _ => none
  | _, _ => none

set_option maxRecDepth 20000 in
/-- A document with unique identifiers and resolving references meets all hypotheses above; its editable attribute is no
longer referred to. -/
theorem C75_editable_lost : referencesOf c!"h" (wellReferencedDoc c!"a") = some (true, (true, true), (true, true), 6, 5) := by
  decide +kernel

set_option maxRecDepth 20000 in
/-- The converse does not hold: a reference that does not resolve may get lost, and all the others resolve. -/
theorem C75_dangling_lost : referencesOf c!"h" (wellReferencedDoc c!"b") = some (true, (false, true), (true, true), 6, 5) := by
  decide +kernel

set_option maxRecDepth 20000 in
/-- Identifiers that are not unique do not become unique. -/
example : referencesOf c!"h" keptDoc = some (true, (false, false), (false, false), 19, 19) := by
  decide +kernel

end ReqIF.Xsd
