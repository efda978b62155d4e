import Verif.Props.C71
import Verif.Proofs.OutputKept
/-!
# C72: when what passthrough writes is valid

A plain document that is valid is written as a valid document if and only if nothing gets
lost that the schema requires.
-/
set_option linter.unusedSimpArgs false
namespace ReqIF.Xsd
open Spec

theorem bundleSaid_names (p : Str) (b : Bundle) :
    ((bundleSaid p b).map Said.name).Sublist [c!"THE-HEADER", c!"CORE-CONTENT", c!"TOOL-EXTENSIONS"] := by
  unfold bundleSaid
  rw [List.map_append, List.map_append]
  have h1 : ((b.header.map headerSaid).toList.map Said.name).Sublist [c!"THE-HEADER"] := by
    cases b.header with
    | none => exact List.nil_sublist _
    | some h => exact List.Sublist.refl _
  have h2 : ((coreSaid p b.coreContent).map Said.name).Sublist [c!"CORE-CONTENT"] := by
    rcases b.coreContent with _ | _ | c
    · exact List.nil_sublist _
    · exact List.Sublist.refl _
    · exact List.Sublist.refl _
  have h3 : ((toolSaid b.toolExtensionsTagExists).map Said.name).Sublist [c!"TOOL-EXTENSIONS"] := by
    cases b.toolExtensionsTagExists with
    | false => exact List.nil_sublist _
    | true => exact List.Sublist.refl _
  exact (h1.append h2).append h3

/-- **C72.** What is printed for a plain valid document is valid if and only if the elements
the schema requires are all written. -/
theorem C72_valid {text : Str} {doc : Doc} {p : Str} (hr : readDoc text = some doc) (hx : validRoot .xsd doc.root = true)
    (hv : validRoot .lenient doc.root = true) (hs : noSpecials doc.root = true) (hp : plainDocument p doc.root = true) :
    ∃ b out d, parseString text = .ok b ∧ unparse b = .ok out ∧ readDoc out = some d ∧
      validRoot .xsd d.root = keepsRequired .reqIf doc.root := by
  have hk : childNames doc.root.kids ≠ [] := by
    intro e
    cases hroot : doc.root with
    | elem i ks =>
      rw [hroot] at hx e
      unfold validRoot valid at hx
      dsimp only at hx
      rw [validBy] at hx
      simp only [Bool.and_eq_true] at hx
      have h1 := hx.2.1.2
      have e : childNames ks = [] := e
      simp only [schema, Model.countOk, Dialect.strict] at h1
      rw [e] at h1
      cases h1
    | _ => rw [hroot] at hx; cases hx
  obtain ⟨b, as, i, ks, hroot, h1, h2, hres, -, -, -, X, K, r, hparts⟩ := plain_parts hr hv hs hp hk
  obtain ⟨out, d, b', g1, g2, ⟨j, ls, g3, -, -, ⟨-, g5, g6⟩, r', g7, g8⟩, -⟩ := bundle_survives h2
  refine ⟨b, out, d, h1, g1, g2, ?_⟩
  rw [hres] at g5
  cases g5
  have hsame : saidInside d.root = saidInside (writtenRoot doc.root) := by rw [← said_strippedRoot g7, g8, ← bundle_said hparts hs]
  obtain ⟨hsane, -⟩ := readDoc_sane hr
  rw [hroot] at hx hv hs hp hsame hsane ⊢
  rw [g3] at hsame ⊢
  unfold plainDocument at hp
  simp only [Bool.and_eq_true] at hp
  obtain ⟨⟨⟨-, p4⟩, p5⟩, -⟩ := hp
  have hx' := hx
  unfold validRoot at hx hv ⊢
  simp only [Bool.and_eq_true, beq_iff_eq] at hx hv
  obtain ⟨⟨hns, hname⟩, hx⟩ := hx
  have hl := hv.2
  obtain ⟨-, -, hmap, hdef⟩ := resolveInfo_root hres
  have hdef := hdef _ hns
  rw [Node.Sane] at hsane
  rw [noSpecials] at hs
  have hxh : haveXhtml ks = true → NsMap.get? i.nsmap (some p) = some xhtmlUri := by
    intro hh
    rw [hh] at p4
    have p4 : xhtmlFirst p i = true := by simpa using p4
    unfold xhtmlFirst at p4
    have hf : i.nsdefs.find? (fun d => d.1 == some p || usedByAttrs i d) = some (some p, xhtmlUri) := by simpa using p4
    unfold NsMap.get?
    rw [hmap, find_or (f := fun d : Option Str × Str => d.1 == some p) (by simp) hf]
    rfl
  have hwv := written_valid (.elem i ks) hx hl
  dsimp only
  rw [hns, hname]
  simp only [BEq.rfl, Bool.true_and]
  rw [← hwv]
  unfold valid at hx hl ⊢
  rw [validBy, Bool.and_eq_true, Bool.and_eq_true] at hx hl
  rw [written, validBy, validBy, hx.1.1, attrsOk_written hx.1.1, Bool.true_and, Bool.true_and]
  show _ = ((schema .xsd .reqIf).model.countOk (writtenAll .reqIf ks) && kidsBy (schema .xsd) (some reqifNs) (schema .xsd .reqIf).model (writtenAll .reqIf ks))
  have hsame : byName (saidAll ls) = byName (saidAll (writtenAll .reqIf ks)) := hsame
  obtain ⟨w1, w2, w3⟩ := writtenAll_fine (t := .reqIf) ks rfl hx.2 hl.2 p5 hsane.2.2 hs
  have hws : ls.all elemOrWs = true := by
    have := g6.plain
    rw [List.all_eq_true] at this ⊢
    intro k hk'
    have h := this k hk'
    cases k with
    | elem a b => rfl
    | text s => exact h
    | _ => cases h
  have hd : defaultNs i.nsmap = some reqifNs := by
    unfold defaultNs
    rw [hdef]
    rfl
  have hfine : FineAll ls := by
    refine laidAll_fine hd ls g6.laid g6.plain w2 ?_ (fun a cs hm => said_partner w1 hsame hm)
    intro hh
    refine hxh ?_
    cases hh' : haveXhtml ks with
    | true => rfl
    | false => rw [writtenAll_xhtml ks hh'] at hh; cases hh
  have hnames : childNames ls = childNames (writtenAll .reqIf ks) := by
    refine sublist_perm_eq (l := [c!"THE-HEADER", c!"CORE-CONTENT", c!"TOOL-EXTENSIONS"]) (by decide) ?_ ?_ (fun x => (names_perm hws w1 hsame).mem_iff)
    · rw [g6.names]
      exact bundleSaid_names p b
    · exact w3.trans (seqOk_sublist hx.1.2)
  have hkids : kidsBy (schema .xsd) (some reqifNs) (schema .xsd .reqIf).model ls =
      kidsBy (schema .xsd) (some reqifNs) (schema .xsd .reqIf).model (writtenAll .reqIf ks) := by
    rw [Bool.eq_iff_iff]
    exact ⟨validKids_same _ rfl w1 w2 hfine (fun a cs hm => said_partner hws hsame.symm hm),
      validKids_same _ rfl hws hfine w2 (fun a cs hm => said_partner w1 hsame hm)⟩
  rw [hkids]
  congr 1
  show seqOk _ (childNames ls) = seqOk _ (childNames _)
  rw [hnames]

/-- **C72.** The command line: if the input file holds such a document, the document that
passthrough writes is valid if and only if the elements the schema requires are all written. -/
theorem C72_passthrough {source : ByteArray} {text : Str} {doc : Doc} {p : Str} (hd : decodeUtf8 source = .ok text)
    (hr : readDoc (normEol text) = some doc) (hx : validRoot .xsd doc.root = true) (hv : validRoot .lenient doc.root = true)
    (hs : noSpecials doc.root = true) (hp : plainDocument p doc.root = true) :
    ∃ out d, passthroughBytes (.ok source) = .ok out.utf8Encode ∧ readDoc out = some d ∧
      validRoot .xsd d.root = keepsRequired .reqIf doc.root := by
  obtain ⟨b, out, d, h1, h2, h3, h4⟩ := C72_valid hr hx hv hs hp
  exact ⟨out, d, passthroughBytes_ok.mpr ⟨text, b, out, hd, h1, h2, rfl⟩, h3, h4⟩

/-- **C72.** A valid document that keeps its content is written as a valid document. -/
theorem C72_kept {root : Node} (hx : validRoot .xsd root = true) (hv : validRoot .lenient root = true) (hs : noSpecials root = true)
    (hk : keptDocument root = true) : keepsRequired .reqIf root = true := by
  have he := writtenRoot_kept hv hs hk
  cases root with
  | elem i ks =>
    unfold validRoot at hx hv
    simp only [Bool.and_eq_true] at hx hv
    rw [← written_valid _ hx.2 hv.2]
    unfold writtenRoot at he
    rw [he]
    exact hx.2
  | _ => cases hx

/-- **C72.** What can get lost although the schema requires it: the definition in the default
values of four kinds, empty fields of the header, and the specifications of a relation group
if there is no reference in them. -/
theorem C72_losses {t : TypeName} {nm : Str} {ks : List Node} (hr : (schema .xsd t).model.requires nm = true)
    (hw : writesChild t nm ks = false) :
    (∃ k, t = .value true k ∧ k.namesDefinition = false ∧ nm = c!"DEFINITION") ∨
    (t = .header ∧ ks = []) ∨
    (t = .relationGroup ∧ (nm = c!"SOURCE-SPECIFICATION" ∨ nm = c!"TARGET-SPECIFICATION") ∧ someFull ks = false) := by
  cases t with
  | value b k =>
    cases b <;> cases k <;> simp [schema, Model.requires, Dialect.strict] at hr <;>
      first | (subst hr; first | (cases hw; done) | exact .inl ⟨_, rfl, rfl, rfl⟩) | (rcases hr with hr | hr <;> subst hr <;> cases hw)
  | header =>
    refine .inr (.inl ⟨rfl, ?_⟩)
    cases ks with
    | nil => rfl
    | cons c ks =>
      simp [schema, Model.requires, Dialect.strict] at hr
      rcases hr with hr | hr | hr | hr | hr <;> subst hr <;> cases hw
  | relationGroup =>
    refine .inr (.inr ⟨rfl, ?_⟩)
    simp [schema, Model.requires, Dialect.strict, alternative] at hr
    rcases hr with hr | hr | hr <;> subst hr
    · exact ⟨.inl rfl, hw⟩
    · exact ⟨.inr rfl, hw⟩
    · cases hw
  | definition s k => cases k <;> simp [schema, Model.requires, Dialect.strict, Dialect.prints, alternative] at hr <;> subst hr <;> cases hw
  | dataType k => cases k <;> simp [schema, Model.requires, Dialect.strict, Dialect.prints, alternative] at hr
  | definitionType k => cases k <;> simp [schema, Model.requires, one] at hr <;> subst hr <;> cases hw
  | valueDefinition k => cases k <;> simp [schema, Model.requires, one] at hr <;> subst hr <;> cases hw
  | _ =>
    simp [schema, Model.requires, Dialect.strict, Dialect.prints, alternative, one] at hr <;>
      first | (subst hr; cases hw; done) | (rcases hr with hr | hr <;> subst hr <;> cases hw; done) | (rcases hr with hr | hr | hr <;> subst hr <;> cases hw)

/-! ## Documents -/

/-- Does the document meet the hypotheses of `C72_valid`?  Does it keep what is required?  Is what is printed valid? -/
def validAgain (p text : Str) : Option (Bool × Bool × Bool) :=
  match readDoc text, parseString text with
  | some d, .ok b =>
    match unparse b with
    | .ok out =>
      match readDoc out with
      | some d' => some (validRoot .xsd d.root && validRoot .lenient d.root && noSpecials d.root && plainDocument p d.root,
          keepsRequired .reqIf d.root, validRoot .xsd d'.root)
      | none => none
    | .error _ => none
  | _, _ => none

/-- A document that loses content, but nothing that is required. -/
def lossyValidDoc : Str := xsdDoc (
  el c!"DATATYPES" [] (
    el c!"DATATYPE-DEFINITION-REAL" (ident c!"d1" ++ c!" ACCURACY=\" +03\" MAX=\"1.5\" MIN=\"0\"")
      (el c!"ALTERNATIVE-ID" [] c!"<ALTERNATIVE-ID IDENTIFIER=\"x\"/>")) ++
  el c!"SPEC-TYPES" [] (el c!"SPEC-OBJECT-TYPE" (ident c!"o") (el c!"SPEC-ATTRIBUTES" [] (
      adef c!"BOOLEAN" c!" IS-EDITABLE=\"1\"" (el c!"DEFAULT-VALUE" [] (avalue c!"BOOLEAN" c!" THE-VALUE=\"1\"" [])) ++
      adef c!"ENUMERATION" c!" MULTI-VALUED=\"0\"" c!"<DEFAULT-VALUE/>"))) ++
  el c!"SPEC-OBJECTS" [] (el c!"SPEC-OBJECT" (ident c!"q") (el c!"TYPE" [] (el c!"SPEC-OBJECT-TYPE-REF" [] c!"o") ++ el c!"VALUES" [] (
    avalue c!"XHTML" c!" IS-SIMPLIFIED=\"true\""
      (el c!"THE-ORIGINAL-VALUE" [] c!"<h:div>a</h:div>" ++ el c!"THE-VALUE" [] c!"<h:div>b <h:i>c</h:i></h:div>")))) ++
  el c!"SPECIFICATIONS" [] (el c!"SPECIFICATION" (ident c!"p") (el c!"TYPE" [] (el c!"SPECIFICATION-TYPE-REF" [] c!"s") ++
    el c!"CHILDREN" [] (el c!"SPEC-HIERARCHY" (ident c!"h1" ++ c!" IS-TABLE-INTERNAL=\"1\" DESC=\"d\"") (
      el c!"EDITABLE-ATTS" [] (el c!"ATTRIBUTE-DEFINITION-STRING-REF" [] c!"a") ++
      el c!"OBJECT" [] (el c!"SPEC-OBJECT-REF" [] c!"q"))))))

/-- A default value with its definition. -/
def defaultDoc : Str := inObjectType (adef c!"STRING" [] (el c!"DEFAULT-VALUE" [] (avalue c!"STRING" c!" THE-VALUE=\"v\"" [])))

set_option maxRecDepth 20000 in
/-- A header with an empty field. -/
def emptyFieldDoc : Str :=
  c!"<REQ-IF xmlns=\"http://www.omg.org/spec/ReqIF/20110401/reqif.xsd\">" ++
  c!"<THE-HEADER><REQ-IF-HEADER IDENTIFIER=\"h\"><CREATION-TIME>2021-01-01T00:00:00</CREATION-TIME><REQ-IF-TOOL-ID>t</REQ-IF-TOOL-ID>" ++
  c!"<REQ-IF-VERSION>1.0</REQ-IF-VERSION><SOURCE-TOOL-ID/><TITLE>T</TITLE></REQ-IF-HEADER></THE-HEADER>" ++
  c!"<CORE-CONTENT><REQ-IF-CONTENT/></CORE-CONTENT></REQ-IF>"

/-- A relation group without target. -/
def noTargetDoc : Str := xsdDoc (el c!"SPEC-RELATION-GROUPS" [] (el c!"RELATION-GROUP" (ident c!"g" ++ c!" LONG-NAME=\"n\"") (
  el c!"TYPE" [] (el c!"RELATION-GROUP-TYPE-REF" [] c!"t") ++
  el c!"SOURCE-SPECIFICATION" [] (el c!"SPECIFICATION-REF" [] c!"s") ++
  el c!"TARGET-SPECIFICATION" [] (el c!"SPECIFICATION-REF" [] []))))

set_option maxRecDepth 20000 in
/-- Such documents exist, among them documents that lose content and stay valid. -/
example : validAgain c!"h" keptDoc = some (true, true, true) := by decide +kernel

set_option maxRecDepth 20000 in
example : validAgain c!"h" lossyValidDoc = some (true, true, true) := by decide +kernel

set_option maxRecDepth 20000 in
/-- **Negation witness.** A valid document whose default value of a string names its definition, as
the schema demands, is written without it, and is no longer valid. -/
theorem C72_default : validAgain c!"h" defaultDoc = some (true, false, false) := by decide +kernel

set_option maxRecDepth 20000 in
/-- **Negation witness.** An empty field of the header is not written, though the schema demands it. -/
theorem C72_header : validAgain c!"h" emptyFieldDoc = some (true, false, false) := by decide +kernel

set_option maxRecDepth 20000 in
/-- **Negation witness.** A relation group with an empty reference is written without the
specification, though the schema demands it. -/
theorem C72_group : validAgain c!"h" noTargetDoc = some (true, false, false) := by decide +kernel

end ReqIF.Xsd
