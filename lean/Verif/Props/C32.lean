import Verif.Proofs.SaidItems
/-!
# C32: data-type definitions survive write and read
-/
set_option linter.unusedSimpArgs false
namespace ReqIF
open Spec

theorem enumValue_shows (Γ : Ctx) {v : EnumValue} (h : SafeEnumValue v) :
    ∃ n, Shows Γ false (unparseEnumValue v) [n] ∧ parseEnumValue n = .ok v ∧ Xsd.said n = Xsd.enumValueSaid v := by
  obtain ⟨h1, h2, h3, h4, h5, h6⟩ := h
  obtain ⟨e, e1, -, e3⟩ := Shows.empty (Γ := Γ) 16 (tag := c!"EMBEDDED-VALUE") (by decide)
    (as := [(c!"KEY", v.key)] ++ optA c!"OTHER-CONTENT" id v.otherContent) (vs := [(c!"KEY", v.key)] ++ optA c!"OTHER-CONTENT" id v.otherContent)
    (by attributes)
  obtain ⟨p, p1, -, p3⟩ := Shows.block 14 (tag := c!"PROPERTIES") (by decide) e3
  obtain ⟨n, n1, -, -, n3⟩ := Shows.elem 12 (tag := c!"ENUM-VALUE") (by decide)
    (as := optA c!"DESC" id v.description ++ [(c!"IDENTIFIER", v.identifier)] ++ optA c!"LAST-CHANGE" id v.lastChange ++
      optA c!"LONG-NAME" lxmlEscapeForHtml v.longName)
    (vs := optA c!"DESC" id v.description ++ [(c!"IDENTIFIER", v.identifier)] ++ optA c!"LAST-CHANGE" id v.lastChange ++
      optA c!"LONG-NAME" id v.longName) (by attributes) p3
  refine ⟨n, n3.congr ?_, ?_, ?_⟩
  · unfold unparseEnumValue
    attrs_text
  · have f1 : n.find c!"PROPERTIES" = some p := by rw [find_eq, n1.children]; simp [p1.tag]
    have f2 : p.find c!"EMBEDDED-VALUE" = some e := by rw [find_eq, p1.children]; simp [e1.tag]
    unfold parseEnumValue attrReq findReq
    rw [f1, n1.attr, n1.attr, n1.attr, n1.attr]
    simp only [orAttr, py_bind_ok]
    simp [look_append, look_opt, look_one, look_cons, orKey, orAttr, f2, e1.attr, py_bind_ok, py_pure]
  · rw [n1.saysRecord (by decide), List.map_cons, List.map_nil, p1.saysRecord (by decide), List.map_cons, List.map_nil, e1.saysRecord (by decide)]
    rfl

/-- The base fields of a data type whose `LAST-CHANGE` is dropped if empty. -/
theorem closeOut_eq (sc : Bool) (tag : Str) : closeOut sc tag = if sc then c!"/>\n" else c!">\n" ++ lineClose 8 tag := rfl

theorem dataType_shows (Γ : Ctx) {d : DataType} (h : SafeDataType d) :
    ∃ n, Shows Γ false (unparseDataType d) [n] ∧ parseDataType n = .ok (readDataType d) ∧ Xsd.said n = Xsd.dataTypeSaid d := by
  obtain ⟨h1, h2, h3, h4, h5⟩ := h
  obtain ⟨⟨i, desc, lc, ln, sc⟩, kind⟩ := d
  dsimp only at h1 h2 h3 h4 h5
  cases kind with
  | string m =>
    have h4 : Opt EscAttr ln := h4
    have h5 : Opt PlainAttr m := h5
    obtain ⟨n, n1, n2, n3⟩ := Shows.emptyOr (Γ := Γ) 8 (tag := c!"DATATYPE-DEFINITION-STRING") (by decide)
      (as := optA c!"DESC" lxmlEscapeForHtml desc ++ [(c!"IDENTIFIER", i)] ++ truthyA c!"LAST-CHANGE" id lc ++
        optA c!"LONG-NAME" lxmlEscapeForHtml ln ++ truthyA c!"MAX-LENGTH" id m)
      (vs := optA c!"DESC" id desc ++ [(c!"IDENTIFIER", i)] ++ truthyA c!"LAST-CHANGE" id lc ++
        optA c!"LONG-NAME" id ln ++ truthyA c!"MAX-LENGTH" id m) (by attributes) sc
    refine ⟨n, n3.congr ?_, ?_, n1.saysRecord (by decide)⟩
    · simp only [unparseDataType, closeOut_eq]
      attrs_text
    · simp [parseDataType, attrReq, tagContains, n1.tag, n1.attr, n2, look_append, look_opt, look_cons, look_truthy, look_nil, orKey, pyAssert,
        containsStr, py_bind_ok, py_pure, readDataType, dropEmpty]
  | boolean =>
    have h4 : Opt EscAttr ln := h4
    obtain ⟨n, n1, n2, n3⟩ := Shows.emptyOr (Γ := Γ) 8 (tag := c!"DATATYPE-DEFINITION-BOOLEAN") (by decide)
      (as := optA c!"DESC" lxmlEscapeForHtml desc ++ [(c!"IDENTIFIER", i)] ++ truthyA c!"LAST-CHANGE" id lc ++
        optA c!"LONG-NAME" lxmlEscapeForHtml ln)
      (vs := optA c!"DESC" id desc ++ [(c!"IDENTIFIER", i)] ++ truthyA c!"LAST-CHANGE" id lc ++
        optA c!"LONG-NAME" id ln) (by attributes) sc
    refine ⟨n, n3.congr ?_, ?_, n1.saysRecord (by decide)⟩
    · simp only [unparseDataType, closeOut_eq]
      attrs_text
    · simp [parseDataType, attrReq, tagContains, n1.tag, n1.attr, n2, look_append, look_opt, look_cons, look_truthy, look_nil, orKey, pyAssert,
        containsStr, py_bind_ok, py_pure, readDataType, dropEmpty]
  | xhtml =>
    have h4 : Opt EscAttr ln := h4
    obtain ⟨n, n1, n2, n3⟩ := Shows.emptyOr (Γ := Γ) 8 (tag := c!"DATATYPE-DEFINITION-XHTML") (by decide)
      (as := optA c!"DESC" lxmlEscapeForHtml desc ++ [(c!"IDENTIFIER", i)] ++ truthyA c!"LAST-CHANGE" id lc ++
        optA c!"LONG-NAME" lxmlEscapeForHtml ln)
      (vs := optA c!"DESC" id desc ++ [(c!"IDENTIFIER", i)] ++ truthyA c!"LAST-CHANGE" id lc ++
        optA c!"LONG-NAME" id ln) (by attributes) sc
    refine ⟨n, n3.congr ?_, ?_, n1.saysRecord (by decide)⟩
    · simp only [unparseDataType, closeOut_eq]
      attrs_text
    · simp [parseDataType, attrReq, tagContains, n1.tag, n1.attr, n2, look_append, look_opt, look_cons, look_truthy, look_nil, orKey, pyAssert,
        containsStr, py_bind_ok, py_pure, readDataType, dropEmpty]
  | date =>
    have h4 : Opt PlainAttr ln := h4
    obtain ⟨n, n1, n2, n3⟩ := Shows.emptyOr (Γ := Γ) 8 (tag := c!"DATATYPE-DEFINITION-DATE") (by decide)
      (as := optA c!"DESC" lxmlEscapeForHtml desc ++ [(c!"IDENTIFIER", i)] ++ truthyA c!"LAST-CHANGE" id lc ++
        truthyA c!"LONG-NAME" id ln)
      (vs := optA c!"DESC" id desc ++ [(c!"IDENTIFIER", i)] ++ truthyA c!"LAST-CHANGE" id lc ++
        truthyA c!"LONG-NAME" id ln) (by attributes) sc
    refine ⟨n, n3.congr ?_, ?_, n1.saysRecord (by decide)⟩
    · simp only [unparseDataType, closeOut_eq]
      attrs_text
    · simp [parseDataType, attrReq, tagContains, n1.tag, n1.attr, n2, look_append, look_opt, look_cons, look_truthy, look_nil, orKey, pyAssert,
        containsStr, py_bind_ok, py_pure, readDataType, dropEmpty]
  | integer mx mn =>
    have h4 : Opt PlainAttr ln := h4
    obtain ⟨h5, h6⟩ : Opt PlainAttr mx ∧ Opt PlainAttr mn := h5
    obtain ⟨n, n1, n2, n3⟩ := Shows.emptyOr (Γ := Γ) 8 (tag := c!"DATATYPE-DEFINITION-INTEGER") (by decide)
      (as := optA c!"DESC" lxmlEscapeForHtml desc ++ [(c!"IDENTIFIER", i)] ++ truthyA c!"LAST-CHANGE" id lc ++
        truthyA c!"LONG-NAME" id ln ++ optA c!"MAX" id mx ++ optA c!"MIN" id mn)
      (vs := optA c!"DESC" id desc ++ [(c!"IDENTIFIER", i)] ++ truthyA c!"LAST-CHANGE" id lc ++
        truthyA c!"LONG-NAME" id ln ++ optA c!"MAX" id mx ++ optA c!"MIN" id mn) (by attributes) sc
    refine ⟨n, n3.congr ?_, ?_, n1.saysRecord (by decide)⟩
    · simp only [unparseDataType, closeOut_eq]
      attrs_text
    · simp [parseDataType, attrReq, tagContains, n1.tag, n1.attr, n2, look_append, look_opt, look_cons, look_truthy, look_nil, orKey, pyAssert,
        containsStr, py_bind_ok, py_pure, readDataType, dropEmpty]
  | real acc mx mn =>
    have h4 : Opt PlainAttr ln := h4
    obtain ⟨h5, h6⟩ : Opt PlainAttr mx ∧ Opt PlainAttr mn := h5
    have h7 : Opt PlainAttr (acc.map fmtInt) := by
      intro v hv
      cases acc with
      | none => cases hv
      | some a => cases hv; exact plainAttr_fmtInt a
    obtain ⟨n, n1, n2, n3⟩ := Shows.empty (Γ := Γ) 8 (tag := c!"DATATYPE-DEFINITION-REAL") (by decide)
      (as := optA c!"ACCURACY" id (acc.map fmtInt) ++ optA c!"DESC" lxmlEscapeForHtml desc ++ [(c!"IDENTIFIER", i)] ++ optA c!"LAST-CHANGE" id lc ++
        optA c!"LONG-NAME" id ln ++ optA c!"MAX" id mx ++ optA c!"MIN" id mn)
      (vs := optA c!"ACCURACY" id (acc.map fmtInt) ++ optA c!"DESC" id desc ++ [(c!"IDENTIFIER", i)] ++ optA c!"LAST-CHANGE" id lc ++
        optA c!"LONG-NAME" id ln ++ optA c!"MAX" id mx ++ optA c!"MIN" id mn) (by attributes)
    have n4 := selfClosed_nil n1.elem n2
    refine ⟨n, n3.congr ?_, ?_, n1.saysRecord (by decide)⟩
    · simp only [unparseDataType, closeOut_eq]
      attrs_text
    · cases acc with
      | none =>
        simp [parseDataType, attrReq, tagContains, n1.tag, n1.attr, n4, look_append, look_opt, look_cons, look_truthy, look_nil, orKey, pyAssert,
          containsStr, py_bind_ok, py_pure, readDataType, dropEmpty]
      | some a =>
        simp [parseDataType, attrReq, tagContains, n1.tag, n1.attr, n4, look_append, look_opt, look_cons, look_truthy, look_nil, orKey, pyAssert,
          containsStr, py_bind_ok, py_pure, readDataType, dropEmpty, pyInt_fmtInt]
  | enumeration values =>
    have h4 : Opt EscAttr ln := h4
    have ha : Attributes
      (optA c!"DESC" lxmlEscapeForHtml desc ++ [(c!"IDENTIFIER", i)] ++ truthyA c!"LAST-CHANGE" id lc ++
        optA c!"LONG-NAME" lxmlEscapeForHtml ln)
      (optA c!"DESC" id desc ++ [(c!"IDENTIFIER", i)] ++ truthyA c!"LAST-CHANGE" id lc ++ optA c!"LONG-NAME" id ln) := by
      attributes
    cases values with
    | none =>
      obtain ⟨n, n1, n2, n3⟩ := Shows.emptyOr (Γ := Γ) 8 (tag := c!"DATATYPE-DEFINITION-ENUMERATION") (by decide) ha sc
      refine ⟨n, n3.congr ?_, ?_, n1.saysRecord (by decide)⟩
      · simp only [unparseDataType, unparseEnumValues]
        cases sc <;> attrs_text
      · have f : n.find c!"SPECIFIED-VALUES" = none := by rw [find_eq, n1.children]; rfl
        simp [parseDataType, attrReq, tagContains, n1.tag, n1.attr, n2, look_append, look_opt, look_cons, look_truthy, look_nil, orKey, pyAssert,
          containsStr, py_bind_ok, py_pure, readDataType, dropEmpty, f]
    | some vs =>
      obtain ⟨h5, h6⟩ : sc = false ∧ ∀ v ∈ vs, SafeEnumValue v := h5
      subst h5
      obtain ⟨ns, s1, s2, s3⟩ := Shows.items (print := unparseEnumValue) (parse := parseEnumValue) (g := id) vs
        (fun v hv => enumValue_shows Γ (h6 v hv))
      obtain ⟨sv, sv1, -, sv3⟩ := Shows.block 10 (tag := c!"SPECIFIED-VALUES") (by decide) s1
      obtain ⟨n, n1, n2, -, n3⟩ := Shows.elem 8 (tag := c!"DATATYPE-DEFINITION-ENUMERATION") (by decide) ha sv3
      have n4 := selfClosed_ne n1.elem n2
      refine ⟨n, n3.congr ?_, ?_, ?_⟩
      · simp only [unparseDataType, unparseEnumValues]
        attrs_text
      · have f : n.find c!"SPECIFIED-VALUES" = some sv := by rw [find_eq, n1.children]; simp [sv1.tag]
        rw [List.map_id] at s2
        simp [parseDataType, attrReq, tagContains, n1.tag, n1.attr, n4, look_append, look_opt, look_cons, look_truthy, look_nil, orKey, pyAssert,
          containsStr, py_bind_ok, py_pure, readDataType, dropEmpty, f, sv1.children, s2]
      · rw [n1.saysRecord (by decide), List.map_cons, List.map_nil, sv1.saysList (by decide), s3]
        rfl

/-- **C32.**  A data type with safe strings, printed into any document, is read back
as the same data type up to the strings the unparser drops. -/
theorem C32_roundtrip {as : List (Str × Str)} (hr : RootAttrs as) {d : DataType} (h : SafeDataType d) :
    ∃ n, ReadsAs as (unparseDataType d) [n] ∧ parseDataType n = .ok (readDataType d) := by
  obtain ⟨ri, hri⟩ := rootTag_of hr
  obtain ⟨n, h1, h2, -⟩ := dataType_shows (rootCtx ri [] false) h
  exact ⟨n, readsAs_of_shows hri h1, h2⟩

/-- **C32.**  It is the same data type if no optional string is empty and a `REAL`
definition is marked as an empty tag. -/
theorem C32_equal {as : List (Str × Str)} (hr : RootAttrs as) {d : DataType} (h : SafeDataType d)
    (h1 : d.base.lastChange ≠ some []) (h2 : d.base.longName ≠ some []) (h3 : d.kind ≠ .string (some []))
    (h4 : ∀ a b c, d.kind = .real a b c → d.base.isSelfClosed = true) :
    ∃ n, ReadsAs as (unparseDataType d) [n] ∧ parseDataType n = .ok d := by
  obtain ⟨n, r1, r2⟩ := C32_roundtrip hr h
  have key : ∀ o : Option Str, o ≠ some [] → dropEmpty o = o := by
    intro o ho
    cases o with
    | none => rfl
    | some v => cases v with
      | nil => exact absurd rfl ho
      | cons c v => rfl
  refine ⟨n, r1, ?_⟩
  rw [r2]
  obtain ⟨⟨i, desc, lc, ln, sc⟩, kind⟩ := d
  dsimp only at h1 h2 h3 h4
  cases kind with
  | string m =>
    have : m ≠ some [] := by rintro rfl; exact h3 rfl
    simp [readDataType, key _ h1, key _ this]
  | real a b c =>
    have := h4 a b c rfl
    subst this
    rfl
  | integer a b => simp [readDataType, key _ h1, key _ h2]
  | date => simp [readDataType, key _ h1, key _ h2]
  | boolean => simp [readDataType, key _ h1]
  | xhtml => simp [readDataType, key _ h1]
  | enumeration v => simp [readDataType, key _ h1]

theorem usualRoot_ok : RootAttrs usualRoot := by
  refine ⟨?_, _, rfl, ?_⟩
  · decide
  · intro u hu
    have : u = c!"http://www.omg.org/spec/ReqIF/20110401/reqif.xsd" := by
      have e : some c!"http://www.omg.org/spec/ReqIF/20110401/reqif.xsd" = some u := hu
      exact (Option.some.inj e).symm
    subst this
    decide

/-- An enumeration with quotes, markup and non-ASCII characters in the escaped strings. -/
def exampleEnum : DataType :=
  ⟨⟨c!"dt-1", some c!"a < b & \"c\"", some c!"2020-01-01T00:00:00Z", some c!"Prioritäten <'>", false⟩,
   .enumeration (some [⟨c!"v1", c!"0", none, none, some c!"#FF", some c!"high & low"⟩,
     ⟨c!"v2", c!"1", some c!"d", none, none, none⟩])⟩

example : SafeDataType exampleEnum :=
  ⟨by decide, by decide, by decide, by decide, rfl, by
    intro v hv
    simp only [List.mem_cons, List.not_mem_nil, or_false] at hv
    rcases hv with rfl | rfl <;> constructor <;> decide⟩

/-! ## Strings that need escaping where none is done -/

/-- What the printed data type is read as (`none`: not well-formed). -/
def reread (d : DataType) : Option (Option DataType) :=
  match readDoc (document usualRoot (unparseDataType d)) with
  | none => none
  | some doc =>
    match strippedRoot doc.root with
    | .error _ => none
    | .ok r =>
      match r.children with
      | [n] => (match parseDataType n with | .ok d' => some (some d') | .error _ => some none)
      | _ => some none

set_option maxRecDepth 20000 in
/-- **C32**, the opposite: the long name of an integer type is printed unescaped, so
`R&D` gives a document that is not well-formed. -/
theorem C32_ampersand : readDoc (document usualRoot
    (unparseDataType ⟨⟨c!"i", none, none, some c!"R&D", true⟩, .integer none none⟩)) = none := by
  have : (readDoc (document usualRoot
    (unparseDataType ⟨⟨c!"i", none, none, some c!"R&D", true⟩, .integer none none⟩))).isNone = true := by decide +kernel
  simpa using this

set_option maxRecDepth 20000 in
/-- **C32**, the opposite: a long name `a&lt;b` of a date type comes back as `a<b`. -/
theorem C32_entity : reread ⟨⟨c!"i", none, none, some c!"a&lt;b", true⟩, .date⟩ =
    some (some ⟨⟨c!"i", none, none, some c!"a<b", true⟩, .date⟩) := by decide +kernel

set_option maxRecDepth 20000 in
/-- **C32**, the opposite: a quotation mark in the key of an enumeration value. -/
theorem C32_quote : reread ⟨⟨c!"i", none, none, none, false⟩,
    .enumeration (some [⟨c!"v", c!"1\"2", none, none, none, none⟩])⟩ = none := by decide +kernel

set_option maxRecDepth 20000 in
/-- **C32**, the opposite: an enumeration marked as an empty tag although it has values
is printed with its values after the empty tag and comes back as two elements. -/
theorem C32_selfClosed : reread ⟨⟨c!"i", none, none, none, true⟩,
    .enumeration (some [⟨c!"v", c!"1", none, none, none, none⟩])⟩ = some none := by decide +kernel

set_option maxRecDepth 20000 in
/-- **C32**, the opposite: a line feed in a description comes back as a space. -/
theorem C32_newline : reread ⟨⟨c!"i", some c!"a\nb", none, none, true⟩, .xhtml⟩ =
    some (some ⟨⟨c!"i", some c!"a b", none, none, true⟩, .xhtml⟩) := by decide +kernel

end ReqIF
