import Verif.Proofs.XsdDialect
/-!
# C61 and C62: documents that are valid against the ReqIF schema

C61: a schema-valid document is parsed.  C62: and what was parsed can be printed.

The code violates both as they stand; the dialects `parse` and `write` of `Spec/Xsd`
say for which valid documents they hold, and the witnesses below show that each
further requirement is needed.
-/
namespace ReqIF
open Spec Xsd

/-- **C61.** A document that is valid in the dialect of the parser, with a default
namespace at its root and without comments and processing instructions, is parsed
without error; nothing is reported, header and content are there. -/
theorem C61_parses {text : Str} {doc : Doc} (hr : readDoc text = some doc)
    (hns : (doc.root.nsmap.get? none).isSome = true) (hv : validRoot .parse doc.root = true)
    (hp : noSpecials doc.root = true) :
    ∃ b h c, parseString text = .ok b ∧ b.exceptions = [] ∧ b.header = some h ∧ b.coreContent = some (some c) := by
  obtain ⟨b, h, c, h1, h2, h3, h4, -⟩ := document_full (by decide) rfl hr hns hv hp
  exact ⟨b, h, c, h1, h2, h3, h4⟩

/-- **C62.** A document that is valid in the dialect of parser and unparser is parsed,
and the result can be printed. -/
theorem C62_prints {text : Str} {doc : Doc} (hr : readDoc text = some doc)
    (hns : (doc.root.nsmap.get? none).isSome = true) (hv : validRoot .write doc.root = true)
    (hp : noSpecials doc.root = true) :
    ∃ b out, parseString text = .ok b ∧ unparse b = .ok out := by
  obtain ⟨b, h, c, h1, -, -, -, h5⟩ := document_full (by decide) rfl hr hns hv hp
  obtain ⟨out, ho⟩ := h5 rfl
  exact ⟨b, out, h1, ho⟩

/-- **C61, C62.** The same holds without the requirements of the schema that parser and
unparser do not need (dialect `lenient`), if there is an element below the root. -/
theorem C62_lenient {text : Str} {doc : Doc} (hr : readDoc text = some doc)
    (hns : (doc.root.nsmap.get? none).isSome = true) (hv : validRoot .lenient doc.root = true)
    (hp : noSpecials doc.root = true) (hk : childNames doc.root.kids ≠ []) :
    ∃ b out, parseString text = .ok b ∧ b.exceptions = [] ∧ unparse b = .ok out := by
  obtain ⟨b, h1, h2, h3, -⟩ := document_parses (by decide) hr hns hv hp hk
  obtain ⟨out, ho⟩ := h3 rfl
  exact ⟨b, out, h1, h2, ho⟩

/-- The dialects `parse` and `write` only add requirements to the schema; `lenient` only
drops requirements from `write`. -/
theorem C61_dialects (n : Node) :
    (validRoot .write n = true → validRoot .parse n = true) ∧ (validRoot .parse n = true → validRoot .xsd n = true) ∧
      (validRoot .write n = true → validRoot .lenient n = true) :=
  ⟨validRoot_narrower, validRoot_xsd, validRoot_lenient⟩

/-! ## Documents -/

/-- What happens to a document. -/
inductive Fate
  | unreadable
  | refused (e : PyErr)
  | unprintable (e : PyErr)
  | printed
  deriving DecidableEq

/-- Validity in the three dialects, and what parser and unparser do. -/
def fate (text : Str) : (Bool × Bool × Bool) × Fate :=
  match readDoc text with
  | none => ((false, false, false), .unreadable)
  | some d => ((validRoot .xsd d.root && noSpecials d.root, validRoot .parse d.root, validRoot .write d.root),
    match parseString text with
    | .error e => .refused e
    | .ok b =>
      match unparse b with
      | .error e => .unprintable e
      | .ok _ => .printed)

set_option maxRecDepth 20000 in
/-- A document with this content. -/
def xsdDoc (content : Str) : Str :=
  c!"<REQ-IF xmlns=\"http://www.omg.org/spec/ReqIF/20110401/reqif.xsd\" xmlns:h=\"http://www.w3.org/1999/xhtml\">" ++
  c!"<THE-HEADER><REQ-IF-HEADER IDENTIFIER=\"h\"><CREATION-TIME>2021-01-01T00:00:00</CREATION-TIME><REQ-IF-TOOL-ID>t</REQ-IF-TOOL-ID>" ++
  c!"<REQ-IF-VERSION>1.0</REQ-IF-VERSION><SOURCE-TOOL-ID>s</SOURCE-TOOL-ID><TITLE>T</TITLE></REQ-IF-HEADER></THE-HEADER>\n" ++
  c!"<CORE-CONTENT><REQ-IF-CONTENT>" ++ content ++ c!"</REQ-IF-CONTENT></CORE-CONTENT></REQ-IF>"

/-- `IDENTIFIER` and `LAST-CHANGE`. -/
def ident (i : Str) : Str := c!" IDENTIFIER=\"" ++ i ++ c!"\" LAST-CHANGE=\"2021-01-01T00:00:00\""

/-- An element. -/
def el (tag attrs content : Str) : Str := c!"<" ++ tag ++ attrs ++ c!">" ++ content ++ c!"</" ++ tag ++ c!">"

/-- An attribute value of a kind. -/
def avalue (kind attrs more : Str) : Str :=
  el (c!"ATTRIBUTE-VALUE-" ++ kind) attrs (el c!"DEFINITION" [] (el (c!"ATTRIBUTE-DEFINITION-" ++ kind ++ c!"-REF") [] c!"a") ++ more)

/-- An attribute definition of a kind. -/
def adef (kind attrs more : Str) : Str :=
  el (c!"ATTRIBUTE-DEFINITION-" ++ kind) (ident c!"a" ++ attrs)
    (more ++ el c!"TYPE" [] (el (c!"DATATYPE-DEFINITION-" ++ kind ++ c!"-REF") [] c!"d"))

def inTypes (s : Str) : Str := xsdDoc (el c!"SPEC-TYPES" [] s)
def inObjectType (s : Str) : Str := inTypes (el c!"SPEC-OBJECT-TYPE" (ident c!"o") (el c!"SPEC-ATTRIBUTES" [] s))
def inObjects (s : Str) : Str :=
  xsdDoc (el c!"SPEC-OBJECTS" [] (el c!"SPEC-OBJECT" (ident c!"q") (s ++ el c!"TYPE" [] (el c!"SPEC-OBJECT-TYPE-REF" [] c!"o"))))
def inRelations (s : Str) : Str :=
  xsdDoc (el c!"SPEC-RELATIONS" [] (el c!"SPEC-RELATION" (ident c!"r") (s ++ el c!"SOURCE" [] (el c!"SPEC-OBJECT-REF" [] c!"q") ++
    el c!"TARGET" [] (el c!"SPEC-OBJECT-REF" [] c!"q") ++ el c!"TYPE" [] (el c!"SPEC-RELATION-TYPE-REF" [] c!"t"))))

/-- A document with every kind of item. -/
def fullXsdDoc : Str := xsdDoc (
  el c!"DATATYPES" [] (
    el c!"DATATYPE-DEFINITION-REAL" (ident c!"d1" ++ c!" ACCURACY=\" 3 \" MAX=\"1.5\" MIN=\"0\"") [] ++
    el c!"DATATYPE-DEFINITION-ENUMERATION" (ident c!"d") (el c!"SPECIFIED-VALUES" [] (el c!"ENUM-VALUE" (ident c!"v")
      (el c!"PROPERTIES" [] (el c!"EMBEDDED-VALUE" c!" KEY=\"1\" OTHER-CONTENT=\"\"" []))))) ++
  el c!"SPEC-TYPES" [] (
    el c!"SPEC-OBJECT-TYPE" (ident c!"o") (el c!"SPEC-ATTRIBUTES" [] (
      adef c!"XHTML" [] (el c!"DEFAULT-VALUE" [] (avalue c!"XHTML" [] (el c!"THE-VALUE" [] c!"<h:div>x</h:div>"))) ++
      adef c!"ENUMERATION" c!" MULTI-VALUED=\"1\"" c!"<DEFAULT-VALUE/>")) ++
    el c!"SPEC-RELATION-TYPE" (ident c!"t" ++ c!" LONG-NAME=\"n\"") [] ++
    el c!"SPECIFICATION-TYPE" (ident c!"s") (el c!"SPEC-ATTRIBUTES" [] (adef c!"DATE" c!" LONG-NAME=\"n\"" []))) ++
  el c!"SPEC-OBJECTS" [] (el c!"SPEC-OBJECT" (ident c!"q") (el c!"VALUES" [] (
    avalue c!"ENUMERATION" [] (el c!"VALUES" [] (el c!"ENUM-VALUE-REF" [] c!"v")) ++
    avalue c!"XHTML" [] (el c!"THE-VALUE" [] c!"<h:p>y<h:b/></h:p>") ++
    avalue c!"STRING" c!" THE-VALUE=\"z\"" []) ++ el c!"TYPE" [] (el c!"SPEC-OBJECT-TYPE-REF" [] c!"o"))) ++
  el c!"SPEC-RELATIONS" [] (el c!"SPEC-RELATION" (ident c!"r") (el c!"TYPE" [] (el c!"SPEC-RELATION-TYPE-REF" [] c!"t") ++
    el c!"VALUES" [] (avalue c!"INTEGER" c!" THE-VALUE=\"7\"" []) ++
    el c!"TARGET" [] (el c!"SPEC-OBJECT-REF" [] c!"q") ++ el c!"SOURCE" [] (el c!"SPEC-OBJECT-REF" [] c!"q"))) ++
  el c!"SPECIFICATIONS" [] (el c!"SPECIFICATION" (ident c!"p") (el c!"TYPE" [] (el c!"SPECIFICATION-TYPE-REF" [] c!"s") ++
    el c!"CHILDREN" [] (el c!"SPEC-HIERARCHY" (ident c!"h1") (
      el c!"CHILDREN" [] (el c!"SPEC-HIERARCHY" (ident c!"h2") (el c!"OBJECT" [] (el c!"SPEC-OBJECT-REF" [] c!"q"))) ++
      el c!"OBJECT" [] (el c!"SPEC-OBJECT-REF" [] c!"q"))))) ++
  el c!"SPEC-RELATION-GROUPS" [] (el c!"RELATION-GROUP" (ident c!"g") (
    el c!"SOURCE-SPECIFICATION" [] (el c!"SPECIFICATION-REF" [] c!"p") ++
    el c!"TARGET-SPECIFICATION" [] (el c!"SPECIFICATION-REF" [] c!"p") ++ el c!"TYPE" [] (el c!"RELATION-GROUP-TYPE-REF" [] c!"u"))))

set_option maxRecDepth 20000 in
/-- A document with all kinds of items meets the hypotheses. -/
example : ∃ doc, readDoc fullXsdDoc = some doc ∧ (doc.root.nsmap.get? none).isSome = true ∧ validRoot .write doc.root = true ∧
    validRoot .parse doc.root = true ∧ noSpecials doc.root = true := by
  have h : (match readDoc fullXsdDoc with
      | none => false
      | some doc => (doc.root.nsmap.get? none).isSome && validRoot .write doc.root && noSpecials doc.root) = true := by
    decide +kernel
  cases hd : readDoc fullXsdDoc with
  | none => rw [hd] at h; cases h
  | some doc =>
    rw [hd] at h
    simp only [Bool.and_eq_true] at h
    exact ⟨doc, rfl, h.1.1, h.1.2, validRoot_narrower h.1.2, h.2⟩

/-! ## Valid documents that are refused -/

set_option maxRecDepth 20000 in
/-- A relation type without `LONG-NAME`. -/
theorem C61_relation_type : fate (inTypes (el c!"SPEC-RELATION-TYPE" (ident c!"t") [])) =
    ((true, false, false), .refused .notImplemented) := by decide +kernel

set_option maxRecDepth 20000 in
/-- An attribute definition without `LONG-NAME` in a specification type. -/
theorem C61_specification_type : fate (inTypes (el c!"SPECIFICATION-TYPE" (ident c!"s") (el c!"SPEC-ATTRIBUTES" [] (adef c!"STRING" [] [])))) =
    ((true, false, false), .refused .assertion) := by decide +kernel

set_option maxRecDepth 20000 in
/-- An empty `DEFAULT-VALUE` of an integer. -/
theorem C61_integer_default : fate (inObjectType (adef c!"INTEGER" [] c!"<DEFAULT-VALUE/>")) =
    ((true, false, false), .refused .assertion) := by decide +kernel

set_option maxRecDepth 20000 in
/-- Of a real number. -/
theorem C61_real_default : fate (inObjectType (adef c!"REAL" [] c!"<DEFAULT-VALUE/>")) =
    ((true, false, false), .refused .assertion) := by decide +kernel

set_option maxRecDepth 20000 in
/-- Of a boolean. -/
theorem C61_boolean_default : fate (inObjectType (adef c!"BOOLEAN" [] c!"<DEFAULT-VALUE/>")) =
    ((true, false, false), .refused .assertion) := by decide +kernel

set_option maxRecDepth 20000 in
/-- Of a date. -/
theorem C61_date_default : fate (inObjectType (adef c!"DATE" [] c!"<DEFAULT-VALUE/>")) =
    ((true, false, false), .refused .assertion) := by decide +kernel

set_option maxRecDepth 20000 in
/-- A `DEFAULT-VALUE` of a string with white space only. -/
theorem C61_string_default : fate (inObjectType (adef c!"STRING" [] c!"<DEFAULT-VALUE>\n</DEFAULT-VALUE>")) =
    ((true, false, false), .refused .notImplemented) := by decide +kernel

set_option maxRecDepth 20000 in
/-- Of XHTML. -/
theorem C61_xhtml_default : fate (inObjectType (adef c!"XHTML" [] c!"<DEFAULT-VALUE>\n</DEFAULT-VALUE>")) =
    ((true, false, false), .refused .notImplemented) := by decide +kernel

set_option maxRecDepth 20000 in
/-- Of an enumeration. -/
theorem C61_enumeration_default : fate (inObjectType (adef c!"ENUMERATION" c!" MULTI-VALUED=\"true\"" c!"<DEFAULT-VALUE>\n</DEFAULT-VALUE>")) =
    ((true, false, false), .refused .notImplemented) := by decide +kernel

set_option maxRecDepth 20000 in
/-- An XHTML default value that declares the namespace itself. -/
theorem C61_own_namespace : fate (inObjectType (adef c!"XHTML" [] (el c!"DEFAULT-VALUE" [] (avalue c!"XHTML" [] (el c!"THE-VALUE" []
      c!"<div xmlns=\"http://www.w3.org/1999/xhtml\">x</div>"))))) =
    ((true, false, false), .refused .assertion) := by decide +kernel

set_option maxRecDepth 20000 in
/-- An enumeration value without `VALUES`. -/
theorem C61_enumeration_value : fate (inObjects (el c!"VALUES" [] (avalue c!"ENUMERATION" [] []))) =
    ((true, false, false), .refused .assertion) := by decide +kernel

set_option maxRecDepth 20000 in
/-- A relation with a real number, boolean, date or enumeration value. -/
theorem C61_relation_real : fate (inRelations (el c!"VALUES" [] (avalue c!"REAL" c!" THE-VALUE=\"1\"" []))) =
    ((true, false, false), .refused .notImplemented) := by decide +kernel

set_option maxRecDepth 20000 in
theorem C61_relation_boolean : fate (inRelations (el c!"VALUES" [] (avalue c!"BOOLEAN" c!" THE-VALUE=\"true\"" []))) =
    ((true, false, false), .refused .notImplemented) := by decide +kernel

set_option maxRecDepth 20000 in
theorem C61_relation_date : fate (inRelations (el c!"VALUES" [] (avalue c!"DATE" c!" THE-VALUE=\"2021-01-01T00:00:00\"" []))) =
    ((true, false, false), .refused .notImplemented) := by decide +kernel

set_option maxRecDepth 20000 in
theorem C61_relation_enumeration : fate (inRelations (el c!"VALUES" [] (avalue c!"ENUMERATION" [] (el c!"VALUES" [] [])))) =
    ((true, false, false), .refused .notImplemented) := by decide +kernel

/-! ## Valid documents that are parsed and not printed -/

set_option maxRecDepth 20000 in
/-- An alternative identifier in an attribute definition is parsed, but not printed. -/
theorem C62_definition_alternative : fate (inObjectType (adef c!"STRING" [] c!"<ALTERNATIVE-ID/>")) =
    ((true, true, false), .unprintable .notImplemented) := by decide +kernel

set_option maxRecDepth 20000 in
/-- In a relation. -/
theorem C62_relation_alternative : fate (inRelations c!"<ALTERNATIVE-ID/>") =
    ((true, true, false), .unprintable .notImplemented) := by decide +kernel

set_option maxRecDepth 20000 in
/-- A spec object without `VALUES`. -/
theorem C62_no_values : fate (inObjects []) =
    ((true, true, false), .unprintable .assertion) := by decide +kernel

/-! ## The other hypotheses -/

set_option maxRecDepth 20000 in
/-- A valid document that uses a prefix for the ReqIF namespace and no default namespace
is refused: its root is not found to be `REQ-IF`. -/
theorem C61_prefix : fate (
    c!"<r:REQ-IF xmlns:r=\"http://www.omg.org/spec/ReqIF/20110401/reqif.xsd\"><r:THE-HEADER><r:REQ-IF-HEADER IDENTIFIER=\"h\">" ++
    c!"<r:CREATION-TIME>2021-01-01T00:00:00</r:CREATION-TIME><r:REQ-IF-TOOL-ID>t</r:REQ-IF-TOOL-ID>" ++
    c!"<r:REQ-IF-VERSION>1.0</r:REQ-IF-VERSION><r:SOURCE-TOOL-ID>s</r:SOURCE-TOOL-ID><r:TITLE>T</r:TITLE></r:REQ-IF-HEADER>" ++
    c!"</r:THE-HEADER><r:CORE-CONTENT><r:REQ-IF-CONTENT/></r:CORE-CONTENT></r:REQ-IF>") =
    ((true, true, true), .refused (.xmlParsing (.wrongRoot c!"{http://www.omg.org/spec/ReqIF/20110401/reqif.xsd}REQ-IF"))) := by
  decide +kernel

set_option maxRecDepth 20000 in
/-- A comment among the data types is an error. -/
theorem C61_comment : (match parseString (xsdDoc (el c!"DATATYPES" [] c!"<!-- c -->")) with
    | .error e => some e
    | .ok _ => none) = some .typeError := by decide +kernel

/-! ## Printed, but not with everything

Schema validity does not mean that the printed document has all that was there. -/

/-- The document is valid for parser and unparser and contains the text, and the printed
document does not. -/
def loses (text s : Str) : Bool :=
  match readDoc text, parseString text with
  | some d, .ok b =>
    validRoot .write d.root && noSpecials d.root && containsStr s text &&
    (match unparse b with
     | .error _ => false
     | .ok out => !containsStr s out)
  | _, _ => false

/-- A specification with this in a hierarchy element. -/
def inHierarchy (attrs s : Str) : Str :=
  xsdDoc (el c!"SPECIFICATIONS" [] (el c!"SPECIFICATION" (ident c!"p") (el c!"CHILDREN" [] (el c!"SPEC-HIERARCHY" (ident c!"h1" ++ attrs)
    (s ++ el c!"OBJECT" [] (el c!"SPEC-OBJECT-REF" [] c!"q"))) ++ el c!"TYPE" [] (el c!"SPECIFICATION-TYPE-REF" [] c!"s"))))

set_option maxRecDepth 20000 in
/-- Alternative identifiers are lost. -/
theorem C62_loses_alternative : loses (inObjects (el c!"ALTERNATIVE-ID" [] (el c!"ALTERNATIVE-ID" c!" IDENTIFIER=\"doors-17\"" []) ++
    el c!"VALUES" [] [])) c!"doors-17" = true := by decide +kernel

set_option maxRecDepth 20000 in
/-- The editable attributes and the description of a hierarchy element are lost. -/
theorem C62_loses_editable : loses (inHierarchy [] (el c!"EDITABLE-ATTS" [] (el c!"ATTRIBUTE-DEFINITION-STRING-REF" [] c!"a-5")))
    c!"a-5" = true := by decide +kernel

set_option maxRecDepth 20000 in
theorem C62_loses_description : loses (inHierarchy c!" DESC=\"see there\"" []) c!"see there" = true := by decide +kernel

set_option maxRecDepth 20000 in
/-- `IS-EDITABLE="1"`, which is true, becomes `false`. -/
theorem C62_boolean : (match parseString (inHierarchy c!" IS-EDITABLE=\"1\"" []) with
    | .error _ => false
    | .ok b =>
      match unparse b with
      | .error _ => false
      | .ok out => containsStr c!"IS-EDITABLE=\"false\"" out) = true := by decide +kernel

set_option maxRecDepth 20000 in
/-- The original value of a simplified XHTML value, and the mark that it is simplified, are lost. -/
theorem C62_loses_original : loses (inObjects (el c!"VALUES" [] (avalue c!"XHTML" c!" IS-SIMPLIFIED=\"true\""
    (el c!"THE-VALUE" [] c!"<h:p>y</h:p>" ++ el c!"THE-ORIGINAL-VALUE" [] c!"<h:p>original</h:p>")))) c!"original" = true ∧
    loses (inObjects (el c!"VALUES" [] (avalue c!"XHTML" c!" IS-SIMPLIFIED=\"true\""
    (el c!"THE-VALUE" [] c!"<h:p>y</h:p>")))) c!"IS-SIMPLIFIED" = true := by decide +kernel

end ReqIF
