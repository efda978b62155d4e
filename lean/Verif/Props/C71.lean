import Verif.Props.C66
/-!
# C71: exactly what passthrough writes of a document

C66 is about documents that keep all their content.  Here is what is written of any plain
document: its content without the elements and attributes that get lost, and with the
values that get rewritten (`Spec/Written.lean`), and nothing else changes.
-/
namespace ReqIF.Xsd
open Spec

/-- **C71.** What is printed for a plain document says what `writtenRoot` keeps of the
document, no less and no more. -/
theorem C71_content {text : Str} {doc : Doc} {p : Str} (hr : readDoc text = some doc) (hv : validRoot .lenient doc.root = true)
    (hs : noSpecials doc.root = true) (hp : plainDocument p doc.root = true) (hk : childNames doc.root.kids ≠ []) :
    ∃ b out d, parseString text = .ok b ∧ unparse b = .ok out ∧ readDoc out = some d ∧
      saidInside d.root = saidInside (writtenRoot doc.root) := by
  obtain ⟨b, as, i, ks, -, h1, h2, -, -, -, -, X, K, r, hparts⟩ := plain_parts hr hv hs hp hk
  obtain ⟨out, d, b', g1, g2, ⟨j, ls, -, -, -, -, r', g3, g4⟩, -⟩ := bundle_survives h2
  exact ⟨b, out, d, h1, g1, g2, by rw [← said_strippedRoot g3, g4, ← bundle_said hparts hs]⟩

/-- **C71.** The command line: if the input file holds such a document, passthrough writes
a document that says what `writtenRoot` keeps. -/
theorem C71_passthrough {source : ByteArray} {text : Str} {doc : Doc} {p : Str} (hd : decodeUtf8 source = .ok text)
    (hr : readDoc (normEol text) = some doc) (hv : validRoot .lenient doc.root = true) (hs : noSpecials doc.root = true)
    (hp : plainDocument p doc.root = true) (hk : childNames doc.root.kids ≠ []) :
    ∃ out d, passthroughBytes (.ok source) = .ok out.utf8Encode ∧ readDoc out = some d ∧
      saidInside d.root = saidInside (writtenRoot doc.root) := by
  obtain ⟨b, out, d, h1, h2, h3, h4⟩ := C71_content hr hv hs hp hk
  exact ⟨out, d, passthroughBytes_ok.mpr ⟨text, b, out, hd, h1, h2, rfl⟩, h3, h4⟩

/-- **C71.** A document that keeps its content is written whole: C66 is a case of C71. -/
theorem C71_kept {root : Node} (hv : validRoot .lenient root = true) (hs : noSpecials root = true) (hk : keptDocument root = true) :
    writtenRoot root = root := writtenRoot_kept hv hs hk

/-! ## Documents -/

/-- A document that loses content of many kinds. -/
def lossyDoc : Str := xsdDoc (
  el c!"DATATYPES" [] (
    el c!"DATATYPE-DEFINITION-REAL" (ident c!"d1" ++ c!" ACCURACY=\"+03\" MAX=\"1.5\" MIN=\"0\"")
      (el c!"ALTERNATIVE-ID" [] c!"<ALTERNATIVE-ID IDENTIFIER=\"x\"/>")) ++
  el c!"SPEC-TYPES" [] (
    el c!"SPEC-OBJECT-TYPE" (ident c!"o") (el c!"SPEC-ATTRIBUTES" [] (
      adef c!"STRING" c!" IS-EDITABLE=\"1\"" (el c!"DEFAULT-VALUE" [] (avalue c!"STRING" c!" THE-VALUE=\"v\"" [])) ++
      adef c!"ENUMERATION" c!" MULTI-VALUED=\"true\"" (el c!"DEFAULT-VALUE" []
        (avalue c!"ENUMERATION" [] (el c!"VALUES" [] (el c!"ENUM-VALUE-REF" [] c!"v" ++ el c!"ENUM-VALUE-REF" [] c!"w"))))))) ++
  el c!"SPEC-OBJECTS" [] (el c!"SPEC-OBJECT" (ident c!"q") (el c!"VALUES" [] (
    avalue c!"XHTML" c!" IS-SIMPLIFIED=\"true\""
      (el c!"THE-ORIGINAL-VALUE" [] c!"<h:div>a</h:div>" ++ el c!"THE-VALUE" [] c!"<h:div>b</h:div>")) ++
    el c!"TYPE" [] (el c!"SPEC-OBJECT-TYPE-REF" [] c!"o"))) ++
  el c!"SPEC-RELATIONS" [] (el c!"SPEC-RELATION" (ident c!"r") (el c!"TYPE" [] (el c!"SPEC-RELATION-TYPE-REF" [] c!"t") ++
    el c!"VALUES" [] (avalue c!"STRING" c!" THE-VALUE=\"v\"" [] ++ avalue c!"STRING" c!" THE-VALUE=\"w\"" []) ++
    el c!"TARGET" [] (el c!"SPEC-OBJECT-REF" [] c!"q") ++ el c!"SOURCE" [] (el c!"SPEC-OBJECT-REF" [] c!"q"))) ++
  el c!"SPECIFICATIONS" [] (el c!"SPECIFICATION" (ident c!"p") (el c!"TYPE" [] (el c!"SPECIFICATION-TYPE-REF" [] c!"s") ++
    el c!"CHILDREN" [] (el c!"SPEC-HIERARCHY" (ident c!"h1" ++ c!" IS-TABLE-INTERNAL=\"1\" DESC=\"d\"") (
      el c!"EDITABLE-ATTS" [] (el c!"ATTRIBUTE-DEFINITION-STRING-REF" [] c!"a") ++
      el c!"OBJECT" [] (el c!"SPEC-OBJECT-REF" [] c!"q"))))))

/-- Does the document meet the hypotheses of `C71_content`, and does it keep its content? -/
def meetsAll (p text : Str) : Option (Bool × Bool) :=
  match readDoc text with
  | none => none
  | some d => some (validRoot .lenient d.root && noSpecials d.root && plainDocument p d.root && !(childNames d.root.kids).isEmpty,
      keptDocument d.root)

set_option maxRecDepth 20000 in
/-- Such documents exist, among them documents that lose content. -/
example : meetsAll c!"h" lossyDoc = some (true, false) ∧ meetsAll c!"h" keptDoc = some (true, true) := by
  refine ⟨by decide +kernel, by decide +kernel⟩

/-- The values of an attribute of the elements of a name: as read, as `writtenRoot` has them, and as they are printed. -/
def threeWays (name key text : Str) : Option (List (Option Str) × List (Option Str) × List (Option Str)) :=
  match readDoc text, parseString text with
  | some d, .ok b =>
    match unparse b with
    | .ok out =>
      match readDoc out with
      | some d' => some (attrsNamed name key d.root, attrsNamed name key (writtenRoot d.root), attrsNamed name key d'.root)
      | none => none
    | .error _ => none
  | _, _ => none

/-! Specification and program compared on the document: elements and attributes that are
dropped, rewritten and kept. -/

set_option maxRecDepth 20000 in
example : threeWays c!"ALTERNATIVE-ID" c!"IDENTIFIER" lossyDoc = some ([none, some c!"x"], [], []) := by decide +kernel

set_option maxRecDepth 20000 in
example : threeWays c!"DATATYPE-DEFINITION-REAL" c!"ACCURACY" lossyDoc = some ([some c!"+03"], [some c!"3"], [some c!"3"]) := by
  decide +kernel

set_option maxRecDepth 20000 in
example : threeWays c!"ATTRIBUTE-DEFINITION-STRING" c!"IS-EDITABLE" lossyDoc =
    some ([some c!"1"], [some c!"false"], [some c!"false"]) := by
  decide +kernel

set_option maxRecDepth 20000 in
example : threeWays c!"ENUM-VALUE-REF" [] lossyDoc = some ([none, none], [none], [none]) := by decide +kernel

set_option maxRecDepth 20000 in
example : threeWays c!"ATTRIBUTE-VALUE-STRING" c!"THE-VALUE" lossyDoc =
    some ([some c!"v", some c!"v", some c!"w"], [some c!"v", some c!"v"], [some c!"v", some c!"v"]) := by
  decide +kernel

set_option maxRecDepth 20000 in
example : threeWays c!"SPEC-HIERARCHY" c!"IS-TABLE-INTERNAL" lossyDoc = some ([some c!"1"], [some c!"false"], [some c!"false"]) := by
  decide +kernel

end ReqIF.Xsd
