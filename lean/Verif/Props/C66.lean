import Verif.Proofs.WrittenKept
import Verif.Props.C63
/-!
# C66: passthrough keeps the content of a document

The hypotheses are on the text of the document, as in C63, and it must have none of the
content the library has no place for (`Spec/Kept.lean`).  The conclusion compares the two
documents, not the bundles: what they say (`Spec/Said.lean`), element by element, with all
attributes, texts and XHTML.
-/
set_option linter.unusedSimpArgs false
namespace ReqIF.Xsd
open Spec

/-- **C66.** What is printed for a plain document without content that gets lost is a
document that says the same. -/
theorem C66_content {text : Str} {doc : Doc} {p : Str} (hr : readDoc text = some doc) (hv : validRoot .lenient doc.root = true)
    (hs : noSpecials doc.root = true) (hp : plainDocument p doc.root = true) (hk : childNames doc.root.kids ≠ [])
    (hl : keptDocument doc.root = true) :
    ∃ b out d, parseString text = .ok b ∧ unparse b = .ok out ∧ readDoc out = some d ∧ saidInside d.root = saidInside doc.root := by
  obtain ⟨b, as, i, ks, -, h1, h2, -, -, -, -, X, K, r, hparts⟩ := plain_parts hr hv hs hp hk
  obtain ⟨out, d, b', g1, g2, ⟨j, ls, -, -, -, -, r', g3, g4⟩, -⟩ := bundle_survives h2
  exact ⟨b, out, d, h1, g1, g2, by rw [← said_strippedRoot g3, g4, ← bundle_said hparts hs, writtenRoot_kept hv hs hl]⟩

/-- **C66.** The command line: if the input file holds such a document, passthrough writes
a document that says the same. -/
theorem C66_passthrough {source : ByteArray} {text : Str} {doc : Doc} {p : Str} (hd : decodeUtf8 source = .ok text)
    (hr : readDoc (normEol text) = some doc) (hv : validRoot .lenient doc.root = true) (hs : noSpecials doc.root = true)
    (hp : plainDocument p doc.root = true) (hk : childNames doc.root.kids ≠ []) (hl : keptDocument doc.root = true) :
    ∃ out d, passthroughBytes (.ok source) = .ok out.utf8Encode ∧ readDoc out = some d ∧ saidInside d.root = saidInside doc.root := by
  obtain ⟨b, out, d, h1, h2, h3, h4⟩ := C66_content hr hv hs hp hk hl
  exact ⟨out, d, passthroughBytes_ok.mpr ⟨text, b, out, hd, h1, h2, rfl⟩, h3, h4⟩

/-! ## Documents -/

/-- A document with every kind of item and none of the content that gets lost. -/
def keptDoc : Str := xsdDoc (
  el c!"DATATYPES" [] (
    el c!"DATATYPE-DEFINITION-REAL" (ident c!"d1" ++ c!" ACCURACY=\"3\" MAX=\"1.5\" MIN=\"0\"") [] ++
    el c!"DATATYPE-DEFINITION-ENUMERATION" (ident c!"d") (el c!"SPECIFIED-VALUES" [] (el c!"ENUM-VALUE" (ident c!"v")
      (el c!"PROPERTIES" [] (el c!"EMBEDDED-VALUE" c!" KEY=\"1\" OTHER-CONTENT=\"\"" []))))) ++
  el c!"SPEC-TYPES" [] (
    el c!"SPEC-OBJECT-TYPE" (ident c!"o") (el c!"SPEC-ATTRIBUTES" [] (
      adef c!"XHTML" c!" IS-EDITABLE=\"true\"" (el c!"DEFAULT-VALUE" [] (avalue c!"XHTML" [] (el c!"THE-VALUE" [] c!"<h:div>x</h:div>"))) ++
      adef c!"ENUMERATION" c!" MULTI-VALUED=\"true\"" c!"<DEFAULT-VALUE/>")) ++
    el c!"SPEC-RELATION-TYPE" (ident c!"t" ++ c!" LONG-NAME=\"n\"") [] ++
    el c!"SPECIFICATION-TYPE" (ident c!"s") (el c!"SPEC-ATTRIBUTES" [] (adef c!"DATE" c!" LONG-NAME=\"n\"" []))) ++
  el c!"SPEC-OBJECTS" [] (el c!"SPEC-OBJECT" (ident c!"q") (el c!"VALUES" [] (
    avalue c!"ENUMERATION" [] (el c!"VALUES" [] (el c!"ENUM-VALUE-REF" [] c!"v")) ++
    avalue c!"XHTML" [] (el c!"THE-VALUE" [] c!"<h:p class=\"c\">y<h:b/></h:p>") ++
    avalue c!"STRING" c!" THE-VALUE=\"z\"" []) ++ el c!"TYPE" [] (el c!"SPEC-OBJECT-TYPE-REF" [] c!"o"))) ++
  el c!"SPEC-RELATIONS" [] (el c!"SPEC-RELATION" (ident c!"r") (el c!"TYPE" [] (el c!"SPEC-RELATION-TYPE-REF" [] c!"t") ++
    el c!"VALUES" [] (avalue c!"INTEGER" c!" THE-VALUE=\"7\"" []) ++
    el c!"TARGET" [] (el c!"SPEC-OBJECT-REF" [] c!"q") ++ el c!"SOURCE" [] (el c!"SPEC-OBJECT-REF" [] c!"q"))) ++
  el c!"SPECIFICATIONS" [] (el c!"SPECIFICATION" (ident c!"p") (el c!"TYPE" [] (el c!"SPECIFICATION-TYPE-REF" [] c!"s") ++
    el c!"CHILDREN" [] (el c!"SPEC-HIERARCHY" (ident c!"h1" ++ c!" IS-TABLE-INTERNAL=\"false\"") (
      el c!"CHILDREN" [] (el c!"SPEC-HIERARCHY" (ident c!"h2") (el c!"OBJECT" [] (el c!"SPEC-OBJECT-REF" [] c!"q"))) ++
      el c!"OBJECT" [] (el c!"SPEC-OBJECT-REF" [] c!"q"))))) ++
  el c!"SPEC-RELATION-GROUPS" [] (el c!"RELATION-GROUP" (ident c!"g") (
    el c!"SOURCE-SPECIFICATION" [] (el c!"SPECIFICATION-REF" [] c!"p") ++
    el c!"TARGET-SPECIFICATION" [] (el c!"SPECIFICATION-REF" [] c!"p") ++ el c!"TYPE" [] (el c!"RELATION-GROUP-TYPE-REF" [] c!"u"))))

/-- Does the document meet the hypotheses of `C66_content`? -/
def keepsAll (p text : Str) : Bool :=
  match readDoc text with
  | none => false
  | some d => validRoot .lenient d.root && noSpecials d.root && plainDocument p d.root && !(childNames d.root.kids).isEmpty &&
      keptDocument d.root

set_option maxRecDepth 20000 in
/-- Such documents exist. -/
example : keepsAll c!"h" keptDoc = true ∧ keepsAll c!"h" lenientDoc = true := by refine ⟨by decide +kernel, by decide +kernel⟩

mutual
/-- The values of an attribute of the elements of a name, in document order. -/
def attrsNamed (name key : Str) : Node → List (Option Str)
  | .elem i ks => (if i.name = name then [(Node.elem i ks).attr? key] else []) ++ attrsNamedAll name key ks
  | _ => []

def attrsNamedAll (name key : Str) : List Node → List (Option Str)
  | [] => []
  | n :: ns => attrsNamed name key n ++ attrsNamedAll name key ns
end

/-- What becomes of the elements of a name: is the document valid against the schema, is it
plain, does it keep its content, and the values of an attribute before and after. -/
def loss (p name key text : Str) : Option ((Bool × Bool × Bool) × List (Option Str) × List (Option Str)) :=
  match readDoc text, parseString text with
  | some d, .ok b =>
    match unparse b with
    | .ok out =>
      match readDoc out with
      | some d' => some ((validRoot .xsd d.root && noSpecials d.root, plainDocument p d.root, keptDocument d.root),
          attrsNamed name key d.root, attrsNamed name key d'.root)
      | none => none
    | .error _ => none
  | _, _ => none

/-- A specification with a hierarchy node that has these attributes and children. -/
def inTree (attrs kids : Str) : Str := xsdDoc (el c!"SPECIFICATIONS" [] (el c!"SPECIFICATION" (ident c!"p") (
  el c!"CHILDREN" [] (el c!"SPEC-HIERARCHY" (ident c!"h" ++ attrs) (kids ++ el c!"OBJECT" [] (el c!"SPEC-OBJECT-REF" [] c!"q"))) ++
  el c!"TYPE" [] (el c!"SPECIFICATION-TYPE-REF" [] c!"s"))))

/-- The document with tool extensions. -/
def withTools (s : Str) : Str := (xsdDoc []).take ((xsdDoc []).length - c!"</REQ-IF>".length) ++ el c!"TOOL-EXTENSIONS" [] s ++ c!"</REQ-IF>"

/-- An object with these values. -/
def withValues (s : Str) : Str := inObjects (el c!"VALUES" [] s)

set_option maxRecDepth 20000 in
/-- **C66, opposite**: elements of valid, plain documents that are not written: alternative
identifiers, editable attributes, original values, the definition named in a default
string, the content of tool extensions. -/
theorem C66_elements :
    loss c!"h" c!"ALTERNATIVE-ID" c!"IDENTIFIER" (inObjects (el c!"ALTERNATIVE-ID" [] c!"<ALTERNATIVE-ID IDENTIFIER=\"x\"/>" ++
      el c!"VALUES" [] [])) = some ((true, true, false), [none, some c!"x"], []) ∧
    loss c!"h" c!"EDITABLE-ATTS" [] (inTree [] (el c!"EDITABLE-ATTS" [] (el c!"ATTRIBUTE-DEFINITION-STRING-REF" [] c!"a"))) =
      some ((true, true, false), [none], []) ∧
    loss c!"h" c!"THE-ORIGINAL-VALUE" [] (withValues (avalue c!"XHTML" []
      (el c!"THE-ORIGINAL-VALUE" [] c!"<h:div>a</h:div>" ++ el c!"THE-VALUE" [] c!"<h:div>b</h:div>"))) =
      some ((true, true, false), [none], []) ∧
    loss c!"h" c!"DEFINITION" [] (inObjectType (adef c!"STRING" [] (el c!"DEFAULT-VALUE" [] (avalue c!"STRING" c!" THE-VALUE=\"v\"" [])))) =
      some ((true, true, false), [none], []) ∧
    loss c!"h" c!"REQ-IF-TOOL-EXTENSION" [] (withTools (el c!"REQ-IF-TOOL-EXTENSION" [] c!"<x/>")) =
      some ((true, true, false), [none], []) := by
  refine ⟨by decide +kernel, by decide +kernel, by decide +kernel, by decide +kernel, by decide +kernel⟩

set_option maxRecDepth 20000 in
/-- **C66, opposite**: values lost from lists: all but the first value of a relation, all
but the first default of an enumeration. -/
theorem C66_values :
    loss c!"h" c!"ATTRIBUTE-VALUE-STRING" c!"THE-VALUE" (inRelations (el c!"VALUES" []
      (avalue c!"STRING" c!" THE-VALUE=\"v\"" [] ++ avalue c!"STRING" c!" THE-VALUE=\"w\"" []))) =
      some ((true, true, false), [some c!"v", some c!"w"], [some c!"v"]) ∧
    loss c!"h" c!"ENUM-VALUE-REF" [] (inObjectType (adef c!"ENUMERATION" c!" MULTI-VALUED=\"true\"" (el c!"DEFAULT-VALUE" []
      (avalue c!"ENUMERATION" [] (el c!"VALUES" [] (el c!"ENUM-VALUE-REF" [] c!"v" ++ el c!"ENUM-VALUE-REF" [] c!"w")))))) =
      some ((true, true, false), [none, none], [none]) := by
  refine ⟨by decide +kernel, by decide +kernel⟩

set_option maxRecDepth 20000 in
/-- **C66, opposite**: attributes of valid, plain documents that are lost or rewritten: the
description and an empty name of a hierarchy node, `IS-SIMPLIFIED`, flags written `1`,
numbers with a sign. -/
theorem C66_attributes :
    loss c!"h" c!"SPEC-HIERARCHY" c!"DESC" (inTree c!" DESC=\"d\"" []) = some ((true, true, false), [some c!"d"], [none]) ∧
    loss c!"h" c!"SPEC-HIERARCHY" c!"LONG-NAME" (inTree c!" LONG-NAME=\"\"" []) = some ((true, true, false), [some []], [none]) ∧
    loss c!"h" c!"ATTRIBUTE-VALUE-XHTML" c!"IS-SIMPLIFIED" (withValues (avalue c!"XHTML" c!" IS-SIMPLIFIED=\"true\""
      (el c!"THE-VALUE" [] c!"<h:div>b</h:div>"))) = some ((true, true, false), [some c!"true"], [none]) ∧
    loss c!"h" c!"SPEC-HIERARCHY" c!"IS-EDITABLE" (inTree c!" IS-EDITABLE=\"1\"" []) =
      some ((true, true, false), [some c!"1"], [some c!"false"]) ∧
    loss c!"h" c!"ATTRIBUTE-DEFINITION-STRING" c!"IS-EDITABLE" (inObjectType (adef c!"STRING" c!" IS-EDITABLE=\"1\"" [])) =
      some ((true, true, false), [some c!"1"], [some c!"false"]) ∧
    loss c!"h" c!"ATTRIBUTE-DEFINITION-ENUMERATION" c!"MULTI-VALUED" (inObjectType (adef c!"ENUMERATION" c!" MULTI-VALUED=\"1\"" [])) =
      some ((true, true, false), [some c!"1"], [some c!"false"]) ∧
    loss c!"h" c!"DATATYPE-DEFINITION-REAL" c!"ACCURACY" (xsdDoc (el c!"DATATYPES" [] (
      el c!"DATATYPE-DEFINITION-REAL" (ident c!"d1" ++ c!" ACCURACY=\"+03\" MAX=\"1.5\" MIN=\"0\"") []))) =
      some ((true, true, false), [some c!"+03"], [some c!"3"]) := by
  refine ⟨by decide +kernel, by decide +kernel, by decide +kernel, by decide +kernel, by decide +kernel, by decide +kernel,
    by decide +kernel⟩

end ReqIF.Xsd
