import Verif.Proofs.PlainRound
import Verif.Props.C61_62
/-!
# C63: plain documents survive parsing and printing

The hypotheses are on the text of the document: it is valid in the dialect of parser and
unparser (`Spec/Xsd.lean`), it holds no comments and processing instructions, and it is plain
(`Spec/Plain.lean`).
-/
set_option linter.unusedSimpArgs false
namespace ReqIF.Xsd
open Spec

/-- **C63.** A plain document that is valid in the dialect `lenient`, with an element below
the root, is parsed and printed; the output is a well-formed ReqIF document.  Reading it gives
the same namespace information (now with the XML declaration), the same header, the same
items in the same order (as stated by `readContent`), the same tool-extension mark, a
lookup for these items, and no schema errors. -/
theorem C63_roundtrip {text : Str} {doc : Doc} {p : Str} (hr : readDoc text = some doc) (hv : validRoot .lenient doc.root = true)
    (hs : noSpecials doc.root = true) (hp : plainDocument p doc.root = true) (hk : childNames doc.root.kids ≠ []) :
    ∃ b out b', parseString text = .ok b ∧ unparse b = .ok out ∧ parseString out = .ok b' ∧ IsReqifDocument out ∧
      b.exceptions = [] ∧
      b'.namespaceInfo = { b.namespaceInfo with doctypeIsPresent := true, encoding := c!"UTF-8" } ∧
      b'.header = b.header ∧
      b'.coreContent.map (·.map bareContent) = b.coreContent.map (·.map readContent) ∧
      b'.lookup = lookupFor b'.coreContent ∧
      b'.toolExtensionsTagExists = b.toolExtensionsTagExists ∧ b'.exceptions = [] := by
  obtain ⟨b, as, i, ks, -, h1, h2, -, h3, h4, h5⟩ := plain_safe hr hv hs hp hk
  obtain ⟨out, d, b', g1, g2, ⟨j, ls, g3, g4, g5, -⟩, g6, g7, g8, g9, g10, g11, g12, -⟩ := bundle_survives h2
  refine ⟨b, out, b', h1, g1, g6, ⟨d, j, ls, g2, g3, g4, g5⟩, h3, ?_, ?_, g9, g11, g10, g12⟩
  · rw [g7]
    unfold readRoot
    rw [← h4]
  · rw [g8]
    cases hh : b.header with
    | none => rfl
    | some h => rw [Option.map_some, (h5 h hh).1]

/-- A plain document without prefix at its root has a default namespace. -/
theorem plainDocument_default {text : Str} {doc : Doc} {p : Str} {d : Dialect} (hr : readDoc text = some doc) (hv : validRoot d doc.root = true)
    (hp : plainDocument p doc.root = true) : (doc.root.nsmap.get? none).isSome = true := by
  obtain ⟨-, q, as0, i, ks, -, -, hres, hroot⟩ := readDoc_sane hr
  rw [hroot] at hv hp ⊢
  simp only [validRoot, Bool.and_eq_true, beq_iff_eq] at hv
  simp only [plainDocument, rootFits, Bool.and_eq_true] at hp
  have hpf : i.pfx = none := by simpa using hp.1.1.1.2.1.1
  have e := resolveInfo_name hres
  rw [hpf, hv.1.2] at e
  have hq : q = c!"REQ-IF" := by
    rcases splitQName_eq q with e2 | ⟨a, b, e2, -⟩
    · rw [e2] at e; injection e
    · rw [e2] at e; cases e
  subst hq
  have := (resolveInfo_root hres).2.2.2 _ hv.1.1
  show (NsMap.get? i.nsmap none).isSome = true
  rw [this]; rfl

/-- **C63.** If the document is also valid in the dialect `write`, so against the schema,
the bundle has a header and a content, and so has the one read back. -/
theorem C63_valid {text : Str} {doc : Doc} {p : Str} (hr : readDoc text = some doc) (hv : validRoot .write doc.root = true)
    (hs : noSpecials doc.root = true) (hp : plainDocument p doc.root = true) :
    ∃ b out b' h c c', parseString text = .ok b ∧ unparse b = .ok out ∧ parseString out = .ok b' ∧ IsReqifDocument out ∧
      b.header = some h ∧ b.coreContent = some (some c) ∧ b'.header = some h ∧ b'.coreContent = some (some c') ∧
      bareContent c' = readContent c ∧ b'.exceptions = [] := by
  obtain ⟨b, out, b', h1, h2, h3, h4, -, -, h5, h6, -, -, h7⟩ := C63_roundtrip hr (validRoot_lenient hv) hs hp (strict_full rfl hv).1
  obtain ⟨b0, h, c, e1, -, e2, e3, -⟩ := document_full (d := .write) (by decide) rfl hr (plainDocument_default hr hv hp) hv hs
  rw [h1] at e1
  cases e1
  rw [e3] at h6
  cases hc : b'.coreContent with
  | none => rw [hc] at h6; cases h6
  | some o =>
    cases o with
    | none => rw [hc] at h6; cases h6
    | some c' =>
      rw [hc] at h6
      exact ⟨b, out, b', h, c, c', h1, h2, h3, h4, e2, e3, by rw [h5, e2], hc, Option.some.inj (Option.some.inj h6), h7⟩

/-- **C63.** One pass normalises a plain document: what passthrough writes is reproduced by
passthrough byte for byte. -/
theorem C63_stable {text : Str} {doc : Doc} {p : Str} (hr : readDoc text = some doc) (hv : validRoot .lenient doc.root = true)
    (hs : noSpecials doc.root = true) (hp : plainDocument p doc.root = true) (hk : childNames doc.root.kids ≠ []) :
    ∃ b out b', parseString text = .ok b ∧ unparse b = .ok out ∧ parseString out = .ok b' ∧ unparse b' = .ok out ∧
      passthroughBytes (.ok out.utf8Encode) = .ok out.utf8Encode := by
  obtain ⟨b, as, i, ks, -, h1, h2, -, h3, h4, h5⟩ := plain_safe hr hv hs hp hk
  obtain ⟨out, b', g1, g2, g3, g4, -⟩ := C44_passthrough h2 (.inl (by rw [h4]; rfl)) (fun hd hh => (h5 hd hh).2)
  exact ⟨b, out, b', h1, g1, g2, g3, g4⟩

/-! ## Documents -/

/-- What becomes of a document. -/
inductive Outcome
  | refused
  | unprintable
  | malformed
  | unreadable
  /-- read back: are the strings kept, and is it the same when printed again? -/
  | read (kept same : Bool)
  deriving DecidableEq

/-- The strings of a value. -/
def valueStrings (a : SpecObjectAttribute) : List (Option Str) :=
  a.definitionRef :: (match a.value with
    | .str v => [some v]
    | .list vs => vs)

/-- The values of the spec objects and the ends of the relations. -/
def bundleStrings (b : Bundle) : List (Option Str) :=
  match b.coreContent with
  | some (some c) => ((c.specObjects.getD []).map (fun o => (o.attributes.map valueStrings).flatten)).flatten ++
      ((c.specRelations.getD []).map (fun r => [r.source, r.target])).flatten
  | _ => []

/-- Is it valid and plain, and what is printed for it? -/
def outcome (p text : Str) : (Bool × Bool) × Outcome :=
  match readDoc text with
  | none => ((false, false), .refused)
  | some d => ((validRoot .write d.root && noSpecials d.root, plainDocument p d.root),
    match parseString text with
    | .error _ => .refused
    | .ok b =>
      match unparse b with
      | .error _ => .unprintable
      | .ok t =>
        match readDoc t, parseString t with
        | none, _ => .malformed
        | _, .error _ => .unreadable
        | _, .ok b' => .read (decide (bundleStrings b' = bundleStrings b))
            (match unparse b' with | .ok t' => decide (t' = t) | .error _ => false))

set_option maxRecDepth 20000 in
/-- A document with all kinds of items meets the hypotheses. -/
example : outcome c!"h" fullXsdDoc = ((true, true), .read true true) := by decide +kernel

/-- A document without header, with elements out of order, without dates and with
identifiers that are no names. -/
def lenientDoc : Str :=
  c!"<REQ-IF xmlns=\"http://www.omg.org/spec/ReqIF/20110401/reqif.xsd\"><CORE-CONTENT><REQ-IF-CONTENT>" ++
  c!"<SPEC-OBJECTS><SPEC-OBJECT IDENTIFIER=\"1\"><VALUES><ATTRIBUTE-VALUE-STRING THE-VALUE=\"a\"><DEFINITION>" ++
  c!"<ATTRIBUTE-DEFINITION-STRING-REF>2</ATTRIBUTE-DEFINITION-STRING-REF></DEFINITION></ATTRIBUTE-VALUE-STRING></VALUES>" ++
  c!"<TYPE><SPEC-OBJECT-TYPE-REF>3</SPEC-OBJECT-TYPE-REF></TYPE></SPEC-OBJECT></SPEC-OBJECTS>" ++
  c!"<DATATYPES><DATATYPE-DEFINITION-STRING IDENTIFIER=\"4\"/></DATATYPES></REQ-IF-CONTENT></CORE-CONTENT></REQ-IF>"

/-- Does a document meet the hypotheses of `C63_roundtrip`, and is it valid against the schema? -/
def lenientOnly (p text : Str) : Bool :=
  match readDoc text with
  | none => false
  | some d => validRoot .lenient d.root && noSpecials d.root && plainDocument p d.root && !(childNames d.root.kids).isEmpty &&
      !validRoot .xsd d.root

set_option maxRecDepth 20000 in
example : lenientOnly c!"h" lenientDoc = true ∧ (outcome c!"h" lenientDoc).2 = .read true true := by
  refine ⟨by decide +kernel, by decide +kernel⟩

/-- A spec object with these attributes and values. -/
def inObject (attrs values : Str) : Str := xsdDoc (el c!"SPEC-OBJECTS" [] (el c!"SPEC-OBJECT" (ident c!"q" ++ attrs)
  (el c!"VALUES" [] values ++ el c!"TYPE" [] (el c!"SPEC-OBJECT-TYPE-REF" [] c!"o"))))

/-- An XHTML value. -/
def xvalue (s : Str) : Str := avalue c!"XHTML" [] (el c!"THE-VALUE" [] s)

/-- The same document with another root tag. -/
def reroot (tag text : Str) : Str := tag ++ (text.dropWhile (· != '>')).drop 1

/-- The customary namespaces. -/
def omg : Str := c!"\"http://www.omg.org/spec/ReqIF/20110401/reqif.xsd\""
def w3x : Str := c!"\"http://www.w3.org/1999/xhtml\""
def w3xsi : Str := c!"\"http://www.w3.org/2001/XMLSchema-instance\""

set_option maxRecDepth 20000 in
/-- XHTML with the prefix of the root, and a schema location after the XHTML declaration. -/
example : outcome c!"h" (reroot (c!"<REQ-IF xmlns=" ++ omg ++ c!" xmlns:h=" ++ w3x ++ c!" xmlns:xsi=" ++ w3xsi ++ c!" xsi:schemaLocation=\"a b\">")
    (inObject [] (xvalue c!"<h:div>a</h:div>"))) = ((true, true), .read true true) := by decide +kernel

set_option maxRecDepth 20000 in
/-- **C63, opposite**: valid documents that are not plain are written malformed: `&` in the
description of a spec object, `&` in an XHTML value without elements, a prefix declared
inside the value, a namespaced attribute inside the value, a prefix of the ReqIF namespace
declared before the default. -/
theorem C63_malformed :
    outcome c!"h" (inObject c!" DESC=\"R &amp; D\"" []) = ((true, false), .malformed) ∧
    outcome c!"h" (inObject [] (xvalue c!"a &amp; b")) = ((true, false), .malformed) ∧
    outcome c!"k" (inObject [] (xvalue (c!"<k:div xmlns:k=" ++ w3x ++ c!">a</k:div>"))) = ((true, false), .malformed) ∧
    outcome c!"h" (inObject [] (xvalue c!"<h:div xml:lang=\"de\">a</h:div>")) = ((true, false), .malformed) ∧
    outcome c!"h" (reroot (c!"<REQ-IF xmlns:r=" ++ omg ++ c!" xmlns=" ++ omg ++ c!" xmlns:h=" ++ w3x ++ c!">")
      (inObject [] (xvalue c!"<h:div>a</h:div>"))) = ((true, false), .malformed) := by
  refine ⟨by decide +kernel, by decide +kernel, by decide +kernel, by decide +kernel, by decide +kernel⟩

set_option maxRecDepth 20000 in
/-- **C63, opposite**: others come back changed, and change again: the XHTML prefix is declared
after the prefix of an attribute of the root; a line break in an attribute inside XHTML; a
tab in a string. -/
theorem C63_changed :
    outcome c!"h" (reroot (c!"<REQ-IF xmlns=" ++ omg ++ c!" xmlns:xsi=" ++ w3xsi ++ c!" xmlns:h=" ++ w3x ++ c!" xsi:schemaLocation=\"a b\">")
      (inObject [] (xvalue c!"<h:div>a</h:div>"))) = ((true, false), .read false false) ∧
    outcome c!"h" (inObject [] (xvalue c!"<h:div title=\"a&#10;b\">a</h:div>")) = ((true, false), .read false false) ∧
    outcome c!"h" (inObject [] (avalue c!"STRING" c!" THE-VALUE=\"a&#9;b\"" [])) = ((true, false), .read false false) := by
  refine ⟨by decide +kernel, by decide +kernel, by decide +kernel⟩

end ReqIF.Xsd
