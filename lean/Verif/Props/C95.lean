import Verif.Proofs.View
import Verif.Props.C93
import Verif.Props.C63
import Verif.Props.C69
/-!
# C95: what dump and validate show

The page of the dump command and the issues of the validate command depend only on the content:
the title and creation time, the identifiers of the types, the objects with their values, the ends
of relations and the references in the trees.  So they are the same for documents that differ in
layout, and after passthrough or format.
-/
set_option linter.unusedSimpArgs false
namespace ReqIF
open Spec

/-- **C95.** Documents with the same content in this sense have the same page. -/
theorem C95_page (repr : Str → Str) {s s' : Str} {b b' : Bundle} (hb : parseString s = .ok b) (hb' : parseString s' = .ok b')
    (h : view b = view b') : Dump.dumpText repr b = Dump.dumpText repr b' := page_view repr hb hb' h

/-- A schema issue, without the element it quotes. -/
def schemaTag : SchemaIssue → Option Str
  | .xsd => none
  | .missingTag m => some m.tag

/-- **C95**, validate: and the same issues, apart from the elements that are quoted and the issues
about the XML declaration. -/
theorem C95_issues {bytes bytes' : ByteArray} {s s' : Str} {b b' : Bundle} (hs : decodeUtf8 bytes = .ok s)
    (hs' : decodeUtf8 bytes' = .ok s') (hb : parseString (normEol s) = .ok b) (hb' : parseString (normEol s') = .ok b')
    (h : foundIn b = foundIn b') :
    ∃ d d' e e' is, readDoc (normEol s) = some d ∧ readDoc (normEol s') = some d' ∧
      validateParsed (.ok bytes) = .ok e ∧ validateParsed (.ok bytes') = .ok e' ∧
      e.xmlErrors = [] ∧ e'.xmlErrors = [] ∧ e.schemaErrors.map schemaTag = e'.schemaErrors.map schemaTag ∧
      e.semanticWarnings.map unquoted = fileIssues d ++ is ∧ e'.semanticWarnings.map unquoted = fileIssues d' ++ is := by
  obtain ⟨d, hd, h1⟩ := C28_semantic_issues bytes s b hs hb
  obtain ⟨d', hd', h1'⟩ := C28_semantic_issues bytes' s' b' hs' hb'
  have hf : ∀ d : Doc, (fileIssues d).map unquoted = fileIssues d := by
    intro d
    unfold fileIssues
    split
    · rfl
    · rw [List.map_append]
      congr 1
      · split <;> rfl
      · split <;> rfl
  unfold foundIn at h
  injection h with h2 h3
  refine ⟨d, d', _, _, (foundIn b).2, hd, hd', h1, h1', rfl, rfl, ?_, ?_, ?_⟩
  · have e : ∀ ms : List MissingTag, (ms.map SchemaIssue.missingTag).map schemaTag = (ms.map unquotedTag).map some := by
      intro ms
      simp only [List.map_map]
      rfl
    simp only [e, h2]
  · unfold semanticIssues foundIn
    rw [List.append_assoc, List.map_append, hf]
  · unfold semanticIssues foundIn
    rw [List.append_assoc, List.map_append, hf, h3]

theorem shown_ok {s s' : Str} {b b' : Bundle} (hb : parseString s = .ok b) (hb' : parseString s' = .ok b')
    (h : view b = view b') (he : b.exceptions.map unquotedTag = b'.exceptions.map unquotedTag) : ShownAlike s s' := by
  refine ⟨fun repr => ?_, .inl ⟨b, b', hb, hb', found_view h he⟩⟩
  unfold shownPage
  rw [hb, hb']
  exact page_view repr hb hb' h

theorem shown_error {s s' : Str} {e : PyErr} (h : parseString s = .error e) (h' : parseString s' = .error e) : ShownAlike s s' := by
  refine ⟨fun repr => ?_, .inr ⟨e, h, h'⟩⟩
  unfold shownPage
  rw [h, h']

/-- **C95**, layout: documents that differ only in the text between elements and in the order of
attributes are shown alike. -/
theorem C95_layout (s s' : Str) (d d' : Doc) (x : Node) (hs : readDoc s = some d) (hs' : readDoc s' = some d')
    (hd : d.decl = d'.decl) (hr : Reordered .root d.root x) (ht : unspaced .root x = unspaced .root d'.root) :
    ShownAlike s s' := by
  rcases C92_layout s s' d d' x hs hs' hd hr ht with ⟨b, b', h1, h2, h3, -⟩ | ⟨e, h1, h2⟩
  · have g := congrArg view h3
    have g' := congrArg (fun b => b.exceptions.map unquotedTag) h3
    unfold orderedBundle unspacedBundle at g g'
    rw [(view_by _ _).1, (view_by _ _).1, (view_by _ _).1, (view_by _ _).1] at g
    rw [(view_by _ _).2, (view_by _ _).2, (view_by _ _).2, (view_by _ _).2] at g'
    exact shown_ok h1 h2 g g'
  · exact shown_error h1 h2

/-- **C95**, prefixes: and so are documents with other namespaces and prefixes of ReqIF elements. -/
theorem C95_prefixes (free : Option Str → Bool) (s s' : Str) (d d' : Doc) (hs : readDoc s = some d) (hs' : readDoc s' = some d')
    (hn : declaresDefault d.root) (hn' : declaresDefault d'.root) (hr : Renamed free d.root d'.root) : ShownAlike s s' := by
  rcases C93_prefixes free s s' d d' hs hs' hn hn' hr with ⟨b, b', h1, h2, h3, -⟩ | ⟨e, h1, h2⟩
  · refine shown_ok h1 h2 ?_ ?_
    · rw [h3]; rfl
    · rw [h3]
  · exact shown_error h1 h2

/-- **C95**, format: a document without XHTML content is shown alike after formatting. -/
theorem C95_format (keep : List Nat → Bool) (text : Str) (d : Doc) (h : readDoc text = some d)
    (ha : asciiMarkupAll d.nodes = true) (hn : noEmptyTextAll d.nodes = true) (hx : onlyTexts .root d.root = true) :
    ∃ out, Format.formatText keep text = some out ∧ ShownAlike text out := by
  obtain ⟨out, h1, h2⟩ := C87_format keep text d h ha hn hx
  refine ⟨out, h1, ?_⟩
  rcases h2 with ⟨b, b', g1, g2, g3, -⟩ | ⟨e, g1, g2⟩
  · have g := congrArg view g3
    have g' := congrArg (fun b => b.exceptions.map unquotedTag) g3
    unfold unspacedBundle at g g'
    rw [(view_by _ _).1, (view_by _ _).1] at g
    rw [(view_by _ _).2, (view_by _ _).2] at g'
    exact shown_ok g1 g2 g g'
  · exact shown_error g1 g2

/-- **C95**, passthrough: a plain document that is valid in the lenient schema is shown alike after
passthrough. -/
theorem C95_passthrough {text : Str} {doc : Doc} {p : Str} (hr : readDoc text = some doc) (hv : Xsd.validRoot .lenient doc.root = true)
    (hs : noSpecials doc.root = true) (hp : Xsd.plainDocument p doc.root = true) (hk : Xsd.childNames doc.root.kids ≠ []) :
    ∃ b out, parseString text = .ok b ∧ unparse b = .ok out ∧ ShownAlike text out := by
  obtain ⟨b, out, b', h1, h2, h3, -, h4, -, h5, h6, -, -, h7⟩ := Xsd.C63_roundtrip hr hv hs hp hk
  refine ⟨b, out, h1, h2, shown_ok h1 h3 (view_read h5 h6).symm ?_⟩
  rw [h4, h7]

end ReqIF

namespace ReqIF.Cli
open Spec

theorem produces_dump (env : Env) (i : Str) (src bytes : ByteArray) : Produces env i src bytes .dump ↔
    ∃ s page, decodeUtf8 src = .ok s ∧ shownPage env.repr (normEol s) = .ok page ∧ bytes = page.utf8Encode := by
  unfold shownPage
  constructor
  · rintro ⟨s, b, page, h1, h2, h3, h4⟩
    exact ⟨s, page, h1, by rw [h2]; exact h3, h4⟩
  · rintro ⟨s, page, h1, h2, h3⟩
    cases hb : parseString (normEol s) with
    | error e => rw [hb] at h2; cases h2
    | ok b =>
      rw [hb] at h2
      exact ⟨s, b, page, h1, hb, h2, h3⟩

/-- **C95**, commands: for a file that holds a plain valid document, dumping what passthrough writes
produces the same page as dumping the file. -/
theorem C95_commands (env : Env) (i m : Str) (src mid page : ByteArray) {s : Str} {doc : Doc} {p : Str} (hs : decodeUtf8 src = .ok s)
    (hr : readDoc (normEol s) = some doc) (hv : Xsd.validRoot .lenient doc.root = true)
    (hn : noSpecials doc.root = true) (hp : Xsd.plainDocument p doc.root = true) (hk : Xsd.childNames doc.root.kids ≠ [])
    (hz : endsWith i c!".reqifz" = false) (hm : Produces env i src mid .passthrough) :
    Produces env m mid page .dump ↔ Produces env i src page .dump := by
  obtain ⟨b, out, h1, h2, h3⟩ := C95_passthrough hr hv hn hp hk
  unfold Produces at hm
  dsimp only at hm
  rw [hz] at hm
  obtain ⟨s', b', out', g1, g2, g3, g4⟩ := hm
  rw [hs] at g1
  cases g1
  rw [h1] at g2
  cases g2
  rw [h2] at g3
  cases g3
  obtain ⟨t, ht⟩ := unparse_lt h2
  have hd : decodeUtf8 mid = .ok out := by rw [g4]; simp [decodeUtf8, List.utf8Decode?_utf8Encode]
  rw [produces_dump, produces_dump]
  have e : shownPage env.repr (normEol out) = shownPage env.repr (normEol s) := by
    rw [h3.1]
    unfold shownPage
    rw [ht, parseString_normEol]
  constructor
  · rintro ⟨s1, pg, e1, e2, e3⟩
    rw [hd] at e1
    cases e1
    exact ⟨s, pg, hs, by rw [← e]; exact e2, e3⟩
  · rintro ⟨s1, pg, e1, e2, e3⟩
    rw [hs] at e1
    cases e1
    exact ⟨out, pg, hd, by rw [e]; exact e2, e3⟩

end ReqIF.Cli

namespace ReqIF
open Spec

/-! ## Concrete cases -/


set_option maxRecDepth 20000 in
/-- The document with all kinds of items meets the hypotheses of `C95_passthrough`, and has a page. -/
example : (match readDoc fullXsdDoc with
    | none => false
    | some d => Xsd.validRoot .lenient d.root && noSpecials d.root && Xsd.plainDocument c!"h" d.root && !(Xsd.childNames d.root.kids).isEmpty) = true ∧
    dumpFate fullXsdDoc = .page := by
  constructor <;> decide +kernel

/-- Documents that meet the hypotheses of `C95_layout`. -/
example : ∃ d d' x, readDoc (attributedDoc c!"IDENTIFIER=\"o\" LONG-NAME=\"n\" LAST-CHANGE=\"c\"" c!"THE-VALUE=\"v\" X=\"y\"") = some d ∧
    readDoc (attributedDoc c!"LONG-NAME=\"n\" IDENTIFIER=\"o\" LAST-CHANGE=\"c\"" c!"X=\"y\" THE-VALUE=\"v\"") = some d' ∧ d.decl = d'.decl ∧
    Reordered .root d.root x ∧ unspaced .root x = unspaced .root d'.root :=
  ⟨_, _, _, attributedDoc_read, attributedDoc_read2, rfl, attributedTree_reordered (.swap _ _ _) (.swap _ _ _), rfl⟩

/-- A document with one object that has the given value. -/
def shownDoc (value : Str) : Str :=
  xsdDoc (el c!"DATATYPES" [] [] ++ el c!"SPEC-TYPES" [] [] ++
    el c!"SPEC-OBJECTS" [] (el c!"SPEC-OBJECT" (ident c!"q") (el c!"TYPE" [] (el c!"SPEC-OBJECT-TYPE-REF" [] c!"t") ++
      el c!"VALUES" [] (avalue c!"STRING" (c!" THE-VALUE=\"" ++ value ++ c!"\"") []))) ++
    el c!"SPECIFICATIONS" [] (el c!"SPECIFICATION" (ident c!"p") (el c!"TYPE" [] (el c!"SPECIFICATION-TYPE-REF" [] c!"s") ++
    el c!"CHILDREN" [] (el c!"SPEC-HIERARCHY" (ident c!"h1") (el c!"OBJECT" [] (el c!"SPEC-OBJECT-REF" [] c!"q"))))))

/-- The page of a document, and that of what passthrough makes of it. -/
def twoPages (text : Str) : Option (Str × Str) :=
  match passedText text with
  | none => none
  | some out =>
    match shownPage id text, shownPage id out with
    | .ok a, .ok b => some (a, b)
    | _, _ => none

/-- Documents that meet the hypotheses of `C95_prefixes`. -/
example : ∃ d d', readDoc (prefixedDoc [] []) = some d ∧ readDoc (prefixedDoc c!" xmlns:r=\"v\"" c!"r:") = some d' ∧
    declaresDefault d.root ∧ declaresDefault d'.root ∧ Renamed (fun p => p == some c!"r") d.root d'.root :=
  ⟨_, _, unprefixed_read, other_read, ⟨_, rfl⟩, ⟨_, rfl⟩, other_renamed⟩

/-- A document that meets the hypotheses of `C95_format`. -/
example : ∃ d, readDoc (spacedDoc []) = some d ∧ asciiMarkupAll d.nodes = true ∧ noEmptyTextAll d.nodes = true ∧
    onlyTexts .root d.root = true := ⟨_, spacedDoc_read, rfl, rfl, rfl⟩

/-- What is found about the content of a document, counted. -/
def foundCount (text : Str) : Option (Nat × Nat) :=
  match parseString text with
  | .error _ => none
  | .ok b => some ((foundIn b).1.length, (foundIn b).2.length)

set_option maxRecDepth 20000 in
/-- A relation without target, and one whose source leads nowhere. -/
example : foundCount (xsdDoc (el c!"SPEC-OBJECTS" [] (el c!"SPEC-OBJECT" (ident c!"q") (el c!"TYPE" [] (el c!"SPEC-OBJECT-TYPE-REF" [] c!"t") ++
      el c!"VALUES" [] [])) ++
    el c!"SPEC-RELATIONS" [] (el c!"SPEC-RELATION" (ident c!"r") (el c!"TYPE" [] (el c!"SPEC-RELATION-TYPE-REF" [] c!"u") ++
        el c!"SOURCE" [] (el c!"SPEC-OBJECT-REF" [] c!"q")) ++
      el c!"SPEC-RELATION" (ident c!"r2") (el c!"TYPE" [] (el c!"SPEC-RELATION-TYPE-REF" [] c!"u") ++
        el c!"SOURCE" [] (el c!"SPEC-OBJECT-REF" [] c!"w") ++ el c!"TARGET" [] (el c!"SPEC-OBJECT-REF" [] c!"q"))))) = some (1, 1) := by
  decide +kernel

set_option maxRecDepth 20000 in
/-- Both pages are there, and the same. -/
example : (twoPages (shownDoc c!"v")).map (fun x => decide (x.1 = x.2)) = some true := by decide +kernel

set_option maxRecDepth 20000 in
/-- **C95, opposite**: a document with a tab in a string is valid, and shown differently after passthrough. -/
theorem C95_changed : (twoPages (shownDoc c!"a&#9;b")).map (fun x => decide (x.1 = x.2)) = some false := by decide +kernel

end ReqIF
