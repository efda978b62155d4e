import Verif.Proofs.PageValues
import Verif.Props.C64
/-!
# C85: the dump page is a well-formed document
-/
namespace ReqIF
open Spec Dump Grammar

/-- **C85.** If everything the page shows is well-formed content, the page is, after its first line, a
well-formed document with the root `html`, and its headings and table cells are those the bundle asks for: each
holds the nodes of its string, whatever elements these are, and nothing else. -/
theorem C85_page {repr : Str → Str} {b : Bundle} {page : Str} (h : dumpText repr b = .ok page)
    (hw : ∀ x ∈ pageStrings repr b, WellFormedContent x.2) :
    ∃ body as ks, page = doctype ++ body ∧ File body none [.elem c!"html" as ks] ∧ CellsShow (pageStrings repr b) (allShownCells ks) := by
  obtain ⟨t, h1, h2⟩ := Page.page_whole h hw
  obtain ⟨ks, m, h3, h4, h5⟩ := Page.page_html h1
  exact ⟨_, _, ks, h2, h3, by rw [h4]; exact h5⟩

/-- What well-formed content is, for the strings of a bundle: text without `<`, `&` and `]]>`, or XHTML as it
is written and read back. -/
def SimpleString (s : Str) : Prop := PlainText s ∨ ∃ p ts, isNCName p = true ∧ AllWF ts ∧ noAdjacentText ts = true ∧ s = printAll p ts

/-- **C85**, the strings: plain texts and XHTML values can stand in the page. -/
theorem C85_simple {s : Str} (h : SimpleString s) : WellFormedContent s := by
  rcases h with h | ⟨p, ts, hp, h1, h2, rfl⟩
  · exact Page.plainText_well h
  · exact Page.xhtml_well hp h1 h2

/-- **C85**, for such bundles. -/
theorem C85_bundle {repr : Str → Str} {b : Bundle} {page : Str} (h : dumpText repr b = .ok page)
    (hw : ∀ x ∈ pageStrings repr b, SimpleString x.2) :
    ∃ body as ks, page = doctype ++ body ∧ File body none [.elem c!"html" as ks] ∧ CellsShow (pageStrings repr b) (allShownCells ks) :=
  C85_page h fun x hx => C85_simple (hw x hx)

/-! ## Concrete bundles -/

set_option maxRecDepth 20000 in
/-- A valid document with a title that needs escaping. -/
def titledDoc (title : Str) : Str :=
  c!"<REQ-IF xmlns=\"http://www.omg.org/spec/ReqIF/20110401/reqif.xsd\" xmlns:h=\"http://www.w3.org/1999/xhtml\">" ++
  c!"<THE-HEADER><REQ-IF-HEADER IDENTIFIER=\"h\"><CREATION-TIME>2021-01-01T00:00:00</CREATION-TIME><REQ-IF-TOOL-ID>t</REQ-IF-TOOL-ID>" ++
  c!"<REQ-IF-VERSION>1.0</REQ-IF-VERSION><SOURCE-TOOL-ID>s</SOURCE-TOOL-ID><TITLE>" ++ title ++ c!"</TITLE></REQ-IF-HEADER></THE-HEADER>\n" ++
  c!"<CORE-CONTENT><REQ-IF-CONTENT><DATATYPES/><SPEC-TYPES/><SPECIFICATIONS/></REQ-IF-CONTENT></CORE-CONTENT></REQ-IF>"

/-- Is there a page, and is it well-formed after its first line? -/
def pageReads (doc : Str) : Option (Bool × Bool) :=
  match parseString doc with
  | .error _ => none
  | .ok b =>
    match dumpText id b with
    | .error _ => none
    | .ok page => some (doctype.isPrefixOf page, (readRaw (page.drop doctype.length)).isSome)

theorem pageReads_not {doc : Str} (h : pageReads doc = some (true, false)) : ∃ b page, parseString doc = .ok b ∧ dumpText id b = .ok page ∧
    ¬ ∃ body d ks, page = doctype ++ body ∧ File body d ks := by
  unfold pageReads at h
  cases hb : parseString doc with
  | error e => rw [hb] at h; cases h
  | ok b =>
    rw [hb] at h
    dsimp only at h
    cases hp : dumpText id b with
    | error e => rw [hp] at h; cases h
    | ok page =>
      rw [hp] at h
      simp only [Option.some.injEq, Prod.mk.injEq] at h
      refine ⟨b, page, rfl, hp, ?_⟩
      rintro ⟨body, d, ks, rfl, hf⟩
      rw [List.drop_left] at h
      have : ∃ d' : Option Decl, d = d'.map (·.encoding) := by
        cases d with
        | none => exact ⟨none, rfl⟩
        | some e => exact ⟨some ⟨e⟩, rfl⟩
      obtain ⟨d', rfl⟩ := this
      rw [file_iff.2 hf] at h
      simp at h

set_option maxRecDepth 20000 in
/-- **C85**, the opposite: a valid document whose title is `a < b` is dumped as a page that is not
well-formed, because nothing is escaped. -/
theorem C85_unescaped : fate (titledDoc c!"a &lt; b") = ((true, true, true), .printed) ∧
    ∃ b page, parseString (titledDoc c!"a &lt; b") = .ok b ∧ dumpText id b = .ok page ∧
      ¬ ∃ body d ks, page = doctype ++ body ∧ File body d ks :=
  ⟨by decide +kernel, pageReads_not (by decide +kernel)⟩

/-- An XHTML value with a table of its own. -/
def tableValue : List XTree :=
  [.elem c!"table" [] [.elem c!"tr" [] [.elem c!"td" [(c!"colspan", c!"2")] [.text c!"x < y"], .elem c!"td" [] []]]]

/-- A bundle with an object that has such a value. -/
def tableBundle : Bundle :=
  ⟨NamespaceInfo.createDefault, none,
    some (some ⟨some [⟨⟨c!"d", none, none, none, true⟩, .boolean⟩], some [], none, none,
      some [⟨c!"s", none, none, some c!"Spec 1", none, none, some [.leaf ⟨c!"n", some c!"o", 1, none, true, none, none, none, false, none⟩], none⟩], none⟩), false,
    ⟨[], [], [(c!"o", ⟨c!"o", [⟨.xhtml, some c!"a", .str (printAll c!"h" tableValue), none, none⟩], some c!"t", none, none, none, none⟩)], [], false⟩, []⟩

/-- It meets the hypotheses of `C85_page`. -/
example : ∃ page, dumpText id tableBundle = .ok page ∧ ∃ body as ks, page = doctype ++ body ∧ File body none [.elem c!"html" as ks] ∧
    CellsShow (pageStrings id tableBundle) (allShownCells ks) := by
  have hd : ∃ page, dumpText id tableBundle = .ok page := by
    rw [C64_succeeds]
    intro c hc
    cases hc
    refine ⟨by simp, by simp, _, rfl, ?_⟩
    intro s hs hs' he h hh
    simp only [List.mem_singleton] at hs
    subst hs
    cases he
    simp [preorderList, preorder] at hh
    subst hh
    exact ⟨_, _, rfl, rfl⟩
  obtain ⟨page, hp⟩ := hd
  refine ⟨page, hp, C85_page hp ?_⟩
  have e : pageStrings id tableBundle = [(c!"h1", c!"&lt;REQ-IF&gt;"), td c!"TITLE:", td c!"d", (c!"h1", c!"Spec 1"),
      td c!"&lt;SPEC-OBJECT&gt;", td c!"&lt;SPEC-OBJECT-TYPE&gt;", td c!"t", td c!"IDENTIFIER", td c!"o", td c!"&lt;VALUES&gt;",
      td c!"a", td (printAll c!"h" tableValue)] := rfl
  rw [e]
  simp only [List.mem_cons, List.not_mem_nil, or_false]
  rintro x (rfl | rfl | rfl | rfl | rfl | rfl | rfl | rfl | rfl | rfl | rfl | rfl)
  all_goals first
    | exact Page.fixed_well (by decide +kernel)
    | refine Page.xhtml_well (by decide +kernel) ?_ (by decide)
  simp [tableValue, AllWF, XTree.WF, noAdjacentText, XTree.isText, EscAttr, isNCName]
  decide +kernel

end ReqIF
