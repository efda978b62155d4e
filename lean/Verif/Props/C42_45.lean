import Verif.Proofs.BundleRound
import Verif.Props.C58_60
/-!
# C42 to C45: the REQ-IF tag, whole bundles, passthrough, well-formed output
-/
namespace ReqIF
open Spec

/-! ## C42 -/

/-- **C42.** The tag printed for a safe namespace information is read back with the same
namespaces, schema location and language, whether it is printed from a captured text or
from the fields, and whatever safe content follows. -/
theorem C42_roundtrip {as : List (Str × Str)} {p : Str} {b : Bundle} (h : SafeBundle as p b) :
    ∃ t b', unparse b = .ok t ∧ parseString t = .ok b' ∧
      b'.namespaceInfo.namespace = b.namespaceInfo.namespace ∧
      b'.namespaceInfo.configuration = b.namespaceInfo.configuration ∧
      b'.namespaceInfo.namespaceId = b.namespaceInfo.namespaceId ∧
      b'.namespaceInfo.namespaceXhtml = b.namespaceInfo.namespaceXhtml ∧
      b'.namespaceInfo.schemaNamespace = b.namespaceInfo.schemaNamespace ∧
      b'.namespaceInfo.schemaLocation = b.namespaceInfo.schemaLocation ∧
      b'.namespaceInfo.language = b.namespaceInfo.language ∧
      b'.namespaceInfo.originalReqifTagDump = some (capturedTag as) ∧
      ∀ s, b.namespaceInfo.originalReqifTagDump = some s → b'.namespaceInfo.originalReqifTagDump = some s := by
  obtain ⟨t, d, b', h1, -, -, h2, h3, -⟩ := bundle_survives h
  refine ⟨t, b', h1, h2, ?_⟩
  rw [h3]
  refine ⟨rfl, rfl, rfl, rfl, rfl, rfl, rfl, rfl, ?_⟩
  intro s hs
  have := h.root.2
  rw [hs] at this
  rw [this.1]
  rfl

/-! ## C43 -/

/-- **C43.** A safe bundle comes back. -/
theorem C43_roundtrip {as : List (Str × Str)} {p : Str} {b : Bundle} (h : SafeBundle as p b) :
    ∃ t b', unparse b = .ok t ∧ parseString t = .ok b' ∧ ReadsBack as b b' := by
  obtain ⟨t, d, b', h1, -, -, h2, h3, h4, h5, h6, h7, h8, -⟩ := bundle_survives h
  exact ⟨t, b', h1, h2, h3, h4, h5, h6, h7, h8⟩

/-! ## C44 -/

/-- What the unparser prints starts with `<`. -/
theorem unparse_lt {b : Bundle} {t : Str} (h : unparse b = .ok t) : ∃ s, t = '<' :: s := by
  have h : ∃ s, unparseM (none : Option (Callback Unit)) b () = (.ok t, s) := ⟨_, by rw [← h]; rfl⟩
  obtain ⟨s, h⟩ := h
  unfold unparseM at h
  obtain ⟨a, s1, -, h⟩ := M.bind_inv h
  obtain ⟨hd, s2, -, h⟩ := M.bind_inv h
  obtain ⟨c, s3, -, h⟩ := M.bind_inv h
  have h : _ = t := Except.ok.inj (Prod.mk.inj h).1
  subst h
  exact ⟨_, rfl⟩

theorem parseString_normEol {s : Str} : parseString (normEol ('<' :: s)) = parseString ('<' :: s) := by
  unfold parseString parseFromString
  rw [← readDoc_normEol, normEol_cons_of_ne (by decide), if_neg (by simp), if_neg (by simp)]

/-- **C44.** What is printed for a safe bundle is reproduced by passthrough exactly: the
bundle read from it is printed the same.  (The tag was captured, or holds no character
that lxml prints as a reference; the repository id is not empty.) -/
theorem C44_passthrough {as : List (Str × Str)} {p : Str} {b : Bundle} (h : SafeBundle as p b)
    (htag : b.namespaceInfo.originalReqifTagDump.isSome = true ∨ ∀ a ∈ as, serAttr a.2 = a.2)
    (hid : ∀ hd, b.header = some hd → hd.repositoryId ≠ .text []) :
    ∃ t b', unparse b = .ok t ∧ parseString t = .ok b' ∧ unparse b' = .ok t ∧
      passthroughBytes (.ok t.utf8Encode) = .ok t.utf8Encode ∧
      ∀ (os : OsEnv) (input output : Str) (fs : Files), fs input = some t.utf8Encode → endsWith input c!".reqifz" = false →
        (∀ d, DirectoryPart output d → d ≠ [] → os.isDir d = true) → os.openError output = none →
        passthroughCommand os input output fs = (.ok .success, update fs output t.utf8Encode) := by
  obtain ⟨t, d, b', h1, -, -, h2, -, -, -, -, -, -, h3⟩ := bundle_survives h
  have h3 := h3 htag hid
  have hb : passthroughBytes (.ok t.utf8Encode) = .ok t.utf8Encode := by
    obtain ⟨s, rfl⟩ := unparse_lt h1
    exact passthroughBytes_ok.mpr ⟨'<' :: s, b', _, by simp [decodeUtf8, List.utf8Decode?_utf8Encode], by
      rw [parseString_normEol]; exact h2, h3, rfl⟩
  refine ⟨t, b', h1, h2, h3, hb, ?_⟩
  intro os input output fs hf hz hdir he
  have ho : outputDirOk os output = true := by
    rw [← Bool.not_eq_false, outputDirOk_false]
    rintro ⟨d, h1, h2, h3⟩
    rw [hdir d h1 h2] at h3
    cases h3
  have hr : readFile fs input = .ok t.utf8Encode := by simp [readFile, hf]
  unfold passthroughCommand
  simp only [hf, hr, hz, ho, hb, Option.isNone_some, Bool.not_true, Bool.false_eq_true, if_false]
  rcases writeFile_cases os output t.utf8Encode fs with ⟨e, h5, -⟩ | ⟨-, h6⟩
  · rw [he] at h5; cases h5
  · exact h6

/-! ## C45 -/

/-- **C45.** What is printed for a safe bundle is a well-formed document with a REQ-IF root. -/
theorem C45_wellformed {as : List (Str × Str)} {p : Str} {b : Bundle} (h : SafeBundle as p b) :
    ∃ t, unparse b = .ok t ∧ IsReqifDocument t := by
  obtain ⟨t, d, b', h1, h2, ⟨i, ks, h3, h4, h5, -⟩, -⟩ := bundle_survives h
  exact ⟨t, h1, d, i, ks, h2, h3, h4, h5⟩

/-! ## A safe bundle -/

/-- A bundle with a header, all six containers and tool extensions, built from fields. -/
def exampleBundle : Bundle where
  namespaceInfo := { NamespaceInfo.empty (some c!"http://www.omg.org/spec/ReqIF/20110401/reqif.xsd") none with
    namespaceXhtml := some c!"http://www.w3.org/1999/xhtml" }
  header := some exampleHeader
  coreContent := some (some ⟨some [exampleEnum], some exampleTypes, some [exampleObject, exampleObjectRead], some [exampleRelation],
    some [exampleSpecification, exampleSpecificationRead], some [exampleGroup]⟩)
  toolExtensionsTagExists := true
  lookup := Lookup.empty
  exceptions := []

theorem IsCtx.unique {as : List (Str × Str)} {p : Str} {u : Bool} {Γ Δ : Ctx} (h : IsCtx as p u Γ) (h' : IsCtx as p u Δ) : Γ = Δ := by
  obtain ⟨i, h1, rfl⟩ := h
  obtain ⟨j, h2, rfl⟩ := h'
  rw [h1] at h2
  cases h2
  rfl

theorem exampleRoot_good : GoodRoot usualRoot := by
  refine ⟨by decide, ⟨_, rfl, ?_⟩, by decide, by decide, ?_, ?_, ?_⟩
  · intro u hu
    have : u = c!"http://www.omg.org/spec/ReqIF/20110401/reqif.xsd" := Option.some.inj hu.symm
    subst this
    decide
  · intro u hu
    have : u = c!"http://www.omg.org/spec/ReqIF/20110401/reqif.xsd" := Option.some.inj hu.symm
    subst this
    decide
  · intro u hu
    have : attrValue usualRoot (c!"xmlns:" ++ c!"xsi") = none := by decide
    rw [this] at hu
    cases hu
  · intro a ha hd
    simp only [usualRoot, List.mem_cons, List.not_mem_nil, or_false] at ha
    rcases ha with rfl | rfl <;> exact absurd hd (by decide)

theorem exampleBundle_safe : SafeBundle usualRoot c!"xhtml" exampleBundle := by
  refine ⟨⟨exampleRoot_good, (by decide : usualRoot = fieldAttrs exampleBundle.namespaceInfo ∧ usualRoot ≠ [] ∧ ∀ a ∈ usualRoot, PlainAttr a.2)⟩, ?_, ?_, .inl rfl⟩
  · rintro h ⟨⟩
    refine ⟨⟨_, rfl, by decide, by decide⟩, by decide, by decide, ?_, by decide, by decide, by decide, by decide⟩
    rintro s ⟨⟩
    decide
  · rintro c ⟨⟩ Γ hΓ
    obtain ⟨Γ1, t1, -, t2⟩ := exampleTypes_safe
    obtain ⟨Γ2, o1, o2, o3⟩ := exampleObject_safe
    obtain ⟨Γ3, r1, r2⟩ := exampleRelation_safe.1
    obtain ⟨Γ4, s1, s2, s3⟩ := exampleSpecification_safe
    cases IsCtx.unique (u := true) t1 hΓ
    cases IsCtx.unique (u := true) o1 hΓ
    cases IsCtx.unique (u := true) r1 hΓ
    cases IsCtx.unique (u := true) s1 hΓ
    refine ⟨?_, ?_, ?_, ?_, ?_, ?_⟩
    · rintro xs ⟨⟩ x hx
      rw [List.mem_singleton.1 hx]
      refine ⟨by decide, by decide, by decide, by decide, rfl, ?_⟩
      intro v hv
      simp only [List.mem_cons, List.not_mem_nil, or_false] at hv
      rcases hv with rfl | rfl <;> constructor <;> decide
    · rintro xs ⟨⟩ x hx
      exact t2 x hx
    · rintro xs ⟨⟩ x hx
      simp only [List.mem_cons, List.not_mem_nil, or_false] at hx
      rcases hx with rfl | rfl <;> assumption
    · rintro xs ⟨⟩ x hx
      rw [List.mem_singleton.1 hx]
      exact r2
    · rintro xs ⟨⟩ x hx
      simp only [List.mem_cons, List.not_mem_nil, or_false] at hx
      rcases hx with rfl | rfl <;> assumption
    · rintro xs ⟨⟩ x hx
      rw [List.mem_singleton.1 hx]
      refine ⟨by decide, by decide, by decide, by decide, by decide, by decide, by decide, ?_⟩
      rintro rs ⟨⟩
      decide

/-- Non-vacuity of C42 to C45. -/
example : SafeBundle usualRoot c!"xhtml" exampleBundle ∧ (∀ a ∈ usualRoot, serAttr a.2 = a.2) ∧
    ∀ hd, exampleBundle.header = some hd → hd.repositoryId ≠ .text [] :=
  ⟨exampleBundle_safe, by decide, by rintro hd ⟨⟩; decide⟩

/-- A root tag with everything the namespace information can say. -/
def fullRoot : List (Str × Str) :=
  [(c!"xmlns", c!"u"), (c!"xmlns:xsi", c!"v"), (c!"xmlns:configuration", c!"w"), (c!"xmlns:id", c!"x"), (c!"xmlns:xhtml", c!"y"),
   (c!"xsi:schemaLocation", c!"a b"), (c!"xml:lang", c!"de")]

/-- The namespace information read from a document with this tag. -/
def fullInfo : NamespaceInfo :=
  ⟨some c!"<REQ-IF xmlns=\"u\" xmlns:xsi=\"v\" xmlns:configuration=\"w\" xmlns:id=\"x\" xmlns:xhtml=\"y\" xsi:schemaLocation=\"a b\" xml:lang=\"de\">",
    true, c!"UTF-8", some c!"u", some c!"w", some c!"x", some c!"y", some c!"v", some c!"a b", some c!"de"⟩

/-- `Alone`, decidably. -/
theorem alone_of {as : List (Str × Str)} {p u : Str} (h : attrValue as (c!"xmlns:" ++ p) = some u)
    (ha : ∀ a ∈ as, isPrefixDecl a = true → a.2 = u → a.1 = c!"xmlns:" ++ p) : Alone as p := by
  intro v hv
  rw [h] at hv
  cases hv
  exact ha

theorem fullRoot_good : GoodRoot fullRoot := by
  refine ⟨by decide, ⟨_, rfl, ?_⟩, by decide, by decide, ?_, alone_of rfl (by decide), ?_⟩
  · intro u hu
    have : u = c!"u" := Option.some.inj hu.symm
    subst this
    decide
  · intro u hu
    have : u = c!"u" := Option.some.inj hu.symm
    subst this
    decide
  · intro a ha hd p l hq
    simp only [fullRoot, List.mem_cons, List.not_mem_nil, or_false] at ha
    rcases ha with rfl | rfl | rfl | rfl | rfl | rfl | rfl
    iterate 5 exact absurd hd (by decide)
    · cases (show splitQName c!"xsi:schemaLocation" = (some c!"xsi", c!"schemaLocation") by decide).symm.trans hq
      exact alone_of rfl (by decide)
    · cases (show splitQName c!"xml:lang" = (some c!"xml", c!"lang") by decide).symm.trans hq
      intro u hu
      have : attrValue fullRoot (c!"xmlns:" ++ c!"xml") = none := by decide
      rw [this] at hu
      cases hu

/-- Non-vacuity of C42: the same tag, captured or from fields. -/
example : SafeRoot fullInfo fullRoot ∧ SafeRoot { fullInfo with originalReqifTagDump := none } fullRoot := by
  refine ⟨⟨fullRoot_good, ?_⟩, ⟨fullRoot_good, ?_⟩⟩
  · exact ⟨by decide, ⟨by decide, by decide, by decide, by decide, by decide, by decide, by decide⟩⟩
  · exact (by decide : fullRoot = fieldAttrs { fullInfo with originalReqifTagDump := none } ∧ fullRoot ≠ [] ∧ ∀ a ∈ fullRoot, PlainAttr a.2)

/-! ## Bundles that do not survive -/

/-- What becomes of a bundle that is printed. -/
inductive Printed
  | refused
  | malformed
  | unreadable
  | read (i : NamespaceInfo) (same : Bool)
  deriving DecidableEq

/-- Print, read, print again. -/
def printed (b : Bundle) : Printed :=
  match unparse b with
  | .error _ => .refused
  | .ok t =>
    match readDoc t with
    | none => .malformed
    | some _ =>
      match parseString t with
      | .error _ => .unreadable
      | .ok b' => .read b'.namespaceInfo (match unparse b' with | .ok t' => decide (t' = t) | .error _ => false)

/-- Parse a document, then print. -/
def parsedPrinted (text : Str) : Option Printed :=
  match parseString text with
  | .error _ => none
  | .ok b => some (printed b)

/-- A bundle with tool extensions only. -/
def toolBundle (i : NamespaceInfo) : Bundle := ⟨i, none, none, true, Lookup.empty, []⟩

set_option maxRecDepth 20000 in
/-- **C42, C45, opposite**: a namespace with `&` makes the output malformed. -/
theorem C42_ampersand : printed (toolBundle { NamespaceInfo.empty (some c!"http://x?a=1&b=2") none with language := none }) = .malformed := by
  decide +kernel

set_option maxRecDepth 20000 in
/-- **C42, C45, opposite**: a document whose root binds a prefix to the default namespace
before the default namespace is parsed, but written with a start tag that carries the
prefix and an end tag that does not. -/
theorem C45_prefix_first :
    parsedPrinted c!"<REQ-IF xmlns:reqif=\"u\" xmlns=\"u\"><TOOL-EXTENSIONS/></REQ-IF>" = some .malformed ∧
    ∃ i, parsedPrinted c!"<REQ-IF xmlns=\"u\" xmlns:reqif=\"u\"><TOOL-EXTENSIONS/></REQ-IF>" = some (.read i true) := by
  refine ⟨by decide +kernel, ⟨some c!"<REQ-IF xmlns=\"u\" xmlns:reqif=\"u\">", true, c!"UTF-8", some c!"u", none, none, none, none, none, none⟩, by decide +kernel⟩

set_option maxRecDepth 20000 in
/-- **C45, opposite**: a well-formed document, parsed without error, is written malformed:
the comment of the header, the description of a spec object. -/
theorem C45_parsed_malformed :
    parsedPrinted c!"<REQ-IF xmlns=\"u\"><THE-HEADER><REQ-IF-HEADER IDENTIFIER=\"h\"><COMMENT>R &amp; D</COMMENT></REQ-IF-HEADER></THE-HEADER></REQ-IF>" =
      some .malformed ∧
    parsedPrinted c!"<REQ-IF xmlns=\"u\"><CORE-CONTENT><REQ-IF-CONTENT><SPEC-OBJECTS><SPEC-OBJECT IDENTIFIER=\"o\" DESC=\"a &lt; b\"><TYPE><SPEC-OBJECT-TYPE-REF>t</SPEC-OBJECT-TYPE-REF></TYPE><VALUES/></SPEC-OBJECT></SPEC-OBJECTS></REQ-IF-CONTENT></CORE-CONTENT></REQ-IF>" =
      some .malformed := by
  refine ⟨by decide +kernel, by decide +kernel⟩

set_option maxRecDepth 20000 in
/-- **C44, opposite**: an empty repository id, and a namespace with a character that lxml
prints as a reference, are printed differently the second time. -/
theorem C44_changes :
    (∃ i, printed ⟨NamespaceInfo.empty (some c!"u") none, some ⟨some c!"h", none, none, .text [], none, none, none, none⟩, none, false,
      Lookup.empty, []⟩ = .read i false) ∧
    ∃ i, printed (toolBundle (NamespaceInfo.empty (some c!"http://bücher") none)) = .read i false := by
  refine ⟨⟨⟨some c!"<REQ-IF xmlns=\"u\">", true, c!"UTF-8", some c!"u", none, none, none, none, none, none⟩, by decide +kernel⟩,
    ⟨⟨some c!"<REQ-IF xmlns=\"http://b&#252;cher\">", true, c!"UTF-8", some c!"http://bücher", none, none, none, none, none, none⟩, by decide +kernel⟩⟩

set_option maxRecDepth 20000 in
/-- **C43, opposite**: a bundle without header, content and tool extensions loses what its
namespace information says besides two namespaces. -/
theorem C43_nothing_inside :
    printed ⟨{ fullInfo with originalReqifTagDump := none }, none, none, false, Lookup.empty, []⟩ =
      .read (NamespaceInfo.empty (some c!"u") (some c!"w")) false := by
  decide +kernel

end ReqIF
