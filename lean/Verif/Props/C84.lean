import Verif.Proofs.CompleteRoot
import Verif.Props.C42_45
/-!
# C84: bundles that are written as valid documents

A bundle, however it was built, is written as a document that is valid under the schema of
ReqIF if and only if it is complete: everything the schema requires is given and has the
right form (`Spec/Complete`).
-/
set_option linter.unusedSimpArgs false
namespace ReqIF.Xsd
open Spec

/-- **C84.** The document written for a safe bundle is valid if and only if its start tag
(with the attributes `as`) and the bundle are complete. -/
theorem C84_valid {as : List (Str × Str)} {p : Str} {b : Bundle} (h : SafeBundle as p b) (hx : attrValue as (c!"xmlns:" ++ p) = some xhtmlUri) :
    ∃ out d, unparse b = .ok out ∧ readDoc out = some d ∧ (validRoot .xsd d.root = true ↔ CompleteRoot as ∧ CompleteBundle b) :=
  complete_valid h hx

theorem default_safe : SafeRoot NamespaceInfo.createDefault usualRoot :=
  ⟨exampleRoot_good, (by decide : usualRoot = fieldAttrs NamespaceInfo.createDefault ∧ usualRoot ≠ [] ∧ ∀ a ∈ usualRoot, PlainAttr a.2)⟩

/-- **C84.** The default namespace information is right for every bundle: the document is
valid if and only if the bundle is complete. -/
theorem C84_default {b : Bundle} (hn : b.namespaceInfo = NamespaceInfo.createDefault) (hh : ∀ h, b.header = some h → SafeHeader h)
    (hc : ∀ c, b.coreContent = some (some c) → ∀ Γ, IsCtx usualRoot c!"xhtml" (contentUses c) Γ → SafeContent Γ c)
    (he : b.header.isSome ∨ b.coreContent.isSome ∨ b.toolExtensionsTagExists = true) :
    ∃ out d, unparse b = .ok out ∧ readDoc out = some d ∧ (validRoot .xsd d.root = true ↔ CompleteBundle b) := by
  obtain ⟨out, d, h1, h2, h3⟩ := C84_valid (as := usualRoot) (p := c!"xhtml") (b := b) ⟨by rw [hn]; exact default_safe, hh, hc, he⟩ rfl
  refine ⟨out, d, h1, h2, h3.trans ⟨fun h => h.2, fun h => ⟨⟨rfl, ?_⟩, h⟩⟩⟩
  intro a ha hd
  simp only [usualRoot, List.mem_cons, List.not_mem_nil, or_false] at ha
  rcases ha with rfl | rfl <;> exact absurd hd (by decide)

/-- A text, number or date that is the default value of an attribute. -/
def HasPlainDefault (a : SpecAttributeDefinition) : Prop :=
  (∃ v, a.defaultValue = some (.str v)) ∧ (a.type = .string ∨ a.type = .integer ∨ a.type = .real ∨ a.type = .date)

/-- **C84**, the opposite: whatever else it holds, a bundle with a default value that is a
text, a number or a date is written as a document that is not valid: the reference to the
definition, which the schema requires, is not written. -/
theorem C84_plain_default {as : List (Str × Str)} {p : Str} {b : Bundle} (h : SafeBundle as p b) (hx : attrValue as (c!"xmlns:" ++ p) = some xhtmlUri)
    {c : Content} {ts : List SpecType} {t : SpecType} {ds : List SpecAttributeDefinition} {a : SpecAttributeDefinition}
    (hc : b.coreContent = some (some c)) (ht : c.specTypes = some ts) (hm : t ∈ ts) (hd : SpecType.definitions t = some ds) (ha : a ∈ ds)
    (hp : HasPlainDefault a) : ∃ out d, unparse b = .ok out ∧ readDoc out = some d ∧ validRoot .xsd d.root = false := by
  obtain ⟨out, d, h1, h2, h3⟩ := C84_valid h hx
  refine ⟨out, d, h1, h2, ?_⟩
  rw [← Bool.not_eq_true, h3]
  rintro ⟨-, -, c', e, g⟩
  rw [hc] at e
  cases e
  have := ((g.specTypes ts ht t hm).definitions ds hd a ha).default
  obtain ⟨⟨v, hv⟩, hty⟩ := hp
  unfold CompleteDefault at this
  rw [hv] at this
  rcases hty with e | e | e | e <;> (rw [e] at this; exact this.2)

/-! ## A complete bundle -/

def aMoment : Str := c!"2024-02-29T12:00:00.5+01:00"

def completeValues : List SpecObjectAttribute :=
  [⟨.string, some c!"d1", .str c!"a < b", none, none⟩, ⟨.enumeration, some c!"d2", .list [some c!"v1"], none, none⟩,
   ⟨.integer, some c!"d3", .str c!"-5", none, none⟩, ⟨.real, some c!"d4", .str c!"1.5E3", none, none⟩,
   ⟨.boolean, some c!"d5", .str c!"true", none, none⟩, ⟨.date, some c!"d6", .str aMoment, none, none⟩,
   ⟨.xhtml, some c!"d7", .str c!"<xhtml:p>x</xhtml:p>", none, none⟩]

def completeDefinitions : List SpecAttributeDefinition :=
  [⟨.string, c!"d1", some c!"t1", none, none, some aMoment, some c!"Text", none, none, none, none⟩,
   ⟨.enumeration, c!"d2", some c!"t2", none, some c!"which", some aMoment, none, some true, some c!"d2", some (.str c!"v1"), some false⟩,
   ⟨.boolean, c!"d5", some c!"t3", none, none, some aMoment, none, none, some c!"d5", some (.str c!"true"), none⟩]

def completeContent : Content :=
  ⟨some [⟨⟨c!"t1", none, some aMoment, none, false⟩, .string (some c!"255")⟩,
      ⟨⟨c!"t2", some c!"d", some aMoment, some c!"n", false⟩, .enumeration (some [⟨c!"v1", c!"0", none, some aMoment, some [], some c!"one"⟩])⟩,
      ⟨⟨c!"t3", none, some aMoment, none, true⟩, .boolean⟩],
   some [.object ⟨c!"ot", none, some aMoment, some c!"Requirement", some completeDefinitions⟩,
      .relation ⟨c!"rt", none, some aMoment, some c!"Link", true, none⟩],
   some [⟨c!"o1", completeValues, some c!"ot", none, some aMoment, none, none⟩, ⟨c!"o2", [], some c!"ot", none, some aMoment, some c!"second", none⟩],
   some [⟨c!"r1", some c!"rt", some c!"o1", some c!"o2", none, none, some aMoment, none, none⟩],
   some [⟨c!"s1", none, some aMoment, some c!"Doc", none, some c!"st",
      some [.node ⟨c!"h1", some c!"o1", 1, none, true, some aMoment, none, none, false, none⟩
        [.leaf ⟨c!"h2", some c!"o2", 2, none, true, some aMoment, some true, none, false, none⟩]], none⟩],
   some [⟨c!"g1", none, some aMoment, none, some c!"gt", some c!"s1", some c!"s1", some [some c!"r1"], false⟩]⟩

def completeBundle : Bundle where
  namespaceInfo := NamespaceInfo.createDefault
  header := some ⟨some c!"h", none, some aMoment, .none, some c!"tool", some c!"1.0", some c!"source", some c!"R & D"⟩
  coreContent := some (some completeContent)
  toolExtensionsTagExists := true
  lookup := Lookup.empty
  exceptions := []

theorem completeValues_safe {Γ : Ctx} (h : IsCtx usualRoot c!"xhtml" true Γ) : ∀ a ∈ completeValues, SafeValue Γ a := by
  have h0 : IsCtx usualRoot c!"xhtml" true _ := ⟨_, rfl, rfl⟩
  cases IsCtx.unique h0 h
  intro a ha
  simp only [completeValues, List.mem_cons, List.not_mem_nil, or_false] at ha
  rcases ha with rfl | rfl | rfl | rfl | rfl | rfl | rfl
  · exact ⟨by decide, (by decide : HtmlAttr _)⟩
  · exact ⟨by decide, (by decide : ∀ v ∈ [some c!"v1"], PlainElem v), by rintro x ⟨⟩⟩
  · exact ⟨by decide, (by decide : PlainAttr _)⟩
  · exact ⟨by decide, (by decide : PlainAttr _)⟩
  · exact ⟨by decide, (by decide : PlainAttr _)⟩
  · exact ⟨by decide, (by decide : PlainAttr _)⟩
  · refine ⟨by decide, ?_⟩
    show SafeXhtml _ _
    refine ⟨rfl, [.elem c!"p" [] [.text c!"x"]], ?_, rfl, rfl, fun _ => ⟨⟨by decide, _, rfl, by decide⟩, rfl⟩, fun h => absurd h (by decide)⟩
    simp only [AllWF, XTree.WF]
    decide

theorem completeContent_safe {Γ : Ctx} (h : IsCtx usualRoot c!"xhtml" true Γ) : SafeContent Γ completeContent := by
  have hv := completeValues_safe h
  refine ⟨?_, ?_, ?_, ?_, ?_, ?_⟩
  · rintro xs ⟨⟩ x hx
    simp only [List.mem_cons, List.not_mem_nil, or_false] at hx
    rcases hx with rfl | rfl | rfl
    · exact ⟨by decide, by decide, by decide, by decide, (by decide : Opt PlainAttr (some c!"255"))⟩
    · refine ⟨by decide, by decide, by decide, by decide, rfl, ?_⟩
      intro v hv
      rw [List.mem_singleton.1 hv]
      constructor <;> decide
    · exact ⟨by decide, by decide, by decide, by decide, trivial⟩
  · rintro xs ⟨⟩ x hx
    simp only [List.mem_cons, List.not_mem_nil, or_false] at hx
    rcases hx with rfl | rfl
    · refine ⟨⟨by decide, by decide, by decide, by decide⟩, ?_⟩
      rintro ds ⟨⟩ d hd
      simp only [completeDefinitions, List.mem_cons, List.not_mem_nil, or_false] at hd
      rcases hd with rfl | rfl | rfl
      · exact ⟨by decide, by decide, by decide, by decide, by decide, trivial, by decide, by decide⟩
      · exact ⟨by decide, by decide, by decide, by decide, by decide, (by decide : PlainElem (some c!"v1") ∧ PlainElem (some c!"d2")), by decide, by decide⟩
      · exact ⟨by decide, by decide, by decide, by decide, by decide, (by decide : PlainAttr c!"true" ∧ PlainElem (some c!"d5")), by decide, by decide⟩
    · exact ⟨⟨by decide, by decide, by decide, by decide, by decide⟩, by rintro ds ⟨⟩⟩
  · rintro xs ⟨⟩ x hx
    simp only [List.mem_cons, List.not_mem_nil, or_false] at hx
    rcases hx with rfl | rfl
    · exact ⟨by decide, by decide, by decide, by decide, by decide, hv, by decide, by decide⟩
    · exact ⟨by decide, by decide, by decide, by decide, by decide, (fun a ha => by cases ha), by decide, by decide⟩
  · rintro xs ⟨⟩ x hx
    rw [List.mem_singleton.1 hx]
    exact ⟨by decide, by decide, by decide, by decide, by decide, by decide, by decide, (by rintro a ⟨⟩), by decide⟩
  · rintro xs ⟨⟩ x hx
    rw [List.mem_singleton.1 hx]
    refine ⟨by decide, by decide, by decide, by decide, by decide, (by rintro vs ⟨⟩), ?_, ?_⟩
    · rintro hs ⟨⟩
      refine ⟨⟨?_, ?_, trivial⟩, trivial⟩
      · constructor <;> decide
      · constructor <;> decide
    · intro t ht
      show t ∈ [Tag.name c!"TYPE", .name c!"CHILDREN", .name c!"VALUES"]
      have ht : (t == .name c!"TYPE" || t == .name c!"CHILDREN") = true := by simpa [specificationHas, dropEmpty] using ht
      rw [Bool.or_eq_true, beq_iff_eq, beq_iff_eq] at ht
      rcases ht with h | h <;> simp [h]
  · rintro xs ⟨⟩ x hx
    rw [List.mem_singleton.1 hx]
    refine ⟨by decide, by decide, by decide, by decide, by decide, by decide, by decide, ?_⟩
    rintro rs ⟨⟩
    decide

/-- Given, and of the form. -/
theorem gives_of {t : Simple} {v : Str} (h : t.ok v = true) : Gives t (some v) := ⟨v, rfl, h⟩

theorem completeBundle_complete : CompleteBundle completeBundle := by
  have hm : Simple.ok .dateTime aMoment = true := by decide
  refine ⟨⟨_, rfl, gives_of (by decide), gives_of hm, gives_of rfl, gives_of rfl, gives_of rfl, gives_of rfl⟩, _, rfl, ?_, ?_, ?_, ?_, ?_, ?_⟩
  · rintro xs ⟨⟩ x hx
    simp only [List.mem_cons, List.not_mem_nil, or_false] at hx
    rcases hx with rfl | rfl | rfl
    · exact ⟨by decide, gives_of hm, gives_of (t := .integer) (v := c!"255") (by decide)⟩
    · refine ⟨by decide, gives_of hm, ?_⟩
      intro v hv
      rw [List.mem_singleton.1 hv]
      exact ⟨by decide, gives_of hm, by decide, rfl⟩
    · exact ⟨by decide, gives_of hm, trivial⟩
  · rintro xs ⟨⟩ x hx
    simp only [List.mem_cons, List.not_mem_nil, or_false] at hx
    rcases hx with rfl | rfl
    · refine ⟨by decide, gives_of hm, ?_⟩
      rintro ds ⟨⟩ d hd
      simp only [completeDefinitions, List.mem_cons, List.not_mem_nil, or_false] at hd
      rcases hd with rfl | rfl | rfl
      · exact ⟨by decide, gives_of hm, gives_of (by decide), fun _ => (by contradiction), trivial, by decide⟩
      · exact ⟨by decide, gives_of hm, gives_of (by decide), fun _ => rfl, ⟨gives_of (by decide), (by decide : Simple.ok .localRef c!"v1" = true)⟩, by decide⟩
      · exact ⟨by decide, gives_of hm, gives_of (by decide), fun _ => (by contradiction), ⟨gives_of (by decide), (by decide : Simple.ok .boolean c!"true" = true)⟩,
          by decide⟩
    · exact ⟨by decide, gives_of hm, by rintro ds ⟨⟩⟩
  · rintro xs ⟨⟩ x hx
    simp only [List.mem_cons, List.not_mem_nil, or_false] at hx
    rcases hx with rfl | rfl
    · refine ⟨by decide, gives_of hm, gives_of (by decide), ?_, by decide⟩
      intro a ha
      simp only [completeValues, List.mem_cons, List.not_mem_nil, or_false] at ha
      rcases ha with rfl | rfl | rfl | rfl | rfl | rfl | rfl
      · exact ⟨gives_of (by decide), (rfl : Simple.ok .string _ = true)⟩
      · refine ⟨gives_of (by decide), fun v hv => ?_⟩
        rw [List.mem_singleton.1 hv]
        exact gives_of (by decide)
      · exact ⟨gives_of (by decide), (by decide : Simple.ok .integer c!"-5" = true)⟩
      · exact ⟨gives_of (by decide), (by decide : Simple.ok .double c!"1.5E3" = true)⟩
      · exact ⟨gives_of (by decide), (by decide : Simple.ok .boolean c!"true" = true)⟩
      · exact ⟨gives_of (by decide), hm⟩
      · exact ⟨gives_of (by decide), (rfl : Simple.ok .string _ = true)⟩
    · exact ⟨by decide, gives_of hm, gives_of (by decide), (fun a ha => by cases ha), by decide⟩
  · rintro xs ⟨⟩ x hx
    rw [List.mem_singleton.1 hx]
    exact ⟨by decide, gives_of hm, gives_of (by decide), (by rintro a ⟨⟩), by decide⟩
  · rintro xs ⟨⟩ x hx
    rw [List.mem_singleton.1 hx]
    refine ⟨by decide, gives_of hm, gives_of (by decide), (by rintro vs ⟨⟩), ?_, by decide⟩
    rintro hs ⟨⟩
    refine ⟨⟨⟨by decide, gives_of hm, gives_of (by decide)⟩, ⟨⟨by decide, gives_of hm, gives_of (by decide)⟩, trivial⟩⟩, trivial⟩
  · rintro xs ⟨⟩ x hx
    rw [List.mem_singleton.1 hx]
    refine ⟨by decide, gives_of hm, gives_of (by decide), rfl, rfl, ?_⟩
    rintro rs ⟨⟩ r hr
    rw [List.mem_singleton.1 hr]
    exact gives_of (by decide)

theorem completeBundle_safe : SafeBundle usualRoot c!"xhtml" completeBundle := by
  refine ⟨default_safe, ?_, ?_, .inl rfl⟩
  · rintro h ⟨⟩
    refine ⟨⟨_, rfl, by decide, by decide⟩, by decide, by decide, ?_, by decide, by decide, by decide, by decide⟩
    rintro s ⟨⟩
  · rintro c ⟨⟩ Γ hΓ
    exact completeContent_safe hΓ

/-- Non-vacuity: such a bundle, built in code; the document written for it is valid. -/
example : SafeBundle usualRoot c!"xhtml" completeBundle ∧ completeBundle.namespaceInfo = NamespaceInfo.createDefault ∧ CompleteBundle completeBundle :=
  ⟨completeBundle_safe, rfl, completeBundle_complete⟩

example : ∃ out d, unparse completeBundle = .ok out ∧ readDoc out = some d ∧ validRoot .xsd d.root = true := by
  obtain ⟨out, d, h1, h2, h3⟩ := C84_default (b := completeBundle) rfl completeBundle_safe.header completeBundle_safe.content completeBundle_safe.notEmpty
  exact ⟨out, d, h1, h2, h3.2 completeBundle_complete⟩

/-- The same with a default value for the text. -/
def textDefault : SpecAttributeDefinition :=
  ⟨.string, c!"d1", some c!"t1", none, none, some aMoment, none, none, some c!"d1", some (.str c!"x"), none⟩

def defaultContent : Content :=
  ⟨none, some [.object ⟨c!"ot", none, some aMoment, none, some [textDefault]⟩], none, none, none, none⟩

/-- Non-vacuity of the opposite. -/
example : HasPlainDefault textDefault ∧ SafeBundle usualRoot c!"xhtml" { completeBundle with coreContent := some (some defaultContent) } := by
  refine ⟨⟨⟨_, rfl⟩, .inl rfl⟩, default_safe, completeBundle_safe.header, ?_, .inl rfl⟩
  rintro c ⟨⟩ Γ hΓ
  refine ⟨(by rintro xs ⟨⟩), ?_, (by rintro xs ⟨⟩), (by rintro xs ⟨⟩), (by rintro xs ⟨⟩), (by rintro xs ⟨⟩)⟩
  rintro xs ⟨⟩ x hx
  rw [List.mem_singleton.1 hx]
  refine ⟨⟨by decide, by decide, by decide, by decide⟩, ?_⟩
  rintro ds ⟨⟩ d hd
  rw [List.mem_singleton.1 hd]
  exact ⟨by decide, by decide, by decide, by decide, by decide, (by decide : PlainAttr c!"x"), by decide, by decide⟩

end ReqIF.Xsd
