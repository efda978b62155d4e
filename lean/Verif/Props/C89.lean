import Verif.Proofs.Rewritable
import Verif.Props.C88
/-!
# C89: which bundles can be written

Exactly which bundles are printed without an exception, and exactly which documents can be read
and written again.
-/
namespace ReqIF
open Spec Write

/-- **C89**: a bundle, whether read or built by hand, is printed without an exception exactly if
it meets the requirements. -/
theorem C89_written (b : Bundle) : (∃ out, unparse b = .ok out) ↔ BundleOk b := bundle_ok b

/-- **C89**, documents: the bundle of a document that has been read is printed without an
exception exactly if the document meets the requirements. -/
theorem C89_again {text : Str} {b : Bundle} {d : Doc} {r : Node} (hb : parseString text = .ok b)
    (hd : readDoc text = some d) (hr : strippedRoot d.root = .ok r) : (∃ out, unparse b = .ok out) ↔ RootAgain d.root r := by
  rw [C89_written]
  rw [parseString_ofDoc hd] at hb
  exact document_again hr hb

/-- **C89**, both together: reading a text and writing the result raises no exception exactly
if the text is a well-formed document whose tree meets the requirements of reading (C88) and
those of writing. -/
theorem C89_passes (text : Str) : (∃ b out, parseString text = .ok b ∧ unparse b = .ok out) ↔
    ∃ d r, readDoc text = some d ∧ strippedRoot d.root = .ok r ∧ Accept.RootOk r ∧ RootAgain d.root r := by
  constructor
  · rintro ⟨b, out, hb, ho⟩
    obtain ⟨d, r, hd, hr, h⟩ := (C88_read text).1 ⟨b, hb⟩
    exact ⟨d, r, hd, hr, h, (C89_again hb hd hr).1 ⟨out, ho⟩⟩
  · rintro ⟨d, r, hd, hr, h, h'⟩
    obtain ⟨b, hb⟩ := (C88_read text).2 ⟨d, r, hd, hr, h⟩
    obtain ⟨out, ho⟩ := (C89_again hb hd hr).2 h'
    exact ⟨b, out, hb, ho⟩

/-- **C89**, without a source: a bundle built by hand, none of whose parts refers to an element it
was read from, needs little: a root with an attribute, a header with an identifier, levels above
0, texts and lists in their places, and the reference in the default values of three kinds. -/
theorem C89_by_hand (b : Bundle) (hn : NamespaceOk b.namespaceInfo) (hh : ∀ h, b.header = some h → HeaderOk h)
    (hc : ∀ c, b.coreContent = some (some c) →
      (∀ l, c.specTypes = some l → ∀ t ∈ l, ∀ ds, definitionsOf t = some ds → ∀ a ∈ ds, a.xmlNode = none ∧
        ((a.type = .enumeration ∨ a.type = .xhtml ∨ a.type = .boolean) → a.defaultValue ≠ none → a.defaultValueDefinitionRef ≠ none)) ∧
      (∀ l, c.specObjects = some l → ∀ o ∈ l, o.xmlNode = none ∧ ∀ a ∈ o.attributes, a.xmlNode = none ∧
        (if a.type = .enumeration then IsList a.value else IsText a.value)) ∧
      (∀ l, c.specRelations = some l → ∀ r ∈ l, r.xmlNode = none ∧ r.valuesAttribute = none) ∧
      (∀ l, c.specifications = some l → ∀ s ∈ l, s.values = none ∧ ∀ hs, s.children = some hs → ∀ h ∈ hs, LevelsOk h)) :
    ∃ out, unparse b = .ok out := by
  rw [C89_written]
  refine ⟨hn, hh, fun c e => ?_⟩
  obtain ⟨h1, h2, h3, h4⟩ := hc c e
  refine ⟨fun l el t ht ds ed a ha => ?_, fun l el o ho => ?_, fun l el r hr => ?_, fun l el s hs => ?_⟩
  · obtain ⟨hx, hd⟩ := h1 l el t ht ds ed a ha
    refine ⟨fun n en => (by rw [hx] at en; cases en), fun _ hty v hv => ?_⟩
    have := hd hty (by rw [hv]; simp)
    exact Option.ne_none_iff_exists'.1 this
  · obtain ⟨hx, ha⟩ := h2 l el o ho
    refine ⟨fun n en => (by rw [hx] at en; cases en), fun n en => (by rw [hx] at en; cases en), fun a hm => ?_⟩
    obtain ⟨hxa, hv⟩ := ha a hm
    refine ⟨fun et => ⟨(by rw [if_pos et] at hv; exact hv), fun n en => (by rw [hxa] at en; cases en), fun n en => (by rw [hxa] at en; cases en)⟩,
      fun et => by rw [if_neg et] at hv; exact hv⟩
  · obtain ⟨hx, hv⟩ := h3 l el r hr
    exact ⟨fun n en => (by rw [hx] at en; cases en), fun _ a ea => (by rw [hv] at ea; cases ea)⟩
  · obtain ⟨hv, hl⟩ := h4 l el s hs
    exact ⟨fun _ => hl, fun _ vs ev => (by rw [hv] at ev; cases ev)⟩

/-! ## Concrete cases -/

/-- Is the document read, and the result written? -/
def isPassed (text : Str) : Bool :=
  match parseString text with
  | .error _ => false
  | .ok b => (unparse b).isOk

theorem isPassed_iff (text : Str) : isPassed text = true ↔ ∃ b out, parseString text = .ok b ∧ unparse b = .ok out := by
  unfold isPassed
  cases parseString text with
  | error e => simp
  | ok b => cases h : unparse b <;> simp [Except.isOk, Except.toBool, h]

/-- A document with this content. -/
def passedDoc (content : Str) : Str :=
  c!"<REQ-IF><CORE-CONTENT><REQ-IF-CONTENT>" ++ content ++ c!"</REQ-IF-CONTENT></CORE-CONTENT></REQ-IF>"

def passedObject (values : Str) : Str :=
  c!"<SPEC-OBJECTS><SPEC-OBJECT IDENTIFIER=\"o\"><TYPE><SPEC-OBJECT-TYPE-REF/></TYPE>" ++ values ++ c!"</SPEC-OBJECT></SPEC-OBJECTS>"

def passedRelation (more : Str) : Str :=
  c!"<SPEC-RELATIONS><SPEC-RELATION IDENTIFIER=\"r\"><TYPE><SPEC-RELATION-TYPE-REF/></TYPE>" ++
  c!"<SOURCE><SPEC-OBJECT-REF/></SOURCE><TARGET><SPEC-OBJECT-REF/></TARGET>" ++ more ++ c!"</SPEC-RELATION></SPEC-RELATIONS>"

def passedDefinition (value : Str) : Str :=
  c!"<SPEC-TYPES><SPEC-OBJECT-TYPE IDENTIFIER=\"t\"><SPEC-ATTRIBUTES><ATTRIBUTE-DEFINITION-BOOLEAN IDENTIFIER=\"a\">" ++
  c!"<TYPE><DATATYPE-DEFINITION-BOOLEAN-REF/></TYPE><DEFAULT-VALUE><ATTRIBUTE-VALUE-BOOLEAN THE-VALUE=\"true\">" ++ value ++
  c!"</ATTRIBUTE-VALUE-BOOLEAN></DEFAULT-VALUE></ATTRIBUTE-DEFINITION-BOOLEAN></SPEC-ATTRIBUTES></SPEC-OBJECT-TYPE></SPEC-TYPES>"

set_option maxRecDepth 20000 in
/-- Objects: with VALUES the document is read and written, so the requirements are met. -/
example : ∃ d r, readDoc (passedDoc (passedObject c!"<VALUES/>")) = some d ∧ strippedRoot d.root = .ok r ∧
    Accept.RootOk r ∧ RootAgain d.root r :=
  (C89_passes _).1 ((isPassed_iff _).1 (by decide +kernel))

set_option maxRecDepth 20000 in
/-- **C89**, read but not written: an object without VALUES. -/
theorem C89_object : isRead (passedDoc (passedObject [])) = true ∧ isPassed (passedDoc (passedObject [])) = false := by
  constructor <;> decide +kernel

set_option maxRecDepth 20000 in
/-- **C89**, read but not written: a relation with an ALTERNATIVE-ID (which the schema allows). -/
theorem C89_relation : isPassed (passedDoc (passedRelation [])) = true ∧
    isRead (passedDoc (passedRelation c!"<ALTERNATIVE-ID/>")) = true ∧ isPassed (passedDoc (passedRelation c!"<ALTERNATIVE-ID/>")) = false := by
  refine ⟨?_, ?_, ?_⟩ <;> decide +kernel

set_option maxRecDepth 20000 in
/-- **C89**, read but not written: a default value that does not refer to its definition. -/
theorem C89_default :
    isPassed (passedDoc (passedDefinition c!"<DEFINITION><ATTRIBUTE-DEFINITION-BOOLEAN-REF>a</ATTRIBUTE-DEFINITION-BOOLEAN-REF></DEFINITION>")) = true ∧
    isRead (passedDoc (passedDefinition [])) = true ∧ isPassed (passedDoc (passedDefinition [])) = false := by
  refine ⟨?_, ?_, ?_⟩ <;> decide +kernel

set_option maxRecDepth 20000 in
/-- **C89**, read but not written: an empty root without a default namespace. -/
theorem C89_empty_root : isRead c!"<REQ-IF/>" = true ∧ isPassed c!"<REQ-IF/>" = false ∧ isPassed c!"<REQ-IF xmlns=\"n\"/>" = true := by
  refine ⟨?_, ?_, ?_⟩ <;> decide +kernel

/-- A bundle built by hand: an object with an enumeration value below a specification, and a
header. -/
def byHand (level : Nat) : Bundle :=
  { namespaceInfo := NamespaceInfo.createDefault
    header := some ⟨some c!"h", none, none, .none, none, none, none, none⟩
    coreContent := some (some
      { dataTypes := none, specTypes := none
        specObjects := some [⟨c!"o", [⟨.enumeration, some c!"a", .list [some c!"v"], none, none⟩], some c!"t", none, none, none, none⟩]
        specRelations := none
        specifications := some [⟨c!"s", none, none, none, none, none, some [.leaf ⟨c!"l", some c!"o", level, none, true, none, none, none, false, none⟩], none⟩]
        specRelationGroups := none })
    toolExtensionsTagExists := false
    lookup := Lookup.empty
    exceptions := [] }

/-- It can be written if the level is not 0. -/
example (level : Nat) : (∃ out, unparse (byHand level) = .ok out) ↔ 0 < level := by
  rw [C89_written]
  constructor
  · rintro ⟨-, -, h⟩
    obtain ⟨-, -, -, h4⟩ := h _ rfl
    have := (h4 _ rfl _ (List.mem_singleton.2 rfl)).1 (fun n e => by cases e) _ rfl _ (List.mem_singleton.2 rfl)
    cases this with
    | mk h _ => exact h
  · intro hl
    rw [← C89_written]
    refine C89_by_hand _ (.inr (.inl (show NamespaceInfo.createDefault.namespace ≠ none by decide))) (fun h e => by cases e; exact ⟨_, rfl, by decide⟩) fun c e => ?_
    cases e
    refine ⟨fun l e => (by cases e), fun l e o ho => ?_, fun l e => (by cases e), fun l e s hs => ?_⟩
    · cases e; cases List.mem_singleton.1 ho
      refine ⟨rfl, fun a ha => ?_⟩
      cases List.mem_singleton.1 ha
      exact ⟨rfl, ⟨_, rfl⟩⟩
    · cases e; cases List.mem_singleton.1 hs
      refine ⟨rfl, fun hs e h hh => ?_⟩
      cases e; cases List.mem_singleton.1 hh
      exact .mk hl (fun c hc => by cases hc)

end ReqIF
