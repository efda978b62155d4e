import Verif.Spec.Accepted
import Verif.Model.Types
/-!
# The bundles that can be written

What printing asks of a bundle: where a source element is recorded, which children it has, and
which fields must be set.  Nothing is asked of fields that are not mentioned.
-/
namespace ReqIF.Write
open Spec

/-- The element has a child element with this name. -/
def HasChild (n : Node) (name : Str) : Prop := ∃ c ∈ n.children, c.tag = .name name

/-- All child nodes are elements with one of these names. -/
def Only (n : Node) (names : List Str) : Prop := ∀ c ∈ n.children, ∃ t ∈ names, c.tag = .name t

/-- The part with this name is printed: there is no source element, or it has such a child. -/
def Shown (source : Option Node) (name : Str) : Prop := ∀ n, source = some n → HasChild n name

/-- The value is a text. -/
def IsText (v : AttrValue) : Prop := ∃ s, v = .str s

/-- The value is a list of references. -/
def IsList (v : AttrValue) : Prop := ∃ l, v = .list l

/-- An attribute value: enumeration values have lists, the others texts.  The source element of
an enumeration value, if there is one, has `VALUES` and `DEFINITION`. -/
def ValueOk (a : SpecObjectAttribute) : Prop :=
  (a.type = .enumeration → IsList a.value ∧ Shown a.xmlNode c!"VALUES" ∧ Shown a.xmlNode c!"DEFINITION") ∧
  (a.type ≠ .enumeration → IsText a.value)

/-- An attribute definition: a source element has no other children than `TYPE` and
`DEFAULT-VALUE`; if a default value is printed, it comes with the reference to the definition
in the cases of enumerations, XHTML and booleans. -/
def DefinitionOk (a : SpecAttributeDefinition) : Prop :=
  (∀ n, a.xmlNode = some n → Only n [c!"DEFAULT-VALUE", c!"TYPE"]) ∧
  (Shown a.xmlNode c!"DEFAULT-VALUE" → (a.type = .enumeration ∨ a.type = .xhtml ∨ a.type = .boolean) →
    ∀ v, a.defaultValue = some (.str v) → ∃ r, a.defaultValueDefinitionRef = some r)

/-- The attribute definitions of a type. -/
def definitionsOf : SpecType → Option (List SpecAttributeDefinition)
  | .object t => t.attributeDefinitions
  | .relation t => t.attributeDefinitions
  | .specification t => t.specAttributes
  | .relationGroup t => t.attributeDefinitions

def SpecTypeOk (t : SpecType) : Prop := ∀ ds, definitionsOf t = some ds → ∀ a ∈ ds, DefinitionOk a

/-- An object: a source element has `VALUES` and `TYPE`. -/
def ObjectOk (o : SpecObject) : Prop :=
  Shown o.xmlNode c!"VALUES" ∧ Shown o.xmlNode c!"TYPE" ∧ ∀ a ∈ o.attributes, ValueOk a

/-- A relation: a source element has no other children than the four known ones; a value that
is printed is one that can be. -/
def RelationOk (r : SpecRelation) : Prop :=
  (∀ n, r.xmlNode = some n → Only n [c!"TYPE", c!"SOURCE", c!"TARGET", c!"VALUES"]) ∧
  (Shown r.xmlNode c!"VALUES" → ∀ a, r.valuesAttribute = some a → ValueOk a)

/-- All nodes of a hierarchy have levels above 0. -/
inductive LevelsOk : Hierarchy → Prop
  | mk {h : Hierarchy} : 0 < h.info.level → (∀ c ∈ h.childList, LevelsOk c) → LevelsOk h

/-- A specification: the hierarchies and values that are printed. -/
def SpecificationOk (s : Specification) : Prop :=
  (Shown s.xmlNode c!"CHILDREN" → ∀ hs, s.children = some hs → ∀ h ∈ hs, LevelsOk h) ∧
  (Shown s.xmlNode c!"VALUES" → ∀ vs, s.values = some vs → ∀ a ∈ vs, ValueOk a)

def HeaderOk (h : Header) : Prop := ∃ i, h.identifier = some i ∧ i ≠ []

/-- The root tag: the recorded one, or one with at least one attribute. -/
def NamespaceOk (i : NamespaceInfo) : Prop :=
  i.originalReqifTagDump ≠ none ∨ i.namespace ≠ none ∨ i.schemaNamespace ≠ none ∨ i.configuration ≠ none ∨
  i.namespaceId ≠ none ∨ i.namespaceXhtml ≠ none ∨ i.schemaLocation ≠ none ∨ i.language ≠ none

/-- The lists of a content, each of which may be missing.  Data types and relation groups can
always be written. -/
def ContentOk (c : Content) : Prop :=
  (∀ l, c.specTypes = some l → ∀ t ∈ l, SpecTypeOk t) ∧
  (∀ l, c.specObjects = some l → ∀ o ∈ l, ObjectOk o) ∧
  (∀ l, c.specRelations = some l → ∀ r ∈ l, RelationOk r) ∧
  (∀ l, c.specifications = some l → ∀ s ∈ l, SpecificationOk s)

def BundleOk (b : Bundle) : Prop :=
  NamespaceOk b.namespaceInfo ∧ (∀ h, b.header = some h → HeaderOk h) ∧
  ∀ c, b.coreContent = some (some c) → ContentOk c

/-! ## Documents that can be read and written again

The same requirements for the bundle of a document that has been read, as requirements on the
document. -/

open Accept (Called May Needs Each)

/-- A default value of this kind refers to its definition. -/
def DefaultRefers (v : Node) (ref : Str) : Prop :=
  Needs v c!"DEFINITION" fun d => Needs d ref fun r => ∃ s, r.text? = some s

/-- An attribute definition: there are no other children than `TYPE` and `DEFAULT-VALUE`; the
default values of enumerations, XHTML and booleans refer to their definition (an enumeration
without the default value itself need not). -/
def DefinitionAgain (x : Node) : Prop :=
  Only x [c!"DEFAULT-VALUE", c!"TYPE"] ∧
  (Called x c!"ATTRIBUTE-DEFINITION-BOOLEAN" → May x c!"DEFAULT-VALUE" fun d => May d c!"ATTRIBUTE-VALUE-BOOLEAN" fun v =>
    DefaultRefers v c!"ATTRIBUTE-DEFINITION-BOOLEAN-REF") ∧
  (Called x c!"ATTRIBUTE-DEFINITION-XHTML" → May x c!"DEFAULT-VALUE" fun d => May d c!"ATTRIBUTE-VALUE-XHTML" fun v =>
    DefaultRefers v c!"ATTRIBUTE-DEFINITION-XHTML-REF") ∧
  (Called x c!"ATTRIBUTE-DEFINITION-ENUMERATION" → May x c!"DEFAULT-VALUE" fun d => May d c!"ATTRIBUTE-VALUE-ENUMERATION" fun v =>
    (Needs v c!"VALUES" fun vs => Needs vs c!"ENUM-VALUE-REF" fun r => ∃ s, r.text? = some s) →
    DefaultRefers v c!"ATTRIBUTE-DEFINITION-ENUMERATION-REF")

def SpecTypeAgain (x : Node) : Prop := May x c!"SPEC-ATTRIBUTES" (Each · DefinitionAgain)

/-- An object has `VALUES`. -/
def ObjectAgain (x : Node) : Prop := x.tag = .comment ∨ HasChild x c!"VALUES"

/-- A relation with source and target has no other children than the known ones. -/
def RelationAgain (x : Node) : Prop :=
  HasChild x c!"SOURCE" → HasChild x c!"TARGET" → Only x [c!"TYPE", c!"SOURCE", c!"TARGET", c!"VALUES"]

def HeaderAgain (x : Node) : Prop := May x c!"REQ-IF-HEADER" fun h => h.attr? c!"IDENTIFIER" ≠ some []

def ContentAgain (x : Node) : Prop :=
  May x c!"SPEC-TYPES" (Each · SpecTypeAgain) ∧
  May x c!"SPEC-OBJECTS" (Each · ObjectAgain) ∧
  May x c!"SPEC-RELATIONS" (Each · RelationAgain)

/-- `original` is the root with its namespaces, `r` the one without.  An empty root needs a
default namespace or one with the prefix `configuration`. -/
def RootAgain (original r : Node) : Prop :=
  (r.children = [] → original.nsmap.get? none ≠ none ∨ original.nsmap.get? (some c!"configuration") ≠ none) ∧
  May r c!"THE-HEADER" HeaderAgain ∧
  May r c!"CORE-CONTENT" fun c => May c c!"REQ-IF-CONTENT" ContentAgain

end ReqIF.Write
