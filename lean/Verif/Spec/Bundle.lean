import Verif.Spec.Root
/-!
# Whole bundles: vocabulary
-/
namespace ReqIF.Spec

/-- A property of all items of an optional list. -/
def All {α : Type} (P : α → Prop) (o : Option (List α)) : Prop := ∀ xs, o = some xs → ∀ x ∈ xs, P x

/-- Does the value of a relation hold XHTML elements? -/
def relationHasXhtml (r : SpecRelation) : Bool := r.valuesAttribute.any usesXhtml

/-- Does the content hold XHTML elements? -/
def contentUses (c : Content) : Bool :=
  (c.specTypes.getD []).any specTypeUses || (c.specObjects.getD []).any (fun o => o.attributes.any usesXhtml) ||
  (c.specRelations.getD []).any relationHasXhtml || (c.specifications.getD []).any (fun s => (s.values.getD []).any usesXhtml)

def coreUses : Option (Option Content) → Bool
  | some (some c) => contentUses c
  | _ => false

/-- Contents that survive: all items do. -/
structure SafeContent (Γ : Ctx) (c : Content) : Prop where
  dataTypes : All SafeDataType c.dataTypes
  specTypes : All (SafeSpecType Γ) c.specTypes
  specObjects : All (SafeObject Γ) c.specObjects
  specRelations : All (SafeRelation Γ) c.specRelations
  specifications : All (SafeSpecification Γ) c.specifications
  specRelationGroups : All SafeGroup c.specRelationGroups

/-- The content without the links to XML nodes. -/
def bareContent (c : Content) : Content :=
  { dataTypes := c.dataTypes, specTypes := c.specTypes.map (·.map bareSpecType), specObjects := c.specObjects.map (·.map bareObject),
    specRelations := c.specRelations.map (·.map bareRelation), specifications := c.specifications.map (·.map bareSpecification),
    specRelationGroups := c.specRelationGroups }

/-- What is read back: every item as stated for the items, in the same order, and the
same containers absent, empty or filled. -/
def readContent (c : Content) : Content :=
  { dataTypes := c.dataTypes.map (·.map readDataType), specTypes := c.specTypes.map (·.map readSpecType),
    specObjects := c.specObjects.map (·.map readObject), specRelations := c.specRelations.map (·.map bareRelation),
    specifications := c.specifications.map (·.map readSpecification),
    specRelationGroups := c.specRelationGroups.map (·.map readGroup) }

/-- The lookup built from the lists of a content: later items replace earlier ones with
the same identifier; the parents are the targets in order. -/
def lookupFor : Option (Option Content) → Lookup
  | some (some c) =>
    { dataTypes := (c.dataTypes.getD []).foldl (fun (d : Dict Str DataType) x => d.set x.identifier x) [],
      specTypes := (c.specTypes.getD []).foldl (fun (d : Dict Str SpecType) x => d.set x.identifier x) [],
      specObjects := (c.specObjects.getD []).foldl (fun (d : Dict Str SpecObject) x => d.set x.identifier x) [],
      parents := (c.specRelations.getD []).foldl (fun d r => appendParent d r.source r.target) [],
      parentsDefault := true }
  | _ => Lookup.empty

/-- Bundles that survive: the namespace information (with root attributes `as`), the
header and the content do, where `p` is the prefix of XHTML elements; and there is
something in the document. -/
structure SafeBundle (as : List (Str × Str)) (p : Str) (b : Bundle) : Prop where
  root : SafeRoot b.namespaceInfo as
  header : ∀ h, b.header = some h → SafeHeader h
  content : ∀ c, b.coreContent = some (some c) → ∀ Γ, IsCtx as p (contentUses c) Γ → SafeContent Γ c
  notEmpty : b.header.isSome ∨ b.coreContent.isSome ∨ b.toolExtensionsTagExists = true

/-- `b'` is what `b` comes back as: the same namespace information, header, containers
(absent, empty or filled) with the same items in the same order, and tool-extension
flag; the lookup answers as built from these lists; no schema errors. -/
structure ReadsBack (as : List (Str × Str)) (b b' : Bundle) : Prop where
  namespaceInfo : b'.namespaceInfo = readRoot as b.namespaceInfo
  header : b'.header = b.header.map readHeader
  content : b'.coreContent.map (·.map bareContent) = b.coreContent.map (·.map readContent)
  toolExtensions : b'.toolExtensionsTagExists = b.toolExtensionsTagExists
  lookup : b'.lookup = lookupFor b'.coreContent
  exceptions : b'.exceptions = []

/-- A text that is a well-formed document whose root is `<REQ-IF>`. -/
def IsReqifDocument (t : Str) : Prop :=
  ∃ d i ks, readDoc t = some d ∧ d.root = .elem i ks ∧ i.name = c!"REQ-IF" ∧ i.pfx = none

end ReqIF.Spec
