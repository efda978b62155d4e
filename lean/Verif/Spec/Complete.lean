import Verif.Spec.Bundle
import Verif.Spec.Xsd
/-!
# Complete bundles

What the schema asks of the items of a bundle.  The unparser writes an element or an
attribute for what is there and nothing for what is not, so it is up to those who build a
bundle to give everything the schema requires, in the right form.  Items read from a file
are printed with their children in the order there; no child is to be printed twice.
-/
namespace ReqIF.Xsd
open Spec

/-- There is a text, and it has the form of the type. -/
def Gives (t : Simple) (o : Option Str) : Prop := ∃ v, o = some v ∧ t.ok v = true

/-! ## Data types -/

structure CompleteEnumValue (v : EnumValue) : Prop where
  identifier : Simple.ok .id v.identifier = true
  lastChange : Gives .dateTime v.lastChange
  key : Simple.ok .integer v.key = true
  otherContent : v.otherContent.isSome

structure CompleteDataType (d : DataType) : Prop where
  identifier : Simple.ok .id d.base.identifier = true
  lastChange : Gives .dateTime d.base.lastChange
  kind : match d.kind with
    | .string maxLength => Gives .integer maxLength
    | .integer max min => Gives .integer max ∧ Gives .integer min
    | .real accuracy max min => accuracy.isSome ∧ Gives .double max ∧ Gives .double min
    | .enumeration (some vs) => ∀ v ∈ vs, CompleteEnumValue v
    | _ => True

/-! ## Attribute values -/

/-- The form of values that are one text. -/
def valueForm : AttrType → Simple
  | .boolean => .boolean
  | .integer => .integer
  | .real => .double
  | .date => .dateTime
  | _ => .string

structure CompleteValue (a : SpecObjectAttribute) : Prop where
  ref : Gives .localRef a.definitionRef
  value : match a.type, a.value with
    | .enumeration, .list vs => ∀ v ∈ vs, Gives .localRef v
    | t, .str v => (valueForm t).ok v = true
    | _, _ => True

/-! ## Types -/

/-- A default value names its definition.  The unparser writes that reference for booleans,
enumerations and XHTML only. -/
def CompleteDefault (a : SpecAttributeDefinition) : Prop :=
  match a.defaultValue with
  | some (.str v) => Gives .localRef a.defaultValueDefinitionRef ∧ (match a.type with
    | .boolean => Simple.ok .boolean v = true
    | .enumeration => Simple.ok .localRef v = true
    | .xhtml => True
    | _ => False)
  | _ => True

structure CompleteDefinition (a : SpecAttributeDefinition) : Prop where
  identifier : Simple.ok .id a.identifier = true
  lastChange : Gives .dateTime a.lastChange
  type : Gives .localRef a.datatypeDefinition
  multi : a.type = .enumeration → a.multiValued.isSome
  default : CompleteDefault a
  order : (definitionOrder a).Nodup

/-- Identifier and time stamp of a type. -/
def typeStamp : SpecType → Str × Option Str
  | .object t => (t.identifier, t.lastChange)
  | .relation t => (t.identifier, t.lastChange)
  | .specification t => (t.identifier, t.lastChange)
  | .relationGroup t => (t.identifier, t.lastChange)

structure CompleteSpecType (t : SpecType) : Prop where
  identifier : Simple.ok .id (typeStamp t).1 = true
  lastChange : Gives .dateTime (typeStamp t).2
  definitions : ∀ ds, SpecType.definitions t = some ds → ∀ d ∈ ds, CompleteDefinition d

/-! ## Objects, relations, specifications, groups -/

structure CompleteObject (o : SpecObject) : Prop where
  identifier : Simple.ok .id o.identifier = true
  lastChange : Gives .dateTime o.lastChange
  type : Gives .localRef o.specObjectType
  values : ∀ a ∈ o.attributes, CompleteValue a
  order : (keepTags [c!"VALUES", c!"TYPE"] (sourceOrder o.xmlNode [c!"VALUES", c!"TYPE"])).Nodup

structure CompleteRelation (r : SpecRelation) : Prop where
  identifier : Simple.ok .id r.identifier = true
  lastChange : Gives .dateTime r.lastChange
  type : Gives .localRef r.relationTypeRef
  value : ∀ a, r.valuesAttribute = some a → CompleteValue a
  order : (relationOrder r).Nodup

structure CompleteHInfo (i : HInfo) : Prop where
  identifier : Simple.ok .id i.identifier = true
  lastChange : Gives .dateTime i.lastChange
  specObject : Gives .localRef i.specObject

mutual
def CompleteHierarchy : Hierarchy → Prop
  | .leaf i => CompleteHInfo i
  | .node i cs => CompleteHInfo i ∧ CompleteHierarchies cs

def CompleteHierarchies : List Hierarchy → Prop
  | [] => True
  | h :: hs => CompleteHierarchy h ∧ CompleteHierarchies hs
end

structure CompleteSpecification (s : Specification) : Prop where
  identifier : Simple.ok .id s.identifier = true
  lastChange : Gives .dateTime s.lastChange
  type : Gives .localRef s.specificationType
  values : ∀ vs, s.values = some vs → ∀ a ∈ vs, CompleteValue a
  children : ∀ hs, s.children = some hs → CompleteHierarchies hs
  order : (specificationOrder s).Nodup

structure CompleteGroup (g : RelationGroup) : Prop where
  identifier : Simple.ok .id g.identifier = true
  lastChange : Gives .dateTime g.lastChange
  type : Gives .localRef g.typeRef
  source : g.sourceSpecificationRef.isSome
  target : g.targetSpecificationRef.isSome
  relations : ∀ rs, g.specRelations = some rs → ∀ r ∈ rs, Gives .localRef r

/-! ## The document -/

/-- Comment and repository are optional; the unparser writes no empty fields. -/
structure CompleteHeader (h : Header) : Prop where
  identifier : Gives .id h.identifier
  creationTime : Gives .dateTime h.creationTime
  reqIfToolId : Gives .nonEmpty h.reqIfToolId
  reqIfVersion : Gives .nonEmpty h.reqIfVersion
  sourceToolId : Gives .nonEmpty h.sourceToolId
  title : Gives .nonEmpty h.title

structure CompleteContent (c : Content) : Prop where
  dataTypes : All CompleteDataType c.dataTypes
  specTypes : All CompleteSpecType c.specTypes
  specObjects : All CompleteObject c.specObjects
  specRelations : All CompleteRelation c.specRelations
  specifications : All CompleteSpecification c.specifications
  specRelationGroups : All CompleteGroup c.specRelationGroups

/-- The attributes of the start tag of a document: the default namespace is that of ReqIF;
attributes that are not declarations have a prefix (`xml:lang`, `xsi:schemaLocation`). -/
structure CompleteRoot (as : List (Str × Str)) : Prop where
  default : attrValue as c!"xmlns" = some reqifNs
  attributes : ∀ a ∈ as, isDecl a = false → (splitQName a.1).1.isSome

structure CompleteBundle (b : Bundle) : Prop where
  header : ∃ h, b.header = some h ∧ CompleteHeader h
  content : ∃ c, b.coreContent = some (some c) ∧ CompleteContent c

end ReqIF.Xsd
