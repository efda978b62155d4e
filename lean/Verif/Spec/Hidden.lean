import Verif.Spec.Lookup
import Verif.Model.Parser
/-!
# What is read from anonymized documents

Bundles with a function applied to the strings anonymization covers.  XHTML values, which are replaced by something
that depends on how they are written, are left out; so are the source elements a bundle remembers and the XML
declaration.
-/
namespace ReqIF.Spec
open ReqIF

/-- A function applied to a value that is a text. -/
def mapStr (f : Str → Str) : AttrValue → AttrValue
  | .str s => .str (f s)
  | .list l => .list l

/-- An attribute value: a STRING is covered. -/
def hiddenValue (f : Str → Str) (a : SpecObjectAttribute) : SpecObjectAttribute :=
  match a.type with
  | .string => { a with value := mapStr f a.value, xmlNode := none }
  | .xhtml => { a with value := .str [], valueStrippedXhtml := none, xmlNode := none }
  | _ => { a with xmlNode := none }

/-- A default value. -/
def hiddenDefault (f : Str → Str) : AttrType → DefaultValue → DefaultValue
  | .string, .str s => .str (f s)
  | .xhtml, .str _ => .str []
  | _, v => v

def hiddenDefinition (f : Str → Str) (a : SpecAttributeDefinition) : SpecAttributeDefinition :=
  { a with defaultValue := a.defaultValue.map (hiddenDefault f a.type), xmlNode := none }

def hiddenType (f : Str → Str) : SpecType → SpecType
  | .object t => .object { t with attributeDefinitions := t.attributeDefinitions.map (List.map (hiddenDefinition f)) }
  | .relation t => .relation { t with attributeDefinitions := t.attributeDefinitions.map (List.map (hiddenDefinition f)) }
  | .specification t => .specification { t with specAttributes := t.specAttributes.map (List.map (hiddenDefinition f)) }
  | .relationGroup t =>
    .relationGroup { t with attributeDefinitions := t.attributeDefinitions.map (List.map (hiddenDefinition f)) }

def hiddenObject (f : Str → Str) (o : SpecObject) : SpecObject :=
  { o with attributes := o.attributes.map (hiddenValue f), xmlNode := none }

def hiddenRelation (f : Str → Str) (r : SpecRelation) : SpecRelation :=
  { r with valuesAttribute := r.valuesAttribute.map (hiddenValue f), xmlNode := none }

mutual
/-- A hierarchy without its sources. -/
def hiddenHierarchy : Hierarchy → Hierarchy
  | .leaf i => .leaf { i with xmlNode := none }
  | .node i cs => .node { i with xmlNode := none } (hiddenHierarchies cs)

def hiddenHierarchies : List Hierarchy → List Hierarchy
  | [] => []
  | h :: hs => hiddenHierarchy h :: hiddenHierarchies hs
end

/-- A specification: its long name is covered. -/
def hiddenSpecification (f : Str → Str) (s : Specification) : Specification :=
  { s with longName := s.longName.map f, values := s.values.map (List.map (hiddenValue f)),
           children := s.children.map hiddenHierarchies, xmlNode := none }

def hiddenContent (f : Str → Str) (c : Content) : Content :=
  { c with specTypes := c.specTypes.map (List.map (hiddenType f)),
           specObjects := c.specObjects.map (List.map (hiddenObject f)),
           specRelations := c.specRelations.map (List.map (hiddenRelation f)),
           specifications := c.specifications.map (List.map (hiddenSpecification f)) }

/-- A header: comment and title are covered. -/
def hiddenHeader (f : Str → Str) (h : Header) : Header :=
  { h with comment := h.comment.map f, title := h.title.map f }

/-- A bundle. -/
def hiddenBundle (f : Str → Str) (b : Bundle) : Bundle :=
  { namespaceInfo := { b.namespaceInfo with doctypeIsPresent := false, encoding := [] },
    header := b.header.map (hiddenHeader f),
    coreContent := b.coreContent.map (Option.map (hiddenContent f)),
    toolExtensionsTagExists := b.toolExtensionsTagExists,
    lookup := { b.lookup with
      specTypes := b.lookup.specTypes.map fun e => (e.1, hiddenType f e.2),
      specObjects := b.lookup.specObjects.map fun e => (e.1, hiddenObject f e.2) },
    exceptions := b.exceptions.map fun e => { e with node := .text [] } }

/-- All attribute values of a bundle: those of the objects, the relations and the specifications. -/
def everyValue (b : Bundle) : List SpecObjectAttribute :=
  (specObjectsOf b).flatMap (fun o => o.attributes) ++ (specRelationsOf b).flatMap (fun r => r.valuesAttribute.toList) ++
    (specificationsOf b).flatMap (fun s => s.values.getD [])

/-- The attribute definitions of a type. -/
def typeDefinitions : SpecType → List SpecAttributeDefinition
  | .object t => t.attributeDefinitions.getD []
  | .relation t => t.attributeDefinitions.getD []
  | .specification t => t.specAttributes.getD []
  | .relationGroup t => t.attributeDefinitions.getD []

/-- All attribute definitions of a bundle. -/
def everyDefinition (b : Bundle) : List SpecAttributeDefinition := (specTypesOf b).flatMap typeDefinitions

/-- All XHTML values of a bundle, default values included, are texts with this property. -/
structure XhtmlAll (P : Str → Prop) (b : Bundle) : Prop where
  values : ∀ a ∈ everyValue b, a.type = .xhtml → ∃ s, a.value = .str s ∧ P s
  defaults : ∀ a ∈ everyDefinition b, a.type = .xhtml → ∀ s, a.defaultValue = some (.str s) → P s

end ReqIF.Spec
