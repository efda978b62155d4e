import Verif.Spec.Comments
/-!
# Source elements

The parts of a document, and bundles whose source elements have been changed in some way that
depends on the part.
-/
namespace ReqIF.Spec
open ReqIF

/-- The parts of a ReqIF document.  `fixed`: everything counts.  `word`: an element of which
the text counts.  `flat`: an element around such elements.  `fields`: the same in the header.  `skipped`: what this tool does not read. -/
inductive Part
  | fixed | word | flat | fields | skipped
  | root | header | core | content
  | datatypes | datatype | specified | enumValue
  | types | type | definitions | definition | default
  | values | value
  | objects | object | relations | relation | specifications | specification
  | hierarchies | hierarchy | groups | group
deriving DecidableEq

/-- The part an element of the given name makes up inside another part. -/
def Part.inner : Part → Str → Part
  | .root, n => if n = c!"THE-HEADER" then .header else if n = c!"CORE-CONTENT" then .core else .skipped
  | .header, n => if n = c!"REQ-IF-HEADER" then .fields else .skipped
  | .core, n => if n = c!"REQ-IF-CONTENT" then .content else .skipped
  | .content, n =>
    if n = c!"DATATYPES" then .datatypes
    else if n = c!"SPEC-TYPES" then .types
    else if n = c!"SPEC-OBJECTS" then .objects
    else if n = c!"SPEC-RELATIONS" then .relations
    else if n = c!"SPECIFICATIONS" then .specifications
    else if n = c!"SPEC-RELATION-GROUPS" then .groups
    else .skipped
  | .datatypes, _ => .datatype
  | .datatype, n => if n = c!"SPECIFIED-VALUES" then .specified else .skipped
  | .specified, _ => .enumValue
  | .enumValue, n => if n = c!"PROPERTIES" then .flat else .skipped
  | .types, _ => .type
  | .type, n => if n = c!"SPEC-ATTRIBUTES" then .definitions else .skipped
  | .definitions, _ => .definition
  | .definition, n => if n = c!"TYPE" then .flat else if n = c!"DEFAULT-VALUE" then .default else .skipped
  | .default, _ => .value
  | .values, _ => .value
  | .value, n => if n = c!"THE-VALUE" then .fixed else .flat
  | .objects, _ => .object
  | .object, n => if n = c!"VALUES" then .values else if n = c!"TYPE" then .flat else .skipped
  | .relations, _ => .relation
  | .relation, n =>
    if n = c!"VALUES" then .values
    else if n = c!"TYPE" ∨ n = c!"SOURCE" ∨ n = c!"TARGET" then .flat
    else .skipped
  | .specifications, _ => .specification
  | .specification, n =>
    if n = c!"VALUES" then .values
    else if n = c!"CHILDREN" then .hierarchies
    else if n = c!"TYPE" then .flat
    else .skipped
  | .hierarchies, _ => .hierarchy
  | .hierarchy, n => if n = c!"CHILDREN" then .hierarchies else if n = c!"OBJECT" then .flat else .skipped
  | .groups, _ => .group
  | .group, n =>
    if n = c!"TYPE" ∨ n = c!"SOURCE-SPECIFICATION" ∨ n = c!"TARGET-SPECIFICATION" ∨ n = c!"SPEC-RELATIONS" then .flat
    else .skipped
  | .flat, _ => .word
  | .fields, _ => .word
  | .word, _ => .fixed
  | .fixed, _ => .fixed
  | .skipped, _ => .skipped

/-- The parts in which the order of the elements is read. -/
def Part.inOrder : Part → Str → Bool
  | .root, _ | .header, _ | .fields, _ | .core, _ | .content, _ | .datatype, _ | .enumValue, _ | .type, _ | .definition, _
  | .object, _ | .relation, _ | .specification, _ | .group, _ | .skipped, _ => false
  | .value, n => !(n == c!"ATTRIBUTE-VALUE-ENUMERATION" || n == c!"ATTRIBUTE-VALUE-XHTML")
  | _, _ => true

/-! A bundle remembers source elements.  Here they are replaced by something else. -/

def valueBy (f : Part → Node → Node) (a : SpecObjectAttribute) : SpecObjectAttribute := { a with xmlNode := a.xmlNode.map (f .value) }

def definitionBy (f : Part → Node → Node) (a : SpecAttributeDefinition) : SpecAttributeDefinition :=
  { a with xmlNode := a.xmlNode.map (f .definition) }

def typeBy (f : Part → Node → Node) : SpecType → SpecType
  | .object t => .object { t with attributeDefinitions := t.attributeDefinitions.map (List.map (definitionBy f)) }
  | .relation t => .relation { t with attributeDefinitions := t.attributeDefinitions.map (List.map (definitionBy f)) }
  | .specification t => .specification { t with specAttributes := t.specAttributes.map (List.map (definitionBy f)) }
  | .relationGroup t =>
    .relationGroup { t with attributeDefinitions := t.attributeDefinitions.map (List.map (definitionBy f)) }

def objectBy (f : Part → Node → Node) (o : SpecObject) : SpecObject :=
  { o with attributes := o.attributes.map (valueBy f), xmlNode := o.xmlNode.map (f .object) }

def relationBy (f : Part → Node → Node) (r : SpecRelation) : SpecRelation :=
  { r with valuesAttribute := r.valuesAttribute.map (valueBy f), xmlNode := r.xmlNode.map (f .relation) }

def hinfoBy (f : Part → Node → Node) (i : HInfo) : HInfo := { i with xmlNode := i.xmlNode.map (f .hierarchy) }

mutual
def hierarchyBy (f : Part → Node → Node) : Hierarchy → Hierarchy
  | .leaf i => .leaf ((hinfoBy f) i)
  | .node i cs => .node ((hinfoBy f) i) ((hierarchiesBy f) cs)

def hierarchiesBy (f : Part → Node → Node) : List Hierarchy → List Hierarchy
  | [] => []
  | h :: hs => (hierarchyBy f) h :: (hierarchiesBy f) hs
end

def specificationBy (f : Part → Node → Node) (s : Specification) : Specification :=
  { s with values := s.values.map (List.map (valueBy f)), children := s.children.map (hierarchiesBy f),
           xmlNode := s.xmlNode.map (f .specification) }

def contentBy (f : Part → Node → Node) (c : Content) : Content :=
  { c with specTypes := c.specTypes.map (List.map (typeBy f)),
           specObjects := c.specObjects.map (List.map (objectBy f)),
           specRelations := c.specRelations.map (List.map (relationBy f)),
           specifications := c.specifications.map (List.map (specificationBy f)) }

/-- A bundle with other source elements. -/
def bundleBy (f : Part → Node → Node) (b : Bundle) : Bundle :=
  { b with
    coreContent := b.coreContent.map (Option.map (contentBy f)),
    lookup := { b.lookup with
      specTypes := b.lookup.specTypes.map fun e => (e.1, (typeBy f) e.2),
      specObjects := b.lookup.specObjects.map fun e => (e.1, (objectBy f) e.2) },
    exceptions := b.exceptions.map fun e => { e with node := f .relation e.node } }

end ReqIF.Spec
