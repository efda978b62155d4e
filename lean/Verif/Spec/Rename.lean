import Verif.Spec.Comments
import Verif.Model.Validate
/-!
# Documents with other identifiers

`root σ r`: the document with root `r`, with `σ` applied to all identifiers and to all references, that is, to the values of the
attributes `IDENTIFIER` and to all texts in the content.  Outside XHTML values the only texts there are references
and the spacing between elements; which texts are spacing is left to `σ`.  (A comment in the place of a reference is
taken for one by the program, so `σ` is applied to comments as well.)  The header and XHTML values are left alone.
-/
namespace ReqIF.Rename
open ReqIF Spec

/-- An attribute, its value renamed if it is an identifier. -/
def attr (σ : Str → Str) (a : Attr) : Attr := if a.key = c!"IDENTIFIER" then { a with value := σ a.value } else a

/-- The values in which the first element counts, whatever its name. -/
def positional (name : Str) : Bool := name == c!"ATTRIBUTE-VALUE-STRING" || name == c!"ATTRIBUTE-VALUE-INTEGER"

mutual
/-- An element of the content, renamed.  `first`: it is inside a value in which the first element counts.  The `THE-VALUE` of
an XHTML value is left alone. -/
def node (σ : Str → Str) (first : Bool) : Node → Node
  | .elem i ks =>
    .elem { i with attrs := i.attrs.map (attr σ) } (kids σ (positional i.name) (!first && i.name == c!"ATTRIBUTE-VALUE-XHTML") ks)
  | .text s => .text (σ s)
  | .comment s => .comment (σ s)
  | .pi t s => .pi t (σ s)

/-- The same for the children of an element.  `xhtml`: a child `THE-VALUE` is left alone. -/
def kids (σ : Str → Str) (first xhtml : Bool) : List Node → List Node
  | [] => []
  | k :: ks => (if xhtml && localName k == c!"THE-VALUE" then k else node σ first k) :: kids σ first xhtml ks
end

/-- Changes the children of a name. -/
def within (name : Str) (f : Node → Node) : Node → Node
  | .elem i ks => .elem i (ks.map fun k => if localName k = name then f k else k)
  | n => n

/-- The root with the content renamed. -/
def root (σ : Str → Str) : Node → Node := within c!"CORE-CONTENT" (within c!"REQ-IF-CONTENT" (node σ false))

/-! ## Bundles with other identifiers -/

section
variable (σ : Str → Str)

/-- The references to enumeration values. -/
def attrValue : AttrValue → AttrValue
  | .str s => .str s
  | .list l => .list (l.map (Option.map σ))

def value (a : SpecObjectAttribute) : SpecObjectAttribute :=
  { a with definitionRef := a.definitionRef.map σ, value := attrValue σ a.value, xmlNode := a.xmlNode.map (node σ false) }

def enumValue (v : EnumValue) : EnumValue := { v with identifier := σ v.identifier }

def kind : DataTypeKind → DataTypeKind
  | .enumeration vs => .enumeration (vs.map (List.map (enumValue σ)))
  | k => k

def dataType (d : DataType) : DataType := ⟨{ d.base with identifier := σ d.base.identifier }, kind σ d.kind⟩

/-- The default value of an enumeration is a reference. -/
def preset (t : AttrType) (v : DefaultValue) : DefaultValue :=
  match t, v with
  | .enumeration, .str s => .str (σ s)
  | _, v => v

def definition (d : SpecAttributeDefinition) : SpecAttributeDefinition :=
  { d with identifier := σ d.identifier, datatypeDefinition := d.datatypeDefinition.map σ, xmlNode := d.xmlNode.map (node σ false),
           defaultValueDefinitionRef := d.defaultValueDefinitionRef.map σ, defaultValue := d.defaultValue.map (preset σ d.type) }

/-- Keys and items of a dictionary. -/
def dict {α β : Type} (f : α → β) (d : Dict Str α) : Dict Str β := d.map fun e => (σ e.1, f e.2)

def objectType (t : SpecObjectType) : SpecObjectType :=
  { t with identifier := σ t.identifier, attributeDefinitions := t.attributeDefinitions.map (List.map (definition σ)) }

def relationType (t : RelationType) : RelationType :=
  { t with identifier := σ t.identifier, attributeDefinitions := t.attributeDefinitions.map (List.map (definition σ)) }

def specificationType (t : SpecificationType) : SpecificationType :=
  { t with identifier := σ t.identifier, specAttributes := t.specAttributes.map (List.map (definition σ)),
           specAttributeMap := t.specAttributeMap.map (dict σ id) }

def type : SpecType → SpecType
  | .object t => .object (objectType σ t)
  | .relation t => .relation (relationType σ t)
  | .specification t => .specification (specificationType σ t)
  | .relationGroup t => .relationGroup (relationType σ t)

def object (o : SpecObject) : SpecObject :=
  { o with identifier := σ o.identifier, attributes := o.attributes.map (value σ), specObjectType := o.specObjectType.map σ,
           xmlNode := o.xmlNode.map (node σ false) }

def relation (r : SpecRelation) : SpecRelation :=
  { r with identifier := σ r.identifier, relationTypeRef := r.relationTypeRef.map σ, source := r.source.map σ,
           target := r.target.map σ, xmlNode := r.xmlNode.map (node σ false), valuesAttribute := r.valuesAttribute.map (value σ) }

def hinfo (i : HInfo) : HInfo :=
  { i with identifier := σ i.identifier, specObject := i.specObject.map σ, xmlNode := i.xmlNode.map (node σ false) }

mutual
def hierarchy : Hierarchy → Hierarchy
  | .leaf i => .leaf (hinfo σ i)
  | .node i cs => .node (hinfo σ i) (hierarchies cs)

def hierarchies : List Hierarchy → List Hierarchy
  | [] => []
  | h :: hs => hierarchy h :: hierarchies hs
end

def specification (s : Specification) : Specification :=
  { s with identifier := σ s.identifier, values := s.values.map (List.map (value σ)), specificationType := s.specificationType.map σ,
           children := s.children.map (hierarchies σ), xmlNode := s.xmlNode.map (node σ false) }

def group (g : RelationGroup) : RelationGroup :=
  { g with identifier := σ g.identifier, typeRef := g.typeRef.map σ, sourceSpecificationRef := g.sourceSpecificationRef.map σ,
           targetSpecificationRef := g.targetSpecificationRef.map σ,
           specRelations := g.specRelations.map (List.map (Option.map σ)) }

def content (c : Content) : Content :=
  ⟨c.dataTypes.map (List.map (dataType σ)), c.specTypes.map (List.map (type σ)), c.specObjects.map (List.map (object σ)),
    c.specRelations.map (List.map (relation σ)), c.specifications.map (List.map (specification σ)),
    c.specRelationGroups.map (List.map (group σ))⟩

def lookup (l : Lookup) : Lookup :=
  { dataTypes := dict σ (dataType σ) l.dataTypes, specTypes := dict σ (type σ) l.specTypes,
    specObjects := dict σ (object σ) l.specObjects,
    parents := l.parents.map fun e => (e.1.map σ, e.2.map (Option.map σ)), parentsDefault := l.parentsDefault }

/-- A bundle with `σ` applied to all identifiers and references. -/
def bundle (b : Bundle) : Bundle :=
  { b with coreContent := b.coreContent.map (Option.map (content σ)), lookup := lookup σ b.lookup,
           exceptions := b.exceptions.map fun e => { e with node := node σ false e.node } }

/-- The entries of a validation report. -/
def schemaIssue : SchemaIssue → SchemaIssue
  | .xsd => .xsd
  | .missingTag e => .missingTag { e with node := node σ false e.node }

def semanticIssue : SemanticIssue → SemanticIssue
  | .noXmlDeclaration => .noXmlDeclaration
  | .notUtf8 => .notUtf8
  | .relationEnd n tag ref => .relationEnd (n.map (node σ false)) tag (ref.map σ)
  | .hierarchyRef n ref => .hierarchyRef (n.map (node σ false)) (ref.map σ)

def report (e : ErrorBundle) : ErrorBundle :=
  { e with schemaErrors := e.schemaErrors.map (schemaIssue σ), semanticWarnings := e.semanticWarnings.map (semanticIssue σ) }
end

end ReqIF.Rename
