import Verif.Model.Unparser
import Verif.Spec.Text
import Verif.Spec.Escape
/-!
# Writing and reading back: vocabulary

Independent of the proofs: which strings survive, what a printed piece of text
is read as, and what "equal up to dropped empty strings" means.
-/
namespace ReqIF

/-- The context of an element below the root: the declarations of the root, those
kept by the cleanup, and the prefix of XHTML elements. -/
structure Ctx where
  scope : NsMap
  keep : NsMap
  pfx : Str

/-- The XHTML prefix is bound to an XHTML namespace. -/
structure Ctx.Bound (Γ : Ctx) : Prop where
  notXml : Γ.pfx ≠ c!"xml"
  bound : ∃ u, NsMap.get? Γ.scope (some Γ.pfx) = some u ∧ containsStr xhtmlNs u = true

/-- The declarations `cleanup_namespaces` keeps on the root `ri`, if elements
with prefix `p` occur (`u`) or not. -/
def keptDecls (ri : Info) (p : Str) (u : Bool) : NsMap :=
  match NsMap.get? ri.nsmap none with
  | none => ri.nsmap
  | some _ => ri.nsdefs.filter (fun d => ri.attrs.any (fun a => a.ns.isSome && a.pfx == d.1) || (u && d.1 == some p))

def rootCtx (ri : Info) (p : Str) (u : Bool) : Ctx := ⟨ri.nsmap, keptDecls ri p u, p⟩

end ReqIF

namespace ReqIF.Spec

/-- A property of an optional string, if it is there. -/
def Opt (P : Str → Prop) (o : Option Str) : Prop := ∀ v, o = some v → P v

/-- An empty optional string is as good as an absent one. -/
def dropEmpty (o : Option Str) : Option Str := o.filter (fun v => !v.isEmpty)

/-- Element content that survives when printed as it is: there, not empty, and
without characters that need escaping. -/
def PlainElem (o : Option Str) : Prop := ∃ v, o = some v ∧ v ≠ [] ∧ PlainText v

instance (P : Str → Prop) [DecidablePred P] (o : Option Str) : Decidable (Opt P o) :=
  match o with
  | none => isTrue (by rintro v ⟨⟩)
  | some v => if h : P v then isTrue (by rintro w ⟨⟩; exact h) else isFalse (fun hh => h (hh v rfl))

instance (o : Option Str) : Decidable (PlainElem o) :=
  match o with
  | none => isFalse (by rintro ⟨v, ⟨⟩, _⟩)
  | some v => if h : v ≠ [] ∧ PlainText v then isTrue ⟨v, rfl, h⟩
    else isFalse (by rintro ⟨w, ⟨⟩, h'⟩; exact h h')

/-- The start tag of a document with these attributes. -/
def rootTag (as : List (Str × Str)) : Str :=
  c!"<REQ-IF" ++ as.flatMap (fun a => c!" " ++ a.1 ++ c!"=\"" ++ a.2 ++ c!"\"") ++ c!">"

/-- A document with this root tag and this content. -/
def document (as : List (Str × Str)) (text : Str) : Str :=
  c!"<?xml version=\"1.0\" encoding=\"UTF-8\"?>\n" ++ rootTag as ++ c!"\n" ++ text ++ c!"</REQ-IF>\n"

/-- In a document with this root tag, the text is read as the child nodes `ns` of
the root, as the parser sees them (after its namespace stripping). -/
def ReadsAs (as : List (Str × Str)) (text : Str) (ns : List Node) : Prop :=
  ∃ d r, readDoc (document as text) = some d ∧ strippedRoot d.root = .ok r ∧ r.children = ns

/-- A root tag with well-formed, plain attributes and namespace declarations; the
default namespace, if any, is not the XHTML namespace. -/
def RootAttrs (as : List (Str × Str)) : Prop :=
  (∀ a ∈ as, isQName a.1 = true ∧ PlainAttr a.2) ∧
  ∃ i, resolveInfo [] c!"REQ-IF" as = some i ∧
    ∀ u, NsMap.get? i.nsmap none = some u → containsStr xhtmlNs u = false

/-- The declarations in force below this root tag, if its XHTML elements have prefix
`p` (and `u` says whether there are any). -/
def IsCtx (as : List (Str × Str)) (p : Str) (u : Bool) (Γ : Ctx) : Prop :=
  ∃ i, resolveInfo [] c!"REQ-IF" as = some i ∧ Γ = rootCtx i p u

/-- The declarations of a customary ReqIF document. -/
def usualRoot : List (Str × Str) :=
  [(c!"xmlns", c!"http://www.omg.org/spec/ReqIF/20110401/reqif.xsd"), (c!"xmlns:xhtml", c!"http://www.w3.org/1999/xhtml")]

/-! ## XHTML content -/

/-- XHTML content, all of whose elements are written with one prefix. -/
inductive XTree
  | elem (name : Str) (attrs : List (Str × Str)) (kids : List XTree)
  | text (s : Str)

mutual
/-- The content as text: elements with prefix `p`, empty ones as empty tags, values
and texts escaped. -/
def XTree.print (p : Str) : XTree → Str
  | .elem name attrs kids =>
    c!"<" ++ p ++ c!":" ++ name ++ attrs.flatMap (fun a => c!" " ++ a.1 ++ c!"=\"" ++ escape a.2 ++ c!"\"") ++
    (match kids with
     | [] => c!"/>"
     | k :: ks => c!">" ++ k.print p ++ printAll p ks ++ c!"</" ++ p ++ c!":" ++ name ++ c!">")
  | .text s => escape s

def printAll (p : Str) : List XTree → Str
  | [] => []
  | t :: ts => t.print p ++ printAll p ts
end

/-- Is it text? -/
def XTree.isText : XTree → Bool
  | .text _ => true
  | _ => false

/-- No two texts next to each other. -/
def noAdjacentText : List XTree → Bool
  | a :: b :: ts => !(a.isText && b.isText) && noAdjacentText (b :: ts)
  | _ => true

mutual
/-- Content XML can hold and the code reproduces: names are names, attributes have
distinct names without prefix, values hold XML characters without line breaks,
texts are not empty and hold XML characters without carriage return. -/
def XTree.WF : XTree → Prop
  | .elem name attrs kids => isNCName name = true ∧
      (∀ a ∈ attrs, isNCName a.1 = true ∧ a.1 ≠ c!"xmlns" ∧ EscAttr a.2) ∧ (attrs.map (·.1)).Nodup ∧
      noAdjacentText kids = true ∧ AllWF kids
  | .text s => s ≠ [] ∧ ∀ c ∈ s, isXmlChar c = true ∧ c ≠ '\r'

def AllWF : List XTree → Prop
  | [] => True
  | t :: ts => t.WF ∧ AllWF ts
end

/-- A string that XHTML values survive as: printed well-formed content.  If there
are elements, their prefix is bound to the XHTML namespace and is the first one
declared; without any declaration the content is text that needs no escaping. -/
def SafeXhtml (Γ : Ctx) (s : Str) : Prop :=
  isNCName Γ.pfx = true ∧ ∃ ts, AllWF ts ∧ noAdjacentText ts = true ∧ s = printAll Γ.pfx ts ∧
    (ts.all XTree.isText = false → Γ.Bound ∧ Γ.keep.firstKey = some Γ.pfx) ∧
    (Γ.keep = [] → ts.all XTree.isText = true ∧ escape s = s)

/-! ## Data types -/

structure SafeEnumValue (v : EnumValue) : Prop where
  identifier : PlainAttr v.identifier
  key : PlainAttr v.key
  description : Opt PlainAttr v.description
  lastChange : Opt PlainAttr v.lastChange
  otherContent : Opt PlainAttr v.otherContent
  longName : Opt EscAttr v.longName

/-- The long name is escaped except for integers, reals and dates. -/
def longNameEscaped : DataTypeKind → Bool
  | .integer _ _ => false
  | .real _ _ _ => false
  | .date => false
  | _ => true

/-- The strings of a data type that are printed as they are need no escaping, and
an enumeration marked as an empty tag has no list of values. -/
structure SafeDataType (d : DataType) : Prop where
  identifier : PlainAttr d.base.identifier
  description : Opt EscAttr d.base.description
  lastChange : Opt PlainAttr d.base.lastChange
  longName : if longNameEscaped d.kind then Opt EscAttr d.base.longName else Opt PlainAttr d.base.longName
  kind : match d.kind with
    | .string m => Opt PlainAttr m
    | .integer a b => Opt PlainAttr a ∧ Opt PlainAttr b
    | .real _ a b => Opt PlainAttr a ∧ Opt PlainAttr b
    | .enumeration none => True
    | .enumeration (some vs) => d.base.isSelfClosed = false ∧ ∀ v ∈ vs, SafeEnumValue v
    | _ => True

/-- What is read back: empty strings are dropped where the unparser drops them, and
a `REAL` definition is always an empty tag. -/
def readDataType (d : DataType) : DataType :=
  match d.kind with
  | .string m => ⟨{ d.base with lastChange := dropEmpty d.base.lastChange }, .string (dropEmpty m)⟩
  | .integer _ _ | .date =>
    ⟨{ d.base with lastChange := dropEmpty d.base.lastChange, longName := dropEmpty d.base.longName }, d.kind⟩
  | .real _ _ _ => ⟨{ d.base with isSelfClosed := true }, d.kind⟩
  | k => ⟨{ d.base with lastChange := dropEmpty d.base.lastChange }, k⟩

/-! ## Attribute values -/

/-- What an attribute value says: its kind, the reference to its definition and its
value, without the link to the XML node and the value derived from it. -/
def bareValue (a : SpecObjectAttribute) : SpecObjectAttribute := { a with valueStrippedXhtml := none, xmlNode := none }

/-- Does the value hold XHTML elements? -/
def usesXhtml (a : SpecObjectAttribute) : Bool :=
  match a.type, a.value with
  | .xhtml, .str v => v.contains '<'
  | _, _ => false

/-- The XML node an enumeration value was read from, if any, has both children (their
order decides the order of printing). -/
def orderKnown (n : Option Node) : Prop :=
  ∀ x, n = some x → .name c!"VALUES" ∈ childTags x ∧ .name c!"DEFINITION" ∈ childTags x

/-- Values that survive: the reference and the values printed as they are need no
escaping. -/
structure SafeValue (Γ : Ctx) (a : SpecObjectAttribute) : Prop where
  ref : PlainElem a.definitionRef
  value : match a.type, a.value with
    | .string, .str v => HtmlAttr v
    | .enumeration, .list vs => (∀ v ∈ vs, PlainElem v) ∧ orderKnown a.xmlNode
    | .integer, .str v | .real, .str v | .boolean, .str v | .date, .str v => PlainAttr v
    | .xhtml, .str v => SafeXhtml Γ v
    | _, _ => False

/-! ## Order of children -/

/-- The order in which children are printed: a default for items created through the
API, otherwise the order in the XML node they were read from. -/
def sourceOrder (n : Option Node) (default : List Str) : List Tag :=
  match n with
  | none => default.map .name
  | some x => childTags x

/-- The tags of a list that are among some names. -/
def keepTags (names : List Str) (ts : List Tag) : List Tag := ts.filter (fun t => (names.map Tag.name).contains t)

/-! ## Spec objects -/

/-- A spec object without the links to XML nodes. -/
def bareObject (o : SpecObject) : SpecObject := { o with attributes := o.attributes.map bareValue, xmlNode := none }

/-- What is read back: an empty `LAST-CHANGE` is dropped. -/
def readObject (o : SpecObject) : SpecObject := { bareObject o with lastChange := dropEmpty o.lastChange }

/-- Spec objects that survive.  None of the strings but those in the values are
escaped; the XML node, if any, has the two children. -/
structure SafeObject (Γ : Ctx) (o : SpecObject) : Prop where
  identifier : PlainAttr o.identifier
  description : Opt PlainAttr o.description
  lastChange : Opt PlainAttr o.lastChange
  longName : Opt PlainAttr o.longName
  type : PlainElem o.specObjectType
  values : ∀ a ∈ o.attributes, SafeValue Γ a
  order : .name c!"VALUES" ∈ sourceOrder o.xmlNode [c!"VALUES", c!"TYPE"] ∧
    .name c!"TYPE" ∈ sourceOrder o.xmlNode [c!"VALUES", c!"TYPE"]

/-! ## Spec relations -/

/-- A spec relation without the links to XML nodes. -/
def bareRelation (r : SpecRelation) : SpecRelation :=
  { r with valuesAttribute := r.valuesAttribute.map bareValue, xmlNode := none }

def relationTags : List Str := [c!"TYPE", c!"SOURCE", c!"TARGET", c!"VALUES"]

/-- Spec relations that survive.  The long name and the value are escaped; the value
is of one of the three kinds the parser knows; the XML node, if any, has the needed
children and no others. -/
structure SafeRelation (Γ : Ctx) (r : SpecRelation) : Prop where
  identifier : PlainAttr r.identifier
  description : Opt PlainAttr r.description
  lastChange : Opt PlainAttr r.lastChange
  longName : Opt HtmlAttr r.longName
  type : PlainElem r.relationTypeRef
  source : PlainElem r.source
  target : PlainElem r.target
  value : ∀ a, r.valuesAttribute = some a → SafeValue Γ a ∧ (a.type = .string ∨ a.type = .integer ∨ a.type = .xhtml)
  order : (∀ t ∈ sourceOrder r.xmlNode relationTags, t ∈ relationTags.map Tag.name) ∧
    .name c!"TYPE" ∈ sourceOrder r.xmlNode relationTags ∧ .name c!"SOURCE" ∈ sourceOrder r.xmlNode relationTags ∧
    .name c!"TARGET" ∈ sourceOrder r.xmlNode relationTags ∧
    (r.valuesAttribute.isSome → .name c!"VALUES" ∈ sourceOrder r.xmlNode relationTags)

/-- The order in which a relation is printed. -/
def relationOrder (r : SpecRelation) : List Tag :=
  (sourceOrder r.xmlNode relationTags).filter (fun t => !(t == .name c!"VALUES" && r.valuesAttribute.isNone))

/-! ## Relation groups -/

/-- Relation groups that survive: no string is escaped; references are there with
content, or absent. -/
structure SafeGroup (g : RelationGroup) : Prop where
  identifier : PlainAttr g.identifier
  description : Opt PlainAttr g.description
  lastChange : Opt PlainAttr g.lastChange
  longName : Opt PlainAttr g.longName
  type : g.typeRef = none ∨ PlainElem g.typeRef
  source : g.sourceSpecificationRef = none ∨ PlainElem g.sourceSpecificationRef
  target : g.targetSpecificationRef = none ∨ PlainElem g.targetSpecificationRef
  relations : ∀ rs, g.specRelations = some rs → ∀ r ∈ rs, PlainElem r

/-- What is read back: an empty long name is dropped; a group is never marked as an
empty tag. -/
def readGroup (g : RelationGroup) : RelationGroup := { g with longName := dropEmpty g.longName, isSelfClosed := false }

/-! ## The header -/

/-- Headers that survive: there is an identifier, and the strings need no escaping
(in the title, `&` is escaped). -/
structure SafeHeader (h : Header) : Prop where
  identifier : ∃ i, h.identifier = some i ∧ i ≠ [] ∧ PlainAttr i
  comment : Opt PlainText h.comment
  creationTime : Opt PlainText h.creationTime
  repositoryId : ∀ s, h.repositoryId = .text s → PlainText s
  reqIfToolId : Opt PlainText h.reqIfToolId
  reqIfVersion : Opt PlainText h.reqIfVersion
  sourceToolId : Opt PlainText h.sourceToolId
  title : Opt TitleText h.title

/-- What is read back: empty strings are dropped; an empty repository id is an empty tag. -/
def readHeader (h : Header) : Header :=
  { h with
    comment := dropEmpty h.comment, creationTime := dropEmpty h.creationTime,
    repositoryId := if h.repositoryId = .text [] then .emptyTag else h.repositoryId,
    reqIfToolId := dropEmpty h.reqIfToolId, reqIfVersion := dropEmpty h.reqIfVersion,
    sourceToolId := dropEmpty h.sourceToolId, title := dropEmpty h.title }

/-! ## Hierarchies -/

/-- Nodes of a hierarchy that survive: no string is escaped. -/
structure SafeHInfo (level : Nat) (i : HInfo) : Prop where
  level : i.level = level
  identifier : PlainAttr i.identifier
  lastChange : Opt PlainAttr i.lastChange
  longName : Opt PlainAttr i.longName
  specObject : PlainElem i.specObject

mutual
/-- Hierarchies that survive: the levels grow by one from parent to child. -/
def SafeHierarchy (level : Nat) : Hierarchy → Prop
  | .leaf i => SafeHInfo level i
  | .node i cs => SafeHInfo level i ∧ SafeHierarchies (level + 1) cs

def SafeHierarchies (level : Nat) : List Hierarchy → Prop
  | [] => True
  | h :: hs => SafeHierarchy level h ∧ SafeHierarchies level hs
end

/-- A node without the link to its XML node. -/
def bareHInfo (i : HInfo) : HInfo := { i with xmlNode := none }

mutual
/-- A hierarchy without the links to XML nodes. -/
def bareHierarchy : Hierarchy → Hierarchy
  | .leaf i => .leaf (bareHInfo i)
  | .node i cs => .node (bareHInfo i) (bareHierarchies cs)

def bareHierarchies : List Hierarchy → List Hierarchy
  | [] => []
  | h :: hs => bareHierarchy h :: bareHierarchies hs
end

mutual
/-- What is read back: empty strings are dropped; the two marks about `CHILDREN` are
unset where there is no such element, and the mark for empty tags is unset if the
element is not empty. -/
def readHierarchy : Hierarchy → Hierarchy
  | .leaf i => .leaf { i with lastChange := dropEmpty i.lastChange, longName := dropEmpty i.longName,
                              refThenChildrenOrder := false, isSelfClosed := false, xmlNode := none }
  | .node i cs => .node { i with lastChange := dropEmpty i.lastChange, longName := dropEmpty i.longName,
                                 isSelfClosed := cs.isEmpty && i.isSelfClosed, xmlNode := none } (readHierarchies cs)

def readHierarchies : List Hierarchy → List Hierarchy
  | [] => []
  | h :: hs => readHierarchy h :: readHierarchies hs
end

/-- The children a hierarchy node is printed with. -/
def hierarchyTags : Hierarchy → List Str
  | .leaf _ => [c!"OBJECT"]
  | .node i _ => if i.refThenChildrenOrder then [c!"OBJECT", c!"CHILDREN"] else [c!"CHILDREN", c!"OBJECT"]

mutual
/-- At every node of the tree the written element has the children the node is printed
with, in that order, and the elements below `CHILDREN` stand for the nodes below. -/
def Arranged : Hierarchy → Node → Prop
  | .leaf _, n => childTags n = [.name c!"OBJECT"]
  | .node i cs, n =>
    childTags n = (if i.refThenChildrenOrder then [.name c!"OBJECT", .name c!"CHILDREN"]
      else [.name c!"CHILDREN", .name c!"OBJECT"]) ∧
    ∃ c, n.find c!"CHILDREN" = some c ∧ AllArranged cs c.children

def AllArranged : List Hierarchy → List Node → Prop
  | [], ns => ns = []
  | h :: hs, ns => ∃ n ns', ns = n :: ns' ∧ Arranged h n ∧ AllArranged hs ns'
end

/-! ## Specifications -/

/-- A specification without the links to XML nodes. -/
def bareSpecification (s : Specification) : Specification :=
  { s with values := s.values.map (·.map bareValue), children := s.children.map bareHierarchies, xmlNode := none }

/-- What is read back: an empty type reference is dropped; hierarchies as above. -/
def readSpecification (s : Specification) : Specification :=
  { bareSpecification s with
    specificationType := dropEmpty s.specificationType, children := s.children.map readHierarchies }

def specificationTags : List Str := [c!"TYPE", c!"CHILDREN", c!"VALUES"]

/-- Does the specification have something to print under this tag? -/
def specificationHas (s : Specification) (t : Tag) : Bool :=
  (t == .name c!"TYPE" && (dropEmpty s.specificationType).isSome) || (t == .name c!"CHILDREN" && s.children.isSome) ||
  (t == .name c!"VALUES" && s.values.isSome)

/-- Specifications that survive.  The description and the long name are escaped; the
XML node, if any, has the children for what there is to print. -/
structure SafeSpecification (Γ : Ctx) (s : Specification) : Prop where
  identifier : PlainAttr s.identifier
  description : Opt EscAttr s.description
  lastChange : Opt PlainAttr s.lastChange
  longName : Opt EscAttr s.longName
  type : Opt PlainText s.specificationType
  values : ∀ vs, s.values = some vs → ∀ a ∈ vs, SafeValue Γ a
  children : ∀ hs, s.children = some hs → SafeHierarchies 1 hs
  order : ∀ t, specificationHas s t = true → t ∈ sourceOrder s.xmlNode specificationTags

/-- The order in which the children are printed. -/
def specificationOrder (s : Specification) : List Tag := (sourceOrder s.xmlNode specificationTags).filter (specificationHas s)

/-! ## Attribute definitions -/

/-- Does the default value hold XHTML elements? -/
def definitionUses (a : SpecAttributeDefinition) : Bool :=
  match a.type, a.defaultValue with
  | .xhtml, some (.str v) => v.contains '<'
  | _, _ => false

/-- Default values that survive.  None of them is escaped; an empty `DEFAULT-VALUE` is
read for strings, XHTML and enumerations only; booleans, XHTML and enumerations need
the reference to the definition; XHTML needs a namespace in force. -/
def SafeDefault (Γ : Ctx) (a : SpecAttributeDefinition) : Prop :=
  match a.type, a.defaultValue with
  | _, none => True
  | .string, some .selfClosed | .xhtml, some .selfClosed | .enumeration, some .selfClosed => True
  | _, some .selfClosed => False
  | .boolean, some (.str v) => PlainAttr v ∧ PlainElem a.defaultValueDefinitionRef
  | .enumeration, some (.str v) => PlainElem (some v) ∧ PlainElem a.defaultValueDefinitionRef
  | .xhtml, some (.str v) => SafeXhtml Γ v ∧ Γ.keep ≠ [] ∧ PlainElem a.defaultValueDefinitionRef
  | _, some (.str v) => PlainAttr v

def definitionTags : List Str := [c!"DEFAULT-VALUE", c!"TYPE"]

/-- Attribute definitions that survive: description and long name are escaped, the
rest is not; only enumerations are marked as multi-valued; the XML node, if any, has
the needed children and no others. -/
structure SafeDefinition (Γ : Ctx) (a : SpecAttributeDefinition) : Prop where
  identifier : PlainAttr a.identifier
  description : Opt EscAttr a.description
  lastChange : Opt PlainAttr a.lastChange
  longName : Opt EscAttr a.longName
  type : PlainElem a.datatypeDefinition
  default : SafeDefault Γ a
  multi : a.multiValued.isSome → a.type = .enumeration
  order : (∀ t ∈ sourceOrder a.xmlNode definitionTags, t ∈ definitionTags.map Tag.name) ∧
    .name c!"TYPE" ∈ sourceOrder a.xmlNode definitionTags ∧
    (a.defaultValue.isSome → .name c!"DEFAULT-VALUE" ∈ sourceOrder a.xmlNode definitionTags)

/-- An attribute definition without the link to the XML node. -/
def bareDefinition (a : SpecAttributeDefinition) : SpecAttributeDefinition := { a with xmlNode := none }

/-- The reference to the definition is printed with the default value of booleans,
XHTML and enumerations, otherwise not at all. -/
def keptRef (a : SpecAttributeDefinition) : Option Str :=
  match a.type, a.defaultValue with
  | .boolean, some (.str _) | .enumeration, some (.str _) | .xhtml, some (.str _) => a.defaultValueDefinitionRef
  | _, _ => none

/-- What is read back. -/
def readDefinition (a : SpecAttributeDefinition) : SpecAttributeDefinition :=
  { bareDefinition a with lastChange := dropEmpty a.lastChange, defaultValueDefinitionRef := keptRef a }

/-- The order in which the children are printed. -/
def definitionOrder (a : SpecAttributeDefinition) : List Tag :=
  (sourceOrder a.xmlNode definitionTags).filter (fun t => !(t == .name c!"DEFAULT-VALUE" && a.defaultValue.isNone))

/-! ## Spec types -/

/-- Is there at least one attribute definition? -/
def someDefinition : Option (List SpecAttributeDefinition) → Bool
  | some (_ :: _) => true
  | _ => false

/-- The attribute definitions of a spec type. -/
def SpecType.definitions : SpecType → Option (List SpecAttributeDefinition)
  | .object t => t.attributeDefinitions
  | .relation t => t.attributeDefinitions
  | .specification t => t.specAttributes
  | .relationGroup t => t.attributeDefinitions

/-- Do the default values hold XHTML elements? -/
def specTypeUses (t : SpecType) : Bool := ((SpecType.definitions t).getD []).any definitionUses

/-- Description, time stamp and long name, and which of them are escaped. -/
def SafeSpecTypeAttrs : SpecType → Prop
  | .object t => PlainAttr t.identifier ∧ Opt EscAttr t.description ∧ Opt PlainAttr t.lastChange ∧ Opt EscAttr t.longName
  | .relation t => PlainAttr t.identifier ∧ Opt HtmlAttr t.description ∧ Opt PlainAttr t.lastChange ∧ Opt PlainAttr t.longName ∧
      t.longName.isSome
  | .specification t => PlainAttr t.identifier ∧ Opt PlainAttr t.description ∧ Opt PlainAttr t.lastChange ∧ Opt PlainAttr t.longName ∧
      t.lastChange.isSome ∧ ∀ ds, t.specAttributes = some ds → ∀ d ∈ ds, d.longName.isSome
  | .relationGroup t => PlainAttr t.identifier ∧ Opt HtmlAttr t.description ∧ Opt PlainAttr t.lastChange ∧ Opt PlainAttr t.longName

/-- Spec types that survive.  A relation type needs a long name; a specification type
needs a time stamp and a long name of each attribute definition. -/
structure SafeSpecType (Γ : Ctx) (t : SpecType) : Prop where
  attrs : SafeSpecTypeAttrs t
  definitions : ∀ ds, SpecType.definitions t = some ds → ∀ d ∈ ds, SafeDefinition Γ d

/-- Change the attribute definitions. -/
def mapDefinitions (f : SpecAttributeDefinition → SpecAttributeDefinition) : SpecType → SpecType
  | .object t => .object { t with attributeDefinitions := t.attributeDefinitions.map (·.map f) }
  | .relation t => .relation { t with attributeDefinitions := t.attributeDefinitions.map (·.map f) }
  | .specification t => .specification { t with specAttributes := t.specAttributes.map (·.map f) }
  | .relationGroup t => .relationGroup { t with attributeDefinitions := t.attributeDefinitions.map (·.map f) }

/-- A spec type without the links to XML nodes. -/
def bareSpecType : SpecType → SpecType := mapDefinitions bareDefinition

/-- A relation type as it is printed: an empty tag if it is marked as one and there are
no attribute definitions; an empty list of them is lost then. -/
def printedRelationType (t : RelationType) : RelationType :=
  { t with
    isSelfClosed := t.isSelfClosed && !someDefinition t.attributeDefinitions
    attributeDefinitions := if t.isSelfClosed && !someDefinition t.attributeDefinitions then none else t.attributeDefinitions }

/-- The names of attributes by their identifiers. -/
def attributeNames (ds : List SpecAttributeDefinition) : Dict Str Str :=
  ds.foldl (fun (m : Dict Str Str) d => m.set d.identifier (d.longName.getD [])) []

/-- The same for a specification type, whose map of names is built when reading. -/
def printedSpecificationType (t : SpecificationType) : SpecificationType :=
  { t with
    isSelfClosed := t.isSelfClosed && !someDefinition t.specAttributes
    specAttributes := if t.isSelfClosed && !someDefinition t.specAttributes then none else t.specAttributes
    specAttributeMap := some (attributeNames (t.specAttributes.getD [])) }

/-- What is read back. -/
def readSpecType (t : SpecType) : SpecType :=
  mapDefinitions readDefinition (match t with
    | .object t => .object t
    | .relation t => .relation (printedRelationType t)
    | .specification t => .specification (printedSpecificationType t)
    | .relationGroup t => .relationGroup (printedRelationType t))

end ReqIF.Spec
