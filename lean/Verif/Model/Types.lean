import Verif.Base.Err
import Verif.Xml.Tree
/-!
# The object model (`/repo/reqif/models`)

Python objects are records.  A field is `Option Str` wherever the code can put
`None` there, which includes every field read from an element's text (`.text`
is `None` for an empty element).  Identifiers are read from attributes and are
strings.

The dictionaries built by constructors (`attribute_map`, `values_map`) are
functions of the record: the modelled code never changes the list afterwards.
-/
namespace ReqIF

/-- A Python `dict`: an association list in insertion order without duplicate keys. -/
abbrev Dict (κ ν : Type) := List (κ × ν)

namespace Dict
variable {κ ν : Type} [DecidableEq κ]

/-- `d.get(k)` -/
def get? : Dict κ ν → κ → Option ν
  | [], _ => none
  | (k', v) :: d, k => if k' = k then some v else get? d k

/-- `k in d` -/
def has (d : Dict κ ν) (k : κ) : Bool := (d.get? k).isSome

/-- `d[k] = v`: the value of an existing key is replaced in place. -/
def set : Dict κ ν → κ → ν → Dict κ ν
  | [], k, v => [(k, v)]
  | (k', v') :: d, k, v => if k' = k then (k, v) :: d else (k', v') :: set d k v

/-- `d[k]` -/
def getItem (d : Dict κ ν) (k : κ) : Py ν := orKey (d.get? k)

end Dict

/-- `models/reqif_types.py` 4-11, `SpecObjectAttributeType`. -/
inductive AttrType
  | string | enumeration | integer | real | boolean | date | xhtml
  deriving DecidableEq, Repr

/-- The name of the enum member (`self.name`). -/
def AttrType.pyName : AttrType → Str
  | .string => c!"STRING"
  | .enumeration => c!"ENUMERATION"
  | .integer => c!"INTEGER"
  | .real => c!"REAL"
  | .boolean => c!"BOOLEAN"
  | .date => c!"DATE"
  | .xhtml => c!"XHTML"

/-- `models/reqif_types.py` 13-28, `get_spec_type_tag`. -/
def AttrType.specTypeTag : AttrType → Str
  | .string => c!"ATTRIBUTE-DEFINITION-STRING"
  | .enumeration => c!"ATTRIBUTE-DEFINITION-ENUMERATION"
  | .integer => c!"ATTRIBUTE-DEFINITION-INTEGER"
  | .real => c!"ATTRIBUTE-DEFINITION-REAL"
  | .boolean => c!"ATTRIBUTE-DEFINITION-BOOLEAN"
  | .date => c!"ATTRIBUTE-DEFINITION-DATE"
  | .xhtml => c!"ATTRIBUTE-DEFINITION-XHTML"

/-- `models/reqif_types.py` 30-31, `get_definition_tag`. -/
def AttrType.definitionTag (t : AttrType) : Str :=
  c!"DATATYPE-DEFINITION-" ++ t.pyName ++ c!"-REF"

/-- `models/reqif_types.py` 33-34, `get_attribute_value_tag`. -/
def AttrType.attributeValueTag (t : AttrType) : Str := c!"ATTRIBUTE-VALUE-" ++ t.pyName

/-- `models/reqif_data_type.py` 103-126, `ReqIFEnumValue`. -/
structure EnumValue where
  identifier : Str
  key : Str
  description : Option Str
  lastChange : Option Str
  otherContent : Option Str
  longName : Option Str
  deriving DecidableEq, Repr

/-- The fields all data-type definitions share. -/
structure DataTypeBase where
  identifier : Str
  description : Option Str
  lastChange : Option Str
  longName : Option Str
  isSelfClosed : Bool
  deriving DecidableEq, Repr

/-- What distinguishes the seven kinds. -/
inductive DataTypeKind
  | string (maxLength : Option Str)
  | boolean
  | integer (maxValue minValue : Option Str)
  | real (accuracy : Option Int) (maxValue minValue : Option Str)
  | enumeration (values : Option (List EnumValue))
  | xhtml
  | date
  deriving DecidableEq, Repr

/-- `models/reqif_data_type.py`, the seven `ReqIFDataTypeDefinition...` classes. -/
structure DataType where
  base : DataTypeBase
  kind : DataTypeKind
  deriving DecidableEq, Repr

def DataType.identifier (d : DataType) : Str := d.base.identifier

/-- `models/reqif_data_type.py` 144-147: `values_map`. -/
def enumValuesMap (values : List EnumValue) : Dict Str EnumValue :=
  values.foldl (fun m v => m.set v.identifier v) []

/-- `Union[str, List[str]]` (list elements are element texts). -/
inductive AttrValue
  | str (s : Str)
  | list (l : List (Option Str))
  deriving DecidableEq, Repr

/-- `models/reqif_spec_object.py` 8-23, `SpecObjectAttribute`. -/
structure SpecObjectAttribute where
  type : AttrType
  definitionRef : Option Str
  value : AttrValue
  valueStrippedXhtml : Option Str
  xmlNode : Option Node

/-- `models/reqif_spec_object_type.py` 7-8 and the type of `default_value`
without `None`. -/
inductive DefaultValue
  | selfClosed
  | str (s : Str)
  deriving DecidableEq, Repr

/-- `models/reqif_spec_object_type.py` 12-42, `SpecAttributeDefinition`. -/
structure SpecAttributeDefinition where
  type : AttrType
  identifier : Str
  datatypeDefinition : Option Str
  xmlNode : Option Node
  description : Option Str
  lastChange : Option Str
  longName : Option Str
  editable : Option Bool
  defaultValueDefinitionRef : Option Str
  defaultValue : Option DefaultValue
  multiValued : Option Bool

/-- `models/reqif_spec_object_type.py` 35-37: the constructor's conversion of `editable`. -/
def editableOf (s : Option Str) : Option Bool := s.map (fun t => t == c!"true")

/-- `models/reqif_spec_object_type.py` 62-85, `ReqIFSpecObjectType`. -/
structure SpecObjectType where
  identifier : Str
  description : Option Str
  lastChange : Option Str
  longName : Option Str
  attributeDefinitions : Option (List SpecAttributeDefinition)

/-- `models/reqif_spec_object_type.py` 80-85: `attribute_map`. -/
def SpecObjectType.attributeMap (t : SpecObjectType) : Dict Str SpecAttributeDefinition :=
  match t.attributeDefinitions with
  | none => []
  | some ds => ds.foldl (fun m d => m.set d.identifier d) []

/-- `models/reqif_spec_relation_type.py` and `models/reqif_relation_group_type.py`:
the two classes have the same fields. -/
structure RelationType where
  identifier : Str
  description : Option Str
  lastChange : Option Str
  longName : Option Str
  isSelfClosed : Bool
  attributeDefinitions : Option (List SpecAttributeDefinition)

/-- `models/reqif_specification_type.py` 8-26. -/
structure SpecificationType where
  identifier : Str
  description : Option Str
  lastChange : Option Str
  longName : Option Str
  specAttributes : Option (List SpecAttributeDefinition)
  specAttributeMap : Option (Dict Str Str)
  isSelfClosed : Bool

/-- The union of the four kinds of spec types. -/
inductive SpecType
  | object (t : SpecObjectType)
  | relation (t : RelationType)
  | specification (t : SpecificationType)
  | relationGroup (t : RelationType)

def SpecType.identifier : SpecType → Str
  | .object t => t.identifier
  | .relation t => t.identifier
  | .specification t => t.identifier
  | .relationGroup t => t.identifier

/-- `models/reqif_spec_object.py` 27-49, `ReqIFSpecObject`. -/
structure SpecObject where
  identifier : Str
  attributes : List SpecObjectAttribute
  specObjectType : Option Str
  description : Option Str
  lastChange : Option Str
  longName : Option Str
  xmlNode : Option Node

/-- `models/reqif_spec_object.py` 47-49: `attribute_map`. -/
def SpecObject.attributeMap (o : SpecObject) : Dict (Option Str) SpecObjectAttribute :=
  o.attributes.foldl (fun m a => m.set a.definitionRef a) []

/-- `models/reqif_spec_relation.py`, `ReqIFSpecRelation`. -/
structure SpecRelation where
  identifier : Str
  relationTypeRef : Option Str
  source : Option Str
  target : Option Str
  xmlNode : Option Node
  description : Option Str
  lastChange : Option Str
  longName : Option Str
  valuesAttribute : Option SpecObjectAttribute

/-- `models/reqif_spec_hierarchy.py` 7-42, all fields but `children`. -/
structure HInfo where
  identifier : Str
  specObject : Option Str
  level : Nat
  longName : Option Str
  refThenChildrenOrder : Bool
  lastChange : Option Str
  editable : Option Bool
  isTableInternal : Option Bool
  isSelfClosed : Bool
  xmlNode : Option Node

/-- `models/reqif_spec_hierarchy.py`, `ReqIFSpecHierarchy`.  `leaf`: `children` is
`None`; `node`: `children` is a list. -/
inductive Hierarchy
  | leaf (info : HInfo)
  | node (info : HInfo) (children : List Hierarchy)

namespace Hierarchy

def info : Hierarchy → HInfo
  | leaf i => i
  | node i _ => i

def children : Hierarchy → Option (List Hierarchy)
  | leaf _ => none
  | node _ cs => some cs

/-- The children, none if there is no list. -/
def childList : Hierarchy → List Hierarchy
  | leaf _ => []
  | node _ cs => cs

/-- `models/reqif_spec_hierarchy.py` 44-51, `add_child`: returns the changed node. -/
def addChild (h child : Hierarchy) : Py Hierarchy :=
  if h.info.level + 1 = child.info.level then .ok (.node h.info (h.childList ++ [child]))
  else .error .assertion

/-- `models/reqif_spec_hierarchy.py` 53-55, `calculate_base_level`. -/
def baseLevel (h : Hierarchy) : Py Nat :=
  if h.info.level > 0 then .ok (12 + (h.info.level - 1) * 4) else .error .assertion

end Hierarchy

/-- `models/reqif_specification.py`, `ReqIFSpecification`. -/
structure Specification where
  identifier : Str
  description : Option Str
  lastChange : Option Str
  longName : Option Str
  values : Option (List SpecObjectAttribute)
  specificationType : Option Str
  children : Option (List Hierarchy)
  xmlNode : Option Node

/-- `models/reqif_relation_group.py`, `ReqIFRelationGroup`. -/
structure RelationGroup where
  identifier : Str
  description : Option Str
  lastChange : Option Str
  longName : Option Str
  typeRef : Option Str
  sourceSpecificationRef : Option Str
  targetSpecificationRef : Option Str
  specRelations : Option (List (Option Str))
  isSelfClosed : Bool
  deriving DecidableEq, Repr

/-- `Union[None, str, EmptyTag]` (`models/reqif_reqif_header.py` 8-9, 19). -/
inductive RepositoryId
  | none
  | text (s : Str)
  | emptyTag
  deriving DecidableEq, Repr

/-- `models/reqif_reqif_header.py`, `ReqIFReqIFHeader`. -/
structure Header where
  identifier : Option Str
  comment : Option Str
  creationTime : Option Str
  repositoryId : RepositoryId
  reqIfToolId : Option Str
  reqIfVersion : Option Str
  sourceToolId : Option Str
  title : Option Str
  deriving DecidableEq, Repr

/-- `models/reqif_namespace_info.py`, `ReqIFNamespaceInfo`. -/
structure NamespaceInfo where
  originalReqifTagDump : Option Str
  doctypeIsPresent : Bool
  encoding : Str
  «namespace» : Option Str
  configuration : Option Str
  namespaceId : Option Str
  namespaceXhtml : Option Str
  schemaNamespace : Option Str
  schemaLocation : Option Str
  language : Option Str
  deriving DecidableEq, Repr

/-- `models/reqif_namespace_info.py` 34-50, `empty`. -/
def NamespaceInfo.empty (ns configuration : Option Str) : NamespaceInfo :=
  ⟨none, true, c!"UTF-8", ns, configuration, none, none, none, none, none⟩

/-- `models/reqif_namespace_info.py` 52-65, `create_default`. -/
def NamespaceInfo.createDefault : NamespaceInfo :=
  ⟨none, true, c!"UTF-8", some c!"http://www.omg.org/spec/ReqIF/20110401/reqif.xsd", none, none,
   some c!"http://www.w3.org/1999/xhtml", none, none, none⟩

/-- `models/reqif_req_if_content.py`, `ReqIFReqIFContent`. -/
structure Content where
  dataTypes : Option (List DataType)
  specTypes : Option (List SpecType)
  specObjects : Option (List SpecObject)
  specRelations : Option (List SpecRelation)
  specifications : Option (List Specification)
  specRelationGroups : Option (List RelationGroup)

/-- `object_lookup.py` 8-19.  `parentsDefault`: the parents dictionary is a
`defaultdict(list)` (as `parser.py` 324 builds it), not a plain one (as `empty()`
builds it). -/
structure Lookup where
  dataTypes : Dict Str DataType
  specTypes : Dict Str SpecType
  specObjects : Dict Str SpecObject
  parents : Dict (Option Str) (List (Option Str))
  parentsDefault : Bool

/-- `ReqIFMissingTagException` (`models/error_handling.py` 36-47). -/
structure MissingTag where
  node : Node
  tag : Str

/-- `reqif_bundle.py` 39-53, `ReqIFBundle`.  `coreContent`: `none` is no
`ReqIFCoreContent`, `some none` one without content. -/
structure Bundle where
  namespaceInfo : NamespaceInfo
  header : Option Header
  coreContent : Option (Option Content)
  toolExtensionsTagExists : Bool
  lookup : Lookup
  exceptions : List MissingTag

/-- `object_lookup.py` 21-28, `empty`. -/
def Lookup.empty : Lookup := ⟨[], [], [], [], false⟩

/-- `reqif_bundle.py` 23-37, `create_empty`. -/
def Bundle.createEmpty (ns configuration : Option Str) : Bundle :=
  ⟨NamespaceInfo.empty ns configuration, none, none, false, Lookup.empty, []⟩

end ReqIF
