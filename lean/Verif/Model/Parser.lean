import Verif.Model.DataType
import Verif.Model.Specification
import Verif.Model.Progress
/-!
# `parser.py`

`find`, iteration and `len` on the containers are those of lxml elements: child
nodes without text.
-/
namespace ReqIF

/-- `parser.py` 267-270: one data type. -/
def dataTypeStep (acc : List DataType × Dict Str DataType) (x : Node) :
    Py (List DataType × Dict Str DataType) := do
  let d ← parseDataType x
  return (acc.1 ++ [d], acc.2.set d.identifier d)

/-- `parser.py` 295-307: one spec type; `none` is the skipped comment. -/
def parseSpecType (x : Node) : Py (Option SpecType) :=
  if x.tag = .name c!"SPEC-OBJECT-TYPE" then do
    let t ← parseSpecObjectType x
    return some (.object t)
  else if x.tag = .name c!"SPEC-RELATION-TYPE" then do
    let t ← parseSpecRelationType x
    return some (.relation t)
  else if x.tag = .name c!"SPECIFICATION-TYPE" then do
    let t ← parseSpecificationType x
    return some (.specification t)
  else if x.tag = .name c!"RELATION-GROUP-TYPE" then do
    let t ← parseRelationGroupType x
    return some (.relationGroup t)
  else if isCommentNode x then .ok none
  else .error .notImplemented

/-- `parser.py` 286-309: the body of the spec-type loop. -/
def specTypeStep (acc : List SpecType × Dict Str SpecType) (x : Node) :
    Py (List SpecType × Dict Str SpecType) := do
  match ← parseSpecType x with
  | none => return acc
  | some t => return (acc.1 ++ [t], acc.2.set t.identifier t)

/-- `parser.py` 316-320: the body of the specification loop. -/
def specificationStep (acc : List Specification) (x : Node) : Py (List Specification) := do
  let s ← parseSpecification x
  return acc ++ [s]

/-- What the relation loop collects. -/
structure RelationAcc where
  relations : List SpecRelation
  parents : Dict (Option Str) (List (Option Str))
  errors : List MissingTag

/-- `defaultdict(list)`: `d[k].append(v)` -/
def appendParent (d : Dict (Option Str) (List (Option Str))) (k v : Option Str) :
    Dict (Option Str) (List (Option Str)) :=
  d.set k ((d.get? k).getD [] ++ [v])

/-- `parser.py` 329-346: the body of the relation loop.  Line 345 computes the
description of a missing-tag error, which prints the element and can raise
(the text printed, a log message, is not modelled). -/
def relationStep (acc : RelationAcc) (x : Node) : Py RelationAcc := do
  match ← parseSpecRelation x with
  | .ok r => return { acc with relations := acc.relations ++ [r],
                               parents := appendParent acc.parents r.source r.target }
  | .error e =>
    let _ ← stringifyNode false e.node
    return { acc with errors := acc.errors ++ [e] }

/-- `parser.py` 354-361: the body of the spec-object loop. -/
def specObjectStep (acc : List SpecObject × Dict Str SpecObject) (x : Node) :
    Py (List SpecObject × Dict Str SpecObject) :=
  if isCommentNode x then .ok acc
  else do
    let o ← parseSpecObject x
    return (acc.1 ++ [o], acc.2.set o.identifier o)

/-- `parser.py` 370-374: the body of the relation-group loop. -/
def relationGroupStep (acc : List RelationGroup) (x : Node) : Py (List RelationGroup) := do
  let g ← parseRelationGroup x
  return acc ++ [g]

/-- `if container is not None: for ...`; `none` if the container is absent. -/
def parseContainer {σ β : Type} (progress : Option (Callback σ)) (content : Node) (tag : Str)
    (body : β → Node → Py β) (init : β) : M σ (Option β) :=
  match content.find tag with
  | none => M.pure none
  | some x => M.bind (trackedLoop progress tag body init x.children) (fun b => M.pure (some b))

/-- `parser.py` 253-390, `_parse_reqif_content`.  (The two assertions hold at the
only call.  The test of `len` in 368 makes no difference: the loop over an empty
container does nothing.) -/
def parseContent {σ : Type} (progress : Option (Callback σ)) (x : Node) :
    M σ (Content × Lookup × List MissingTag) :=
  M.bind (parseContainer progress x c!"DATATYPES" dataTypeStep ([], [])) fun dts =>
  M.bind (parseContainer progress x c!"SPEC-TYPES" specTypeStep ([], [])) fun sts =>
  M.bind (parseContainer progress x c!"SPECIFICATIONS" specificationStep []) fun sps =>
  M.bind (parseContainer progress x c!"SPEC-RELATIONS" relationStep ⟨[], [], []⟩) fun rels =>
  M.bind (parseContainer progress x c!"SPEC-OBJECTS" specObjectStep ([], [])) fun objs =>
  M.bind (parseContainer progress x c!"SPEC-RELATION-GROUPS" relationGroupStep []) fun groups =>
  M.pure (
    { dataTypes := dts.map (·.1), specTypes := sts.map (·.1), specObjects := objs.map (·.1),
      specRelations := rels.map (·.relations), specifications := sps, specRelationGroups := groups },
    { dataTypes := (dts.map (·.2)).getD [], specTypes := (sts.map (·.2)).getD [],
      specObjects := (objs.map (·.2)).getD [], parents := (rels.map (·.parents)).getD [],
      parentsDefault := true },
    (rels.map (·.errors)).getD [])

/-- `parser.py` 134-140: the root, after stripping if there is a default namespace. -/
def strippedRoot (root : Node) : Py Node :=
  match root.nsmap.get? none with
  | some _ => stripNamespace false root
  | none => .ok root

/-- The text of the root's start tag (`parser.py` 159-173). -/
def tagDumpOf : Node → Str
  | .elem i _ => rootTagDump i
  | _ => []

/-- `parser.py` 108-132 and 175-196: the namespace information. -/
def namespaceInfoOf (d : Doc) (nons : Node) : NamespaceInfo :=
  let m := d.root.nsmap
  let schemaNamespace := m.get? (some c!"xsi")
  { originalReqifTagDump := some (tagDumpOf d.root),
    doctypeIsPresent := d.decl.isSome,
    encoding := (d.decl.bind (·.encoding)).getD c!"UTF-8",
    «namespace» := m.get? none,
    configuration := m.get? (some c!"configuration"),
    namespaceId := m.get? (some c!"id"),
    namespaceXhtml := m.get? (some c!"xhtml"),
    schemaNamespace,
    schemaLocation :=
      match schemaNamespace with
      | none => none
      | some u => if u.isEmpty then none else nons.attr? (clark (some u) c!"schemaLocation"),
    language := nons.attr? (clark (some xmlNs) c!"lang") }

/-- The name in a tag (an element's tag is always a name). -/
def tagName : Tag → Str
  | .name s => s
  | _ => []

/-- `if x is not None: f(x)` -/
def optPy {α β : Type} (f : α → Py β) : Option α → Py (Option β)
  | none => .ok none
  | some a =>
    match f a with
    | .error e => .error e
    | .ok b => .ok (some b)

/-- `parser.py` 218-236: the core content. -/
def parseCore {σ : Type} (progress : Option (Callback σ)) (root : Node) :
    M σ (Option (Option Content) × Lookup × List MissingTag) :=
  match root.find c!"CORE-CONTENT" with
  | none => M.pure (none, Lookup.empty, [])
  | some c =>
    match c.find c!"REQ-IF-CONTENT" with
    | none => M.pure (some none, Lookup.empty, [])
    | some x => M.bind (parseContent progress x) fun r => M.pure (some (some r.1), r.2.1, r.2.2)

/-- `parser.py` 104-251, `_parse_reqif`.  (Lines 141-142 and 200-203 cannot be
reached with a root element whose tag has been checked.) -/
def parseReqif {σ : Type} (progress : Option (Callback σ)) (d : Doc) : M σ Bundle :=
  M.bind (M.lift (strippedRoot d.root)) fun root =>
  if root.tag = .name c!"REQ-IF" then
    if root.len = 0 then
      M.pure (Bundle.createEmpty (d.root.nsmap.get? none)
        (d.root.nsmap.get? (some c!"configuration")))
    else
      M.bind (M.lift (optPy parseHeader (root.find c!"THE-HEADER"))) fun header =>
      M.bind (parseCore progress root) fun r =>
      M.pure
        { namespaceInfo := namespaceInfoOf d root, header, coreContent := r.1,
          toolExtensionsTagExists := (root.find c!"TOOL-EXTENSIONS").isSome,
          lookup := r.2.1, exceptions := r.2.2 }
  else M.lift (.error (.xmlParsing (.wrongRoot (tagName root.tag))))

/-- `parser.py` 81-102, `ReqIFParser.parse_from_string`. -/
def parseFromString {σ : Type} (progress : Option (Callback σ)) (content : Str) : M σ Bundle :=
  if content.length = 0 then M.lift (.error (.xmlParsing .emptyDocument))
  else
    match readDoc content with
    | none => M.lift (.error (.xmlParsing .notWellFormed))
    | some d => parseReqif progress d

/-- `parse_from_string(content)` without a callback. -/
def parseString (content : Str) : Py Bundle :=
  (parseFromString (none : Option (Callback Unit)) content ()).1

end ReqIF
