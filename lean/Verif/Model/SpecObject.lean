import Verif.Model.AttributeValue
import Verif.Model.SpecType
/-!
# `parsers/spec_object_parser.py`, `spec_relation_parser.py`,
`relation_group_parser.py`, `header_parser.py`
-/
namespace ReqIF

/-- `parsers/spec_object_parser.py` 14-50. -/
def parseSpecObject (x : Node) : Py SpecObject := do
  let isSo ← tagContains x c!"SPEC-OBJECT"
  pyAssert isSo
  let identifier ← attrReqNI x c!"IDENTIFIER"
  let t ← findReq x c!"TYPE"
  let r ← findReq t c!"SPEC-OBJECT-TYPE-REF"
  let attrs ← parseAttributeValues (x.find c!"VALUES")
  return { identifier, attributes := attrs.getD [], specObjectType := r.text?,
           description := x.attr? c!"DESC", lastChange := x.attr? c!"LAST-CHANGE",
           longName := x.attr? c!"LONG-NAME", xmlNode := some x }

/-- `parsers/spec_object_parser.py` 89-100, `_unparse_spec_object_type`. -/
def unparseSpecObjectTypeRef (o : SpecObject) : Str :=
  lineOpen 10 c!"TYPE" ++ lineElem 12 c!"SPEC-OBJECT-TYPE-REF" (fmtOpt o.specObjectType) ++
  lineClose 10 c!"TYPE"

/-- `parsers/spec_object_parser.py` 68-73: the order of the children. -/
def specObjectChildTags (o : SpecObject) : Py (List Tag) :=
  match o.xmlNode with
  | none => .ok [.name c!"VALUES", .name c!"TYPE"]
  | some n => do
    pyAssert ((childTags n).contains (.name c!"VALUES"))
    pyAssert ((childTags n).contains (.name c!"TYPE"))
    return childTags n

/-- `parsers/spec_object_parser.py` 75-83: one entry of the child-tag loop (unknown
tags are logged and skipped). -/
def unparseSpecObjectChild (o : SpecObject) (t : Tag) : Py Str :=
  if t = .name c!"VALUES" then unparseAttributeValues (some o.attributes)
  else if t = .name c!"TYPE" then .ok (unparseSpecObjectTypeRef o)
  else .ok []

/-- `parsers/spec_object_parser.py` 52-87. -/
def unparseSpecObject (o : SpecObject) : Py Str := do
  let tags ← specObjectChildTags o
  let body ← concatPy (unparseSpecObjectChild o) tags
  return spaces 8 ++ c!"<SPEC-OBJECT" ++
    attrOpt c!"DESC" id o.description ++
    attrOut c!"IDENTIFIER" o.identifier ++
    attrTruthy c!"LAST-CHANGE" id o.lastChange ++
    attrOpt c!"LONG-NAME" id o.longName ++
    c!">\n" ++ body ++ lineClose 8 c!"SPEC-OBJECT"

/-- `parsers/spec_relation_parser.py` 57-85: the first attribute value. -/
def parseRelationValues : Option Node → Py (Option SpecObjectAttribute)
  | none => .ok none
  | some vs =>
    match vs.children with
    | [] => .ok none
    | x :: _ =>
      if x.tag = .name c!"ATTRIBUTE-VALUE-STRING" then do
        let value ← attrReq x c!"THE-VALUE"
        let d ← firstChild x
        let ref ← firstChild d
        return some ⟨.string, ref.text?, .str value, none, some x⟩
      else if x.tag = .name c!"ATTRIBUTE-VALUE-XHTML" then do
        let a ← parseXhtmlAttributeValue x
        return some a
      else if x.tag = .name c!"ATTRIBUTE-VALUE-INTEGER" then do
        let value ← attrReq x c!"THE-VALUE"
        let d ← firstChild x
        let ref ← firstChild d
        return some ⟨.integer, ref.text?, .str value, none, some x⟩
      else .error .notImplemented

/-- `parsers/spec_relation_parser.py` 14-98.  The inner `error` is
`ReqIFMissingTagException`, which the caller catches. -/
def parseSpecRelation (x : Node) : Py (Except MissingTag SpecRelation) := do
  pyAssert (x.tag == .name c!"SPEC-RELATION")
  pyAssert ((childTags x).contains (.name c!"TYPE"))
  if !(childTags x).contains (.name c!"SOURCE") then return .error ⟨x, c!"SOURCE"⟩
  else if !(childTags x).contains (.name c!"TARGET") then return .error ⟨x, c!"TARGET"⟩
  else
    pyAssert (x.attr? c!"IDENTIFIER").isSome
    let identifier ← attrReq x c!"IDENTIFIER"
    let t ← findReq x c!"TYPE"
    let tr ← findReq t c!"SPEC-RELATION-TYPE-REF"
    let s ← findReq x c!"SOURCE"
    let sr ← findReq s c!"SPEC-OBJECT-REF"
    let g ← findReq x c!"TARGET"
    let gr ← findReq g c!"SPEC-OBJECT-REF"
    let values ← parseRelationValues (x.find c!"VALUES")
    return .ok
      { identifier, relationTypeRef := tr.text?, source := sr.text?, target := gr.text?,
        xmlNode := some x, description := x.attr? c!"DESC", lastChange := x.attr? c!"LAST-CHANGE",
        longName := x.attr? c!"LONG-NAME", valuesAttribute := values }

/-- `parsers/spec_relation_parser.py` 112-116: the order of the children. -/
def specRelationChildTags (r : SpecRelation) : List Tag :=
  match r.xmlNode with
  | some n => childTags n
  | none => [.name c!"TYPE", .name c!"SOURCE", .name c!"TARGET", .name c!"VALUES"]

/-- `parsers/spec_relation_parser.py` 117-134 and 139-172: one entry of the child-tag loop. -/
def unparseSpecRelationChild (r : SpecRelation) (t : Tag) : Py Str :=
  if t = .name c!"TYPE" then
    .ok (lineOpen 10 c!"TYPE" ++ lineElem 12 c!"SPEC-RELATION-TYPE-REF" (fmtOpt r.relationTypeRef) ++
      lineClose 10 c!"TYPE")
  else if t = .name c!"SOURCE" then
    .ok (lineOpen 10 c!"SOURCE" ++ lineElem 12 c!"SPEC-OBJECT-REF" (fmtOpt r.source) ++
      lineClose 10 c!"SOURCE")
  else if t = .name c!"TARGET" then
    .ok (lineOpen 10 c!"TARGET" ++ lineElem 12 c!"SPEC-OBJECT-REF" (fmtOpt r.target) ++
      lineClose 10 c!"TARGET")
  else if t = .name c!"VALUES" then
    match r.valuesAttribute with
    | none => .ok []
    | some a => unparseAttributeValues (some [a])
  else .error .notImplemented

/-- `parsers/spec_relation_parser.py` 100-137. -/
def unparseSpecRelation (r : SpecRelation) : Py Str := do
  let body ← concatPy (unparseSpecRelationChild r) (specRelationChildTags r)
  return spaces 8 ++ c!"<SPEC-RELATION" ++
    attrOpt c!"DESC" id r.description ++
    attrOut c!"IDENTIFIER" r.identifier ++
    attrOpt c!"LAST-CHANGE" id r.lastChange ++
    attrOpt c!"LONG-NAME" htmlEscape r.longName ++
    c!">\n" ++ body ++ lineClose 8 c!"SPEC-RELATION"

/-- `x.find(outer)`, then `.find(inner)`, then `.text`, `None` if one is missing
(`relation_group_parser.py` 39-58 three times, `specification_parser.py` 40-47). -/
def optRef (x : Node) (outer inner : Str) : Option Str :=
  match x.find outer with
  | none => none
  | some t =>
    match t.find inner with
    | none => none
    | some r => r.text?

/-- `parsers/relation_group_parser.py` 7-70. -/
def parseRelationGroup (x : Node) : Py RelationGroup := do
  let isRg ← tagContains x c!"RELATION-GROUP"
  pyAssert isRg
  let identifier ← attrReqNI x c!"IDENTIFIER"
  return { identifier, description := x.attr? c!"DESC", lastChange := x.attr? c!"LAST-CHANGE",
           longName := x.attr? c!"LONG-NAME",
           specRelations := (x.find c!"SPEC-RELATIONS").map (fun s => s.children.map Node.text?),
           typeRef := optRef x c!"TYPE" c!"RELATION-GROUP-TYPE-REF",
           sourceSpecificationRef := optRef x c!"SOURCE-SPECIFICATION" c!"SPECIFICATION-REF",
           targetSpecificationRef := optRef x c!"TARGET-SPECIFICATION" c!"SPECIFICATION-REF",
           isSelfClosed := false }

/-- A reference printed inside its container, if not `None`. -/
def unparseOptRef (outer inner : Str) : Option Str → Str
  | none => []
  | some v => lineOpen 10 outer ++ lineElem 12 inner v ++ lineClose 10 outer

/-- `parsers/relation_group_parser.py` 72-126. -/
def unparseRelationGroup (g : RelationGroup) : Str :=
  spaces 8 ++ c!"<RELATION-GROUP" ++
  attrOpt c!"DESC" id g.description ++
  attrOut c!"IDENTIFIER" g.identifier ++
  attrOpt c!"LAST-CHANGE" id g.lastChange ++
  attrTruthy c!"LONG-NAME" id g.longName ++
  c!">\n" ++
  (match g.specRelations with
   | none => []
   | some rs => lineOpen 10 c!"SPEC-RELATIONS" ++
     rs.flatMap (fun r => lineElem 12 c!"SPEC-RELATION-REF" (fmtOpt r)) ++
     lineClose 10 c!"SPEC-RELATIONS") ++
  unparseOptRef c!"TYPE" c!"RELATION-GROUP-TYPE-REF" g.typeRef ++
  unparseOptRef c!"SOURCE-SPECIFICATION" c!"SPECIFICATION-REF" g.sourceSpecificationRef ++
  unparseOptRef c!"TARGET-SPECIFICATION" c!"SPECIFICATION-REF" g.targetSpecificationRef ++
  lineClose 8 c!"RELATION-GROUP"

/-- `x.find(tag)`, then `.text`, `None` if missing. -/
def optText (x : Node) (tag : Str) : Option Str :=
  match x.find tag with
  | none => none
  | some t => t.text?

/-- `parsers/header_parser.py` 8-70. -/
def parseHeader (x : Node) : Py Header := do
  pyAssert (x.tag == .name c!"THE-HEADER")
  match x.find c!"REQ-IF-HEADER" with
  | none => .error .notImplemented
  | some h =>
    let identifier ← attrReqNI h c!"IDENTIFIER"
    let repositoryId : RepositoryId :=
      match h.find c!"REPOSITORY-ID" with
      | none => .none
      | some r => match r.text? with
        | some s => .text s
        | none => .emptyTag
    return { identifier := some identifier, comment := optText h c!"COMMENT",
             creationTime := optText h c!"CREATION-TIME", repositoryId,
             reqIfToolId := optText h c!"REQ-IF-TOOL-ID", reqIfVersion := optText h c!"REQ-IF-VERSION",
             sourceToolId := optText h c!"SOURCE-TOOL-ID", title := optText h c!"TITLE" }

/-- `if x: output += f"      <TAG>{f(x)}</TAG>\n"` -/
def headerLine (tag : Str) (f : Str → Str) : Option Str → Str
  | none => []
  | some v => if v.isEmpty then [] else lineElem 6 tag (f v)

/-- `parsers/header_parser.py` 87-93: the repository id. -/
def repositoryIdOut : RepositoryId → Str
  | .none => []
  | .text s => lineElem 6 c!"REPOSITORY-ID" s
  | .emptyTag => spaces 6 ++ c!"<REPOSITORY-ID/>\n"

/-- `parsers/header_parser.py` 72-115. -/
def unparseHeader (h : Header) : Py Str :=
  match h.identifier with
  | none => .error .notImplemented
  | some i =>
    if i.isEmpty then .error .notImplemented
    else .ok (
      lineOpen 2 c!"THE-HEADER" ++
      spaces 4 ++ c!"<REQ-IF-HEADER" ++ attrOut c!"IDENTIFIER" i ++ c!">\n" ++
      headerLine c!"COMMENT" id h.comment ++
      headerLine c!"CREATION-TIME" id h.creationTime ++
      repositoryIdOut h.repositoryId ++
      headerLine c!"REQ-IF-TOOL-ID" id h.reqIfToolId ++
      headerLine c!"REQ-IF-VERSION" id h.reqIfVersion ++
      headerLine c!"SOURCE-TOOL-ID" id h.sourceToolId ++
      headerLine c!"TITLE" lxmlEscapeTitle h.title ++
      lineClose 4 c!"REQ-IF-HEADER" ++
      lineClose 2 c!"THE-HEADER")

end ReqIF
