import Verif.Model.AttributeDefinition
/-!
# `parsers/spec_types/*.py`
-/
namespace ReqIF

/-- `try: x = attributes[key] except Exception: raise NotImplementedError` -/
def attrReqNI (n : Node) (key : Str) : Py Str := orNotImpl (attrReq n key)

/-- `spec_types/spec_object_type_parser.py` 11-40. -/
def parseSpecObjectType (x : Node) : Py SpecObjectType := do
  pyAssert (x.tag == .name c!"SPEC-OBJECT-TYPE")
  let identifier ← attrReqNI x c!"IDENTIFIER"
  let attributeDefinitions ← parseAttributeDefinitions x
  return { identifier, description := x.attr? c!"DESC", lastChange := x.attr? c!"LAST-CHANGE",
           longName := x.attr? c!"LONG-NAME", attributeDefinitions }

/-- `spec_types/spec_relation_type_parser.py` 10-43.  `LONG-NAME` is required here. -/
def parseSpecRelationType (x : Node) : Py RelationType := do
  pyAssert (x.tag == .name c!"SPEC-RELATION-TYPE")
  let identifier ← attrReqNI x c!"IDENTIFIER"
  let longName ← attrReqNI x c!"LONG-NAME"
  let attributeDefinitions ← parseAttributeDefinitions x
  return { identifier, description := x.attr? c!"DESC", lastChange := x.attr? c!"LAST-CHANGE",
           longName := some longName, isSelfClosed := isSelfClosedTag x, attributeDefinitions }

/-- `spec_types/relation_group_type_parser.py` 10-46. -/
def parseRelationGroupType (x : Node) : Py RelationType := do
  pyAssert (x.tag == .name c!"RELATION-GROUP-TYPE")
  let identifier ← attrReqNI x c!"IDENTIFIER"
  let attributeDefinitions ← parseAttributeDefinitions x
  return { identifier, description := x.attr? c!"DESC", lastChange := x.attr? c!"LAST-CHANGE",
           longName := x.attr? c!"LONG-NAME", isSelfClosed := isSelfClosedTag x,
           attributeDefinitions }

/-- `spec_types/specification_type_parser.py` 39-44: the loop filling `attribute_map`. -/
def specAttributeMap : List SpecAttributeDefinition → Dict Str Str → Py (Dict Str Str)
  | [], m => .ok m
  | d :: ds, m =>
    match d.longName with
    | none => .error .assertion
    | some n => specAttributeMap ds (m.set d.identifier n)

/-- `spec_types/specification_type_parser.py` 9-54.  `LAST-CHANGE` is required here. -/
def parseSpecificationType (x : Node) : Py SpecificationType := do
  pyAssert (x.tag == .name c!"SPECIFICATION-TYPE")
  let identifier ← attrReqNI x c!"IDENTIFIER"
  let lastChange ← attrReqNI x c!"LAST-CHANGE"
  let defs ← parseAttributeDefinitions x
  let attrMap ← (match defs with
    | none => .ok []
    | some ds => specAttributeMap ds [])
  return { identifier, description := x.attr? c!"DESC", lastChange := some lastChange,
           longName := x.attr? c!"LONG-NAME", specAttributes := defs,
           specAttributeMap := some attrMap, isSelfClosed := isSelfClosedTag x }

/-- The printed `SPEC-ATTRIBUTES` element, common to the four unparsers. -/
def unparseSpecAttributes : Option (List SpecAttributeDefinition) → Py Str
  | none => .ok []
  | some ds => do
    let body ← unparseAttributeDefinitions ds
    return lineOpen 10 c!"SPEC-ATTRIBUTES" ++ body ++ lineClose 10 c!"SPEC-ATTRIBUTES"

/-- `x is not None and len(x) > 0` -/
def hasAttributes : Option (List SpecAttributeDefinition) → Bool
  | none => false
  | some ds => ds.length > 0

/-- `spec_types/spec_object_type_parser.py` 42-68. -/
def unparseSpecObjectType (t : SpecObjectType) : Py Str := do
  let body ← unparseSpecAttributes t.attributeDefinitions
  return spaces 8 ++ c!"<SPEC-OBJECT-TYPE" ++
    attrOpt c!"DESC" lxmlEscapeForHtml t.description ++
    attrOut c!"IDENTIFIER" t.identifier ++
    attrOpt c!"LAST-CHANGE" id t.lastChange ++
    attrOpt c!"LONG-NAME" lxmlEscapeForHtml t.longName ++
    c!">\n" ++ body ++ lineClose 8 c!"SPEC-OBJECT-TYPE"

/-- `spec_types/spec_relation_type_parser.py` 45-76 and
`spec_types/relation_group_type_parser.py` 48-76: the two differ in the tag only. -/
def unparseRelationType (tag : Str) (t : RelationType) : Py Str :=
  let head := spaces 8 ++ c!"<" ++ tag ++
    attrOpt c!"DESC" htmlEscape t.description ++
    attrOut c!"IDENTIFIER" t.identifier ++
    attrOpt c!"LAST-CHANGE" id t.lastChange ++
    attrOpt c!"LONG-NAME" id t.longName
  if t.isSelfClosed && !hasAttributes t.attributeDefinitions then .ok (head ++ c!"/>\n")
  else do
    let body ← unparseSpecAttributes t.attributeDefinitions
    return head ++ c!">\n" ++ body ++ lineClose 8 tag

/-- `spec_types/specification_type_parser.py` 56-88. -/
def unparseSpecificationType (t : SpecificationType) : Py Str :=
  let head := spaces 8 ++ c!"<SPECIFICATION-TYPE" ++
    attrOpt c!"DESC" id t.description ++
    attrOut c!"IDENTIFIER" t.identifier ++
    attrOpt c!"LAST-CHANGE" id t.lastChange ++
    attrOpt c!"LONG-NAME" id t.longName
  if t.isSelfClosed && !hasAttributes t.specAttributes then .ok (head ++ c!"/>\n")
  else do
    let body ← unparseSpecAttributes t.specAttributes
    return head ++ c!">\n" ++ body ++ lineClose 8 c!"SPECIFICATION-TYPE"

/-- `unparser.py` 64-77: the dispatch over the four kinds. -/
def unparseSpecType : SpecType → Py Str
  | .object t => unparseSpecObjectType t
  | .relation t => unparseRelationType c!"SPEC-RELATION-TYPE" t
  | .specification t => unparseSpecificationType t
  | .relationGroup t => unparseRelationType c!"RELATION-GROUP-TYPE" t

end ReqIF
