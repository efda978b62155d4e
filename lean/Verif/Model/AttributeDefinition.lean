import Verif.Model.Util
/-!
# `parsers/attribute_definition_parser.py`
-/
namespace ReqIF

/-- `attribute_definition.find("TYPE").find(ref_tag).text`, every exception turned
into `NotImplementedError` (`attribute_definition_parser.py` 54-61 and the same in
each branch). -/
def parseDatatypeRef (x : Node) (refTag : Str) : Py (Option Str) :=
  orNotImpl (do
    let t ← findReq x c!"TYPE"
    let r ← findReq t refTag
    return r.text?)

/-- The result of reading `DEFAULT-VALUE`: definition reference and value. -/
abbrev DefaultPart := Option Str × Option DefaultValue

/-- `attribute_definition_parser.py` 63-74: default of a STRING attribute. -/
def parseDefaultString (x : Node) : Py DefaultPart :=
  match x.find c!"DEFAULT-VALUE" with
  | none => .ok (none, none)
  | some d =>
    if isSelfClosedTag d then .ok (none, some .selfClosed)
    else match d.find c!"ATTRIBUTE-VALUE-STRING" with
      | some v => do
        let s ← attrReq v c!"THE-VALUE"
        return (none, some (.str s))
      | none => .error .notImplemented

/-- `attribute_definition_parser.py` 87-93, 106-110, 227-231: default of an INTEGER,
REAL or DATE attribute. -/
def parseDefaultSimple (x : Node) (valueTag : Str) : Py DefaultPart :=
  match x.find c!"DEFAULT-VALUE" with
  | none => .ok (none, none)
  | some d =>
    match d.find valueTag with
    | none => .error .assertion
    | some v => do
      let s ← attrReq v c!"THE-VALUE"
      return (none, some (.str s))

/-- `attribute_definition_parser.py` 123-137: default of a BOOLEAN attribute. -/
def parseDefaultBoolean (x : Node) : Py DefaultPart :=
  match x.find c!"DEFAULT-VALUE" with
  | none => .ok (none, none)
  | some d =>
    match d.find c!"ATTRIBUTE-VALUE-BOOLEAN" with
    | none => .error .assertion
    | some v => do
      let s ← attrReq v c!"THE-VALUE"
      let ref : Option Str :=
        match v.find c!"DEFINITION" with
        | none => none
        | some df =>
          match df.find c!"ATTRIBUTE-DEFINITION-BOOLEAN-REF" with
          | none => none
          | some r => r.text?
      return (ref, some (.str s))

/-- `attribute_definition_parser.py` 150-170 (and 293-311): default of an XHTML attribute. -/
def parseDefaultXhtml (x : Node) : Py DefaultPart :=
  match x.find c!"DEFAULT-VALUE" with
  | none => .ok (none, none)
  | some d =>
    if isSelfClosedTag d then .ok (none, some .selfClosed)
    else match d.find c!"ATTRIBUTE-VALUE-XHTML" with
      | none => .error .notImplemented
      | some v => do
        let ref ← (match v.find c!"DEFINITION" with
          | none => .ok none
          | some df =>
            match df.find c!"ATTRIBUTE-DEFINITION-XHTML-REF" with
            | none => .error .assertion
            | some r => .ok r.text? : Py (Option Str))
        let tv ← findReq v c!"THE-VALUE"
        let s ← stringifyNamespacedChildren tv
        return (ref, some (.str s))

/-- `attribute_definition_parser.py` 191-214: default of an ENUMERATION attribute. -/
def parseDefaultEnumeration (x : Node) : Py DefaultPart :=
  match x.find c!"DEFAULT-VALUE" with
  | none => .ok (none, none)
  | some d =>
    if isSelfClosedTag d then .ok (none, some .selfClosed)
    else match d.find c!"ATTRIBUTE-VALUE-ENUMERATION" with
      | none => .error .notImplemented
      | some v => do
        let ref ← (match v.find c!"DEFINITION" with
          | none => .ok none
          | some df => do
            let r ← findReq df c!"ATTRIBUTE-DEFINITION-ENUMERATION-REF"
            return r.text? : Py (Option Str))
        let value : Option DefaultValue :=
          match v.find c!"VALUES" with
          | none => none
          | some vs =>
            match vs.find c!"ENUM-VALUE-REF" with
            | none => none
            | some r => r.text?.map DefaultValue.str
        return (ref, value)

/-- `attribute_definition_parser.py` 174-181: `MULTI-VALUED`; an empty text counts as absent. -/
def parseMultiValued (x : Node) : Option Bool :=
  match x.attr? c!"MULTI-VALUED" with
  | none => none
  | some s => if s.isEmpty then none else some (s == c!"true")

/-- `attribute_definition_parser.py` 49-234: kind, datatype reference and default value. -/
def parseDefinitionBody (x : Node) :
    Py (AttrType × Option Str × DefaultPart × Option Bool) :=
  if x.tag = .name c!"ATTRIBUTE-DEFINITION-STRING" then do
    let dt ← parseDatatypeRef x c!"DATATYPE-DEFINITION-STRING-REF"
    let dv ← parseDefaultString x
    return (.string, dt, dv, none)
  else if x.tag = .name c!"ATTRIBUTE-DEFINITION-INTEGER" then do
    let dt ← parseDatatypeRef x c!"DATATYPE-DEFINITION-INTEGER-REF"
    let dv ← parseDefaultSimple x c!"ATTRIBUTE-VALUE-INTEGER"
    return (.integer, dt, dv, none)
  else if x.tag = .name c!"ATTRIBUTE-DEFINITION-REAL" then do
    let dt ← parseDatatypeRef x c!"DATATYPE-DEFINITION-REAL-REF"
    let dv ← parseDefaultSimple x c!"ATTRIBUTE-VALUE-REAL"
    return (.real, dt, dv, none)
  else if x.tag = .name c!"ATTRIBUTE-DEFINITION-BOOLEAN" then do
    let dt ← parseDatatypeRef x c!"DATATYPE-DEFINITION-BOOLEAN-REF"
    let dv ← parseDefaultBoolean x
    return (.boolean, dt, dv, none)
  else if x.tag = .name c!"ATTRIBUTE-DEFINITION-XHTML" then do
    let dt ← parseDatatypeRef x c!"DATATYPE-DEFINITION-XHTML-REF"
    let dv ← parseDefaultXhtml x
    return (.xhtml, dt, dv, none)
  else if x.tag = .name c!"ATTRIBUTE-DEFINITION-ENUMERATION" then do
    let dt ← parseDatatypeRef x c!"DATATYPE-DEFINITION-ENUMERATION-REF"
    let dv ← parseDefaultEnumeration x
    return (.enumeration, dt, dv, parseMultiValued x)
  else if x.tag = .name c!"ATTRIBUTE-DEFINITION-DATE" then do
    let dt ← parseDatatypeRef x c!"DATATYPE-DEFINITION-DATE-REF"
    let dv ← parseDefaultSimple x c!"ATTRIBUTE-VALUE-DATE"
    return (.date, dt, dv, none)
  else .error .notImplemented

/-- `attribute_definition_parser.py` 26-248: one attribute definition. -/
def parseAttributeDefinition (x : Node) : Py SpecAttributeDefinition := do
  let identifier ← attrReq x c!"IDENTIFIER"
  let (type, datatypeDefinition, (ref, value), multiValued) ← parseDefinitionBody x
  return { type, identifier, datatypeDefinition, xmlNode := some x,
           description := x.attr? c!"DESC", lastChange := x.attr? c!"LAST-CHANGE",
           longName := x.attr? c!"LONG-NAME", editable := editableOf (x.attr? c!"IS-EDITABLE"),
           defaultValueDefinitionRef := ref, defaultValue := value, multiValued }

/-- `attribute_definition_parser.py` 16-250, `parse_attribute_definitions`. -/
def parseAttributeDefinitions (x : Node) : Py (Option (List SpecAttributeDefinition)) :=
  match x.find c!"SPEC-ATTRIBUTES" with
  | none => .ok none
  | some sa => do
    let ds ← mapPy parseAttributeDefinition sa.children
    return some ds

/-- `attribute_definition_parser.py` 252-325, `parse_xhtml_attribute_definition`. -/
def parseXhtmlAttributeDefinition (x : Node) : Py SpecAttributeDefinition := do
  pyAssert (x.tag == .name c!"ATTRIBUTE-DEFINITION-XHTML")
  let identifier ← attrReq x c!"IDENTIFIER"
  let datatypeDefinition ← parseDatatypeRef x c!"DATATYPE-DEFINITION-XHTML-REF"
  let (ref, value) ← parseDefaultXhtml x
  return { type := .xhtml, identifier, datatypeDefinition, xmlNode := some x,
           description := x.attr? c!"DESC", lastChange := x.attr? c!"LAST-CHANGE",
           longName := x.attr? c!"LONG-NAME", editable := editableOf (x.attr? c!"IS-EDITABLE"),
           defaultValueDefinitionRef := ref, defaultValue := value, multiValued := some false }

/-- `attribute_definition_parser.py` 381-395, `_unparse_attribute_type`. -/
def unparseAttributeType (a : SpecAttributeDefinition) : Str :=
  lineOpen 14 c!"TYPE" ++
  lineElem 16 a.type.definitionTag (fmtOpt a.datatypeDefinition) ++
  lineClose 14 c!"TYPE"

/-- `attribute_definition_parser.py` 397-462, `_unparse_attribute_default_value`. -/
def unparseDefaultValue (a : SpecAttributeDefinition) : DefaultValue → Py Str
  | .selfClosed => .ok (spaces 14 ++ c!"<DEFAULT-VALUE/>\n")
  | .str v =>
    match a.type with
    | .enumeration =>
      match a.defaultValueDefinitionRef with
      | none => .error .assertion
      | some ref => .ok (
        lineOpen 14 c!"DEFAULT-VALUE" ++
        lineOpen 16 a.type.attributeValueTag ++
        lineOpen 18 c!"DEFINITION" ++
        lineElem 20 c!"ATTRIBUTE-DEFINITION-ENUMERATION-REF" ref ++
        lineClose 18 c!"DEFINITION" ++
        lineOpen 18 c!"VALUES" ++
        lineElem 20 c!"ENUM-VALUE-REF" v ++
        lineClose 18 c!"VALUES" ++
        lineClose 16 a.type.attributeValueTag ++
        lineClose 14 c!"DEFAULT-VALUE")
    | .xhtml =>
      match a.defaultValueDefinitionRef with
      | none => .error .assertion
      | some ref => .ok (
        lineOpen 14 c!"DEFAULT-VALUE" ++
        lineOpen 16 c!"ATTRIBUTE-VALUE-XHTML" ++
        lineOpen 18 c!"DEFINITION" ++
        lineElem 20 c!"ATTRIBUTE-DEFINITION-XHTML-REF" ref ++
        lineClose 18 c!"DEFINITION" ++
        lineElem 18 c!"THE-VALUE" v ++
        lineClose 16 c!"ATTRIBUTE-VALUE-XHTML" ++
        lineClose 14 c!"DEFAULT-VALUE")
    | .boolean =>
      match a.defaultValueDefinitionRef with
      | none => .error .assertion
      | some ref => .ok (
        lineOpen 14 c!"DEFAULT-VALUE" ++
        spaces 16 ++ c!"<ATTRIBUTE-VALUE-BOOLEAN" ++ attrOut c!"THE-VALUE" v ++ c!">\n" ++
        lineOpen 18 c!"DEFINITION" ++
        lineElem 20 c!"ATTRIBUTE-DEFINITION-BOOLEAN-REF" ref ++
        lineClose 18 c!"DEFINITION" ++
        lineClose 16 c!"ATTRIBUTE-VALUE-BOOLEAN" ++
        lineClose 14 c!"DEFAULT-VALUE")
    | _ => .ok (
        lineOpen 14 c!"DEFAULT-VALUE" ++
        spaces 16 ++ c!"<" ++ a.type.attributeValueTag ++ attrOut c!"THE-VALUE" v ++ c!"/>\n" ++
        lineClose 14 c!"DEFAULT-VALUE")

/-- `attribute_definition_parser.py` 362-374: one entry of the child-tag loop. -/
def unparseDefinitionChild (a : SpecAttributeDefinition) (t : Tag) : Py Str :=
  if t = .name c!"DEFAULT-VALUE" then
    match a.defaultValue with
    | none => .ok []
    | some dv => unparseDefaultValue a dv
  else if t = .name c!"TYPE" then .ok (unparseAttributeType a)
  else .error .notImplemented

/-- `attribute_definition_parser.py` 356-360: the order of the children. -/
def definitionChildTags (a : SpecAttributeDefinition) : List Tag :=
  match a.xmlNode with
  | some n => childTags n
  | none => [.name c!"DEFAULT-VALUE", .name c!"TYPE"]

/-- `attribute_definition_parser.py` 336-379, `_unparse_attribute_definition`. -/
def unparseAttributeDefinition (a : SpecAttributeDefinition) : Py Str := do
  let body ← concatPy (unparseDefinitionChild a) (definitionChildTags a)
  return spaces 12 ++ c!"<" ++ a.type.specTypeTag ++
    attrOpt c!"DESC" lxmlEscapeForHtml a.description ++
    attrOut c!"IDENTIFIER" a.identifier ++
    attrBool c!"IS-EDITABLE" a.editable ++
    attrTruthy c!"LAST-CHANGE" id a.lastChange ++
    attrOpt c!"LONG-NAME" lxmlEscapeForHtml a.longName ++
    attrBool c!"MULTI-VALUED" a.multiValued ++
    c!">\n" ++ body ++
    lineClose 12 a.type.specTypeTag

/-- `attribute_definition_parser.py` 327-334, `unparse_xhtml_attribute_definition`. -/
def unparseAttributeDefinitions (ds : List SpecAttributeDefinition) : Py Str :=
  concatPy unparseAttributeDefinition ds

end ReqIF
