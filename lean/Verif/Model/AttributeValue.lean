import Verif.Model.Util
/-!
# `parsers/attribute_value_parser.py`
-/
namespace ReqIF

/-- `parsers/attribute_value_parser.py` 282-309, `parse_xhtml_attribute_value`.
(The assertion on the tag holds at both call sites, which have compared the tag.) -/
def parseXhtmlAttributeValue (x : Node) : Py SpecObjectAttribute := do
  let theValue ← findReq x c!"THE-VALUE"
  if theValue.nsmap.length > 0 then
    let value ← stringifyNamespacedChildren theValue
    let stripped ← convertChildrenFromReqifNs theValue
    let d ← findReq x c!"DEFINITION"
    let ref ← findReq d c!"ATTRIBUTE-DEFINITION-XHTML-REF"
    return ⟨.xhtml, ref.text?, .str value, some (reqifUnindentXhtmlString stripped), some x⟩
  else
    let value ← stringifyChildren theValue
    let d ← findReq x c!"DEFINITION"
    let ref ← findReq d c!"ATTRIBUTE-DEFINITION-XHTML-REF"
    return ⟨.xhtml, ref.text?, .str value, some (reqifUnindentXhtmlString value), some x⟩

/-- `attribute_value_parser.py` 133-181: the branches for INTEGER, REAL, BOOLEAN
and DATE differ in the tag names only. -/
def parseSimpleValue (x : Node) (t : AttrType) (refTag : Str) : Py SpecObjectAttribute := do
  let value ← attrReq x c!"THE-VALUE"
  let d ← findReq x c!"DEFINITION"
  let ref ← findReq d refTag
  return ⟨t, ref.text?, .str value, none, some x⟩

/-- `attribute_value_parser.py` 102-188: one attribute value (not a comment). -/
def parseAttributeValue (x : Node) : Py SpecObjectAttribute :=
  if x.tag = .name c!"ATTRIBUTE-VALUE-STRING" then do
    let value ← attrReq x c!"THE-VALUE"
    let d ← firstChild x
    let ref ← firstChild d
    return ⟨.string, ref.text?, .str value, none, some x⟩
  else if x.tag = .name c!"ATTRIBUTE-VALUE-ENUMERATION" then do
    let d ← findReq x c!"DEFINITION"
    let ref ← findReq d c!"ATTRIBUTE-DEFINITION-ENUMERATION-REF"
    match x.find c!"VALUES" with
    | none => .error .assertion
    | some vs => return ⟨.enumeration, ref.text?, .list (vs.children.map Node.text?), none, some x⟩
  else if x.tag = .name c!"ATTRIBUTE-VALUE-INTEGER" then
    parseSimpleValue x .integer c!"ATTRIBUTE-DEFINITION-INTEGER-REF"
  else if x.tag = .name c!"ATTRIBUTE-VALUE-REAL" then
    parseSimpleValue x .real c!"ATTRIBUTE-DEFINITION-REAL-REF"
  else if x.tag = .name c!"ATTRIBUTE-VALUE-BOOLEAN" then
    parseSimpleValue x .boolean c!"ATTRIBUTE-DEFINITION-BOOLEAN-REF"
  else if x.tag = .name c!"ATTRIBUTE-VALUE-DATE" then
    parseSimpleValue x .date c!"ATTRIBUTE-DEFINITION-DATE-REF"
  else if x.tag = .name c!"ATTRIBUTE-VALUE-XHTML" then parseXhtmlAttributeValue x
  else .error .notImplemented

/-- `attribute_value_parser.py` 91-194, `parse_attribute_values`. -/
def parseAttributeValues : Option Node → Py (Option (List SpecObjectAttribute))
  | none => .ok none
  | some x => do
    let vs ← mapPy parseAttributeValue (x.children.filter (fun c => !isCommentNode c))
    return some vs

/-- `attribute_value_parser.py` 16-38, 64-87: the templates for a value printed
in an attribute, with the definition reference below. -/
def simpleValueTemplate (name value ref : Str) : Str :=
  spaces 12 ++ c!"<ATTRIBUTE-VALUE-" ++ name ++ attrOut c!"THE-VALUE" value ++ c!">\n" ++
  lineOpen 14 c!"DEFINITION" ++
  lineElem 16 (c!"ATTRIBUTE-DEFINITION-" ++ name ++ c!"-REF") ref ++
  lineClose 14 c!"DEFINITION" ++
  lineClose 12 (c!"ATTRIBUTE-VALUE-" ++ name)

/-- `attribute_value_parser.py` 40-62 and 227-265: an enumeration value.  `values`
is the right-stripped list of references. -/
def enumerationTemplate (valuesFirst : Bool) (values ref : Str) : Str :=
  let v := lineOpen 14 c!"VALUES" ++ values ++ c!"\n" ++ lineClose 14 c!"VALUES"
  let d := lineOpen 14 c!"DEFINITION" ++
    lineElem 16 c!"ATTRIBUTE-DEFINITION-ENUMERATION-REF" ref ++ lineClose 14 c!"DEFINITION"
  lineOpen 12 c!"ATTRIBUTE-VALUE-ENUMERATION" ++
  (if valuesFirst then v ++ d else d ++ v) ++
  lineClose 12 c!"ATTRIBUTE-VALUE-ENUMERATION"

/-- `attribute_value_parser.py` 73-80: the XHTML template. -/
def xhtmlTemplate (value ref : Str) : Str :=
  lineOpen 12 c!"ATTRIBUTE-VALUE-XHTML" ++
  lineOpen 14 c!"DEFINITION" ++
  lineElem 16 c!"ATTRIBUTE-DEFINITION-XHTML-REF" ref ++
  lineClose 14 c!"DEFINITION" ++
  lineElem 14 c!"THE-VALUE" value ++
  lineClose 12 c!"ATTRIBUTE-VALUE-XHTML"

/-- `list.index(tag)`; `none` is `ValueError`. -/
def tagIndex (t : Str) (l : List Tag) : Option Nat := l.findIdx? (· == .name t)

/-- `attribute_value_parser.py` 227-239: are the values printed before the definition? -/
def valuesBeforeDefinition (a : SpecObjectAttribute) : Py Bool :=
  match a.xmlNode with
  | none => .ok true
  | some n =>
    match tagIndex c!"VALUES" (childTags n), tagIndex c!"DEFINITION" (childTags n) with
    | some i, some j => .ok (i < j)
    | _, _ => .error .valueError

/-- `attribute_value_parser.py` 207-276: one attribute value. -/
def unparseAttributeValue (a : SpecObjectAttribute) : Py Str :=
  match a.type with
  | .string =>
    match a.value with
    | .str v => .ok (simpleValueTemplate c!"STRING" (htmlEscape v) (fmtOpt a.definitionRef))
    | .list _ => .error .assertion
  | .integer =>
    match a.value with
    | .str v => .ok (simpleValueTemplate c!"INTEGER" v (fmtOpt a.definitionRef))
    | .list _ => .error .assertion
  | .real =>
    match a.value with
    | .str v => .ok (simpleValueTemplate c!"REAL" v (fmtOpt a.definitionRef))
    | .list _ => .error .assertion
  | .enumeration => do
    let valuesFirst ← valuesBeforeDefinition a
    match a.value with
    | .str _ => .error .assertion
    | .list vs =>
      return enumerationTemplate valuesFirst
        (rstrip (vs.flatMap (fun v => lineElem 16 c!"ENUM-VALUE-REF" (fmtOpt v)))) (fmtOpt a.definitionRef)
  | .date =>
    match a.value with
    | .str v => .ok (simpleValueTemplate c!"DATE" v (fmtOpt a.definitionRef))
    | .list _ => .error .assertion
  | .xhtml =>
    match a.value with
    | .str v => .ok (xhtmlTemplate v (fmtOpt a.definitionRef))
    | .list _ => .error .assertion
  | .boolean =>
    match a.value with
    | .str v => .ok (simpleValueTemplate c!"BOOLEAN" v (fmtOpt a.definitionRef))
    | .list _ => .error .assertion

/-- `attribute_value_parser.py` 196-280, `unparse_attribute_values`. -/
def unparseAttributeValues : Option (List SpecObjectAttribute) → Py Str
  | none => .ok []
  | some [] => .ok (spaces 10 ++ c!"<VALUES/>\n")
  | some vs => do
    let body ← concatPy unparseAttributeValue vs
    return lineOpen 10 c!"VALUES" ++ body ++ lineClose 10 c!"VALUES"

/-- `attribute_value_parser.py` 311-319, `unparse_xhtml_attribute_value`. -/
def unparseXhtmlAttributeValue (a : SpecObjectAttribute) : Py Str :=
  match a.value with
  | .str v => .ok (xhtmlTemplate v (fmtOpt a.definitionRef))
  | .list _ => .error .assertion

end ReqIF
