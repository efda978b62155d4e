import Verif.Model.Util
/-!
# `parsers/data_type_parser.py`
-/
namespace ReqIF

/-- Value of a string of decimal digits with single underscores between digits. -/
def digitsGo : Nat → Bool → Str → Option Nat
  | acc, afterDigit, [] => if afterDigit then some acc else none
  | acc, afterDigit, c :: s =>
    if '0' ≤ c && c ≤ '9' then digitsGo (10 * acc + (c.toNat - 48)) true s
    else if c = '_' && afterDigit then digitsGo acc false s
    else none

/-- `int(s)`; `none` is `ValueError`.  Simplification: only ASCII digits (Python
also accepts other decimal digits). -/
def pyInt (s : Str) : Option Int :=
  match strip s with
  | '-' :: d => (digitsGo 0 false d).map (fun n => -(n : Int))
  | '+' :: d => (digitsGo 0 false d).map (fun n => (n : Int))
  | d => (digitsGo 0 false d).map (fun n => (n : Int))

/-- `f"{n}"` for an `int`. -/
def fmtInt : Int → Str
  | .ofNat n => Nat.toDigits 10 n
  | .negSucc n => '-' :: Nat.toDigits 10 (n + 1)

/-- `parsers/data_type_parser.py` 48-85: one `ENUM-VALUE`. -/
def parseEnumValue (x : Node) : Py EnumValue := do
  let identifier ← attrReq x c!"IDENTIFIER"
  let properties ← findReq x c!"PROPERTIES"
  let embedded ← findReq properties c!"EMBEDDED-VALUE"
  let key ← attrReq embedded c!"KEY"
  return { identifier, key, description := x.attr? c!"DESC", lastChange := x.attr? c!"LAST-CHANGE",
           otherContent := embedded.attr? c!"OTHER-CONTENT", longName := x.attr? c!"LONG-NAME" }

/-- `parsers/data_type_parser.py` 20-168, `DataTypeParser.parse`.
(`properties.find(...)` on a missing `PROPERTIES` and `embedded_value.attrib` on a
missing `EMBEDDED-VALUE` raise `AttributeError`.) -/
def parseDataType (x : Node) : Py DataType := do
  let isDt ← tagContains x c!"DATATYPE-DEFINITION-"
  pyAssert isDt
  let isSelfClosed := isSelfClosedTag x
  let identifier ← attrReq x c!"IDENTIFIER"
  let base : DataTypeBase :=
    { identifier, description := x.attr? c!"DESC", lastChange := x.attr? c!"LAST-CHANGE",
      longName := x.attr? c!"LONG-NAME", isSelfClosed }
  if x.tag = .name c!"DATATYPE-DEFINITION-ENUMERATION" then
    match x.find c!"SPECIFIED-VALUES" with
    | none => return ⟨base, .enumeration none⟩
    | some sv =>
      let values ← mapPy parseEnumValue sv.children
      return ⟨base, .enumeration (some values)⟩
  else if x.tag = .name c!"DATATYPE-DEFINITION-STRING" then
    return ⟨base, .string (x.attr? c!"MAX-LENGTH")⟩
  else if x.tag = .name c!"DATATYPE-DEFINITION-INTEGER" then
    return ⟨base, .integer (x.attr? c!"MAX") (x.attr? c!"MIN")⟩
  else if x.tag = .name c!"DATATYPE-DEFINITION-REAL" then
    match x.attr? c!"ACCURACY" with
    | none => return ⟨base, .real none (x.attr? c!"MAX") (x.attr? c!"MIN")⟩
    | some a =>
      match pyInt a with
      | none => .error .valueError
      | some n => return ⟨base, .real (some n) (x.attr? c!"MAX") (x.attr? c!"MIN")⟩
  else if x.tag = .name c!"DATATYPE-DEFINITION-XHTML" then return ⟨base, .xhtml⟩
  else if x.tag = .name c!"DATATYPE-DEFINITION-DATE" then return ⟨base, .date⟩
  else if x.tag = .name c!"DATATYPE-DEFINITION-BOOLEAN" then return ⟨base, .boolean⟩
  else .error .notImplemented

/-- `if is_self_closed: "/>\n" else: ">\n" + end tag`, common to five branches. -/
def closeOut (selfClosed : Bool) (tag : Str) : Str :=
  if selfClosed then c!"/>\n" else c!">\n" ++ lineClose 8 tag

/-- `parsers/data_type_parser.py` 283-304: one `ENUM-VALUE`. -/
def unparseEnumValue (v : EnumValue) : Str :=
  spaces 12 ++ c!"<ENUM-VALUE" ++
  attrOpt c!"DESC" id v.description ++
  attrOut c!"IDENTIFIER" v.identifier ++
  attrOpt c!"LAST-CHANGE" id v.lastChange ++
  attrOpt c!"LONG-NAME" lxmlEscapeForHtml v.longName ++
  c!">\n" ++
  lineOpen 14 c!"PROPERTIES" ++
  spaces 16 ++ c!"<EMBEDDED-VALUE" ++ attrOut c!"KEY" v.key ++
  attrOpt c!"OTHER-CONTENT" id v.otherContent ++ c!"/>\n" ++
  lineClose 14 c!"PROPERTIES" ++
  lineClose 12 c!"ENUM-VALUE"

/-- `parsers/data_type_parser.py` 279-308: the values of an enumeration. -/
def unparseEnumValues : Option (List EnumValue) → Str
  | none => []
  | some vs =>
    lineOpen 10 c!"SPECIFIED-VALUES" ++ vs.flatMap unparseEnumValue ++ lineClose 10 c!"SPECIFIED-VALUES"

/-- `parsers/data_type_parser.py` 170-350, `DataTypeParser.unparse`. -/
def unparseDataType (d : DataType) : Str :=
  let b := d.base
  match d.kind with
  | .string maxLength =>
    spaces 8 ++ c!"<DATATYPE-DEFINITION-STRING" ++
    attrOpt c!"DESC" lxmlEscapeForHtml b.description ++
    attrOut c!"IDENTIFIER" b.identifier ++
    attrTruthy c!"LAST-CHANGE" id b.lastChange ++
    attrOpt c!"LONG-NAME" lxmlEscapeForHtml b.longName ++
    attrTruthy c!"MAX-LENGTH" id maxLength ++
    closeOut b.isSelfClosed c!"DATATYPE-DEFINITION-STRING"
  | .boolean =>
    spaces 8 ++ c!"<DATATYPE-DEFINITION-BOOLEAN" ++
    attrOpt c!"DESC" lxmlEscapeForHtml b.description ++
    attrOut c!"IDENTIFIER" b.identifier ++
    attrTruthy c!"LAST-CHANGE" id b.lastChange ++
    attrOpt c!"LONG-NAME" lxmlEscapeForHtml b.longName ++
    closeOut b.isSelfClosed c!"DATATYPE-DEFINITION-BOOLEAN"
  | .integer maxValue minValue =>
    spaces 8 ++ c!"<DATATYPE-DEFINITION-INTEGER" ++
    attrOpt c!"DESC" lxmlEscapeForHtml b.description ++
    attrOut c!"IDENTIFIER" b.identifier ++
    attrTruthy c!"LAST-CHANGE" id b.lastChange ++
    attrTruthy c!"LONG-NAME" id b.longName ++
    attrOpt c!"MAX" id maxValue ++
    attrOpt c!"MIN" id minValue ++
    closeOut b.isSelfClosed c!"DATATYPE-DEFINITION-INTEGER"
  | .real accuracy maxValue minValue =>
    spaces 8 ++ c!"<DATATYPE-DEFINITION-REAL" ++
    attrOpt c!"ACCURACY" id (accuracy.map fmtInt) ++
    attrOpt c!"DESC" lxmlEscapeForHtml b.description ++
    attrOut c!"IDENTIFIER" b.identifier ++
    attrOpt c!"LAST-CHANGE" id b.lastChange ++
    attrOpt c!"LONG-NAME" id b.longName ++
    attrOpt c!"MAX" id maxValue ++
    attrOpt c!"MIN" id minValue ++
    c!"/>\n"
  | .enumeration values =>
    spaces 8 ++ c!"<DATATYPE-DEFINITION-ENUMERATION" ++
    attrOpt c!"DESC" lxmlEscapeForHtml b.description ++
    attrOut c!"IDENTIFIER" b.identifier ++
    attrTruthy c!"LAST-CHANGE" id b.lastChange ++
    attrOpt c!"LONG-NAME" lxmlEscapeForHtml b.longName ++
    (if b.isSelfClosed then c!"/>\n" else c!">\n") ++
    unparseEnumValues values ++
    (if b.isSelfClosed then [] else lineClose 8 c!"DATATYPE-DEFINITION-ENUMERATION")
  | .date =>
    spaces 8 ++ c!"<DATATYPE-DEFINITION-DATE" ++
    attrOpt c!"DESC" lxmlEscapeForHtml b.description ++
    attrOut c!"IDENTIFIER" b.identifier ++
    attrTruthy c!"LAST-CHANGE" id b.lastChange ++
    attrTruthy c!"LONG-NAME" id b.longName ++
    closeOut b.isSelfClosed c!"DATATYPE-DEFINITION-DATE"
  | .xhtml =>
    spaces 8 ++ c!"<DATATYPE-DEFINITION-XHTML" ++
    attrOpt c!"DESC" lxmlEscapeForHtml b.description ++
    attrOut c!"IDENTIFIER" b.identifier ++
    attrTruthy c!"LAST-CHANGE" id b.lastChange ++
    attrOpt c!"LONG-NAME" lxmlEscapeForHtml b.longName ++
    closeOut b.isSelfClosed c!"DATATYPE-DEFINITION-XHTML"

end ReqIF
