import Verif.Model.Commands
/-!
# The dump command (`commands/dump/dump.py` and its template `index.jinja.html`)

The template is rendered without autoescaping (`dump.py` 8-11: the default of
`jinja2.Environment`), so `{{ x }}` prints `str(x)`.  Block tags leave the text around
them alone, a comment is removed, and the newline at the end of the template is dropped
(jinja's defaults).  `repr` is Python's `repr` of a string, which `str` of a list uses.
-/
namespace ReqIF.Dump

/-- `index.jinja.html` 1-38 -/
def pageHead : Str :=
  c!"<!DOCTYPE html>\n" ++
  c!"<html lang=\"en\">\n" ++
  c!"\n" ++
  c!"<head>\n" ++
  c!"  <meta charset=\"UTF-8\"/>\n" ++
  c!"  \n" ++
  c!"  \n" ++
  c!"  \n" ++
  c!"  <title>...</title>\n" ++
  c!"\n" ++
  c!"  <style>\n" ++
  c!"    table {\n" ++
  c!"      margin: 10px;\n" ++
  c!"      border-collapse: collapse;\n" ++
  c!"    }\n" ++
  c!"    td {\n" ++
  c!"      border: 1px #bbb solid;\n" ++
  c!"    }\n" ++
  c!"    .level-2 {\n" ++
  c!"      margin-left: 20px;\n" ++
  c!"    }\n" ++
  c!"    .level-3 {\n" ++
  c!"      margin-left: 40px;\n" ++
  c!"    }\n" ++
  c!"    .level-4 {\n" ++
  c!"      margin-left: 60px;\n" ++
  c!"    }\n" ++
  c!"    .level-5 {\n" ++
  c!"      margin-left: 80px;\n" ++
  c!"    }\n" ++
  c!"  </style>\n" ++
  c!"</head>\n" ++
  c!"\n" ++
  c!"<body class=\"\">\n" ++
  c!"\n" ++
  c!"<h1>&lt;REQ-IF&gt;</h1>\n" ++
  c!"  <h2 class=\"level-2\">&lt;THE-HEADER&gt;</h2>\n" ++
  c!"  "

/-- `index.jinja.html` 38-43 -/
def headerStart : Str :=
  c!"\n" ++
  c!"    <h3 class=\"level-3\">&lt;REQ-IF-HEADER&gt;</h3>\n" ++
  c!"    <table class=\"level-4\">\n" ++
  c!"      <tr>\n" ++
  c!"        <td>TITLE:</td>\n" ++
  c!"        <td>"

/-- `index.jinja.html` 43-47 -/
def headerMiddle : Str :=
  c!"</td>\n" ++
  c!"      </tr>\n" ++
  c!"      <tr>\n" ++
  c!"        <td>CREATION-TIME:</td>\n" ++
  c!"        <td>"

/-- `index.jinja.html` 47-50 -/
def headerEnd : Str :=
  c!"</td>\n" ++
  c!"      </tr>\n" ++
  c!"    </table>\n" ++
  c!"  "

/-- `index.jinja.html` 50-56 -/
def dataTypesHead : Str :=
  c!"\n" ++
  c!"\n" ++
  c!"<h2 class=\"level-2\">&lt;CORE-CONTENT&gt;</h2>\n" ++
  c!"<h3 class=\"level-3\">&lt;REQ-IF-CONTENT&gt;</h3>\n" ++
  c!"\n" ++
  c!"<h4 class=\"level-4\">&lt;DATATYPES&gt;</h4>\n" ++
  c!"  "

/-- `index.jinja.html` 58-62 -/
def dataTypeStart : Str :=
  c!"\n" ++
  c!"  <table class=\"level-5\">\n" ++
  c!"    <tr>\n" ++
  c!"      <td>TITLE:</td>\n" ++
  c!"      <td>"

/-- `index.jinja.html` 62-65 -/
def dataTypeEnd : Str :=
  c!"</td>\n" ++
  c!"    </tr>\n" ++
  c!"  </table>\n" ++
  c!"  "

/-- `index.jinja.html` 67-70 -/
def specTypesHead : Str :=
  c!"\n" ++
  c!"\n" ++
  c!"<h4 class=\"level-4\">&lt;SPEC-TYPES&gt;</h4>\n" ++
  c!"  "

/-- `index.jinja.html` 72-76 -/
def specTypeStart : Str :=
  c!"\n" ++
  c!"    <table class=\"level-5\">\n" ++
  c!"      <tr>\n" ++
  c!"        <td>TITLE:</td>\n" ++
  c!"        <td>"

/-- `index.jinja.html` 76-79 -/
def specTypeEnd : Str :=
  c!"</td>\n" ++
  c!"      </tr>\n" ++
  c!"    </table>\n" ++
  c!"  "

/-- `index.jinja.html` 81-91 -/
def middle : Str :=
  c!"\n" ++
  c!"\n" ++
  c!"<h4 class=\"level-4\">&lt;SPEC-OBJECTS&gt;</h4>\n" ++
  c!"<h4 class=\"level-4\">&lt;SPEC-RELATIONS&gt;</h4>\n" ++
  c!"<h4 class=\"level-4\">&lt;SPECIFICATIONS&gt;</h4>\n" ++
  c!"\n" ++
  c!"<h2 class=\"level-2\">&lt;TOOL-EXTENSIONS&gt;</h2>\n" ++
  c!"\n" ++
  c!"<hr/>\n" ++
  c!"\n"

/-- `index.jinja.html` 94-95 -/
def titleStart : Str :=
  c!"\n" ++
  c!"  <h1>"

/-- `index.jinja.html` 95-97 -/
def titleEnd : Str :=
  c!"</h1>\n" ++
  c!"\n" ++
  c!"  "

/-- `index.jinja.html` 99-112 -/
def objectStart : Str :=
  c!"\n" ++
  c!"\n" ++
  c!"    <table>\n" ++
  c!"      <tr>\n" ++
  c!"        <td style=\"text-align: center;\" colspan=\"2\">\n" ++
  c!"          &lt;SPEC-OBJECT&gt;\n" ++
  c!"        </td>\n" ++
  c!"      </tr>\n" ++
  c!"      <tr>\n" ++
  c!"        <td>\n" ++
  c!"          &lt;SPEC-OBJECT-TYPE&gt;\n" ++
  c!"        </td>\n" ++
  c!"        <td>\n" ++
  c!"          "

/-- `index.jinja.html` 112-121 -/
def objectMiddle : Str :=
  c!"\n" ++
  c!"        </td>\n" ++
  c!"      </tr>\n" ++
  c!"      <tr>\n" ++
  c!"        <td>\n" ++
  c!"          IDENTIFIER\n" ++
  c!"        </td>\n" ++
  c!"        <td>\n" ++
  c!"          "

/-- `index.jinja.html` 121-128 -/
def objectEnd : Str :=
  c!"\n" ++
  c!"        </td>\n" ++
  c!"      </tr>\n" ++
  c!"      <tr>\n" ++
  c!"        <td style=\"text-align: center;\" colspan=\"2\">\n" ++
  c!"          &lt;VALUES&gt;\n" ++
  c!"        </td>\n" ++
  c!"      </tr>\n" ++
  c!"    "

/-- `index.jinja.html` 128-130 -/
def valueStart : Str :=
  c!"\n" ++
  c!"      <tr>\n" ++
  c!"        <td>"

/-- `index.jinja.html` 130-131 -/
def valueMiddle : Str :=
  c!"</td>\n" ++
  c!"        <td>"

/-- `index.jinja.html` 131-133 -/
def valueEnd : Str :=
  c!"</td>\n" ++
  c!"      </tr>\n" ++
  c!"    "

/-- `index.jinja.html` 133-135 -/
def tableEnd : Str :=
  c!"\n" ++
  c!"    </table>\n" ++
  c!"  "

/-- `index.jinja.html` 139-141 -/
def pageEnd : Str :=
  c!"\n" ++
  c!"</body>\n" ++
  c!"</html>"


/-- `str(value)` of an attribute value; a list prints the `repr` of its items. -/
def showValue (repr : Str → Str) : AttrValue → Str
  | .str s => s
  | .list l => c!"[" ++ List.intercalate c!", " (l.map fun
      | none => c!"None"
      | some s => repr s) ++ c!"]"

/-- `index.jinja.html` 38-50: the header, if there is one. -/
def headerPart : Option Header → Str
  | none => []
  | some h =>
    headerStart ++ fmtOpt h.title ++ headerMiddle ++ fmtOpt h.creationTime ++ headerEnd

/-- `index.jinja.html` 58-65: the loop over the data types. -/
def dataTypeRows : List DataType → Str
  | [] => []
  | d :: ds => dataTypeStart ++ d.identifier ++ dataTypeEnd ++ dataTypeRows ds

/-- `index.jinja.html` 72-79: the loop over the spec types. -/
def specTypeRows : List SpecType → Str
  | [] => []
  | t :: ts => specTypeStart ++ t.identifier ++ specTypeEnd ++ specTypeRows ts

/-- `{% for x in xs %}`: iterating over `None` raises `TypeError`. -/
def loopOver {α : Type} (xs : Option (List α)) (body : List α → Str) : Py Str :=
  match xs with
  | none => .error .typeError
  | some l => .ok (body l)

/-- `index.jinja.html` 56-67. -/
def dataTypesPart : Option (Option Content) → Py Str
  | none => .ok []
  | some none => .ok (c!"\n  " ++ c!"\n  ")
  | some (some c) => do
    let rows ← loopOver c.dataTypes dataTypeRows
    pure (c!"\n  " ++ c!"\n  " ++ rows ++ c!"\n  " ++ c!"\n  ")

/-- `index.jinja.html` 70-81. -/
def specTypesPart : Option (Option Content) → Py Str
  | none => .ok []
  | some none => .ok (c!"\n  " ++ c!"\n  ")
  | some (some c) => do
    let rows ← loopOver c.specTypes specTypeRows
    pure (c!"\n  " ++ c!"\n  " ++ rows ++ c!"\n  " ++ c!"\n  ")

/-- `index.jinja.html` 128-133: the loop over the attributes of an object. -/
def valueRows (repr : Str → Str) : List SpecObjectAttribute → Str
  | [] => []
  | a :: as =>
    valueStart ++ fmtOpt a.definitionRef ++ valueMiddle ++ showValue repr a.value ++ valueEnd ++
      valueRows repr as

/-- `index.jinja.html` 99-135: the table of one object. -/
def objectTable (repr : Str → Str) (o : SpecObject) : Str :=
  objectStart ++ fmtOpt o.specObjectType ++ objectMiddle ++ o.identifier ++ objectEnd ++
    valueRows repr o.attributes ++ tableEnd

/-- `reqif_bundle.py` 106-107 and `object_lookup.py` 39-40, with a reference that may be
`None`, which is never a key. -/
def objectOf (l : Lookup) : Option Str → Py SpecObject
  | none => .error .keyError
  | some r => l.specObjectByRef r

/-- `index.jinja.html` 97-135: the loop over the nodes of a specification. -/
def nodeTables (repr : Str → Str) (l : Lookup) : List Hierarchy → Py Str
  | [] => .ok []
  | h :: hs =>
    match objectOf l h.info.specObject with
    | .error e => .error e
    | .ok o =>
      match nodeTables repr l hs with
      | .error e => .error e
      | .ok rest => .ok (c!"\n\n    " ++ objectTable repr o ++ rest)

/-- `index.jinja.html` 94-136: the loop over the specifications, the first of which is at
position `i` of the bundle. -/
def specificationParts (repr : Str → Str) (b : Bundle) : Nat → List Specification → Py Str
  | _, [] => .ok []
  | i, s :: ss =>
    match b.iterate i with
    | .error e => .error e
    | .ok hs =>
      match nodeTables repr b.lookup hs with
      | .error e => .error e
      | .ok tables =>
        match specificationParts repr b (i + 1) ss with
        | .error e => .error e
        | .ok rest =>
          .ok (titleStart ++ fmtOpt s.longName ++ titleEnd ++ tables ++ c!"\n" ++ rest)

/-- `index.jinja.html` 91-139. -/
def specificationsPart (repr : Str → Str) (b : Bundle) : Py Str :=
  match b.coreContent with
  | none => .ok []
  | some none => .ok (c!"\n" ++ c!"\n")
  | some (some c) =>
    match c.specifications with
    | none => .error .typeError
    | some ss =>
      match specificationParts repr b 0 ss with
      | .error e => .error e
      | .ok parts => .ok (c!"\n" ++ c!"\n\n" ++ parts ++ c!"\n\n" ++ c!"\n")

/-- `dump.py` 20-21: `template.render(reqif_bundle=...)` and the newline. -/
def dumpText (repr : Str → Str) (b : Bundle) : Py Str := do
  let dataTypes ← dataTypesPart b.coreContent
  let specTypes ← specTypesPart b.coreContent
  let specifications ← specificationsPart repr b
  pure (pageHead ++ headerPart b.header ++ dataTypesHead ++ dataTypes ++ specTypesHead ++
    specTypes ++ middle ++ specifications ++ pageEnd ++ c!"\n")

/-- `dump.py` 14-24, `DumpCommand.execute`. -/
noncomputable def dumpCommand (os : OsEnv) (repr : Str → Str) (input output : Str) : M Files Unit := fun fs =>
  match (parseFile (none : Option (Callback Unit)) (readFile fs input) ()).1 with
  | .error e => (.error e, fs)
  | .ok b =>
    match dumpText repr b with
    | .error e => (.error e, fs)
    | .ok text => writeFile os output text.utf8Encode fs

end ReqIF.Dump
