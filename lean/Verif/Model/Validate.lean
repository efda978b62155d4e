import Verif.Model.Bundle
import Verif.Model.Archive
/-!
# `commands/validate/validate.py`
-/
namespace ReqIF

/-- An entry of `schema_errors`. -/
inductive SchemaIssue
  /-- `ReqIFXMLSchemaValidationError` -/
  | xsd
  /-- `ReqIFMissingTagException` -/
  | missingTag (e : MissingTag)

/-- An entry of `semantic_warnings`. -/
inductive SemanticIssue
  /-- 129-134 -/
  | noXmlDeclaration
  /-- 136-142 -/
  | notUtf8
  /-- `ReqIFSpecRelationMissingSpecObjectException` -/
  | relationEnd (node : Option Node) (tag : Str) (ref : Option Str)
  /-- `ReqIFSpecHierarchyMissingSpecObjectException` -/
  | hierarchyRef (node : Option Node) (ref : Option Str)

/-- `validate.py` 25-41, `ReqIFErrorBundle`. -/
structure ErrorBundle where
  xmlErrors : List XmlCause
  schemaErrors : List SchemaIssue
  semanticWarnings : List SemanticIssue

/-- `validate.py` 36-41, `has_any_errors`. -/
def ErrorBundle.hasAnyErrors (e : ErrorBundle) : Bool :=
  e.xmlErrors.length > 0 || e.schemaErrors.length > 0 || e.semanticWarnings.length > 0

/-- `validate.py` 179-192: one relation. -/
def relationIssues (l : Lookup) (r : SpecRelation) : List SemanticIssue :=
  (if l.specObjectExists r.source then [] else [.relationEnd r.xmlNode c!"SOURCE" r.source]) ++
  (if l.specObjectExists r.target then [] else [.relationEnd r.xmlNode c!"TARGET" r.target])

/-- `validate.py` 172-193, `_validate_spec_relations`. -/
def validateRelations (l : Lookup) : List SpecRelation → List SemanticIssue
  | [] => []
  | r :: rs => relationIssues l r ++ validateRelations l rs

/-- `validate.py` 203-212: the nodes of one specification. -/
def hierarchyIssues (l : Lookup) : List Hierarchy → List SemanticIssue
  | [] => []
  | h :: hs =>
    if l.specObjectExists h.info.specObject then hierarchyIssues l hs
    else .hierarchyRef h.info.xmlNode h.info.specObject :: hierarchyIssues l hs

/-- `validate.py` 195-213, `_validate_specifications`, over the positions of the
bundle's specifications from `i` on. -/
def validateSpecificationsFrom (b : Bundle) : Nat → List Specification → Py (List SemanticIssue)
  | _, [] => .ok []
  | i, _ :: ss =>
    match b.iterate i with
    | .error e => .error e
    | .ok hs =>
      match validateSpecificationsFrom b (i + 1) ss with
      | .error e => .error e
      | .ok rest => .ok (hierarchyIssues b.lookup hs ++ rest)

/-- `validate.py` 144-165: the content. -/
def contentIssues (b : Bundle) : Py (List SemanticIssue) :=
  match b.coreContent with
  | none => .ok []
  | some none => .ok []
  | some (some c) =>
    let rels := match c.specRelations with
      | none => []
      | some rs => validateRelations b.lookup rs
    match c.specifications with
    | none => .ok rels
    | some ss =>
      match validateSpecificationsFrom b 0 ss with
      | .error e => .error e
      | .ok hs => .ok (rels ++ hs)

/-- `validate.py` 128-170: the part after parsing. -/
def validateBundle (b : Bundle) : Py ErrorBundle :=
  let decl := if b.namespaceInfo.doctypeIsPresent then [] else [SemanticIssue.noXmlDeclaration]
  let enc := if b.namespaceInfo.encoding != c!"UTF-8" then [SemanticIssue.notUtf8] else []
  match contentIssues b with
  | .error e => .error e
  | .ok is => .ok ⟨[], b.exceptions.map .missingTag, decl ++ enc ++ is⟩

/-- `parser.py` 73-79, `ReqIFParser.parse`: the file is decoded and its line ends
are normalised (text mode), then parsed.  `read` is the outcome of reading the
file's bytes. -/
def parseFile {σ : Type} (progress : Option (Callback σ)) (read : Py ByteArray) : M σ Bundle :=
  M.bind (M.lift read) fun bytes =>
  M.bind (M.lift (decodeUtf8 bytes)) fun s =>
  parseFromString progress (normEol s)

/-- `validate.py` 119-170: parsing and the checks on the bundle. -/
def validateParsed (read : Py ByteArray) : Py ErrorBundle :=
  match (parseFile (none : Option (Callback Unit)) read ()).1 with
  | .error (.xmlParsing c) => .ok ⟨[c], [], []⟩
  | .error e => .error e
  | .ok b => validateBundle b

/-- Result of `schema.validate(input_file)` when it does not raise anything else
than `XMLSchemaValidationError`. -/
inductive SchemaVerdict
  | valid
  | invalid
  deriving DecidableEq

/-- The operating system and the `xmlschema` library as the strict check sees
them: any function of the working directory, which may also change it. -/
structure SchemaEnv where
  /-- `os.getcwd()` fails -/
  getcwdError : Option PyErr
  /-- outcome of `os.chdir(path)`: an error leaves the directory unchanged -/
  chdirError : Str → Option PyErr
  /-- `xmlschema.XMLSchema(...)` and `schema.validate(...)` -/
  check : M Str SchemaVerdict

/-- `os.chdir(path)` -/
def chdir (env : SchemaEnv) (path : Str) : M Str Unit := fun cwd =>
  match env.chdirError path with
  | some e => (.error e, cwd)
  | none => (.ok (), path)

/-- `try: m finally: fin` -/
def tryFinally {σ α : Type} (m : M σ α) (fin : M σ Unit) : M σ α := fun s =>
  match m s with
  | (r, s') =>
    match fin s' with
    | (.error e, s'') => (.error e, s'')
    | (.ok (), s'') => (r, s'')

/-- `validate.py` 92-117: the strict check.  `root` is `PATH_TO_REQIF_ROOT`. -/
def strictCheck (env : SchemaEnv) (root : Str) : M Str SchemaVerdict := fun cwd =>
  match env.getcwdError with
  | some e => (.error e, cwd)
  | none => tryFinally (M.bind (chdir env root) fun _ => env.check) (chdir env cwd) cwd

/-- `validate.py` 78-170, `_validate`.  The input path is made absolute first
(89-90), so the outcome of reading the file does not depend on the directory. -/
def validate (useSchema : Bool) (env : SchemaEnv) (root : Str) (read : Py ByteArray) :
    M Str ErrorBundle :=
  if useSchema then
    M.bind (strictCheck env root) fun
      | .invalid => M.pure ⟨[], [.xsd], []⟩
      | .valid => M.lift (validateParsed read)
  else M.lift (validateParsed read)

/-- The texts of exceptions of other libraries, which the report quotes. -/
structure Messages where
  /-- `str(exception)` of a `ReqIFXMLParsingError` -/
  xml : XmlCause → Str
  /-- `str(exception)` of an `XMLSchemaValidationError` -/
  xsd : Str

/-- `f"{node.tag}"`; the tag of a comment or processing instruction is a function, whose
text is not modelled (the nodes quoted are elements). -/
def tagText : Node → Str
  | .elem i _ => i.tag
  | _ => []

/-- `Affected fragment:\n{lxml_dump_node(node)}` (`models/error_handling.py`,
`helpers/lxml.py` 10-11).  The text that follows the node in its parent, which
`lxml_dump_node` also prints, is left out. -/
def fragmentText (n : Node) : Py Str :=
  match stringifyNode false n with
  | .error e => .error e
  | .ok s => .ok (c!"Affected fragment:\n" ++ s)

/-- `models/error_handling.py` 23-24 and 42-47, `get_description`. -/
def SchemaIssue.describe (m : Messages) : SchemaIssue → Py Str
  | .xsd => .ok m.xsd
  | .missingTag e =>
    match fragmentText e.node with
    | .error x => .error x
    | .ok s => .ok (c!"schema error: Tag <" ++ tagText e.node ++ c!"> is missing a <" ++ e.tag ++
        c!"> child tag. " ++ s)

/-- `validate.py` 129-142 and `models/error_handling.py` 57-63, 72-78, `get_description`;
the node may be `None`. -/
def SemanticIssue.describe : SemanticIssue → Py Str
  | .noXmlDeclaration => .ok (c!"Document is missing a valid XML declaration. Every ReqIF" ++
      c!"document should have the following line: <?xml version=\"1.0\" encoding=\"UTF-8\"?>")
  | .notUtf8 => .ok (c!"ReqIF Implementation Guide recommends using UTF-8 " ++
      c!"encoding for ReqIF files. Every ReqIF " ++
      c!"document should have the following line: <?xml version=\"1.0\" encoding=\"UTF-8\"?>")
  | .relationEnd none _ _ => .error .attributeError
  | .relationEnd (some n) tag ref =>
    match fragmentText n with
    | .error x => .error x
    | .ok s => .ok (c!"schema error: A <" ++ tagText n ++ c!">'s <" ++ tag ++ c!"> " ++
        c!"contains a link to a non-existing <SPEC-OBJECT>: " ++ fmtOpt ref ++ c!"\n" ++ s)
  | .hierarchyRef none _ => .error .attributeError
  | .hierarchyRef (some n) ref =>
    match fragmentText n with
    | .error x => .error x
    | .ok s => .ok (c!"schema error: A <SPEC-HIERARCHY>'s <SPEC-OBJECT-REF> " ++
        c!"contains a link to a non-existing <SPEC-OBJECT>: " ++ fmtOpt ref ++ c!"\n" ++ s)

/-- What the command prints, and its exit code. -/
structure ValidateReport where
  /-- the texts printed, one per `print` -/
  lines : List Str
  exitCode : Nat
  deriving DecidableEq

/-- `validate.py` 63-67: the summary. -/
def summaryLine (e : ErrorBundle) : Str :=
  c!"Validation complete with " ++ Nat.toDigits 10 e.xmlErrors.length ++ c!" errors, " ++
  Nat.toDigits 10 e.schemaErrors.length ++ c!" schema issues found, " ++
  Nat.toDigits 10 e.semanticWarnings.length ++ c!" semantic issues found."

/-- `validate.py` 68-74: the note. -/
def noteLine : Str :=
  c!"NOTE: By default, the validation does not perform a strict " ++
  c!"check of the ReqIF schema conformance. " ++
  c!"To enable the strict conformance check, " ++
  c!"rerun the validation with --use-reqif-schema."

/-- `validate.py` 55-76: printing and the exit code. -/
def reportOf (m : Messages) (useSchema : Bool) (e : ErrorBundle) : Py ValidateReport :=
  match mapPy (SchemaIssue.describe m) e.schemaErrors with
  | .error x => .error x
  | .ok schema =>
    match mapPy SemanticIssue.describe e.semanticWarnings with
    | .error x => .error x
    | .ok semantic =>
      .ok ⟨e.xmlErrors.map (fun x => c!"error: " ++ m.xml x) ++
        schema.map (fun x => c!"warning: " ++ x) ++
        semantic.map (fun x => c!"warning: semantic error: " ++ x) ++
        [summaryLine e] ++ (if !useSchema then [noteLine] else []),
        if !e.hasAnyErrors then 0 else 1⟩

/-- How the command ends: with an exit code, before or after the report. -/
inductive ValidateOutcome
  /-- 48-52: the input file does not exist; exit code 1 -/
  | noInput
  | done (r : ValidateReport)
  deriving DecidableEq

/-- `validate.py` 45-76, `ValidateCommand.execute`. -/
def validateCommand (m : Messages) (isFile : Bool) (useSchema : Bool) (env : SchemaEnv) (root : Str)
    (read : Py ByteArray) : M Str ValidateOutcome :=
  if !isFile then M.pure .noInput
  else M.bind (validate useSchema env root read) fun e =>
    M.bind (M.lift (reportOf m useSchema e)) fun r => M.pure (.done r)

end ReqIF
