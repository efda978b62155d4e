import Verif.Model.Cli
/-!
# Standard output of the command line

The only message of the library's logger that the command line shows is the one of
`spec_object_parser.py` 83 (the one of `parser.py` 345 is below the level set in `main.py`
54).  Here the unparser is written again with the lines it logs; everything else is taken from
`Model/Unparser` and `Model/Archive`.  The text of a comment's or processing instruction's tag, a Python function, is a
parameter (`fn`).  The texts of help and usage are not modelled, nor are lines printed before an exception of `validate`.
-/
namespace ReqIF.Output

/-- `print` and the handler's `emit`: one line. -/
def printLine (line : Str) : M (List Str) Unit := fun out => (.ok (), out ++ [line])

/-- `%s` for a tag. -/
def tagShown (fn : Tag → Str) : Tag → Str
  | .name s => s
  | t => fn t

/-- `spec_object_parser.py` 83 with the format of `main.py` 25-33 and 50-52. -/
def warningLine (fn : Tag → Str) (t : Tag) : Str := c!"warning" ++ c!": " ++ (c!"Unknown child tag: " ++ tagShown fn t ++ c!".")

/-- `parsers/spec_object_parser.py` 75-83: one entry of the child-tag loop. -/
def childL (fn : Tag → Str) (o : SpecObject) (t : Tag) : M (List Str) Str :=
  if t = .name c!"VALUES" then M.lift (unparseAttributeValues (some o.attributes))
  else if t = .name c!"TYPE" then M.pure (unparseSpecObjectTypeRef o)
  else M.bind (printLine (warningLine fn t)) fun _ => M.pure []

/-- `for x in xs: output += f(x)` -/
def concatL {α : Type} (f : α → M (List Str) Str) : List α → M (List Str) Str
  | [] => M.pure []
  | x :: xs => M.bind (f x) fun y => M.bind (concatL f xs) fun ys => M.pure (y ++ ys)

/-- `parsers/spec_object_parser.py` 52-87. -/
def specObjectL (fn : Tag → Str) (o : SpecObject) : M (List Str) Str :=
  M.bind (M.lift (specObjectChildTags o)) fun tags =>
  M.bind (concatL (childL fn o) tags) fun body =>
  M.pure (spaces 8 ++ c!"<SPEC-OBJECT" ++
    attrOpt c!"DESC" id o.description ++
    attrOut c!"IDENTIFIER" o.identifier ++
    attrTruthy c!"LAST-CHANGE" id o.lastChange ++
    attrOpt c!"LONG-NAME" id o.longName ++
    c!">\n" ++ body ++ lineClose 8 c!"SPEC-OBJECT")

/-- `unparser.py` 74-84: the spec objects. -/
def objectsL (fn : Tag → Str) : Option (List SpecObject) → M (List Str) Str
  | none => M.pure []
  | some xs => M.bind (concatL (specObjectL fn) xs) fun body =>
    M.pure (lineOpen 6 c!"SPEC-OBJECTS" ++ body ++ lineClose 6 c!"SPEC-OBJECTS")

/-- A container whose items log nothing. -/
def quiet {α : Type} (tag : Str) (f : α → Py Str) (items : Option (List α)) : M (List Str) Str :=
  unparseContainer none tag f items

/-- `unparser.py` 48-126: the content. -/
def contentL (fn : Tag → Str) (c : Content) : M (List Str) Str :=
  M.bind (quiet c!"DATATYPES" (fun d => .ok (unparseDataType d)) c.dataTypes) fun a =>
  M.bind (quiet c!"SPEC-TYPES" unparseSpecType c.specTypes) fun b =>
  M.bind (objectsL fn c.specObjects) fun o =>
  M.bind (quiet c!"SPEC-RELATIONS" unparseSpecRelation c.specRelations) fun r =>
  M.bind (quiet c!"SPECIFICATIONS" unparseSpecification c.specifications) fun s =>
  M.bind (quiet c!"SPEC-RELATION-GROUPS" (fun g => .ok (unparseRelationGroup g)) c.specRelationGroups) fun g =>
  M.pure (lineOpen 4 c!"REQ-IF-CONTENT" ++ a ++ b ++ o ++ r ++ s ++ g ++ lineClose 4 c!"REQ-IF-CONTENT")

/-- `unparser.py` 45-127: the core content. -/
def coreL (fn : Tag → Str) : Option (Option Content) → M (List Str) Str
  | none => M.pure []
  | some none => M.pure (lineOpen 2 c!"CORE-CONTENT" ++ lineClose 2 c!"CORE-CONTENT")
  | some (some c) => M.bind (contentL fn c) fun s =>
    M.pure (lineOpen 2 c!"CORE-CONTENT" ++ s ++ lineClose 2 c!"CORE-CONTENT")

/-- `unparser.py` 33-134, `ReqIFUnparser.unparse`. -/
def unparseL (fn : Tag → Str) (b : Bundle) : M (List Str) Str :=
  M.bind (M.lift (unparseNamespaceInfo b.namespaceInfo)) fun tag =>
  M.bind (M.lift (optPy unparseHeader b.header)) fun header =>
  M.bind (coreL fn b.coreContent) fun core =>
  M.pure (xmlDeclLine ++ tag ++ header.getD [] ++ core ++
    (if b.toolExtensionsTagExists then
      lineOpen 2 c!"TOOL-EXTENSIONS" ++ lineClose 2 c!"TOOL-EXTENSIONS" else []) ++
    c!"</REQ-IF>\n")

/-- `unparser.py` 177-212: the bundles of an archive (attachments log nothing). -/
def bundlesL (fn : Tag → Str) : Dict Str Bundle → M (List Str) Unit
  | [] => M.pure ()
  | (_, b) :: bs => M.bind (unparseL fn b) fun _ => bundlesL fn bs

/-- `passthrough.py` 14-18, `anonymize.py` 30-34 and `validate.py` 48-52. -/
def noInputLine (input : Str) : Str := c!"error: passthrough command's input file does not exist: " ++ input

/-- `passthrough.py` 22-25 and `anonymize.py` 39-42. -/
def noDirLine (output : Str) : Str := c!"error: output directory does not exist: " ++ output

/-- `passthrough.py` 11-50: the lines printed. -/
def passthroughLines (fn : Tag → Str) (os : OsEnv) (input output : Str) (fs : Files) : List Str :=
  if (fs input).isNone then [noInputLine input]
  else if !outputDirOk os output then [noDirLine output]
  else if endsWith input c!".reqifz" then
    match (parseZ (none : Option (Callback Unit)) ((readFile fs input).bind os.zipRead) ()).1 with
    | .error _ => []
    | .ok z => (bundlesL fn z.reqifBundles []).2
  else
    match (parseFile (none : Option (Callback Unit)) (readFile fs input) ()).1 with
    | .error _ => []
    | .ok b => (unparseL fn b []).2

/-- `anonymize.py` 27-45: the lines printed. -/
noncomputable def anonymizeLines (os : OsEnv) (hash : Str → Nat) (print : Doc → Str) (input output : Str) (fs : Files) : List Str :=
  if (fs input).isNone then [noInputLine input]
  else
    match anonymize hash print (readFile fs input) with
    | .error _ => []
    | .ok _ => if !outputDirOk os output then [noDirLine output] else []

/-- `main.py` 35-70: the lines printed; `none` where the text is not modelled (help and
usage, and an exception of `validate`). -/
noncomputable def cliLines (fn : Tag → Str) (env : Cli.Env) (argv : List Str) (fs : Files) : Option (List Str) :=
  match Cli.parseArgs argv with
  | .help => none
  | .usage => none
  | .args ns =>
    if ns.command = c!"passthrough" then
      (ns.inputFile.bind fun i => ns.outputFile.map fun o => passthroughLines fn env.os i o fs)
    else if ns.command = c!"anonymize" then
      (ns.inputFile.bind fun i => ns.outputFile.map fun o => anonymizeLines env.os env.hash env.print i o fs)
    else if ns.command = c!"dump" then some []
    else if ns.command = c!"format" then some []
    else if ns.command = c!"validate" then
      match ns.inputFile, (Cli.dispatch env ns fs).1 with
      | some i, .ok (.validated .noInput) => some [noInputLine i]
      | _, .ok (.validated (.done r)) => some r.lines
      | _, _ => none
    else if ns.command = c!"version" then some [Cli.versionText]
    else some []

end ReqIF.Output
