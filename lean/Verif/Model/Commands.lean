import Verif.Model.Anonymize
/-!
# The passthrough and anonymize commands over a file system

The file system maps paths to contents; `os.path.isdir` is given by `isDir`.
Opening the output file can fail (then it is left alone).  A failure in the
middle of writing it (disk full) is not modelled, nor are paths that name the
same file in different ways.  Line ends are those of POSIX.
-/
namespace ReqIF

/-- The files and their contents. -/
abbrev Files := Str → Option ByteArray

/-- What the commands see of the operating system besides the files. -/
structure OsEnv where
  isDir : Str → Bool
  /-- `open(path, "w")` fails -/
  openError : Str → Option PyErr
  /-- the zip container -/
  zipRead : ByteArray → Py Archive
  zipWrite : List (Str × ByteArray) → ByteArray

/-- `os.path.dirname(p)` (POSIX): everything before the last slash, without the
slashes at its end unless it consists of slashes only. -/
def dirName (p : Str) : Str :=
  let head := (p.reverse.dropWhile (fun c => c != '/')).reverse
  if head.all (fun c => c == '/') then head
  else (head.reverse.dropWhile (fun c => c == '/')).reverse

/-- `passthrough.py` 20-26 and `anonymize.py` 37-43: the output directory exists. -/
def outputDirOk (os : OsEnv) (output : Str) : Bool :=
  !(decide ((dirName output).length > 0) && !os.isDir (dirName output))

/-- How a command ends if it does not raise. -/
inductive CommandEnd
  /-- `sys.exit(1)` after a message -/
  | exit1
  | success
  deriving DecidableEq, Repr

/-- `with open(path, ...) as file: file.write(bytes)` -/
def writeFile (os : OsEnv) (path : Str) (bytes : ByteArray) : M Files Unit := fun fs =>
  match os.openError path with
  | some e => (.error e, fs)
  | none => (.ok (), fun p => if p = path then some bytes else fs p)

/-- Reading an existing file. -/
def readFile (fs : Files) (path : Str) : Py ByteArray :=
  match fs path with
  | none => .error .io
  | some b => .ok b

/-- `str.endswith` -/
def endsWith (s suffix : Str) : Bool := suffix.reverse.isPrefixOf s.reverse

/-- `passthrough.py` 36-42, `_passthrough`. -/
noncomputable def passthroughBytes (read : Py ByteArray) : Py ByteArray :=
  match (parseFile (none : Option (Callback Unit)) read ()).1 with
  | .error e => .error e
  | .ok b => bundleBytes b

/-- `passthrough.py` 44-50, `_passthrough_reqifz`. -/
noncomputable def passthroughZBytes (os : OsEnv) (read : Py ByteArray) : Py ByteArray :=
  match (parseZ (none : Option (Callback Unit)) (read.bind os.zipRead) ()).1 with
  | .error e => .error e
  | .ok z =>
    match (unparseZ (none : Option (Callback Unit)) z ()).1 with
    | .error e => .error e
    | .ok ms => .ok (os.zipWrite ms)

/-- `passthrough.py` 11-34, `PassthroughCommand.execute`. -/
noncomputable def passthroughCommand (os : OsEnv) (input output : Str) : M Files CommandEnd := fun fs =>
  if (fs input).isNone then (.ok .exit1, fs)
  else if !outputDirOk os output then (.ok .exit1, fs)
  else
    let result :=
      if endsWith input c!".reqifz" then passthroughZBytes os (readFile fs input)
      else passthroughBytes (readFile fs input)
    match result with
    | .error e => (.error e, fs)
    | .ok bytes => M.bind (writeFile os output bytes) (fun _ => M.pure .success) fs

/-- `anonymize.py` 27-45, `AnonymizeCommand.execute`. -/
noncomputable def anonymizeCommand (os : OsEnv) (hash : Str → Nat) (print : Doc → Str) (input output : Str) :
    M Files CommandEnd := fun fs =>
  if (fs input).isNone then (.ok .exit1, fs)
  else
    match anonymize hash print (readFile fs input) with
    | .error e => (.error e, fs)
    | .ok text =>
      if !outputDirOk os output then (.ok .exit1, fs)
      else M.bind (writeFile os output text.utf8Encode) (fun _ => M.pure .success) fs

end ReqIF
