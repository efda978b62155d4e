import Verif.Model.Cli
/-!
# The commands step by step

In `Model/Commands` a file is written in one go.  Here writing takes as many steps as there
are bytes, and the program may end after any of them: because it is killed, because the
machine stops or because the operating system reports an error (disk full).  Several paths may
name the same file.

Before a command writes it reads its whole input and makes its whole output
(`passthrough.py` 28-34, `anonymize.py` 35-45, `dump.py` 16-24, `format.py` 9-15), so what it
will write is known when it starts: this is the `Plan`.
-/
namespace ReqIF

/-- What a command is going to do: how it ends if nothing interferes, and the file it writes, if any. -/
structure Plan where
  ending : Py CommandEnd
  write : Option (Str × ByteArray)

/-- `with open(path, ...) as file: file.write(bytes)`, the last statement of each command. -/
def openAndWrite (os : OsEnv) (path : Str) (bytes : ByteArray) : Plan :=
  match os.openError path with
  | some e => ⟨.error e, none⟩
  | none => ⟨.ok .success, some (path, bytes)⟩

/-- `passthrough.py` 11-34. -/
noncomputable def passthroughPlan (os : OsEnv) (input output : Str) (fs : Files) : Plan :=
  if (fs input).isNone then ⟨.ok .exit1, none⟩
  else if !outputDirOk os output then ⟨.ok .exit1, none⟩
  else
    match (if endsWith input c!".reqifz" then passthroughZBytes os (readFile fs input)
      else passthroughBytes (readFile fs input)) with
    | .error e => ⟨.error e, none⟩
    | .ok bytes => openAndWrite os output bytes

/-- `anonymize.py` 27-45. -/
noncomputable def anonymizePlan (os : OsEnv) (hash : Str → Nat) (print : Doc → Str) (input output : Str) (fs : Files) : Plan :=
  if (fs input).isNone then ⟨.ok .exit1, none⟩
  else
    match anonymize hash print (readFile fs input) with
    | .error e => ⟨.error e, none⟩
    | .ok text =>
      if !outputDirOk os output then ⟨.ok .exit1, none⟩
      else openAndWrite os output text.utf8Encode

/-- `dump.py` 14-24. -/
noncomputable def dumpPlan (os : OsEnv) (repr : Str → Str) (input output : Str) (fs : Files) : Plan :=
  match (parseFile (none : Option (Callback Unit)) (readFile fs input) ()).1 with
  | .error e => ⟨.error e, none⟩
  | .ok b =>
    match Dump.dumpText repr b with
    | .error e => ⟨.error e, none⟩
    | .ok text => openAndWrite os output text.utf8Encode

/-- `format.py` 7-15.  lxml opens the file it writes to only after the document has been parsed. -/
noncomputable def formatPlan (os : OsEnv) (keep : List Nat → Bool) (input output : Str) (fs : Files) : Plan :=
  match readFile fs input with
  | .error e => ⟨.error e, none⟩
  | .ok bytes =>
    match decodeUtf8 bytes with
    | .error _ => ⟨.error (.xmlParsing .notWellFormed), none⟩
    | .ok text =>
      match Format.formatText keep text with
      | none => ⟨.error (.xmlParsing .notWellFormed), none⟩
      | some out => openAndWrite os output out.utf8Encode

/-- The content of every place a file can be at. -/
abbrev Disk := Nat → Option ByteArray

/-- The files as paths show them; `place` is the place a path names. -/
def Disk.files (place : Str → Nat) (d : Disk) : Files := fun p => d (place p)

/-- One step of writing. -/
inductive DiskStep
  /-- `open(path, "w")` -/
  | truncate (at' : Nat)
  /-- one byte arrives -/
  | append (at' : Nat) (byte : UInt8)

def DiskStep.apply (d : Disk) : DiskStep → Disk
  | .truncate k => fun j => if j = k then some ByteArray.empty else d j
  | .append k b => fun j => if j = k then some (((d k).getD ByteArray.empty).push b) else d j

/-- The disk after some steps. -/
def Disk.after (d : Disk) (steps : List DiskStep) : Disk := steps.foldl DiskStep.apply d

/-- The steps of a plan. -/
def Plan.steps (place : Str → Nat) (p : Plan) : List DiskStep :=
  match p.write with
  | none => []
  | some (path, bytes) => .truncate (place path) :: bytes.data.toList.map (.append (place path))

end ReqIF
