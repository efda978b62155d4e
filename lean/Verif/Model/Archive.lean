import Verif.Model.Unparser
/-!
# ReqIFz archives (`parser.py` 393-423, `unparser.py` 177-212)

The zip container is the list of its members.  Reading a member may fail, so
a member is a name and the outcome of reading it.  Compression, time stamps and
the limits of the format (name length, sizes, NUL in names) are not modelled.
-/
namespace ReqIF

/-- What `zipfile.ZipFile(path)` gives: the members in archive order. -/
abbrev Archive := List (Str × Py ByteArray)

/-- `zip_file.open(name).read()`: with several members of the same name the last
one is read (`ZipFile.NameToInfo`). -/
def readMember : Archive → Str → Py ByteArray
  | [], _ => .error .keyError
  | (n, r) :: ar, name =>
    if n = name then
      if (ar.map (·.1)).contains name then readMember ar name else r
    else readMember ar name

/-- The part of a path after the last slash. -/
def baseName (p : Str) : Str := (p.reverse.takeWhile (fun c => c != '/')).reverse

/-- `os.path.splitext(p)[1]` (POSIX): from the last dot of the base name on, if
something other than dots stands before it. -/
def pathExtension (p : Str) : Str :=
  let r := (baseName p).reverse
  match r.dropWhile (fun c => c != '.') with
  | [] => []
  | _ :: before =>
    if before.any (fun c => c != '.') then '.' :: (r.takeWhile (fun c => c != '.')).reverse else []

/-- `parser.py` 408: `os.path.splitext(filename)[1] in [".reqif", ".xml"]` -/
def isReqifName (p : Str) : Bool :=
  pathExtension p == c!".reqif" || pathExtension p == c!".xml"

/-- `bytes.decode(encoding="UTF-8")` -/
def decodeUtf8 (b : ByteArray) : Py Str :=
  match b.utf8Decode? with
  | none => .error .unicode
  | some cs => .ok cs.toList

/-- `reqif_bundle.py` 132-139, `ReqIFZBundle`. -/
structure ZBundle where
  reqifBundles : Dict Str Bundle
  attachments : Dict Str ByteArray

/-- `parser.py` 408-416: one member. -/
def memberStep (ar : Archive) (acc : ZBundle) (name : Str) : Py ZBundle :=
  match readMember ar name with
  | .error e => .error e
  | .ok bytes =>
    if isReqifName name then
      match decodeUtf8 bytes with
      | .error e => .error e
      | .ok content =>
        match parseString content with
        | .error e => .error e
        | .ok b => .ok { acc with reqifBundles := acc.reqifBundles.set name b }
    else .ok { acc with attachments := acc.attachments.set name bytes }

/-- `parser.py` 407-418: the loop from member number `k` on. -/
def membersLoop {σ : Type} (progress : Option (Callback σ)) (ar : Archive) (total : Nat) :
    Nat → ZBundle → List Str → M σ ZBundle
  | _, acc, [] => M.pure acc
  | k, acc, name :: names =>
    M.bind (M.lift (memberStep ar acc name)) fun acc' =>
    M.bind (notify progress name (k + 1) total) fun _ =>
    membersLoop progress ar total (k + 1) acc' names

/-- `except Exception as exception: raise ReqIFZParsingError(exception)` -/
def wrapZ {σ α : Type} (m : M σ α) : M σ α := fun s =>
  match m s with
  | (.ok a, s') => (.ok a, s')
  | (.error _, s') => (.error .reqifz, s')

/-- `parser.py` 393-423, `ReqIFZParser.parse`.  `opened` is the outcome of
`zipfile.ZipFile(input_path)`. -/
def parseZ {σ : Type} (progress : Option (Callback σ)) (opened : Py Archive) : M σ ZBundle :=
  wrapZ (M.bind (M.lift opened) fun ar =>
    membersLoop progress ar ar.length 0 ⟨[], []⟩ (ar.map (·.1)))

/-- `unparser.py` 198-203 and 206-210: a loop that writes members. -/
def writeLoop {σ α : Type} (progress : Option (Callback σ)) (total : Nat) (f : α → Py ByteArray) :
    Nat → List (Str × ByteArray) → Dict Str α → M σ (List (Str × ByteArray) × Nat)
  | k, out, [] => M.pure (out, k)
  | k, out, (name, x) :: xs =>
    M.bind (M.lift (f x)) fun bytes =>
    M.bind (notify progress name (k + 1) total) fun _ =>
    writeLoop progress total f (k + 1) (out ++ [(name, bytes)]) xs

/-- `ReqIFUnparser.unparse(bundle)` as the member's bytes: `ZipFile.writestr`
encodes a `str` as UTF-8. -/
noncomputable def bundleBytes (b : Bundle) : Py ByteArray :=
  match unparse b with
  | .error e => .error e
  | .ok s => .ok s.utf8Encode

/-- `unparser.py` 177-212, `ReqIFZUnparser.unparse`: the members written, in order. -/
noncomputable def unparseZ {σ : Type} (progress : Option (Callback σ)) (z : ZBundle) :
    M σ (List (Str × ByteArray)) :=
  let total := z.reqifBundles.length + z.attachments.length
  M.bind (writeLoop progress total bundleBytes 0 [] z.reqifBundles) fun r =>
  M.bind (writeLoop progress total .ok r.2 r.1 z.attachments) fun r' =>
  M.pure r'.1

/-- Opening an archive with these members. -/
def archiveOf (members : List (Str × ByteArray)) : Archive := members.map (fun m => (m.1, .ok m.2))

end ReqIF
