import Verif.Model.Validate
/-!
# Declared encodings

The parser gives lxml the UTF-8 bytes of the text (`parser.py` 96).  lxml reads bytes by the
encoding that the XML declaration names.  `Model/Parser` takes the text itself; here is the way
through the bytes.

Contract of libxml2 (`xmlParseCharEncoding`, `xmlParseEncodingDecl`).  Left out: bytes whose
beginning looks like UTF-16, UCS-4 or EBCDIC (the text would have NUL characters in it).
-/
namespace ReqIF

/-- What is left open: the other encodings (`none`: not known), and whether a byte order mark is
stronger than the declaration (it depends on the version of libxml2). -/
structure Libxml where
  codec : Str → Option (List UInt8 → Option Str)
  bomWins : Bool

/-- `bytes(s, "UTF-8")` -/
def utf8Bytes (s : Str) : List UInt8 := s.flatMap String.utf8EncodeChar

/-- ISO-8859-1: every byte is the character with that number. -/
def latin1 (bs : List UInt8) : Str := bs.map (fun b => Char.ofNat b.toNat)

/-- The byte order mark in UTF-8. -/
def bomBytes : List UInt8 := [0xEF, 0xBB, 0xBF]

/-- Names of UTF-8, in any case of the letters. -/
def isUtf8Name (e : Str) : Bool :=
  e.map Char.toUpper == c!"UTF-8" || e.map Char.toUpper == c!"UTF8"

/-- Names of ISO-8859-1. -/
def isLatin1Name (e : Str) : Bool :=
  e.map Char.toUpper == c!"ISO-8859-1" || e.map Char.toUpper == c!"ISO-LATIN-1"

/-- Names of ASCII. -/
def isAsciiName (e : Str) : Bool :=
  e.map Char.toUpper == c!"ASCII" || e.map Char.toUpper == c!"US-ASCII"

/-- The encoding the XML declaration names, if there is a declaration and it names one. -/
def declaredName (bs : List UInt8) : Option Str :=
  match readDecl (normEol (latin1 bs)) with
  | some (some ⟨some e⟩, _) => some e
  | _ => none

/-- UTF-8 bytes as a document. -/
def readUtf8 (bs : List UInt8) : Option Doc :=
  match decodeUtf8 bs.toByteArray with
  | .error _ => none
  | .ok s => readDoc s

/-- `etree.parse(io.BytesIO(bs))`, `parser.py` 96; `none`: any exception. -/
def readBytes (x : Libxml) (bs : List UInt8) : Option Doc :=
  let bom := bomBytes.isPrefixOf bs
  let body := if bom then bs.drop 3 else bs
  match declaredName body with
  | none => readUtf8 bs
  | some e =>
    if isUtf8Name e || (bom && x.bomWins) then readUtf8 bs
    else if isLatin1Name e then readDoc (latin1 body)
    else if isAsciiName e then
      if body.all (· < 128) then readDoc (latin1 body) else none
    else
      match x.codec e with
      | none => none
      | some decode => (decode body).bind readDoc

/-- `parser.py` 81-102, `ReqIFParser.parse_from_string`, through the bytes. -/
def parseFromBytes {σ : Type} (x : Libxml) (progress : Option (Callback σ)) (content : Str) : M σ Bundle :=
  if content.length = 0 then M.lift (.error (.xmlParsing .emptyDocument))
  else
    match readBytes x (utf8Bytes content) with
    | none => M.lift (.error (.xmlParsing .notWellFormed))
    | some d => parseReqif progress d

/-- `parser.py` 73-79, `ReqIFParser.parse`, through the bytes. -/
def parseFileBytes {σ : Type} (x : Libxml) (progress : Option (Callback σ)) (read : Py ByteArray) : M σ Bundle :=
  M.bind (M.lift read) fun bytes =>
  M.bind (M.lift (decodeUtf8 bytes)) fun s =>
  parseFromBytes x progress (normEol s)

end ReqIF
