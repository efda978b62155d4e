import Verif.Base.Str
/-!
# XML character classes

Part of the contract of lxml/libxml2 (XML 1.0, 5th edition), not of the code in
`/repo`.
-/
namespace ReqIF

/-- XML 1.0 production [2] `Char`.  (Surrogates cannot occur in a `Char`.) -/
def isXmlChar (c : Char) : Bool :=
  let n := c.toNat
  n == 0x9 || n == 0xA || n == 0xD || (0x20 ≤ n && n ≤ 0xD7FF) ||
  (0xE000 ≤ n && n ≤ 0xFFFD) || (0x10000 ≤ n && n ≤ 0x10FFFF)

/-- XML 1.0 production [3] `S`. -/
def isWs (c : Char) : Bool := c == ' ' || c == '\t' || c == '\n' || c == '\r'

/-- Production [4] `NameStartChar` without the colon. -/
def isNameStart (c : Char) : Bool :=
  let n := c.toNat
  ('a' ≤ c && c ≤ 'z') || ('A' ≤ c && c ≤ 'Z') || c == '_' ||
  (0xC0 ≤ n && n ≤ 0xD6) || (0xD8 ≤ n && n ≤ 0xF6) || (0xF8 ≤ n && n ≤ 0x2FF) ||
  (0x370 ≤ n && n ≤ 0x37D) || (0x37F ≤ n && n ≤ 0x1FFF) || (0x200C ≤ n && n ≤ 0x200D) ||
  (0x2070 ≤ n && n ≤ 0x218F) || (0x2C00 ≤ n && n ≤ 0x2FEF) || (0x3001 ≤ n && n ≤ 0xD7FF) ||
  (0xF900 ≤ n && n ≤ 0xFDCF) || (0xFDF0 ≤ n && n ≤ 0xFFFD) || (0x10000 ≤ n && n ≤ 0xEFFFF)

/-- Production [4a] `NameChar` without the colon. -/
def isNameChar (c : Char) : Bool :=
  let n := c.toNat
  isNameStart c || c == '-' || c == '.' || ('0' ≤ c && c ≤ '9') || n == 0xB7 ||
  (0x300 ≤ n && n ≤ 0x36F) || (0x203F ≤ n && n ≤ 0x2040)

/-- A name without colon (`NCName`). -/
def isNCName : Str → Bool
  | [] => false
  | c :: s => isNameStart c && s.all isNameChar

/-- Splits a qualified name at its first colon: prefix (if any) and local part. -/
def splitQName (s : Str) : Option Str × Str :=
  match s.dropWhile (· != ':') with
  | [] => (none, s)
  | _ :: loc => (some (s.takeWhile (· != ':')), loc)

/-- A qualified name: `local` or `prefix:local`.  libxml2 reports names with
other colons as namespace errors, which lxml turns into a failure. -/
def isQName (s : Str) : Bool :=
  match splitQName s with
  | (none, l) => isNCName l
  | (some p, l) => isNCName p && isNCName l

end ReqIF
