import Verif.Xml.Chars
/-!
# Character data: references and normalisation

Contract of lxml/libxml2.  Only the five predefined entities and character
references are known (no DTD).
-/
namespace ReqIF

/-- Value of a hexadecimal digit. -/
def hexVal (c : Char) : Option Nat :=
  if '0' ≤ c && c ≤ '9' then some (c.toNat - '0'.toNat)
  else if 'a' ≤ c && c ≤ 'f' then some (c.toNat - 'a'.toNat + 10)
  else if 'A' ≤ c && c ≤ 'F' then some (c.toNat - 'A'.toNat + 10)
  else none

/-- Value of a decimal digit. -/
def decVal (c : Char) : Option Nat :=
  if '0' ≤ c && c ≤ '9' then some (c.toNat - '0'.toNat) else none

/-- Reads digits to the end of the list; `acc` is the value so far. -/
def readDigits (base : Nat) (val : Char → Option Nat) : Nat → Str → Option Nat
  | acc, [] => some acc
  | acc, c :: s =>
    match val c with
    | none => none
    | some d => readDigits base val (acc * base + d) s

/-- The character with this code, if it is a legal XML character. -/
def charOfCode (n : Nat) : Option Char :=
  if n.isValidChar then
    (let c := Char.ofNat n; if isXmlChar c then some c else none)
  else none

/-- The character a reference `&name;` stands for. -/
def entityChar (name : Str) : Option Char :=
  if name = c!"amp" then some '&'
  else if name = c!"lt" then some '<'
  else if name = c!"gt" then some '>'
  else if name = c!"quot" then some '"'
  else if name = c!"apos" then some '\''
  else match name with
    | '#' :: 'x' :: d :: ds => (readDigits 16 hexVal 0 (d :: ds)).bind charOfCode
    | '#' :: d :: ds => (readDigits 10 decVal 0 (d :: ds)).bind charOfCode
    | _ => none

/-- Decodes references.  `pend` is the (reversed) name of a reference being
read; `lit` says what a literal character becomes (`none`: illegal). -/
def decodeGo (lit : Char → Option Char) : Option Str → Str → Option Str
  | none, [] => some []
  | some _, [] => none
  | none, c :: s =>
    if c = '&' then decodeGo lit (some []) s
    else match lit c with
      | none => none
      | some d => (decodeGo lit none s).map (d :: ·)
  | some nm, c :: s =>
    if c = ';' then
      match entityChar nm.reverse with
      | none => none
      | some d => (decodeGo lit none s).map (d :: ·)
    else decodeGo lit (some (c :: nm)) s

/-- A literal character in element text. -/
def litText (c : Char) : Option Char :=
  if isXmlChar c && c != '<' then some c else none

/-- A literal character in an attribute value: white space becomes a space
(XML 1.0 section 3.3.3). -/
def litAttr (c : Char) : Option Char :=
  if isXmlChar c && c != '<' then (if isWs c then some ' ' else some c) else none

/-- Element text between two tags (line ends already normalised). -/
def decodeText (raw : Str) : Option Str :=
  if containsStr c!"]]>" raw then none else decodeGo litText none raw

/-- Attribute value between the quotes. -/
def decodeAttr (raw : Str) : Option Str := decodeGo litAttr none raw

/-- Line-end normalisation of the whole document (XML 1.0 section 2.11). -/
def normEol : Str → Str
  | [] => []
  | '\r' :: '\n' :: s => '\n' :: normEol s
  | c :: s => (if c = '\r' then '\n' else c) :: normEol s

end ReqIF
