import Verif.Xml.Tree
import Verif.Xml.Chars
/-!
# The grammar of XML documents

The productions of XML 1.0 (fifth edition) and of Namespaces in XML 1.0, for documents
without a document type declaration.  The numbers are those of the productions of XML 1.0.
Every production says what texts there are and what is in them: names, attributes with
their values, and nodes.  The character classes (`isWs` [3], `isXmlChar` [2], `isQName`, [7] of
Namespaces in XML) are those of `Xml/Chars`, which `Props/C79_chars` compares with the tables of
`Spec/Chars`.

Nothing here says how a text is read.
-/
namespace ReqIF.Grammar

/-- [3] S? -/
def OptSpace (s : Str) : Prop := ∀ c ∈ s, isWs c = true

/-- [3] S -/
def Space (s : Str) : Prop := s ≠ [] ∧ OptSpace s

/-- Does the text occur? -/
def Has (p s : Str) : Prop := ∃ a b, s = a ++ p ++ b

/-- The value of a decimal digit. -/
def Digit (c : Char) (d : Nat) : Prop := '0' ≤ c ∧ c ≤ '9' ∧ d = c.toNat - '0'.toNat

/-- The value of a hexadecimal digit. -/
def HexDigit (c : Char) (d : Nat) : Prop :=
  Digit c d ∨ ('a' ≤ c ∧ c ≤ 'f' ∧ d = c.toNat - 'a'.toNat + 10) ∨ ('A' ≤ c ∧ c ≤ 'F' ∧ d = c.toNat - 'A'.toNat + 10)

/-- Numerals with one or more digits. -/
inductive Numeral (base : Nat) (digit : Char → Nat → Prop) : Str → Nat → Prop
  | one {c : Char} {d : Nat} : digit c d → Numeral base digit [c] d
  | more {s : Str} {n : Nat} {c : Char} {d : Nat} : Numeral base digit s n → digit c d → Numeral base digit (s ++ [c]) (n * base + d)

/-- [66] CharRef, and [68] EntityRef for the entities that are declared without a declaration. -/
inductive Reference : Str → Char → Prop
  | amp : Reference c!"&amp;" '&'
  | lt : Reference c!"&lt;" '<'
  | gt : Reference c!"&gt;" '>'
  | quot : Reference c!"&quot;" '"'
  | apos : Reference c!"&apos;" '\''
  | dec {s : Str} {c : Char} : Numeral 10 Digit s c.toNat → isXmlChar c = true → Reference (c!"&#" ++ s ++ c!";") c
  | hex {s : Str} {c : Char} : Numeral 16 HexDigit s c.toNat → isXmlChar c = true → Reference (c!"&#x" ++ s ++ c!";") c

/-- Characters and references, and what they stand for. -/
inductive Letters (lit : Char → Char → Prop) : Str → Str → Prop
  | none : Letters lit [] []
  | char {c d : Char} {s t : Str} : c ≠ '&' → lit c d → Letters lit s t → Letters lit (c :: s) (d :: t)
  | ref {r : Str} {d : Char} {s t : Str} : Reference r d → Letters lit s t → Letters lit (r ++ s) (d :: t)

/-- A character in text: any but `<`. -/
def TextChar (c d : Char) : Prop := isXmlChar c = true ∧ c ≠ '<' ∧ d = c

/-- A character in an attribute value: any but `<`; white space becomes a space (section 3.3.3). -/
def AttrChar (c d : Char) : Prop := isXmlChar c = true ∧ c ≠ '<' ∧ d = if isWs c then ' ' else c

/-- [14] CharData with [67] Reference: a run of text, which does not contain `]]>`. -/
def Text (raw t : Str) : Prop := raw ≠ [] ∧ '<' ∉ raw ∧ ¬ Has c!"]]>" raw ∧ Letters TextChar raw t

/-- ([3] S [41] Attribute)* -/
inductive Attributes : Str → List (Str × Str) → Prop
  | none : Attributes [] []
  | more {s : Str} {as : List (Str × Str)} {w n e₁ e₂ raw v : Str} {q : Char} :
      Attributes s as → Space w → isQName n = true → OptSpace e₁ → OptSpace e₂ → q = '"' ∨ q = '\'' → q ∉ raw →
      Letters AttrChar raw v → Attributes (s ++ w ++ n ++ e₁ ++ c!"=" ++ e₂ ++ [q] ++ raw ++ [q]) (as ++ [(n, v)])

/-- [15] Comment: no two hyphens in a row, and none at the end. -/
def Comment (s body : Str) : Prop :=
  s = c!"<!--" ++ body ++ c!"-->" ∧ (∀ c ∈ body, isXmlChar c = true) ∧ ¬ Has c!"--" (body ++ c!"-")

/-- [16] PI: the target is a name (without colon) and not `xml` in any case of its letters. -/
def Instruction (s target data : Str) : Prop :=
  ∃ w body, s = c!"<?" ++ body ++ c!"?>" ∧ body = target ++ w ++ data ∧ OptSpace w ∧ (w = [] → data = []) ∧
    (∀ c, data.head? = some c → isWs c = false) ∧ isNCName target = true ∧
    ¬ (∃ x m l, target = [x, m, l] ∧ (x = 'x' ∨ x = 'X') ∧ (m = 'm' ∨ m = 'M') ∧ (l = 'l' ∨ l = 'L')) ∧
    (∀ c ∈ data, isXmlChar c = true) ∧ ¬ Has c!"?>" body

/-- [18] CDSect -/
def CData (s body : Str) : Prop :=
  s = c!"<![CDATA[" ++ body ++ c!"]]>" ∧ (∀ c ∈ body, isXmlChar c = true) ∧ ¬ Has c!"]]>" body

/-- Text at the end of a list of nodes joins the text that stands there. -/
def addLast (t : Str) : List Xml → List Xml
  | [] => [.text t]
  | [.text s] => [.text (s ++ t)]
  | k :: ks => k :: addLast t ks

mutual
/-- [39] element: an empty tag [44], or start tag [40], content [43] and end tag [42] with the
same name. -/
inductive Element : Str → Xml → Prop
  | empty {n s w : Str} {as : List (Str × Str)} : isQName n = true → Attributes s as → OptSpace w →
      Element (c!"<" ++ n ++ s ++ w ++ c!"/>") (.elem n as [])
  | full {n s w u w' : Str} {as : List (Str × Str)} {ks : List Xml} : isQName n = true → Attributes s as → OptSpace w → Content u ks → OptSpace w' →
      Element (c!"<" ++ n ++ s ++ w ++ c!">" ++ u ++ c!"</" ++ n ++ w' ++ c!">") (.elem n as ks)

/-- Content that is empty or ends with markup. -/
inductive Marked : Str → List Xml → Prop
  | none : Marked [] []
  | elem {u e : Str} {ks : List Xml} {x : Xml} : Content u ks → Element e x → Marked (u ++ e) (ks ++ [x])
  | comment {u e b : Str} {ks : List Xml} : Content u ks → Comment e b → Marked (u ++ e) (ks ++ [.comment b])
  | inst {u e t d : Str} {ks : List Xml} : Content u ks → Instruction e t d → Marked (u ++ e) (ks ++ [.pi t d])
  | cdata {u e b : Str} {ks : List Xml} : Content u ks → CData e b → Marked (u ++ e) (addLast b ks)

/-- [43] content -/
inductive Content : Str → List Xml → Prop
  | marked {u : Str} {ks : List Xml} : Marked u ks → Content u ks
  | text {u raw t : Str} {ks : List Xml} : Marked u ks → Text raw t → Content (u ++ raw) (addLast t ks)
end

/-- [27] Misc* -/
inductive Misc : Str → List Xml → Prop
  | none : Misc [] []
  | space {u : Str} {ks : List Xml} {c : Char} : Misc u ks → isWs c = true → Misc (u ++ [c]) ks
  | comment {u e b : Str} {ks : List Xml} : Misc u ks → Comment e b → Misc (u ++ e) (ks ++ [.comment b])
  | inst {u e t d : Str} {ks : List Xml} : Misc u ks → Instruction e t d → Misc (u ++ e) (ks ++ [.pi t d])

/-- Pseudo-attribute of the XML declaration, [24], [80], [32]: name and value between quotes. -/
def Pseudo (s name value : Str) : Prop :=
  ∃ w e₁ e₂ q, s = w ++ name ++ e₁ ++ c!"=" ++ e₂ ++ [q] ++ value ++ [q] ∧ Space w ∧ OptSpace e₁ ∧ OptSpace e₂ ∧ (q = '"' ∨ q = '\'')

/-- [26] VersionNum -/
def Version (s : Str) : Prop := ∃ d, s = c!"1." ++ d ∧ d ≠ [] ∧ ∀ c ∈ d, '0' ≤ c ∧ c ≤ '9'

def Letter (c : Char) : Prop := ('a' ≤ c ∧ c ≤ 'z') ∨ ('A' ≤ c ∧ c ≤ 'Z')

/-- [81] EncName -/
def EncName (s : Str) : Prop :=
  ∃ c r, s = c :: r ∧ Letter c ∧ ∀ d ∈ r, Letter d ∨ ('0' ≤ d ∧ d ≤ '9') ∨ d = '.' ∨ d = '_' ∨ d = '-'

/-- [23] XMLDecl, and the encoding it gives. -/
def Declaration (s : Str) (encoding : Option Str) : Prop :=
  ∃ v e a w version, s = c!"<?xml" ++ v ++ e ++ a ++ w ++ c!"?>" ∧ Pseudo v c!"version" version ∧ Version version ∧
    (encoding = none ∧ e = [] ∨ ∃ n, encoding = some n ∧ Pseudo e c!"encoding" n ∧ EncName n) ∧
    (a = [] ∨ Pseudo a c!"standalone" c!"yes" ∨ Pseudo a c!"standalone" c!"no") ∧ OptSpace w

/-- [1] document: [22] prolog, element, Misc*.  `decl`: whether there is an XML declaration, and
its encoding. -/
def Document (s : Str) (decl : Option (Option Str)) (ks : List Xml) : Prop :=
  ∃ h a e b k₁ x k₂, s = h ++ a ++ e ++ b ∧
    (decl = none ∧ h = [] ∨ ∃ enc, decl = some enc ∧ Declaration h enc) ∧
    Misc a k₁ ∧ Element e x ∧ Misc b k₂ ∧ ks = k₁ ++ x :: k₂

/-- Line ends, section 2.11: `s` is translated to `t`. -/
inductive Lines : Str → Str → Prop
  | none : Lines [] []
  | crlf {s t : Str} : Lines s t → Lines ('\r' :: '\n' :: s) ('\n' :: t)
  | cr {s t : Str} : s.head? ≠ some '\n' → Lines s t → Lines ('\r' :: s) ('\n' :: t)
  | other {c : Char} {s t : Str} : c ≠ '\r' → Lines s t → Lines (c :: s) (c :: t)

/-- A file: a document after an optional byte order mark, with any line ends. -/
def File (s : Str) (decl : Option (Option Str)) (ks : List Xml) : Prop :=
  ∃ u t, (s = u ∧ s.head? ≠ some (Char.ofNat 0xFEFF) ∨ s = Char.ofNat 0xFEFF :: u) ∧ Lines u t ∧ Document t decl ks

end ReqIF.Grammar
