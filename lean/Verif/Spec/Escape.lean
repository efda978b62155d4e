import Verif.Xml.Resolve
/-!
# What escaping and indentation should do (independent of the code)
-/
namespace ReqIF.Spec

/-- The substitution table of XML/HTML escaping with quotes, non-breaking space and tab. -/
def escChar (c : Char) : Str :=
  if c = '&' then c!"&amp;"
  else if c = '<' then c!"&lt;"
  else if c = '>' then c!"&gt;"
  else if c = '"' then c!"&quot;"
  else if c = '\'' then c!"&#x27;"
  else if c = Char.ofNat 0xA0 then c!"&#xA0;"
  else if c = '\t' then c!"&#9;"
  else [c]

/-- Substitution of every character, independently of its neighbours. -/
def escape (s : Str) : Str := s.flatMap escChar

/-- Every `&` of the text starts a complete reference. -/
def RefsComplete (s : Str) : Prop :=
  ∀ a b, s = a ++ '&' :: b →
    ∃ name rest, b = name ++ ';' :: rest ∧ '&' ∉ name ∧ ';' ∉ name ∧ (entityChar name).isSome = true

/-- An element with one attribute. -/
def attrDoc (tag attr raw : Str) : Str := c!"<" ++ tag ++ c!" " ++ attr ++ c!"=\"" ++ raw ++ c!"\"/>"

/-- An element with text content. -/
def textDoc (tag raw : Str) : Str := c!"<" ++ tag ++ c!">" ++ raw ++ c!"</" ++ tag ++ c!">"

/-- An XML parser reads this document as an element whose attribute has value `v`. -/
def ReadsAttr (doc attr v : Str) : Prop :=
  ∃ d, readDoc doc = some d ∧ d.root.attr? attr = some v

/-- An XML parser reads this document as an element without child elements, whose
text is `v` (lxml reports an empty text as `None`). -/
def ReadsText (doc v : Str) : Prop :=
  ∃ d, readDoc doc = some d ∧ d.root.children = [] ∧ d.root.text? = (if v = [] then none else some v)

/-- One space for every tab and every line end. -/
def spaced (s : Str) : Str := (normEol s).map (fun c => if c = '\t' ∨ c = '\n' then ' ' else c)

/-- Lines of a text. -/
def lines : Str → List Str
  | [] => [[]]
  | c :: s =>
    if c = '\n' then [] :: lines s
    else match lines s with
      | [] => [[c]]
      | l :: ls => (c :: l) :: ls

/-- Lines joined by line feeds. -/
def joinLines : List Str → Str
  | [] => []
  | [l] => l
  | l :: ls => l ++ '\n' :: joinLines ls

/-- No run of `n` consecutive spaces. -/
def NoSpaceRun (n : Nat) (s : Str) : Prop := ∀ a b, s ≠ a ++ List.replicate n ' ' ++ b

/-- `t` is `s` without the white space around it. -/
def Stripped (s t : Str) : Prop :=
  ∃ a b, s = a ++ t ++ b ∧ (∀ c ∈ a, isPySpace c = true) ∧ (∀ c ∈ b, isPySpace c = true) ∧
    (∀ c, t.head? = some c → isPySpace c = false) ∧ (∀ c, t.getLast? = some c → isPySpace c = false)

end ReqIF.Spec
