import Verif.Spec.Escape
/-!
# A small tokenizer for markup, and the tokens one expects of a tree

Independent of the code.  A token is a start tag, an end tag, an empty-element tag or one
character of text.  Tag bodies end at the first `>`; the name of a tag ends at the first
space, what follows is kept as it is.
-/
namespace ReqIF.Spec

inductive Tok
  | start (name rest : Str)
  | stop (name : Str)
  | empty (name rest : Str)
  | char (c : Char)
  deriving DecidableEq

def bodyName (body : Str) : Str := body.takeWhile (fun c => c != ' ')
def bodyRest (body : Str) : Str := body.dropWhile (fun c => c != ' ')

/-- The token of a tag with this body (what is between `<` and `>`). -/
def tagTok (body : Str) : Tok :=
  match body with
  | '/' :: n => .stop n
  | _ => if body.getLast? = some '/' then .empty (bodyName body.dropLast) (bodyRest body.dropLast)
         else .start (bodyName body) (bodyRest body)

/-- `scan none`: outside of tags; `scan (some b)`: inside a tag, `b` is the body so far,
reversed. -/
def scan : Option Str → Str → List Tok
  | none, [] => []
  | none, c :: s => if c = '<' then scan (some []) s else .char c :: scan none s
  | some _, [] => [.char '<']
  | some b, c :: s => if c = '>' then tagTok b.reverse :: scan none s else scan (some (c :: b)) s

/-- The tokens of a text. -/
def toks (s : Str) : List Tok := scan none s

/-- The tags. -/
def tagsOf (ts : List Tok) : List Tok := ts.filter (fun t => match t with | .char _ => false | _ => true)

/-- The same tag, with the runs of 16 spaces removed from its attributes. -/
def unrunTok : Tok → Tok
  | .start n r => .start n (replaceStr (List.replicate 16 ' ') [] r)
  | .empty n r => .empty n (replaceStr (List.replicate 16 ' ') [] r)
  | t => t

/-- The text without the tags. -/
def charsOf (ts : List Tok) : Str := ts.filterMap (fun t => match t with | .char c => some c | _ => none)

/-- Start and end tags match. -/
def balanced : List Str → List Tok → Bool
  | st, [] => st.isEmpty
  | st, .start n _ :: ts => balanced (n :: st) ts
  | n' :: st, .stop n :: ts => n' == n && balanced st ts
  | [], .stop _ :: _ => false
  | st, .empty _ _ :: ts => balanced st ts
  | st, .char _ :: ts => balanced st ts

mutual
/-- The tokens of a tree: `nm` and `rest` tell how a tag is written, `short` whether an
element without content is written as an empty-element tag. -/
def tokensOf (nm rest : Info → Str) (short : Info → Bool) : Node → List Tok
  | .text s => (escape s).map .char
  | .elem i ks =>
    if ks.isEmpty && short i then [.empty (nm i) (rest i)]
    else .start (nm i) (rest i) :: tokensOfAll nm rest short ks ++ [.stop (nm i)]
  | _ => []

def tokensOfAll (nm rest : Info → Str) (short : Info → Bool) : List Node → List Tok
  | [] => []
  | n :: ns => tokensOf nm rest short n ++ tokensOfAll nm rest short ns
end

mutual
/-- The pieces of text in a tree, in order. -/
def fragments : Node → List Str
  | .text s => [s]
  | .elem _ ks => fragmentsAll ks
  | _ => []

def fragmentsAll : List Node → List Str
  | [] => []
  | n :: ns => fragments n ++ fragmentsAll ns
end

/-- A name has no markup characters and no spaces. -/
def NameOk (s : Str) : Prop := s ≠ [] ∧ ∀ c ∈ s, c ≠ ' ' ∧ c ≠ '<' ∧ c ≠ '>' ∧ c ≠ '/'

/-- No angle brackets. -/
def NoAngle (s : Str) : Prop := ∀ c ∈ s, c ≠ '<' ∧ c ≠ '>'

instance (s : Str) : Decidable (NameOk s) := inferInstanceAs (Decidable (_ ∧ _))
instance (s : Str) : Decidable (NoAngle s) := inferInstanceAs (Decidable (∀ c ∈ s, _))

/-- Names, attribute names, prefixes and namespaces as XML documents have them. -/
structure InfoOk (i : Info) : Prop where
  name : NameOk i.name
  attrs : ∀ a ∈ i.attrs, NoAngle a.key
  maps : ∀ d ∈ i.nsmap, NoAngle d.2 ∧ ∀ p, d.1 = some p → NameOk p

/-- `object` in any letter case. -/
def isObject : Str → Bool
  | [a, b, c, d, e, f] => (a == 'o' || a == 'O') && (b == 'b' || b == 'B') && (c == 'j' || c == 'J') && (d == 'e' || d == 'E') &&
      (e == 'c' || e == 'C') && (f == 't' || f == 'T')
  | _ => false

mutual
/-- The elements of a tree. -/
def infosOf : Node → List Info
  | .elem i ks => i :: infosOfAll ks
  | _ => []

def infosOfAll : List Node → List Info
  | [] => []
  | n :: ns => infosOf n ++ infosOfAll ns
end

/-- The attributes of a tag as text. -/
def attributesText (as : List Attr) : Str := as.flatMap (fun a => c!" " ++ a.key ++ c!"=\"" ++ escape a.value ++ c!"\"")

/-! ## Content printed without namespaces: texts between and after the top-level elements
appear twice -/

/-- The tokens of the children of an element, after the first text.  `restTop` is what
follows the name of a top-level element. -/
def tokensTop (nm rest restTop : Info → Str) (short : Info → Bool) : List Node → List Tok
  | [] => []
  | .text t :: ns => (escape t ++ t).map .char ++ tokensTop nm rest restTop short ns
  | .elem i ks :: ns =>
    (if ks.isEmpty && short i then [.empty (nm i) (restTop i)]
     else .start (nm i) (restTop i) :: tokensOfAll nm rest short ks ++ [.stop (nm i)]) ++ tokensTop nm rest restTop short ns
  | _ :: ns => tokensTop nm rest restTop short ns

/-- The tokens of all children: the first text is printed as it is. -/
def tokensChildren (nm rest restTop : Info → Str) (short : Info → Bool) : List Node → List Tok
  | .text t :: ns => t.map .char ++ tokensTop nm rest restTop short ns
  | ns => tokensTop nm rest restTop short ns

/-- The text that is printed, without the tags. -/
def charsTop : List Node → Str
  | [] => []
  | .text t :: ns => escape t ++ t ++ charsTop ns
  | n :: ns => (fragments n).flatMap escape ++ charsTop ns

def charsChildren : List Node → Str
  | .text t :: ns => t ++ charsTop ns
  | ns => charsTop ns

/-- No `<` in the texts that are printed as they are. -/
def TopTextsPlain (ns : List Node) : Prop := ∀ t, .text t ∈ ns → '<' ∉ t

mutual
/-- Only elements and texts. -/
def noSpecials : Node → Bool
  | .elem _ ks => noSpecialsAll ks
  | .text _ => true
  | _ => false

def noSpecialsAll : List Node → Bool
  | [] => true
  | n :: ns => noSpecials n && noSpecialsAll ns
end

/-- Element and attribute names as XHTML content has them: no markup characters or colons
in element names, attributes without a namespace other than the one of `xml:`. -/
structure XhtmlNames (i : Info) : Prop where
  name : NameOk i.name
  local_ : ':' ∉ i.name
  attrs : ∀ a ∈ i.attrs, NameOk a.name ∧ a.name ≠ c!"xmlns" ∧
    (a.ns = none ∨ a.ns = some c!"http://www.w3.org/XML/1998/namespace" ∧ a.pfx = some c!"xml")

end ReqIF.Spec
