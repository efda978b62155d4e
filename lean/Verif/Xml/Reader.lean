import Verif.Xml.Decode
import Verif.Xml.Tree
/-!
# The XML reader

A push automaton: `step` consumes one character.  It is the model of
`etree.parse` (libxml2 through lxml with default options).  Not modelled:
DOCTYPE (refused), libxml2's limits on depth and sizes, character encodings
(the input is the decoded text; the declared encoding is only recorded), the
check that namespace names are URI references.
-/
namespace ReqIF

/-- An element whose end tag has not been read yet. -/
structure Frame where
  name : Str
  attrs : List (Str × Str)
  /-- child nodes so far, last one first -/
  kidsRev : List Xml

/-- What the reader is in the middle of.  Buffers are reversed. -/
inductive Mode where
  | text (buf : Str)
  | lt
  | tagName (buf : Str)
  | inTag (name : Str) (attrs : List (Str × Str)) (ws : Bool)
  | attrName (name : Str) (attrs : List (Str × Str)) (buf : Str)
  | attrEq (name : Str) (attrs : List (Str × Str)) (an : Str)
  | attrQuote (name : Str) (attrs : List (Str × Str)) (an : Str)
  | attrVal (name : Str) (attrs : List (Str × Str)) (an : Str) (q : Char) (buf : Str)
  | slash (name : Str) (attrs : List (Str × Str))
  | closeName (buf : Str)
  | closeWs (name : Str)
  | bang (buf : Str)
  | comment (buf : Str)
  | cdata (buf : Str)
  | pi (buf : Str)

/-- Reader state: mode, innermost open element, enclosing open elements.  The
outermost frame stands for the document itself. -/
structure RS where
  mode : Mode
  top : Frame
  rest : List Frame

/-- Adds character data to the children, merging it with a text node before it. -/
def addText (t : Str) : List Xml → List Xml
  | .text s :: ks => .text (s ++ t) :: ks
  | ks => .text t :: ks

/-- Is there an element among these nodes? -/
def hasElem : List Xml → Bool
  | [] => false
  | .elem .. :: _ => true
  | _ :: ks => hasElem ks

/-- Ends a run of text.  Outside the root only white space is allowed, and dropped. -/
def flush (buf : Str) (f : Frame) (rest : List Frame) : Option Frame :=
  match buf with
  | [] => some f
  | _ =>
    match rest with
    | [] => if buf.all isWs then some f else none
    | _ =>
      match decodeText buf.reverse with
      | none => none
      | some t => some { f with kidsRev := addText t f.kidsRev }

/-- A start tag is complete. -/
def openElem (name : Str) (attrs : List (Str × Str)) (f : Frame) (rest : List Frame) : Option RS :=
  if rest.isEmpty && hasElem f.kidsRev then none
  else some ⟨.text [], ⟨name, attrs, []⟩, f :: rest⟩

/-- A self-closed tag is complete. -/
def emptyElem (name : Str) (attrs : List (Str × Str)) (f : Frame) (rest : List Frame) : Option RS :=
  if rest.isEmpty && hasElem f.kidsRev then none
  else some ⟨.text [], { f with kidsRev := .elem name attrs [] :: f.kidsRev }, rest⟩

/-- An end tag is complete. -/
def closeElem (name : Str) (f : Frame) (rest : List Frame) : Option RS :=
  match rest with
  | [] => none
  | g :: rest' =>
    if f.name = name then
      some ⟨.text [], { g with kidsRev := .elem f.name f.attrs f.kidsRev.reverse :: g.kidsRev }, rest'⟩
    else none

/-- Characters that may occur in a qualified name. -/
def isQChar (c : Char) : Bool := isNameChar c || c == ':'

/-- Lower case for the ASCII letters. -/
def asciiLower (c : Char) : Char :=
  if 'A' ≤ c && c ≤ 'Z' then Char.ofNat (c.toNat + 32) else c

/-- A processing instruction is complete; `body` is what stands between `<?` and `?>`. -/
def finishPi (body : Str) : Option Xml :=
  let target := body.takeWhile (fun c => !isWs c)
  let data := (body.dropWhile (fun c => !isWs c)).dropWhile isWs
  if isNCName target && target.map asciiLower != c!"xml" && data.all isXmlChar then
    some (.pi target data)
  else none

/-- One character. -/
def step (s : RS) (c : Char) : Option RS :=
  match s.mode with
  | .text buf =>
    if c = '<' then (flush buf s.top s.rest).map (fun f => ⟨.lt, f, s.rest⟩)
    else some { s with mode := .text (c :: buf) }
  | .lt =>
    if c = '/' then some { s with mode := .closeName [] }
    else if c = '!' then some { s with mode := .bang [] }
    else if c = '?' then some { s with mode := .pi [] }
    else if isQChar c then some { s with mode := .tagName [c] }
    else none
  | .tagName buf =>
    if isQChar c then some { s with mode := .tagName (c :: buf) }
    else if isQName buf.reverse then
      if isWs c then some { s with mode := .inTag buf.reverse [] true }
      else if c = '>' then openElem buf.reverse [] s.top s.rest
      else if c = '/' then some { s with mode := .slash buf.reverse [] }
      else none
    else none
  | .inTag name attrs ws =>
    if isWs c then some { s with mode := .inTag name attrs true }
    else if c = '>' then openElem name attrs s.top s.rest
    else if c = '/' then some { s with mode := .slash name attrs }
    else if ws && isQChar c then some { s with mode := .attrName name attrs [c] }
    else none
  | .attrName name attrs buf =>
    if isQChar c then some { s with mode := .attrName name attrs (c :: buf) }
    else if isQName buf.reverse then
      if c = '=' then some { s with mode := .attrQuote name attrs buf.reverse }
      else if isWs c then some { s with mode := .attrEq name attrs buf.reverse }
      else none
    else none
  | .attrEq name attrs an =>
    if isWs c then some s
    else if c = '=' then some { s with mode := .attrQuote name attrs an }
    else none
  | .attrQuote name attrs an =>
    if isWs c then some s
    else if c = '"' || c = '\'' then some { s with mode := .attrVal name attrs an c [] }
    else none
  | .attrVal name attrs an q buf =>
    if c = q then
      match decodeAttr buf.reverse with
      | none => none
      | some v => some { s with mode := .inTag name (attrs ++ [(an, v)]) false }
    else some { s with mode := .attrVal name attrs an q (c :: buf) }
  | .slash name attrs =>
    if c = '>' then emptyElem name attrs s.top s.rest else none
  | .closeName buf =>
    if c = '>' then closeElem buf.reverse s.top s.rest
    else if isWs c then some { s with mode := .closeWs buf.reverse }
    else some { s with mode := .closeName (c :: buf) }
  | .closeWs name =>
    if c = '>' then closeElem name s.top s.rest
    else if isWs c then some s
    else none
  | .bang buf =>
    let b := (c :: buf).reverse
    if b = c!"--" then some { s with mode := .comment [] }
    else if b = c!"[CDATA[" then
      if s.rest.isEmpty then none else some { s with mode := .cdata [] }
    else if b.isPrefixOf c!"--" || b.isPrefixOf c!"[CDATA[" then
      some { s with mode := .bang (c :: buf) }
    else none
  | .comment buf =>
    if buf.take 2 = c!"--" then
      if c = '>' && (buf.drop 2).all isXmlChar then
        some ⟨.text [], { s.top with kidsRev := .comment (buf.drop 2).reverse :: s.top.kidsRev }, s.rest⟩
      else none
    else some { s with mode := .comment (c :: buf) }
  | .cdata buf =>
    if c = '>' && buf.take 2 = c!"]]" then
      if (buf.drop 2).all isXmlChar then
        some ⟨.text [], { s.top with kidsRev := addText (buf.drop 2).reverse s.top.kidsRev }, s.rest⟩
      else none
    else some { s with mode := .cdata (c :: buf) }
  | .pi buf =>
    if c = '>' && buf.take 1 = c!"?" then
      match finishPi (buf.drop 1).reverse with
      | none => none
      | some p => some ⟨.text [], { s.top with kidsRev := p :: s.top.kidsRev }, s.rest⟩
    else some { s with mode := .pi (c :: buf) }

/-- Many characters. -/
def run : RS → Str → Option RS
  | s, [] => some s
  | s, c :: cs =>
    match step s c with
    | none => none
    | some s' => run s' cs

/-- The state before the first character. -/
def RS.start : RS := ⟨.text [], ⟨[], [], []⟩, []⟩

/-- The top-level nodes of a complete document: one element, comments and
processing instructions. -/
def finish (s : RS) : Option (List Xml) :=
  match s.mode with
  | .text buf =>
    if s.rest.isEmpty && buf.all isWs && hasElem s.top.kidsRev then some s.top.kidsRev.reverse
    else none
  | _ => none

/-- The XML declaration. -/
structure Decl where
  encoding : Option Str
  deriving DecidableEq, Repr

/-- `EncName` -/
def isEncName : Str → Bool
  | [] => false
  | c :: s => (('a' ≤ c && c ≤ 'z') || ('A' ≤ c && c ≤ 'Z')) &&
    s.all (fun c => ('a' ≤ c && c ≤ 'z') || ('A' ≤ c && c ≤ 'Z') || ('0' ≤ c && c ≤ '9') ||
      c == '.' || c == '_' || c == '-')

/-- `VersionNum` as libxml2 accepts it: `1.` and digits. -/
def isVersion : Str → Bool
  | '1' :: '.' :: d :: s => (d :: s).all (fun c => '0' ≤ c && c ≤ '9')
  | _ => false

/-- Checks the pseudo-attributes of the declaration. -/
def declOf : List (Str × Str) → Option Decl
  | (vn, v) :: rest =>
    if vn = c!"version" && isVersion v then
      match rest with
      | [] => some ⟨none⟩
      | [(n, x)] =>
        if n = c!"encoding" && isEncName x then some ⟨some x⟩
        else if n = c!"standalone" && (x = c!"yes" || x = c!"no") then some ⟨none⟩
        else none
      | [(n, x), (m, y)] =>
        if n = c!"encoding" && isEncName x && m = c!"standalone" && (y = c!"yes" || y = c!"no") then
          some ⟨some x⟩
        else none
      | _ => none
    else none
  | [] => none

/-- Splits at the first `?>`. -/
def splitPiEnd : Str → Option (Str × Str)
  | [] => none
  | '?' :: '>' :: s => some ([], s)
  | c :: s => (splitPiEnd s).map (fun p => (c :: p.1, p.2))

/-- Reads the optional XML declaration; its body has the syntax of attributes
in an empty tag without references, so the tag reader is used for it. -/
def readDecl (s : Str) : Option (Option Decl × Str) :=
  match s with
  | '<' :: '?' :: 'x' :: 'm' :: 'l' :: w :: s' =>
    if isWs w then
      match splitPiEnd s' with
      | none => none
      | some (body, s'') =>
        if '&' ∈ body then none
        else match run RS.start (c!"<xml " ++ body ++ c!"/>") with
        | some ⟨.text [], ⟨_, _, [.elem _ attrs _]⟩, []⟩ =>
          match declOf attrs with
          | some d => some (some d, s'')
          | none => none
        | _ => none
    else some (none, s)
  | _ => some (none, s)

/-- Drops a byte order mark. -/
def dropBom : Str → Str
  | [] => []
  | c :: s => if c = Char.ofNat 0xFEFF then s else c :: s

/-- Reads a document: declaration (if any) and top-level nodes. -/
def readRaw (s : Str) : Option (Option Decl × List Xml) :=
  match readDecl (normEol (dropBom s)) with
  | none => none
  | some (d, s') =>
    match run RS.start s' with
    | none => none
    | some st =>
      match finish st with
      | none => none
      | some ks => some (d, ks)

end ReqIF
