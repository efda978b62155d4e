import Verif.Model.Anonymize
/-!
# Specification of anonymization

The strings anonymization covers, what the document looks like without them, and the
document with each of them replaced: three walks over the tree.  `u` is the
default namespace of the document, `parent` the parent element.
-/
namespace ReqIF.Spec

/-- The element is called `name` in namespace `u`. -/
def isA (u name : Str) (i : Info) : Bool := decide (i.ns = some u ∧ i.name = name)

/-- The comment or the title of a header. -/
def headerText (u : Str) (parent : Option Info) (i : Info) : Bool :=
  parent.any (isA u c!"REQ-IF-HEADER") && (isA u c!"COMMENT" i || isA u c!"TITLE" i)

/-- The content of an XHTML attribute value. -/
def xhtmlValue (u : Str) (parent : Option Info) (i : Info) : Bool :=
  parent.any (isA u c!"ATTRIBUTE-VALUE-XHTML") && isA u c!"THE-VALUE" i

/-- The long name of a specification or the value of a STRING attribute. -/
def coveredAttr (u : Str) (i : Info) (a : Attr) : Bool :=
  (isA u c!"SPECIFICATION" i && decide (a.key = c!"LONG-NAME")) ||
  (isA u c!"ATTRIBUTE-VALUE-STRING" i && decide (a.key = c!"THE-VALUE"))

/-- The text before the first child element. -/
def leadingText : List Node → List (Py Str)
  | .text s :: _ => [.ok s]
  | _ => []

mutual
/-- The covered strings in document order.  The string of an XHTML value is its
printed content. -/
def covered (u : Str) (parent : Option Info) : Node → List (Py Str)
  | .elem i ks =>
    ((i.attrs.filter (coveredAttr u i)).map (fun a => Except.ok a.value)) ++
    if xhtmlValue u parent i then [stringifyNamespacedChildren (.elem i ks)]
    else (if headerText u parent i then leadingText ks else []) ++ coveredList u (some i) ks
  | _ => []

def coveredList (u : Str) (parent : Option Info) : List Node → List (Py Str)
  | [] => []
  | n :: ns => covered u parent n ++ coveredList u parent ns
end

/-- Applies a function to the text before the first child element. -/
def mapLeading (f : Str → Str) : List Node → List Node
  | .text s :: ks => .text (f s) :: ks
  | ks => ks

/-- Applies a function to the covered attributes. -/
def mapCovered (u : Str) (f : Str → Str) (i : Info) : Info :=
  { i with attrs := i.attrs.map (fun a => if coveredAttr u i a then { a with value := f a.value } else a) }

mutual
/-- The document without its covered strings: each is replaced by a star. -/
def mask (u : Str) (parent : Option Info) : Node → Node
  | .elem i ks =>
    .elem (mapCovered u (fun _ => c!"*") i)
      (if xhtmlValue u parent i then [.text c!"*"]
       else if headerText u parent i then mapLeading (fun _ => c!"*") (maskList u (some i) ks)
       else maskList u (some i) ks)
  | n => n

def maskList (u : Str) (parent : Option Info) : List Node → List Node
  | [] => []
  | n :: ns => mask u parent n :: maskList u parent ns
end

mutual
/-- Every covered string but the XHTML values replaced. -/
def rewriteTexts (u : Str) (f : Str → Str) (parent : Option Info) : Node → Node
  | .elem i ks =>
    .elem (mapCovered u f i)
      (if headerText u parent i then mapLeading f (rewriteTextsList u f (some i) ks)
       else rewriteTextsList u f (some i) ks)
  | n => n

def rewriteTextsList (u : Str) (f : Str → Str) (parent : Option Info) : List Node → List Node
  | [] => []
  | n :: ns => rewriteTexts u f parent n :: rewriteTextsList u f parent ns
end

mutual
/-- The covered strings in document order, where the string of an XHTML value is its
content printed after the covered strings inside it, if any, were replaced. -/
def coveredAfter (u : Str) (f : Str → Str) (parent : Option Info) : Node → List (Py Str)
  | .elem i ks =>
    ((i.attrs.filter (coveredAttr u i)).map (fun a => Except.ok a.value)) ++
    if xhtmlValue u parent i then [stringifyNamespacedChildren (.elem i (rewriteTextsList u f (some i) ks))]
    else (if headerText u parent i then leadingText ks else []) ++ coveredAfterList u f (some i) ks
  | _ => []

def coveredAfterList (u : Str) (f : Str → Str) (parent : Option Info) : List Node → List (Py Str)
  | [] => []
  | n :: ns => coveredAfter u f parent n ++ coveredAfterList u f parent ns
end

/-- An XHTML value holds none of the other covered strings. -/
def plainValue (u : Str) (f : Str → Str) (i : Info) (ks : List Node) : Prop :=
  rewriteTextsList u f (some i) ks = ks

mutual
/-- No XHTML value holds another covered string. -/
def NoNesting (u : Str) (parent : Option Info) : Node → Prop
  | .elem i ks =>
    if xhtmlValue u parent i then ∀ f, plainValue u f i ks else NoNestingList u (some i) ks
  | _ => True

def NoNestingList (u : Str) (parent : Option Info) : List Node → Prop
  | [] => True
  | n :: ns => NoNesting u parent n ∧ NoNestingList u parent ns
end

/-- An anonymized string. -/
def Anonymized (s : Str) : Prop :=
  ∃ n, n < 10 ^ 10 ∧ s = c!"...Anonymized-" ++ Nat.toDigits 10 n ++ c!"..."

/-- Anonymizing the file `bytes` prints `text`: document `d` with default namespace `u`
was read, and printed with root `r`. -/
structure AnonymizedTo (print : Doc → Str) (bytes : ByteArray) (text : Str) (d : Doc) (u : Str) (r : Node) : Prop where
  read : ∃ s, decodeUtf8 bytes = .ok s ∧ readDoc (normEol s) = some d
  namespace_ : d.root.nsmap.get? none = some u
  printed : text = print (d.withRoot r)

end ReqIF.Spec
