import Verif.Model.Validate
/-!
# `commands/anonymize/anonymize.py`

`hash` stands for `int(sha256(s).hexdigest(), 16)`; `u` is the default namespace of
the root, which the XPath expressions use for every step.  An XPath expression
`//a/b` selects every element `b` in that namespace whose parent is an element `a`
in that namespace.
-/
namespace ReqIF

/-- `anonymize.py` 20-23, `anonymize_string`. -/
def anonymizeString (hash : Str → Nat) (s : Str) : Str :=
  c!"...Anonymized-" ++ Nat.toDigits 10 (hash s % 10 ^ 10) ++ c!"..."

/-- The element name is `reqif:name`. -/
def inNs (u name : Str) (i : Info) : Bool := i.ns == some u && i.name == name

/-- `element.text = s`: the text before the first child is replaced. -/
def setText (s : Str) : List Node → List Node
  | .text _ :: ks => .text s :: ks
  | ks => .text s :: ks

/-- `element.text` in terms of the child nodes. -/
def textOf : List Node → Option Str
  | .text s :: _ => some s
  | _ => none

mutual
/-- `anonymize.py` 63-69 and 72-78: the text of every `//REQ-IF-HEADER/name`.
`inHeader`: the parent is a `REQ-IF-HEADER`. -/
def anonText (hash : Str → Nat) (u name : Str) (inHeader : Bool) : Node → Py Node
  | .elem i ks =>
    if inHeader && inNs u name i then
      match textOf ks with
      | none => .error .attributeError
      | some t =>
        match anonTextList hash u name (inNs u c!"REQ-IF-HEADER" i) ks with
        | .error e => .error e
        | .ok ks' => .ok (.elem i (setText (anonymizeString hash t) ks'))
    else
      match anonTextList hash u name (inNs u c!"REQ-IF-HEADER" i) ks with
      | .error e => .error e
      | .ok ks' => .ok (.elem i ks')
  | n => .ok n

def anonTextList (hash : Str → Nat) (u name : Str) (inHeader : Bool) : List Node → Py (List Node)
  | [] => .ok []
  | n :: ns =>
    match anonText hash u name inHeader n with
    | .error e => .error e
    | .ok n' =>
      match anonTextList hash u name inHeader ns with
      | .error e => .error e
      | .ok ns' => .ok (n' :: ns')
end

/-- `attrib[key] = f(attrib[key])` if the key is present.  (Attribute names are
unique, so at most one entry matches.) -/
def mapAttr (key : Str) (f : Str → Str) (as : List Attr) : List Attr :=
  as.map (fun a => if a.key == key then { a with value := f a.value } else a)

mutual
/-- `anonymize.py` 81-86 and 89-96: attribute `key` of every `//name`. -/
def anonAttr (hash : Str → Nat) (u name key : Str) : Node → Node
  | .elem i ks =>
    .elem (if inNs u name i then { i with attrs := mapAttr key (anonymizeString hash) i.attrs } else i)
      (anonAttrList hash u name key ks)
  | n => n

def anonAttrList (hash : Str → Nat) (u name key : Str) : List Node → List Node
  | [] => []
  | n :: ns => anonAttr hash u name key n :: anonAttrList hash u name key ns
end

mutual
/-- `anonymize.py` 99-110: every `//ATTRIBUTE-VALUE-XHTML/THE-VALUE` gets its
stringified content, anonymized, as its only content.  (Matches inside such an
element are removed from the document with it; the loop's work on them has no
visible effect, and it cannot raise since the outer content could be printed.)
`inValue`: the parent is an `ATTRIBUTE-VALUE-XHTML`. -/
def anonXhtml (hash : Str → Nat) (u : Str) (inValue : Bool) : Node → Py Node
  | .elem i ks =>
    if inValue && inNs u c!"THE-VALUE" i then
      match stringifyNamespacedChildren (.elem i ks) with
      | .error e => .error e
      | .ok s => .ok (.elem i [.text (anonymizeString hash s)])
    else
      match anonXhtmlList hash u (inNs u c!"ATTRIBUTE-VALUE-XHTML" i) ks with
      | .error e => .error e
      | .ok ks' => .ok (.elem i ks')
  | n => .ok n

def anonXhtmlList (hash : Str → Nat) (u : Str) (inValue : Bool) : List Node → Py (List Node)
  | [] => .ok []
  | n :: ns =>
    match anonXhtml hash u inValue n with
    | .error e => .error e
    | .ok n' =>
      match anonXhtmlList hash u inValue ns with
      | .error e => .error e
      | .ok ns' => .ok (n' :: ns')
end

/-- `anonymize.py` 58-110: the tree that is printed. -/
def anonymizeTree (hash : Str → Nat) (root : Node) : Py Node :=
  match root.nsmap.get? none with
  | none => .error .keyError
  | some u =>
    match anonText hash u c!"COMMENT" false root with
    | .error e => .error e
    | .ok r1 =>
      match anonText hash u c!"TITLE" false r1 with
      | .error e => .error e
      | .ok r2 =>
        anonXhtml hash u false
          (anonAttr hash u c!"ATTRIBUTE-VALUE-STRING" c!"THE-VALUE"
            (anonAttr hash u c!"SPECIFICATION" c!"LONG-NAME" r2))

/-- The parsed document with another root element. -/
def Doc.withRoot (d : Doc) (r : Node) : Doc :=
  { d with
    nodes := d.nodes.map (fun n => match n with | .elem _ _ => r | n => n)
    root := r }

/-- `anonymize.py` 47-120, `_anonymize`.  `print` stands for lxml's `tostring`, which
also prints the comments and processing instructions outside the root. -/
def anonymize (hash : Str → Nat) (print : Doc → Str) (read : Py ByteArray) : Py Str :=
  match read with
  | .error e => .error e
  | .ok bytes =>
    match decodeUtf8 bytes with
    | .error e => .error e
    | .ok s =>
      match readDoc (normEol s) with
      | none => .error (.xmlParsing .notWellFormed)
      | some d =>
        match anonymizeTree hash d.root with
        | .error e => .error e
        | .ok r => .ok (print (d.withRoot r))

end ReqIF
