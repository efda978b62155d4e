import Verif.Spec.Kept
/-!
# What is written of a document

The library has no place for some of the content of a document, and rewrites some values.
`written` is the element it writes for an element read: without what it drops, and with the
values it rewrites.  Layout, namespaces and the order of children are not its subject.
-/
namespace ReqIF.Xsd

/-- Left out when empty. -/
def unlessEmpty (v : Str) : Option Str := if v.isEmpty then none else some v

/-- A flag is written `true` or `false`, and everything but `true` is `false`. -/
def flagOut (v : Str) : Str := if v = c!"true" then c!"true" else c!"false"

/-- A number without leading zeros. -/
def shortDigits (sign : Str) (v : Str) : Str :=
  match v.dropWhile (· == '0') with
  | [] => c!"0"
  | d => sign ++ d

/-- The usual form of an integer: no white space around it, no sign `+`, no leading zeros. -/
def usualInteger (v : Str) : Str :=
  match trim v with
  | '-' :: d => shortDigits ['-'] d
  | '+' :: d => shortDigits [] d
  | d => shortDigits [] d

/-- The value an attribute is written with, if it is written. -/
def writtenValue (t : TypeName) (name v : Str) : Option Str :=
  match t with
  | .dataType k =>
    if name = c!"LAST-CHANGE" then (if k = .real then some v else unlessEmpty v)
    else if name = c!"LONG-NAME" then (if k = .integer ∨ k = .date then unlessEmpty v else some v)
    else if name = c!"MAX-LENGTH" then unlessEmpty v
    else if name = c!"ACCURACY" then some (usualInteger v)
    else some v
  | .definition _ _ =>
    if name = c!"LAST-CHANGE" then unlessEmpty v
    else if name = c!"IS-EDITABLE" then some (flagOut v)
    else if name = c!"MULTI-VALUED" then (unlessEmpty v).map flagOut
    else some v
  | .specObject => if name = c!"LAST-CHANGE" then unlessEmpty v else some v
  | .hierarchy =>
    if name = c!"LAST-CHANGE" ∨ name = c!"LONG-NAME" then unlessEmpty v
    else if name = c!"IS-EDITABLE" ∨ name = c!"IS-TABLE-INTERNAL" then some (flagOut v)
    else if name = c!"DESC" then none
    else some v
  | .relationGroup => if name = c!"LONG-NAME" then unlessEmpty v else some v
  | .value _ .xhtml => if name = c!"IS-SIMPLIFIED" then none else some v
  | _ => some v

def writtenAttr (t : TypeName) (a : Attr) : Option Attr := (writtenValue t a.name a.value).map fun v => { a with value := v }

/-- Is one of these an element with something in it? -/
def someFull (ks : List Node) : Bool := ks.any fun k => match k with
  | .elem _ cs => !cs.isEmpty
  | _ => false

/-- Is there a value with a list of references that is not empty? -/
def namesDefault (ks : List Node) : Bool := ks.any fun k => match k with
  | .elem _ cs => cs.any fun c => match c with
    | .elem i rs => i.name == c!"VALUES" && !(childNames rs).isEmpty
    | _ => false
  | _ => false

/-- Is a child element with these nodes inside written?  Besides those that never are, empty
fields of the header, references to no specification, empty values of relations and
defaults of enumerations that name no value are not. -/
def writesChild (t : TypeName) (name : Str) (ks : List Node) : Bool :=
  keepsChild t name && (match t with
    | .header => name == c!"REPOSITORY-ID" || !ks.isEmpty
    | .relationGroup => !(name == c!"SOURCE-SPECIFICATION" || name == c!"TARGET-SPECIFICATION") || someFull ks
    | .specRelation => name != c!"VALUES" || !(childNames ks).isEmpty
    | .definition _ .enumeration => name != c!"DEFAULT-VALUE" || ks.isEmpty || namesDefault ks
    | _ => true)

/-- Is only the first element of this list written? -/
def onlyFirst : TypeName → Bool
  | .relationValues | .enumRefs true => true
  | _ => false

/-- Without all elements but the first one. -/
def firstOnly : List Node → List Node
  | [] => []
  | .elem i ks :: r => .elem i ks :: r.filter Node.isText
  | n :: r => n :: firstOnly r

mutual
/-- What is written for an element of a type. -/
def written (t : TypeName) : Node → Node
  | .elem i ks => .elem { i with attrs := i.attrs.filterMap (writtenAttr t) }
      (if onlyFirst t then firstOnly (writtenAll t ks) else writtenAll t ks)
  | n => n

/-- What is written for the nodes in an element of a type. -/
def writtenAll (t : TypeName) : List Node → List Node
  | [] => []
  | .elem i ks :: r => (match (schema .lenient t).model.typeOf i.name with
      | some t' => if writesChild t i.name ks then [written t' (.elem i ks)] else []
      | none => [.elem i ks]) ++ writtenAll t r
  | n :: r => n :: writtenAll t r
end

/-- What is written for a document: its root, with what is written for its content. -/
def writtenRoot (root : Node) : Node := written .reqIf root

end ReqIF.Xsd
