import Verif.Spec.Xsd
/-!
# Documents without content that gets lost

The library has no place for alternative identifiers, editable attributes, original values,
tool extensions and the definition named in most default values, and its unparser leaves
out some empty attributes and elements and rewrites flags and numbers.  A document has none
of these if it is `kept`.
-/
namespace ReqIF.Xsd

/-- The usual form of an integer: no sign `+`, no leading zeros, no white space. -/
def isUsualInteger (v : Str) : Bool :=
  v == c!"0" || match v with
    | '-' :: c :: d => isDigit c && c != '0' && d.all isDigit
    | c :: d => isDigit c && c != '0' && d.all isDigit
    | [] => false

def isFlag (v : Str) : Bool := v == c!"true" || v == c!"false"

/-- Is an attribute with this value written as it is? -/
def keepsAttr (t : TypeName) (name v : Str) : Bool :=
  match t with
  | .dataType k =>
    if name = c!"LAST-CHANGE" then k == .real || !v.isEmpty
    else if name = c!"LONG-NAME" then !(k == .integer || k == .date) || !v.isEmpty
    else if name = c!"MAX-LENGTH" then !v.isEmpty
    else if name = c!"ACCURACY" then isUsualInteger v
    else true
  | .definition _ _ =>
    if name = c!"LAST-CHANGE" then !v.isEmpty
    else if name = c!"IS-EDITABLE" ∨ name = c!"MULTI-VALUED" then isFlag v
    else true
  | .specObject => if name = c!"LAST-CHANGE" then !v.isEmpty else true
  | .hierarchy =>
    if name = c!"LAST-CHANGE" ∨ name = c!"LONG-NAME" then !v.isEmpty
    else if name = c!"IS-EDITABLE" ∨ name = c!"IS-TABLE-INTERNAL" then isFlag v
    else name != c!"DESC"
  | .relationGroup => if name = c!"LONG-NAME" then !v.isEmpty else true
  | .value _ .xhtml => name != c!"IS-SIMPLIFIED"
  | _ => true

/-- Child elements that are written at all. -/
def keepsChild (t : TypeName) (name : Str) : Bool :=
  ![c!"ALTERNATIVE-ID", c!"EDITABLE-ATTS", c!"THE-ORIGINAL-VALUE", c!"REQ-IF-TOOL-EXTENSION"].contains name &&
  (match t with
   | .value true k => name != c!"DEFINITION" || k.namesDefinition
   | _ => true)

/-- The default of an enumeration is one value, and so is the value of a relation; the
fields of the header have a text, but for the repository identifier; so have references to
specifications. -/
def keepsKids (t : TypeName) (ks : List Node) : Bool :=
  match t with
  | .value true .enumeration => ks.any (fun k => match k with
      | .elem i cs => i.name == c!"VALUES" && childNames cs == [c!"ENUM-VALUE-REF"]
      | _ => false)
  | .relationValues => (childNames ks).length == 1
  | .header | .groupSpecification => ks.all (fun k => match k with
      | .elem i cs => i.name == c!"REPOSITORY-ID" || !cs.isEmpty
      | _ => true)
  | _ => true

mutual
/-- Nothing in the element gets lost. -/
def kept (t : TypeName) : Node → Bool
  | .elem i ks => i.attrs.all (fun a => keepsAttr t a.name a.value) && keepsKids t ks && keptAll t ks
  | _ => true

def keptAll (t : TypeName) : List Node → Bool
  | [] => true
  | .elem i ks :: r => keepsChild t i.name && (match (schema .lenient t).model.typeOf i.name with
      | some t' => kept t' (.elem i ks)
      | none => true) && keptAll t r
  | _ :: r => keptAll t r
end

/-- Nothing below the root of a document gets lost. -/
def keptDocument (root : Node) : Bool := keptAll .reqIf root.kids

end ReqIF.Xsd
