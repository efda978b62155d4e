import Verif.Spec.Said
import Verif.Spec.Xsd
/-!
# Identifiers and references of a document

Elements of a ReqIF document have identifiers (`IDENTIFIER`, of type `xsd:ID`) and refer to
each other by them: the text of an element `X-REF` is the identifier of an element `X`.
Alternative identifiers are no identifiers in this sense; XHTML, fields of the header
and tool extensions have neither identifiers nor references.
-/
namespace ReqIF.Xsd

/-- An identifier or a reference. -/
inductive Entry
  /-- an element with this name has this identifier -/
  | identifier (element value : Str)
  /-- an element with the name `holder` has a reference element `kind` in it that names `target` -/
  | reference (holder kind target : Str)
  deriving DecidableEq

/-- Is it the name of a reference? -/
def isRefName (name : Str) : Bool := c!"-REF".isSuffixOf name

/-- Elements in which neither identifiers nor references are looked for. -/
def noEntries (name : Str) : Bool :=
  xhtmlNames.contains name || headerNames.contains name || name == c!"ALTERNATIVE-ID" || name == c!"TOOL-EXTENSIONS"

mutual
/-- The identifiers and references of an element, in the order of the document. -/
def entries (holder : Str) : Node → List Entry
  | .elem i ks =>
    if noEntries i.name then []
    else if isRefName i.name then [.reference holder i.name (trim ((Node.elem i ks).text?.getD []))]
    else (match (Node.elem i ks).attr? c!"IDENTIFIER" with
      | some v => [.identifier i.name (trim v)]
      | none => []) ++ entriesAll i.name ks
  | _ => []

def entriesAll (holder : Str) : List Node → List Entry
  | [] => []
  | n :: ns => entries holder n ++ entriesAll holder ns
end

/-- The identifiers and references in the content of a root element. -/
def documentEntries (root : Node) : List Entry := entriesAll c!"REQ-IF" root.kids

def Entry.isIdentifier : Entry → Bool
  | .identifier _ _ => true
  | _ => false

/-- The identifiers among these entries. -/
def identifiersIn (es : List Entry) : List Str := es.filterMap fun e => match e with
  | .identifier _ v => some v
  | _ => none

/-- No two elements have the same identifier. -/
def identifiersUnique (es : List Entry) : Prop := (identifiersIn es).Nodup

/-- May the reference name something in another document?  (`reqif.xsd`, type `GLOBAL-REF`) -/
def mayBeForeign (holder : Str) : Bool :=
  [c!"SOURCE", c!"TARGET", c!"SOURCE-SPECIFICATION", c!"TARGET-SPECIFICATION"].contains holder

/-- Every reference names an element of the kind it has to be, except those that may name something
in another document. -/
def referencesResolve (es : List Entry) : Prop :=
  ∀ holder kind target, .reference holder kind target ∈ es → mayBeForeign holder = false →
    ∃ element, kind = element ++ c!"-REF" ∧ .identifier element target ∈ es

/-- Elements whose references may get lost. -/
def losesReferences (holder : Str) : Bool :=
  [c!"EDITABLE-ATTS", c!"DEFINITION", c!"VALUES", c!"SOURCE-SPECIFICATION", c!"TARGET-SPECIFICATION"].contains holder

end ReqIF.Xsd
