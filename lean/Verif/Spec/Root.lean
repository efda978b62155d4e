import Verif.Spec.RoundTrip
/-!
# The REQ-IF tag: vocabulary
-/
namespace ReqIF.Spec

/-- The value of an attribute, by its name as written. -/
def attrValue (as : List (Str × Str)) (name : Str) : Option Str := (as.find? (fun a => a.1 == name)).map (·.2)

/-- Is it a namespace declaration? -/
def isDecl (a : Str × Str) : Bool := (declaredPrefix a.1).isSome

/-- Does it declare a prefix? -/
def isPrefixDecl (a : Str × Str) : Bool := (declaredPrefix a.1).any Option.isSome

/-- The attributes of a root tag that is built from the fields of the namespace
information: declarations, the schema location, the language. -/
def fieldAttrs (i : NamespaceInfo) : List (Str × Str) :=
  [(c!"xmlns", i.namespace), (c!"xmlns:xsi", i.schemaNamespace), (c!"xmlns:configuration", i.configuration),
   (c!"xmlns:id", i.namespaceId), (c!"xmlns:xhtml", i.namespaceXhtml), (c!"xsi:schemaLocation", i.schemaLocation),
   (c!"xml:lang", i.language)].filterMap (fun a => a.2.map (fun v => (a.1, v)))

/-- The fields say what the attributes of the root tag say. -/
structure Describes (as : List (Str × Str)) (i : NamespaceInfo) : Prop where
  «namespace» : i.namespace = attrValue as c!"xmlns"
  schemaNamespace : i.schemaNamespace = attrValue as c!"xmlns:xsi"
  configuration : i.configuration = attrValue as c!"xmlns:configuration"
  namespaceId : i.namespaceId = attrValue as c!"xmlns:id"
  namespaceXhtml : i.namespaceXhtml = attrValue as c!"xmlns:xhtml"
  schemaLocation : i.schemaLocation = attrValue as c!"xsi:schemaLocation"
  language : i.language = attrValue as c!"xml:lang"

/-- No other prefix is bound to the namespace of this prefix. -/
def Alone (as : List (Str × Str)) (p : Str) : Prop :=
  ∀ u, attrValue as (c!"xmlns:" ++ p) = some u → ∀ a ∈ as, isPrefixDecl a = true → a.2 = u → a.1 = c!"xmlns:" ++ p

/-- Root tags that are reproduced: well-formed; the declarations come first; a
default namespace is not the XHTML namespace, and no prefix declared before it is
bound to it; `xsi` and the prefixes of the attributes have their namespaces for
themselves. -/
structure GoodRoot (as : List (Str × Str)) : Prop where
  names : ∀ a ∈ as, isQName a.1 = true ∧ ∀ c ∈ a.2, isXmlChar c = true
  resolves : ∃ i, resolveInfo [] c!"REQ-IF" as = some i ∧
    ∀ u, NsMap.get? i.nsmap none = some u → containsStr xhtmlNs u = false
  declarationsFirst : as = as.filter isDecl ++ as.filter (fun a => !isDecl a)
  noXml : ∀ a ∈ as, a.1 ≠ c!"xmlns:xml"
  default : ∀ u, attrValue as c!"xmlns" = some u → ((as.filter isDecl).find? (fun a => a.2 == u)).map (·.1) = some c!"xmlns"
  xsi : Alone as c!"xsi"
  alone : ∀ a ∈ as, isDecl a = false → ∀ p l, splitQName a.1 = (some p, l) → Alone as p

/-- The start tag as lxml prints it. -/
def capturedTag (as : List (Str × Str)) : Str := rootTag (as.map (fun a => (a.1, serAttr a.2)))

/-- Namespace information that survives, with the attributes of its root tag: either
it holds the text of a start tag that its fields agree with, or its fields need no
escaping and there is at least one. -/
def SafeRoot (i : NamespaceInfo) (as : List (Str × Str)) : Prop :=
  GoodRoot as ∧
  match i.originalReqifTagDump with
  | some s => s = capturedTag as ∧ Describes as i
  | none => as = fieldAttrs i ∧ as ≠ [] ∧ ∀ a ∈ as, PlainAttr a.2

/-- What is read back: the fields, the text of the tag, and that of the XML declaration
the unparser prints. -/
def readRoot (as : List (Str × Str)) (i : NamespaceInfo) : NamespaceInfo :=
  { i with originalReqifTagDump := some (capturedTag as), doctypeIsPresent := true, encoding := c!"UTF-8" }

end ReqIF.Spec
