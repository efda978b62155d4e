import Verif.Spec.Errors
import Verif.Spec.Number
import Verif.Xml.Tree
/-!
# The documents the parser reads

What the parser asks of a document, written down as requirements on the tree: which attributes
an element must have, which child elements, and what they may contain.  Whatever is not
mentioned here (further attributes, other elements, values of any shape) is not looked at.

The tree is the one the parser works on: names are without namespaces.  `Node.find` is the
first child element with a name, `Node.children` are the child nodes without text.
-/
namespace ReqIF.Accept
open Spec

/-- The namespace of XHTML (or a name that contains its name). -/
def Xhtml (u : Str) : Prop := ∃ before after, u = before ++ c!"http://www.w3.org/1999/xhtml" ++ after

mutual
/-- There is a comment in the tree. -/
def hasComment : Node → Bool
  | .elem _ ks => hasComments ks
  | .comment _ => true
  | _ => false
def hasComments : List Node → Bool
  | [] => false
  | n :: ns => hasComment n || hasComments ns
end

/-! ## The tree the parser works on -/

mutual
/-- The tree of a document with a default namespace as the parser sees it: the names are
without namespace, except those of XHTML elements.  (Namespace declarations that are no longer
used are dropped.) -/
inductive Seen : Node → Node → Prop
  | elem {i j : Info} {ks ls : List Node} : j.name = i.name → j.attrs = i.attrs →
      ((∃ u, i.ns = some u ∧ Xhtml u) ∧ j.ns = i.ns ∨ (∀ u, i.ns = some u → ¬ Xhtml u) ∧ j.ns = none) →
      SeenAll ks ls → Seen (.elem i ks) (.elem j ls)
  | text (s : Str) : Seen (.text s) (.text s)
  | comment (s : Str) : Seen (.comment s) (.comment s)

inductive SeenAll : List Node → List Node → Prop
  | nil : SeenAll [] []
  | cons {n m : Node} {ns ms : List Node} : Seen n m → SeenAll ns ms → SeenAll (n :: ns) (m :: ms)
end

/-! ## The vocabulary -/

/-- The element has this name. -/
def Called (n : Node) (name : Str) : Prop := n.tag = .name name

/-- This text is part of the name of the element. -/
def CalledLike (n : Node) (part : Str) : Prop := ∃ before after, n.tag = .name (before ++ part ++ after)

/-- The attribute is there. -/
def Has (n : Node) (name : Str) : Prop := ∃ v, n.attr? name = some v

/-- There is a child element with this name, and the first one is as required. -/
def Needs (n : Node) (name : Str) (P : Node → Prop) : Prop := ∃ c, n.find name = some c ∧ P c

/-- If there is a child element with this name, the first one is as required. -/
def May (n : Node) (name : Str) (P : Node → Prop) : Prop := ∀ c, n.find name = some c → P c

/-- All child nodes (elements, comments, processing instructions) are as required. -/
def Each (n : Node) (P : Node → Prop) : Prop := ∀ c ∈ n.children, P c

/-- There is a child node, and the first one is as required. -/
def First (n : Node) (P : Node → Prop) : Prop := ∃ c rest, n.children = c :: rest ∧ P c

/-- Nothing is required. -/
def Anything (_ : Node) : Prop := True

/-- A reference: an element in another. -/
def Refers (n : Node) (outer inner : Str) : Prop := Needs n outer fun o => Needs o inner Anything

/-- No child nodes and no text. -/
def Empty (n : Node) : Prop := n.children = [] ∧ n.text? = none

/-! ## Data types -/

def EnumValueOk (x : Node) : Prop :=
  Has x c!"IDENTIFIER" ∧ Needs x c!"PROPERTIES" fun p => Needs p c!"EMBEDDED-VALUE" fun e => Has e c!"KEY"

def DataTypeOk (x : Node) : Prop :=
  Has x c!"IDENTIFIER" ∧
  (Called x c!"DATATYPE-DEFINITION-ENUMERATION" ∧ May x c!"SPECIFIED-VALUES" (fun s => Each s EnumValueOk) ∨
   Called x c!"DATATYPE-DEFINITION-STRING" ∨
   Called x c!"DATATYPE-DEFINITION-INTEGER" ∨
   Called x c!"DATATYPE-DEFINITION-REAL" ∧ (∀ a, x.attr? c!"ACCURACY" = some a → ∃ n, Denotes a n) ∨
   Called x c!"DATATYPE-DEFINITION-XHTML" ∨
   Called x c!"DATATYPE-DEFINITION-DATE" ∨
   Called x c!"DATATYPE-DEFINITION-BOOLEAN")

/-! ## Attribute definitions -/

/-- A default value that may be empty. -/
def DefaultOk (x : Node) (value : Str) (P : Node → Prop) : Prop :=
  May x c!"DEFAULT-VALUE" fun d => Empty d ∨ Needs d value P

/-- A default value that may not be empty. -/
def FullDefaultOk (x : Node) (value : Str) (P : Node → Prop) : Prop :=
  May x c!"DEFAULT-VALUE" fun d => Needs d value P

/-- XHTML content printed with namespaces: a namespace is in scope, and there are neither
comments nor processing instructions. -/
def NamespacedOk (v : Node) : Prop := v.nsmap ≠ [] ∧ hasComment v = false ∧ hasPI v = false

def BodyOk (x : Node) : Prop :=
  Called x c!"ATTRIBUTE-DEFINITION-STRING" ∧ Refers x c!"TYPE" c!"DATATYPE-DEFINITION-STRING-REF" ∧
    DefaultOk x c!"ATTRIBUTE-VALUE-STRING" (Has · c!"THE-VALUE") ∨
  Called x c!"ATTRIBUTE-DEFINITION-INTEGER" ∧ Refers x c!"TYPE" c!"DATATYPE-DEFINITION-INTEGER-REF" ∧
    FullDefaultOk x c!"ATTRIBUTE-VALUE-INTEGER" (Has · c!"THE-VALUE") ∨
  Called x c!"ATTRIBUTE-DEFINITION-REAL" ∧ Refers x c!"TYPE" c!"DATATYPE-DEFINITION-REAL-REF" ∧
    FullDefaultOk x c!"ATTRIBUTE-VALUE-REAL" (Has · c!"THE-VALUE") ∨
  Called x c!"ATTRIBUTE-DEFINITION-BOOLEAN" ∧ Refers x c!"TYPE" c!"DATATYPE-DEFINITION-BOOLEAN-REF" ∧
    FullDefaultOk x c!"ATTRIBUTE-VALUE-BOOLEAN" (Has · c!"THE-VALUE") ∨
  Called x c!"ATTRIBUTE-DEFINITION-XHTML" ∧ Refers x c!"TYPE" c!"DATATYPE-DEFINITION-XHTML-REF" ∧
    DefaultOk x c!"ATTRIBUTE-VALUE-XHTML" (fun v =>
      May v c!"DEFINITION" (fun d => Needs d c!"ATTRIBUTE-DEFINITION-XHTML-REF" Anything) ∧
      Needs v c!"THE-VALUE" NamespacedOk) ∨
  Called x c!"ATTRIBUTE-DEFINITION-ENUMERATION" ∧ Refers x c!"TYPE" c!"DATATYPE-DEFINITION-ENUMERATION-REF" ∧
    DefaultOk x c!"ATTRIBUTE-VALUE-ENUMERATION" (fun v =>
      May v c!"DEFINITION" (fun d => Needs d c!"ATTRIBUTE-DEFINITION-ENUMERATION-REF" Anything)) ∨
  Called x c!"ATTRIBUTE-DEFINITION-DATE" ∧ Refers x c!"TYPE" c!"DATATYPE-DEFINITION-DATE-REF" ∧
    FullDefaultOk x c!"ATTRIBUTE-VALUE-DATE" (Has · c!"THE-VALUE")

def DefinitionOk (x : Node) : Prop := Has x c!"IDENTIFIER" ∧ BodyOk x

def DefinitionsOk (x : Node) : Prop := May x c!"SPEC-ATTRIBUTES" fun s => Each s DefinitionOk

/-! ## Spec types -/

/-- Comments between spec types are passed over. -/
def SpecTypeOk (x : Node) : Prop :=
  x.tag = .comment ∨
  Called x c!"SPEC-OBJECT-TYPE" ∧ Has x c!"IDENTIFIER" ∧ DefinitionsOk x ∨
  Called x c!"SPEC-RELATION-TYPE" ∧ Has x c!"IDENTIFIER" ∧ Has x c!"LONG-NAME" ∧ DefinitionsOk x ∨
  Called x c!"SPECIFICATION-TYPE" ∧ Has x c!"IDENTIFIER" ∧ Has x c!"LAST-CHANGE" ∧
    May x c!"SPEC-ATTRIBUTES" (fun s => Each s fun a => DefinitionOk a ∧ Has a c!"LONG-NAME") ∨
  Called x c!"RELATION-GROUP-TYPE" ∧ Has x c!"IDENTIFIER" ∧ DefinitionsOk x

/-! ## Attribute values -/

/-- The value of an XHTML attribute: no processing instructions; comments only where no
namespace is in scope. -/
def XhtmlValueOk (x : Node) : Prop :=
  Needs x c!"THE-VALUE" (fun v => hasPI v = false ∧ (v.nsmap ≠ [] → hasComment v = false)) ∧
  Refers x c!"DEFINITION" c!"ATTRIBUTE-DEFINITION-XHTML-REF"

/-- A value whose definition is the first child of its first child, whatever these are called. -/
def FirstValueOk (x : Node) : Prop := Has x c!"THE-VALUE" ∧ First x fun d => First d Anything

def SimpleValueOk (x : Node) (ref : Str) : Prop := Has x c!"THE-VALUE" ∧ Refers x c!"DEFINITION" ref

def ValueOk (x : Node) : Prop :=
  Called x c!"ATTRIBUTE-VALUE-STRING" ∧ FirstValueOk x ∨
  Called x c!"ATTRIBUTE-VALUE-ENUMERATION" ∧ Refers x c!"DEFINITION" c!"ATTRIBUTE-DEFINITION-ENUMERATION-REF" ∧
    Needs x c!"VALUES" Anything ∨
  Called x c!"ATTRIBUTE-VALUE-INTEGER" ∧ SimpleValueOk x c!"ATTRIBUTE-DEFINITION-INTEGER-REF" ∨
  Called x c!"ATTRIBUTE-VALUE-REAL" ∧ SimpleValueOk x c!"ATTRIBUTE-DEFINITION-REAL-REF" ∨
  Called x c!"ATTRIBUTE-VALUE-BOOLEAN" ∧ SimpleValueOk x c!"ATTRIBUTE-DEFINITION-BOOLEAN-REF" ∨
  Called x c!"ATTRIBUTE-VALUE-DATE" ∧ SimpleValueOk x c!"ATTRIBUTE-DEFINITION-DATE-REF" ∨
  Called x c!"ATTRIBUTE-VALUE-XHTML" ∧ XhtmlValueOk x

/-- Comments between values are passed over. -/
def ValuesOk (x : Node) : Prop := May x c!"VALUES" fun vs => Each vs fun v => v.tag = .comment ∨ ValueOk v

/-! ## Spec objects, relations, groups -/

/-- Comments between spec objects are passed over. -/
def SpecObjectOk (x : Node) : Prop :=
  x.tag = .comment ∨
  CalledLike x c!"SPEC-OBJECT" ∧ Has x c!"IDENTIFIER" ∧ Refers x c!"TYPE" c!"SPEC-OBJECT-TYPE-REF" ∧ ValuesOk x

/-- Only the first value of a relation is looked at. -/
def RelationValuesOk (x : Node) : Prop :=
  May x c!"VALUES" fun vs => ∀ v rest, vs.children = v :: rest →
    Called v c!"ATTRIBUTE-VALUE-STRING" ∧ FirstValueOk v ∨
    Called v c!"ATTRIBUTE-VALUE-INTEGER" ∧ FirstValueOk v ∨
    Called v c!"ATTRIBUTE-VALUE-XHTML" ∧ XhtmlValueOk v

/-- A relation without source or target is reported; nothing else is required of it than a type,
and that it can be printed in the report. -/
def RelationOk (x : Node) : Prop :=
  Called x c!"SPEC-RELATION" ∧ Needs x c!"TYPE" Anything ∧
  ((x.find c!"SOURCE" = none ∨ x.find c!"TARGET" = none) ∧ hasPI x = false ∨
   Has x c!"IDENTIFIER" ∧ Refers x c!"TYPE" c!"SPEC-RELATION-TYPE-REF" ∧ Refers x c!"SOURCE" c!"SPEC-OBJECT-REF" ∧
     Refers x c!"TARGET" c!"SPEC-OBJECT-REF" ∧ RelationValuesOk x)

def RelationGroupOk (x : Node) : Prop := CalledLike x c!"RELATION-GROUP" ∧ Has x c!"IDENTIFIER"

/-! ## Specifications -/

/-- A hierarchy, with everything below it. -/
inductive HierarchyOk : Node → Prop
  | mk {x : Node} : Called x c!"SPEC-HIERARCHY" → Has x c!"IDENTIFIER" → Refers x c!"OBJECT" c!"SPEC-OBJECT-REF" →
      (∀ c, x.find c!"CHILDREN" = some c → ∀ k ∈ c.children, HierarchyOk k) → HierarchyOk x

/-- Of several `CHILDREN` elements of a specification the last one counts. -/
def SpecificationOk (x : Node) : Prop :=
  CalledLike x c!"SPECIFICATION" ∧ Has x c!"IDENTIFIER" ∧
  (∀ before c after, x.children = before ++ c :: after → Called c c!"CHILDREN" → (∀ k ∈ after, ¬ Called k c!"CHILDREN") →
    Each c HierarchyOk) ∧
  ValuesOk x

/-! ## The document -/

def HeaderOk (x : Node) : Prop := Needs x c!"REQ-IF-HEADER" fun h => Has h c!"IDENTIFIER"

def ContentOk (x : Node) : Prop :=
  May x c!"DATATYPES" (fun c => Each c DataTypeOk) ∧
  May x c!"SPEC-TYPES" (fun c => Each c SpecTypeOk) ∧
  May x c!"SPECIFICATIONS" (fun c => Each c SpecificationOk) ∧
  May x c!"SPEC-RELATIONS" (fun c => Each c RelationOk) ∧
  May x c!"SPEC-OBJECTS" (fun c => Each c SpecObjectOk) ∧
  May x c!"SPEC-RELATION-GROUPS" (fun c => Each c RelationGroupOk)

def RootOk (r : Node) : Prop :=
  Called r c!"REQ-IF" ∧ May r c!"THE-HEADER" HeaderOk ∧
  May r c!"CORE-CONTENT" fun c => May c c!"REQ-IF-CONTENT" ContentOk

/-! ## What does not matter -/

/-- An attribute without its value, unless it is the accuracy of a real data type. -/
def blank (a : Attr) : Attr := if a.ns = none ∧ a.name = c!"ACCURACY" then a else { a with value := [] }

mutual
/-- A tree without the values of its attributes (but for the accuracies) and with all its texts and comments
replaced. -/
def skeleton : Node → Node
  | .elem i ks => .elem { i with attrs := i.attrs.map blank } (skeletons ks)
  | .text _ => .text c!"text"
  | .comment _ => .comment c!"comment"
  | .pi _ _ => .pi c!"target" c!"data"

def skeletons : List Node → List Node
  | [] => []
  | n :: ns => skeleton n :: skeletons ns
end

end ReqIF.Accept
