import Verif.Spec.Bundle
/-!
# The pieces of a printed document, and edits of a bundle

A document is printed as a list of pieces, one per item; an edit replaces some items of a list by
others.
-/
namespace ReqIF.Spec

/-- All texts one after the other, or the first exception. -/
def joinPy : List (Py Str) → Py Str
  | [] => .ok []
  | .error e :: _ => .error e
  | .ok s :: r =>
    match joinPy r with
    | .error e => .error e
    | .ok t => .ok (s ++ t)

/-- The six lists of a document. -/
inductive Container
  | dataTypes | specTypes | specObjects | specRelations | specifications | specRelationGroups

/-- What a list holds. -/
abbrev Container.Item : Container → Type
  | .dataTypes => DataType
  | .specTypes => SpecType
  | .specObjects => SpecObject
  | .specRelations => SpecRelation
  | .specifications => Specification
  | .specRelationGroups => RelationGroup

def Container.tag : Container → Str
  | .dataTypes => c!"DATATYPES"
  | .specTypes => c!"SPEC-TYPES"
  | .specObjects => c!"SPEC-OBJECTS"
  | .specRelations => c!"SPEC-RELATIONS"
  | .specifications => c!"SPECIFICATIONS"
  | .specRelationGroups => c!"SPEC-RELATION-GROUPS"

/-- An item on its own, as text. -/
def Container.print : (k : Container) → k.Item → Py Str
  | .dataTypes => fun d => .ok (unparseDataType d)
  | .specTypes => unparseSpecType
  | .specObjects => unparseSpecObject
  | .specRelations => unparseSpecRelation
  | .specifications => unparseSpecification
  | .specRelationGroups => fun g => .ok (unparseRelationGroup g)

/-- The list, if it is there. -/
def Container.items : (k : Container) → Content → Option (List k.Item)
  | .dataTypes => Content.dataTypes
  | .specTypes => Content.specTypes
  | .specObjects => Content.specObjects
  | .specRelations => Content.specRelations
  | .specifications => Content.specifications
  | .specRelationGroups => Content.specRelationGroups

/-- The content with another list. -/
def Container.put : (k : Container) → Content → List k.Item → Content
  | .dataTypes => fun c xs => { c with dataTypes := some xs }
  | .specTypes => fun c xs => { c with specTypes := some xs }
  | .specObjects => fun c xs => { c with specObjects := some xs }
  | .specRelations => fun c xs => { c with specRelations := some xs }
  | .specifications => fun c xs => { c with specifications := some xs }
  | .specRelationGroups => fun c xs => { c with specRelationGroups := some xs }

/-- Items that survive writing and reading. -/
def Container.Safe (Γ : Ctx) : (k : Container) → k.Item → Prop
  | .dataTypes => SafeDataType
  | .specTypes => SafeSpecType Γ
  | .specObjects => SafeObject Γ
  | .specRelations => SafeRelation Γ
  | .specifications => SafeSpecification Γ
  | .specRelationGroups => SafeGroup

/-- The bundle with another list (nothing changes if it has no content). -/
def withItems (b : Bundle) (k : Container) (xs : List k.Item) : Bundle :=
  match b.coreContent with
  | some (some c) => { b with coreContent := some (some (k.put c xs)) }
  | _ => b

/-- The pieces of a list. -/
def containerPieces (k : Container) (c : Content) : List (Py Str) :=
  match k.items c with
  | none => []
  | some xs => [.ok (lineOpen 6 k.tag)] ++ xs.map k.print ++ [.ok (lineClose 6 k.tag)]

def containers : List Container :=
  [.dataTypes, .specTypes, .specObjects, .specRelations, .specifications, .specRelationGroups]

def contentPieces (c : Content) : List (Py Str) :=
  [.ok (lineOpen 4 c!"REQ-IF-CONTENT")] ++ containers.flatMap (containerPieces · c) ++ [.ok (lineClose 4 c!"REQ-IF-CONTENT")]

def corePieces : Option (Option Content) → List (Py Str)
  | none => []
  | some none => [.ok (lineOpen 2 c!"CORE-CONTENT"), .ok (lineClose 2 c!"CORE-CONTENT")]
  | some (some c) => [.ok (lineOpen 2 c!"CORE-CONTENT")] ++ contentPieces c ++ [.ok (lineClose 2 c!"CORE-CONTENT")]

/-- The pieces of a document. -/
def pieces (b : Bundle) : List (Py Str) :=
  [.ok xmlDeclLine, unparseNamespaceInfo b.namespaceInfo] ++
  (match b.header with
    | none => []
    | some h => [unparseHeader h]) ++
  corePieces b.coreContent ++
  (if b.toolExtensionsTagExists then [.ok (lineOpen 2 c!"TOOL-EXTENSIONS"), .ok (lineClose 2 c!"TOOL-EXTENSIONS")] else []) ++
  [.ok c!"</REQ-IF>\n"]

/-! ## Trees -/

/-- A list of hierarchy nodes with a gap somewhere: between nodes of the list itself, or below one
of them. -/
inductive Gap
  | here (pre post : List Hierarchy)
  | under (pre : List Hierarchy) (i : HInfo) (inner : Gap) (post : List Hierarchy)

/-- The list with these nodes in the gap. -/
def Gap.fill (mid : List Hierarchy) : Gap → List Hierarchy
  | .here pre post => pre ++ mid ++ post
  | .under pre i inner post => pre ++ .node i (inner.fill mid) :: post

/-- How deep the gap is. -/
def Gap.depth : Gap → Nat
  | .here _ _ => 0
  | .under _ _ inner _ => inner.depth + 1

/-- The node around the gap does not end up as a self-closed one: it has children, or it was not
marked as self-closed. -/
def Gap.Open (mid : List Hierarchy) : Gap → Prop
  | .here _ _ => True
  | .under _ i inner _ => (inner.fill mid ≠ [] ∨ i.isSelfClosed = false) ∧ inner.Open mid

end ReqIF.Spec
