import Verif.Spec.Lookup
import Verif.Model.Schema
import Verif.Model.Commands
/-!
# Specification of the schema, of boolean flags, of the commands' effects and of
the places where comments are skipped
-/
namespace ReqIF.Spec

/-- The elements of a list, each at its first occurrence. -/
def firsts {α : Type} [DecidableEq α] : List α → List α
  | [] => []
  | a :: as => a :: (firsts as).filter (fun b => decide (b ≠ a))

/-- The attribute definitions of all spec-object types, in document order. -/
def objectDefinitions (b : Bundle) : List SpecAttributeDefinition :=
  (objectTypes (specTypesOf b)).flatMap (fun t => t.attributeDefinitions.getD [])

/-- What a schema can be made of. -/
def SchemaInput (b : Bundle) : Prop :=
  ∃ c, b.coreContent = some (some c) ∧ c.specTypes.isSome ∧ c.dataTypes.isSome ∧
    ∀ t ∈ objectTypes (specTypesOf b), t.longName.isSome ∧ t.attributeDefinitions.isSome

/-- Is the object a heading? -/
def headingOf (b : Bundle) (o : SpecObject) : Bool :=
  match lastWith SpecObjectType.longName (some c!"Heading") (objectTypes (specTypesOf b)) with
  | some t => decide (o.specObjectType = some t.identifier)
  | none =>
    match lastWith SpecAttributeDefinition.longName (some c!"ReqIF.ChapterName") (objectDefinitions b) with
    | some d => o.attributes.any (fun a => decide (a.definitionRef = some d.identifier))
    | none => false

/-- The definitions a schema keeps: one per identifier, the last with that identifier,
in the order in which the identifiers first occur. -/
def keptDefinitions (b : Bundle) : List SpecAttributeDefinition :=
  (firsts ((objectDefinitions b).map (·.identifier))).filterMap
    (fun k => lastWith SpecAttributeDefinition.identifier k (objectDefinitions b))

/-- A flag: true exactly for the text `true`; absent if the attribute is. -/
def flag : Option Str → Option Bool
  | none => none
  | some s => some (decide (s = c!"true"))

/-- `MULTI-VALUED`: as a flag, but an empty text counts as absent. -/
def multiFlag : Option Str → Option Bool
  | none => none
  | some s => if s = [] then none else some (decide (s = c!"true"))

/-- How a flag is printed. -/
def flagText : Bool → Str
  | true => c!"true"
  | false => c!"false"

/-- The file system with one file replaced. -/
def update (fs : Files) (path : Str) (content : ByteArray) : Files :=
  fun p => if p = path then some content else fs p

/-- The complete output of passthrough for a ReqIF file with this content. -/
def PassthroughOf (input output : ByteArray) : Prop :=
  ∃ text b out, decodeUtf8 input = .ok text ∧ parseString (normEol text) = .ok b ∧
    unparse b = .ok out ∧ output = out.utf8Encode

/-- Two elements that differ only in the comments (and white space) among their children. -/
def SameUpToComments (x y : Node) : Prop :=
  ∃ i ks ks', x = .elem i ks ∧ y = .elem i ks' ∧
    x.children.filter (fun c => !isCommentNode c) = y.children.filter (fun c => !isCommentNode c)

/-- The same for elements that may be absent. -/
def SameUpToCommentsOpt : Option Node → Option Node → Prop
  | none, none => True
  | some x, some y => SameUpToComments x y
  | _, _ => False

end ReqIF.Spec
