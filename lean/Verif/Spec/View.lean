import Verif.Spec.Archive
import Verif.Model.Dump
/-!
# What dump and validate look at

Of all a bundle holds, the page of the dump command and the issues of the validate command
depend on little.
-/
namespace ReqIF.Spec
open ReqIF

/-- Of an object: its identifier, its type, and its values with their definitions. -/
structure ObjectView where
  identifier : Str
  type : Option Str
  values : List (Option Str × AttrValue)
deriving DecidableEq

/-- Of a specification: its name, and the references to objects in its tree, in document order. -/
structure SpecificationView where
  name : Option Str
  refs : List (Option Str)
deriving DecidableEq

/-- Of the content: the identifiers of data types and types, the objects, the ends of relations
and the specifications. -/
structure ContentView where
  dataTypes : Option (List Str)
  specTypes : Option (List Str)
  objects : List ObjectView
  relations : List (Option Str × Option Str)
  specifications : Option (List SpecificationView)
deriving DecidableEq

/-- Of a bundle: title and creation time, and the content. -/
structure View where
  header : Option (Option Str × Option Str)
  content : Option (Option ContentView)
deriving DecidableEq

def objectView (o : SpecObject) : ObjectView :=
  ⟨o.identifier, o.specObjectType, o.attributes.map fun a => (a.definitionRef, a.value)⟩

def specificationView (s : Specification) : SpecificationView :=
  ⟨s.longName, (preorderList (s.children.getD [])).map fun h => h.info.specObject⟩

def contentView (c : Content) : ContentView :=
  ⟨c.dataTypes.map (List.map fun d => d.identifier), c.specTypes.map (List.map fun t => t.identifier),
   (c.specObjects.getD []).map objectView, (c.specRelations.getD []).map (fun r => (r.source, r.target)),
   c.specifications.map (List.map specificationView)⟩

/-- What dump and validate look at. -/
def view (b : Bundle) : View :=
  ⟨b.header.map fun h => (h.title, h.creationTime), b.coreContent.map (Option.map contentView)⟩

/-- The page shown for a document: that of the bundle it is read as. -/
def shownPage (repr : Str → Str) (text : Str) : Py Str :=
  match parseString text with
  | .ok b => Dump.dumpText repr b
  | .error e => .error e

/-- An issue, without the element it quotes. -/
def unquoted : SemanticIssue → SemanticIssue
  | .relationEnd _ tag ref => .relationEnd none tag ref
  | .hierarchyRef _ ref => .hierarchyRef none ref
  | i => i

/-- A relation without an end, without the element it quotes. -/
def unquotedTag (m : MissingTag) : Str := m.tag

/-- What validate finds about the content of a document: the relations without ends, and the
references that lead nowhere, all of them without the elements they quote. -/
def foundIn (b : Bundle) : List Str × List SemanticIssue :=
  (b.exceptions.map unquotedTag,
   ((specRelationsOf b).flatMap (relationEnds (specObjectsOf b)) ++
     (specificationsOf b).flatMap (hierarchyRefs (specObjectsOf b))).map unquoted)

/-- Two texts are shown alike: the page is the same, and so is what is found about the content;
or both are refused with the same exception. -/
def ShownAlike (s s' : Str) : Prop :=
  (∀ repr, shownPage repr s = shownPage repr s') ∧
  ((∃ b b', parseString s = .ok b ∧ parseString s' = .ok b' ∧ foundIn b = foundIn b') ∨
    ∃ e, parseString s = .error e ∧ parseString s' = .error e)

end ReqIF.Spec
