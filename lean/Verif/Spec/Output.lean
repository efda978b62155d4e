import Verif.Spec.Bundle
import Verif.Spec.Cli
import Verif.Spec.Progress
/-!
# Specification of the warnings
-/
namespace ReqIF.Spec

/-- The children of a SPEC-OBJECT that the library does not know: all but TYPE and VALUES. -/
def unknownChildren (n : Node) : List Node :=
  n.children.filter (fun c => c.tag ≠ .name c!"TYPE" ∧ c.tag ≠ .name c!"VALUES")

/-- The line about a child, in terms of the text for its tag. -/
def unknownLine (text : Str) : Str := c!"warning: Unknown child tag: " ++ text ++ c!"."

/-- The text for the tag of a child: the name of an element; for a comment or a processing instruction whatever Python
prints for a function. -/
def childText (fn : Tag → Str) (c : Node) : Str :=
  match c.tag with
  | .name s => s
  | t => fn t

/-- The warnings about SPEC-OBJECT elements: objects in order, children in order. -/
def warningsFor (fn : Tag → Str) (objects : List Node) : List Str :=
  objects.flatMap (fun n => (unknownChildren n).map (fun c => unknownLine (childText fn c)))

/-- The SPEC-OBJECT elements of a content element: the first SPEC-OBJECTS, without comments. -/
def objectElements (x : Node) : List Node :=
  match x.find c!"SPEC-OBJECTS" with
  | none => []
  | some c => c.children.filter (fun n => !isCommentNode n)

/-- The SPEC-OBJECT elements of a document, as the parser sees them. -/
def documentObjects (d : Doc) : List Node :=
  match strippedRoot d.root with
  | .error _ => []
  | .ok root =>
    match contentOf root with
    | none => []
    | some x => objectElements x

end ReqIF.Spec
