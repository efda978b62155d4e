import Verif.Model.Bundle
/-!
# Specification of the lookups
-/
namespace ReqIF.Spec

/-- The last item with this key. -/
def lastWith {α κ : Type} [DecidableEq κ] (key : α → κ) (k : κ) (l : List α) : Option α :=
  (l.filter (fun x => key x == k)).getLast?

/-- A found item, or `KeyError`. -/
def orKeyError {α : Type} : Option α → Py α
  | some a => .ok a
  | none => .error .keyError

/-- The parsed lists of a bundle (empty where there is none). -/
def dataTypesOf (b : Bundle) : List DataType :=
  match b.coreContent with
  | some (some c) => c.dataTypes.getD []
  | _ => []

def specTypesOf (b : Bundle) : List SpecType :=
  match b.coreContent with
  | some (some c) => c.specTypes.getD []
  | _ => []

def specObjectsOf (b : Bundle) : List SpecObject :=
  match b.coreContent with
  | some (some c) => c.specObjects.getD []
  | _ => []

def specRelationsOf (b : Bundle) : List SpecRelation :=
  match b.coreContent with
  | some (some c) => c.specRelations.getD []
  | _ => []

def specificationsOf (b : Bundle) : List Specification :=
  match b.coreContent with
  | some (some c) => c.specifications.getD []
  | _ => []

/-- The targets of the relations that start at `ref`, in order. -/
def targetsFrom (ref : Option Str) (rs : List SpecRelation) : List (Option Str) :=
  (rs.filter (fun r => r.source == ref)).map (·.target)

/-- The lookup after some parent queries. -/
def afterQueries (l : Lookup) : List (Option Str) → Lookup
  | [] => l
  | q :: qs => afterQueries (l.specObjectParents q).2 qs

/-- The spec-object types in a list of types. -/
def objectTypes (ts : List SpecType) : List SpecObjectType :=
  ts.filterMap (fun t => match t with | .object t => some t | _ => none)

/-- What is wrong with a `SPEC-RELATION` element: the first of SOURCE and TARGET that is
missing. -/
def missingEnd (x : Node) : Option MissingTag :=
  if !x.children.any (fun k => k.tag == .name c!"SOURCE") then some ⟨x, c!"SOURCE"⟩
  else if !x.children.any (fun k => k.tag == .name c!"TARGET") then some ⟨x, c!"TARGET"⟩
  else none

end ReqIF.Spec
