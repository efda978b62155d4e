import Verif.Model.Parser
/-!
# Documents that differ in comments

`tidy .root x`: the tree `x` without comments (and the text around them, which is white
space in ReqIF) directly inside `SPEC-TYPES`, `SPEC-OBJECTS` and the `VALUES` of spec
objects and specifications.
-/
namespace ReqIF.Spec
open ReqIF

/-- The parts of a ReqIF document that matter here. -/
inductive Place
  | root | core | content | types | objects | object | specifications | specification | values | other
deriving DecidableEq

/-- The part an element of the given name makes up inside another part. -/
def Place.inner : Place → Str → Place
  | .root, n => if n = c!"CORE-CONTENT" then .core else .other
  | .core, n => if n = c!"REQ-IF-CONTENT" then .content else .other
  | .content, n =>
    if n = c!"SPEC-TYPES" then .types
    else if n = c!"SPEC-OBJECTS" then .objects
    else if n = c!"SPECIFICATIONS" then .specifications
    else .other
  | .objects, _ => .object
  | .specifications, _ => .specification
  | .object, n => if n = c!"VALUES" then .values else .other
  | .specification, n => if n = c!"VALUES" then .values else .other
  | _, _ => .other

/-- The parts where comments do not matter. -/
def Place.loose : Place → Bool
  | .types => true
  | .objects => true
  | .values => true
  | _ => false

/-- Comments, and the text between them. -/
def isNote : Node → Bool
  | .comment _ => true
  | .text _ => true
  | _ => false

/-- The name of an element. -/
def localName : Node → Str
  | .elem i _ => i.name
  | _ => []

mutual
/-- A tree without the comments (and text) in the places where they do not matter. -/
def tidy (p : Place) : Node → Node
  | .elem i ks => .elem i (tidyKids p ks)
  | n => n

/-- The same for the children of an element. -/
def tidyKids (p : Place) : List Node → List Node
  | [] => []
  | k :: ks =>
    if p.loose && isNote k then tidyKids p ks
    else tidy (p.inner (localName k)) k :: tidyKids p ks
end

/-- A bundle without the source elements its spec objects and specifications remember. -/
def withoutSources (b : Bundle) : Bundle :=
  { b with
    coreContent := b.coreContent.map (Option.map fun c =>
      { c with specObjects := c.specObjects.map (List.map fun o => { o with xmlNode := none }),
               specifications := c.specifications.map (List.map fun s => { s with xmlNode := none }) }),
    lookup := { b.lookup with
      specObjects := b.lookup.specObjects.map fun e => (e.1, { e.2 with xmlNode := none }) } }

end ReqIF.Spec
