import Verif.Model.Bundle
/-!
# `experimental/reqif_schema.py`
-/
namespace ReqIF

/-- `reqif_schema.py` 13-15. -/
inductive SchemaType
  | polarion
  | default
  deriving DecidableEq, Repr

/-- `reqif_schema.py` 56-66: the fields of a `ReqIFSchema` (without the bundle). -/
structure Schema where
  dataTypeDefinitions : Dict Str DataType
  attributes : Dict Str SpecAttributeDefinition
  names : Dict Str Str
  heading : Option SpecObjectType
  chapterName : Option SpecAttributeDefinition
  schemaType : SchemaType

/-- `reqif_schema.py` 46-50: one attribute definition. -/
def schemaAttrStep (s : Schema) (d : SpecAttributeDefinition) : Schema :=
  let s := if d.longName = some c!"ReqIF.ChapterName" then { s with chapterName := some d } else s
  { s with attributes := s.attributes.set d.identifier d }

/-- `reqif_schema.py` 34-50: one spec type. -/
def schemaTypeStep (s : Schema) : SpecType → Py Schema
  | .object t =>
    match t.longName with
    | none => .error .assertion
    | some ln =>
      let s := if ln = c!"Heading" then { s with heading := some t, schemaType := .polarion } else s
      let s := { s with names := s.names.set t.identifier ln }
      match t.attributeDefinitions with
      | none => .error .assertion
      | some ds => .ok (ds.foldl schemaAttrStep s)
  | _ => .ok s

def schemaTypesLoop (s : Schema) : List SpecType → Py Schema
  | [] => .ok s
  | t :: ts =>
    match schemaTypeStep s t with
    | .error e => .error e
    | .ok s' => schemaTypesLoop s' ts

/-- `reqif_schema.py` 17-66, the constructor. -/
def Schema.ofBundle (b : Bundle) : Py Schema :=
  match b.coreContent with
  | some (some c) =>
    match c.specTypes with
    | none => .error .assertion
    | some ts =>
      match schemaTypesLoop ⟨[], [], [], none, none, .default⟩ ts with
      | .error e => .error e
      | .ok s =>
        match c.dataTypes with
        | none => .error .assertion
        | some ds =>
          .ok { s with dataTypeDefinitions := ds.foldl (fun m d => m.set d.identifier d) [] }
  | _ => .error .assertion

/-- `reqif_schema.py` 68-83, `is_spec_object_a_heading`. -/
def Schema.isHeading (s : Schema) (o : SpecObject) : Bool :=
  match s.heading with
  | some t => o.specObjectType == some t.identifier
  | none =>
    match s.chapterName with
    | some d => o.attributeMap.has (some d.identifier)
    | none => false

/-- `reqif_schema.py` 85-94: the loop of `iterate_unique_field_names`. -/
def uniqueNamesLoop (seen : List (Option Str)) :
    List SpecAttributeDefinition → List (Option Str × Str)
  | [] => []
  | d :: ds =>
    if seen.contains d.longName then uniqueNamesLoop seen ds
    else (d.longName, d.type.pyName) :: uniqueNamesLoop (d.longName :: seen) ds

/-- `reqif_schema.py` 85-94, `iterate_unique_field_names`. -/
def Schema.uniqueFieldNames (s : Schema) : List (Option Str × Str) :=
  uniqueNamesLoop [] (s.attributes.map (·.2))

end ReqIF
