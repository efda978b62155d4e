import Verif.Spec.Written
/-!
# What the schema requires of what is written

Some of the content that gets lost is required by the schema: the definition in most default
values, the fields of the header, the specifications of a relation group.
-/
namespace ReqIF.Xsd

/-- Is a child element with this name required where it stands? -/
def Model.requires : Model → Str → Bool
  | .all es, name => es.any (fun p => p.name == name && p.required)
  | .sequence _ es, name => es.any (fun p => p.name == name && p.required)
  | .choice min _ es, name => min != 0 && es.any (fun p => p.1 == name)
  | _, _ => false

mutual
/-- All the child elements that the schema requires in an element of a type, and in what is
written inside it, are written. -/
def keepsRequired (t : TypeName) : Node → Bool
  | .elem _ ks => keepRequired t ks
  | _ => true

def keepRequired (t : TypeName) : List Node → Bool
  | [] => true
  | .elem i ks :: r =>
    (if writesChild t i.name ks then
      (match (schema .xsd t).model.typeOf i.name with
       | some t' => keepsRequired t' (.elem i ks)
       | none => true)
     else !(schema .xsd t).model.requires i.name) && keepRequired t r
  | _ :: r => keepRequired t r
end

end ReqIF.Xsd
