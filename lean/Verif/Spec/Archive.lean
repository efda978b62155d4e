import Verif.Spec.Errors
import Verif.Spec.Lookup
import Verif.Spec.Hierarchy
import Verif.Model.Validate
/-!
# Specification of reading archives and of the validation report
-/
namespace ReqIF.Spec

/-- What reading a name from the archive gives: the outcome of the last member with that name. -/
def memberContent (ar : Archive) (name : Str) : Option (Py ByteArray) :=
  (lastWith (fun m : Str × Py ByteArray => m.1) name ar).map (·.2)

/-- A member's bytes are a ReqIF document. -/
def LoadsAs (bytes : ByteArray) (b : Bundle) : Prop :=
  ∃ text, decodeUtf8 bytes = .ok text ∧ parseString text = .ok b

/-- The member can be read and, if it is named as a ReqIF file, decoded and parsed. -/
def MemberLoads (ar : Archive) (name : Str) : Prop :=
  ∃ bytes, memberContent ar name = some (.ok bytes) ∧ (ReqifMember name → ∃ b, LoadsAs bytes b)

/-- No spec object has this identifier (an absent reference names none). -/
def dangling (objs : List SpecObject) (ref : Option Str) : Bool :=
  match ref with
  | none => true
  | some r => !objs.any (fun o => o.identifier == r)

/-- One issue per dangling end of a relation, source first. -/
def relationEnds (objs : List SpecObject) (r : SpecRelation) : List SemanticIssue :=
  (if dangling objs r.source then [SemanticIssue.relationEnd r.xmlNode c!"SOURCE" r.source] else []) ++
  (if dangling objs r.target then [SemanticIssue.relationEnd r.xmlNode c!"TARGET" r.target] else [])

/-- One issue per node of the specification, in pre-order, whose reference is dangling. -/
def hierarchyRefs (objs : List SpecObject) (s : Specification) : List SemanticIssue :=
  ((preorderList (s.children.getD [])).filter (fun h => dangling objs h.info.specObject)).map
    (fun h => SemanticIssue.hierarchyRef h.info.xmlNode h.info.specObject)

/-- The issues about the file itself; none for a document with an empty root. -/
def fileIssues (d : Doc) : List SemanticIssue :=
  if d.root.children = [] then []
  else
    (if d.decl.isNone then [SemanticIssue.noXmlDeclaration] else []) ++
    (if (d.decl.bind (·.encoding)).getD c!"UTF-8" = c!"UTF-8" then [] else [SemanticIssue.notUtf8])

/-- All semantic issues of a document `d` that was parsed to `b`. -/
def semanticIssues (d : Doc) (b : Bundle) : List SemanticIssue :=
  fileIssues d ++ (specRelationsOf b).flatMap (relationEnds (specObjectsOf b)) ++
    (specificationsOf b).flatMap (hierarchyRefs (specObjectsOf b))

end ReqIF.Spec
