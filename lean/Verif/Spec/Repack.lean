import Verif.Spec.Archive
import Verif.Spec.Schema
/-!
# Specification of passthrough of an archive
-/
namespace ReqIF.Spec

/-- The names in the new archive: each name once; first the ReqIF documents, then all else, in the order in which they first occur. -/
def repackedNames (ar : Archive) : List Str :=
  firsts ((ar.map (·.1)).filter isReqifName) ++ firsts ((ar.map (·.1)).filter (fun n => !isReqifName n))

/-- The bytes of a document, read and printed. -/
def PrintedAgain (bytes bytes' : ByteArray) : Prop :=
  ∃ text b out, decodeUtf8 bytes = .ok text ∧ parseString text = .ok b ∧ unparse b = .ok out ∧ bytes' = out.utf8Encode

/-- `members` is the archive `ar` with every ReqIF document read and printed, and all else as it was. -/
def Repacked (ar : Archive) (members : List (Str × ByteArray)) : Prop :=
  members.map (·.1) = repackedNames ar ∧
  ∀ m ∈ members, ∃ bytes, memberContent ar m.1 = some (.ok bytes) ∧
    (ReqifMember m.1 → PrintedAgain bytes m.2) ∧ (¬ ReqifMember m.1 → m.2 = bytes)

end ReqIF.Spec
