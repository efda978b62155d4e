import Verif.Model.Archive
/-!
# Which failures are which (independent of the parser's code)
-/
namespace ReqIF.Spec

/-- The exception raised, if any. -/
def errOf {α : Type} : Py α → Option PyErr
  | .ok _ => none
  | .error e => some e

theorem errOf_eq {α : Type} {x : Py α} {e : PyErr} (h : errOf x = some e) : x = .error e := by
  cases x with
  | ok a => cases h
  | error e' => cases h; rfl

/-- The root element is `REQ-IF`: it has that local name, and either no namespace, or
a default namespace is declared and the element is not in the XHTML namespace. -/
def isReqifRoot : Node → Bool
  | .elem i _ => i.name == c!"REQ-IF" &&
      (i.ns.isNone || ((NsMap.get? i.nsmap none).isSome && !containsStr xhtmlNs i.tag))
  | _ => false

/-- A default namespace is in scope at the root. -/
def hasDefaultNs (root : Node) : Bool := (NsMap.get? root.nsmap none).isSome

mutual
/-- There is a processing instruction in the tree. -/
def hasPI : Node → Bool
  | .elem _ ks => hasPIs ks
  | .text _ => false
  | .comment _ => false
  | .pi _ _ => true
def hasPIs : List Node → Bool
  | [] => false
  | n :: ns => hasPI n || hasPIs ns
end

/-- The text after the last slash of a member name. -/
def IsFileName (path name : Str) : Prop := '/' ∉ name ∧ (path = name ∨ ∃ dir, path = dir ++ '/' :: name)

/-- The file name ends in `ext`, and something other than dots stands before it. -/
def HasExt (path ext : Str) : Prop :=
  ∃ name stem, IsFileName path name ∧ name = stem ++ ext ∧ ∃ c ∈ stem, c ≠ '.'

/-- A member that is parsed: its extension is `.reqif` or `.xml`. -/
def ReqifMember (path : Str) : Prop := HasExt path c!".reqif" ∨ HasExt path c!".xml"

end ReqIF.Spec
