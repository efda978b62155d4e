import Verif.Base.Str
import Verif.Xml.Tree
/-!
# Alphabetical order of attributes: vocabulary
-/
namespace ReqIF.Spec

/-- One name comes before another in alphabetical order (by code points, as Python
compares strings). -/
def before : Str → Str → Bool
  | _, [] => false
  | [], _ :: _ => true
  | a :: as, b :: bs => decide (a.toNat < b.toNat) || (decide (a.toNat = b.toNat) && before as bs)

/-- Names in strictly increasing order. -/
def Increasing (names : List Str) : Prop := names.Pairwise (fun a b => before a b = true)

instance (names : List Str) : Decidable (Increasing names) := inferInstanceAs (Decidable (names.Pairwise _))

mutual
/-- All elements without a namespace prefix (the ReqIF elements) have their attributes in
increasing order. -/
def SortedNode : Node → Prop
  | .elem i ks => (i.pfx = none → Increasing (i.attrs.map Attr.name)) ∧ SortedNodes ks
  | _ => True

def SortedNodes : List Node → Prop
  | [] => True
  | n :: ns => SortedNode n ∧ SortedNodes ns
end

end ReqIF.Spec
