import Verif.Spec.RoundTrip
/-!
# Content of XHTML values as read

`IsContent p t n`: the node `n` is the element or text `t`; elements are written with
the prefix `p` bound to some namespace, no default namespace is in scope, attributes have
no namespace.  Declarations and the spelling of empty elements and references do not
matter.
-/
namespace ReqIF.Spec

mutual
def IsContent (p : Str) : XTree → Node → Prop
  | .elem name attrs kids, .elem i ks => i.name = name ∧ i.pfx = some p ∧ i.ns.isSome = true ∧ (∀ d ∈ i.nsmap, d.1 ≠ none) ∧
      i.attrs.map (fun a => (a.key, a.value)) = attrs ∧ AllContent p kids ks
  | .text s, .text s' => s' = s
  | _, _ => False

def AllContent (p : Str) : List XTree → List Node → Prop
  | [], [] => True
  | t :: ts, n :: ns => IsContent p t n ∧ AllContent p ts ns
  | _, _ => False
end

/-- The XHTML value `x` has content `ts`, and the first prefix in scope is `p`. -/
def HasContent (p : Str) (ts : List XTree) (x : Node) : Prop :=
  ∃ w, x.find c!"THE-VALUE" = some w ∧ w.nsmap.firstKey = some p ∧ AllContent p ts w.kids

/-- `x` is parsed as an attribute value, which is written to a document with root tag
attributes `as` and read again as `x'`. -/
def Rewritten (as : List (Str × Str)) (x x' : Node) : Prop :=
  ∃ a t, parseAttributeValue x = .ok a ∧ unparseAttributeValue a = .ok t ∧ ReadsAs as t [x']

/-- Any number of such steps. -/
inductive RewrittenMany (as : List (Str × Str)) : Node → Node → Prop
  | refl (x) : RewrittenMany as x x
  | step {x y z} : RewrittenMany as x y → Rewritten as y z → RewrittenMany as x z

end ReqIF.Spec
