import Verif.Xml.Resolve
/-! Equality of trees is decidable; used to evaluate concrete cases in the kernel. -/
namespace ReqIF

deriving instance DecidableEq for Attr
deriving instance DecidableEq for Info

mutual
def sameNode : Node → Node → Bool
  | .elem i ks, .elem j js => decide (i = j) && sameNodes ks js
  | .text s, .text t => decide (s = t)
  | .comment s, .comment t => decide (s = t)
  | .pi t d, .pi u e => decide (t = u) && decide (d = e)
  | _, _ => false

def sameNodes : List Node → List Node → Bool
  | [], [] => true
  | n :: ns, m :: ms => sameNode n m && sameNodes ns ms
  | _, _ => false
end

mutual
theorem sameNode_eq : ∀ a b : Node, sameNode a b = true → a = b
  | .elem i ks, .elem j js, h => by
    rw [sameNode, Bool.and_eq_true] at h
    rw [of_decide_eq_true h.1, sameNodes_eq ks js h.2]
  | .text s, .text t, h => by rw [sameNode] at h; rw [of_decide_eq_true h]
  | .comment s, .comment t, h => by rw [sameNode] at h; rw [of_decide_eq_true h]
  | .pi t d, .pi u e, h => by
    rw [sameNode, Bool.and_eq_true] at h
    rw [of_decide_eq_true h.1, of_decide_eq_true h.2]
  | .elem .., .text _, h => by simp [sameNode] at h
  | .elem .., .comment _, h => by simp [sameNode] at h
  | .elem .., .pi .., h => by simp [sameNode] at h
  | .text _, .elem .., h => by simp [sameNode] at h
  | .text _, .comment _, h => by simp [sameNode] at h
  | .text _, .pi .., h => by simp [sameNode] at h
  | .comment _, .elem .., h => by simp [sameNode] at h
  | .comment _, .text _, h => by simp [sameNode] at h
  | .comment _, .pi .., h => by simp [sameNode] at h
  | .pi .., .elem .., h => by simp [sameNode] at h
  | .pi .., .text _, h => by simp [sameNode] at h
  | .pi .., .comment _, h => by simp [sameNode] at h

theorem sameNodes_eq : ∀ a b : List Node, sameNodes a b = true → a = b
  | [], [], _ => rfl
  | n :: ns, m :: ms, h => by
    rw [sameNodes, Bool.and_eq_true] at h
    rw [sameNode_eq n m h.1, sameNodes_eq ns ms h.2]
  | [], _ :: _, h => by simp [sameNodes] at h
  | _ :: _, [], h => by simp [sameNodes] at h
end

/-- The document consists of this element, without declaration. -/
def isRootOnly (n : Node) : Option Doc → Bool
  | some ⟨none, [a], r⟩ => sameNode a n && sameNode r n
  | _ => false

theorem isRootOnly_eq {n : Node} {d : Option Doc} (h : isRootOnly n d = true) : d = some ⟨none, [n], n⟩ := by
  unfold isRootOnly at h
  split at h
  · rw [Bool.and_eq_true] at h
    rw [sameNode_eq _ _ h.1, sameNode_eq _ _ h.2]
  · cases h

end ReqIF
