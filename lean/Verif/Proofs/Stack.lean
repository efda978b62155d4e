import Verif.Model.Stack
import Verif.Spec.Depth
/-! The recursive functions need no more calls than documents and hierarchies are deep. -/
namespace ReqIF
open Spec

theorem height_kid {k : Node} {ks : List Node} (h : k ∈ ks) : height k ≤ heightAll ks := by
  induction ks with
  | nil => cases h
  | cons x xs ih =>
    rw [heightAll]
    rcases List.mem_cons.mp h with rfl | h
    · omega
    · have := ih h; omega

mutual
theorem stack_parse : ∀ (x : Node) (n level : Nat), height x < 2 * n → parseHierarchyIn n level x = some (parseHierarchy level x)
  | .text _, n, level, h => by
    rw [height] at h
    · unfold parseHierarchyIn parseHierarchy; rw [if_neg (by omega)]
    all_goals simp
  | .comment _, n, level, h => by
    rw [height] at h
    · unfold parseHierarchyIn parseHierarchy; rw [if_neg (by omega)]
    all_goals simp
  | .pi _ _, n, level, h => by
    rw [height] at h
    · unfold parseHierarchyIn parseHierarchy; rw [if_neg (by omega)]
    all_goals simp
  | .elem i ks, n, level, h => by
    rw [height] at h
    obtain ⟨m, rfl⟩ : ∃ m, n = m + 1 := ⟨n - 1, by omega⟩
    unfold parseHierarchyIn parseHierarchy
    dsimp only
    rw [stack_first ks m (level + 1) (by omega)]
    split
    · cases attrReqNI (Node.elem i ks) c!"IDENTIFIER" with
      | error e => rfl
      | ok a =>
        dsimp only
        cases (Node.elem i ks).find c!"OBJECT" with
        | none => rfl
        | some o =>
          dsimp only
          cases o.find c!"SPEC-OBJECT-REF" with
          | none => rfl
          | some r =>
            dsimp only
            cases parseFirstChildren (level + 1) ks with
            | none => rfl
            | some p =>
              cases p with
              | error e => rfl
              | ok p => rfl
    · rfl

theorem stack_first : ∀ (ks : List Node) (n level : Nat), heightAll ks ≤ 2 * n →
    parseFirstChildrenIn n level ks = some (parseFirstChildren level ks)
  | [], n, level, h => by unfold parseFirstChildrenIn parseFirstChildren; rfl
  | .elem i ks :: ns, n, level, h => by
    rw [heightAll, height] at h
    unfold parseFirstChildrenIn parseFirstChildren
    rw [stack_parses ks n level (by omega), stack_first ns n level (by omega)]
    split
    · cases parseHierarchies level ks <;> rfl
    · rfl
  | .text _ :: ns, n, level, h => by
    rw [heightAll] at h
    unfold parseFirstChildrenIn parseFirstChildren
    exact stack_first ns n level (by omega)
  | .comment _ :: ns, n, level, h => by
    rw [heightAll] at h
    unfold parseFirstChildrenIn parseFirstChildren
    exact stack_first ns n level (by omega)
  | .pi _ _ :: ns, n, level, h => by
    rw [heightAll] at h
    unfold parseFirstChildrenIn parseFirstChildren
    exact stack_first ns n level (by omega)

theorem stack_parses : ∀ (ks : List Node) (n level : Nat), heightAll ks < 2 * n →
    parseHierarchiesIn n level ks = some (parseHierarchies level ks)
  | [], n, level, h => by unfold parseHierarchiesIn parseHierarchies; rfl
  | x :: ns, n, level, h => by
    rw [heightAll] at h
    have h1 := stack_parse x n level (by omega)
    have h2 := stack_parses ns n level (by omega)
    cases x with
    | text s => unfold parseHierarchiesIn parseHierarchies; exact h2
    | elem i ks =>
      unfold parseHierarchiesIn parseHierarchies
      rw [h1, h2]
      cases parseHierarchy level (.elem i ks) with
      | error e => rfl
      | ok a => dsimp only; cases parseHierarchies level ns <;> rfl
    | comment s =>
      unfold parseHierarchiesIn parseHierarchies
      rw [h1, h2]
      cases parseHierarchy level (.comment s) with
      | error e => rfl
      | ok a => dsimp only; cases parseHierarchies level ns <;> rfl
    | pi s t =>
      unfold parseHierarchiesIn parseHierarchies
      rw [h1, h2]
      cases parseHierarchy level (.pi s t) with
      | error e => rfl
      | ok a => dsimp only; cases parseHierarchies level ns <;> rfl
end

mutual
theorem stack_unparse : ∀ (h : Hierarchy) (n : Nat), 2 * levels h ≤ n → unparseHierarchyIn n h = some (unparseHierarchy h)
  | .leaf i, n, hn => by
    rw [levels] at hn
    obtain ⟨m, rfl⟩ : ∃ m, n = m + 2 := ⟨n - 2, by omega⟩
    unfold unparseHierarchyIn; rfl
  | .node i cs, n, hn => by
    rw [levels] at hn
    obtain ⟨m, rfl⟩ : ∃ m, n = m + 2 := ⟨n - 2, by omega⟩
    unfold unparseHierarchyIn unparseHierarchy
    dsimp only
    rw [stack_unparses cs m (by omega)]
    cases (Hierarchy.node i cs).baseLevel with
    | error e => rfl
    | ok b => dsimp only; cases unparseHierarchies cs <;> rfl

theorem stack_unparses : ∀ (hs : List Hierarchy) (n : Nat), 2 * levelsAll hs ≤ n →
    unparseHierarchiesIn n hs = some (unparseHierarchies hs)
  | [], n, hn => by unfold unparseHierarchiesIn unparseHierarchies; rfl
  | h :: hs, n, hn => by
    rw [levelsAll] at hn
    unfold unparseHierarchiesIn unparseHierarchies
    rw [stack_unparse h n (by omega), stack_unparses hs n (by omega)]
    cases unparseHierarchy h with
    | error e => rfl
    | ok a => dsimp only; cases unparseHierarchies hs <;> rfl
end

mutual
/-- With fewer calls there is a `RecursionError`. -/
theorem stack_unparse_fails : ∀ (h : Hierarchy) (n : Nat) (t : Str), unparseHierarchy h = .ok t → n < 2 * levels h →
    unparseHierarchyIn n h = none
  | .leaf i, n, t, ht, hn => by
    rw [levels] at hn
    unfold unparseHierarchyIn
    rcases n with _ | _ | n
    · rfl
    · rfl
    · omega
  | .node i cs, n, t, ht, hn => by
    rw [levels] at hn
    unfold unparseHierarchyIn
    rcases n with _ | _ | n
    · rfl
    · rfl
    · dsimp only
      unfold unparseHierarchy at ht
      cases hb : (Hierarchy.node i cs).baseLevel with
      | error e => rw [hb] at ht; cases ht
      | ok b =>
        rw [hb] at ht
        dsimp only at ht ⊢
        cases hc : unparseHierarchies cs with
        | error e => rw [hc] at ht; cases ht
        | ok body => rw [stack_unparses_fails cs n body hc (by omega)]

theorem stack_unparses_fails : ∀ (hs : List Hierarchy) (n : Nat) (t : Str), unparseHierarchies hs = .ok t → n < 2 * levelsAll hs →
    unparseHierarchiesIn n hs = none
  | [], n, t, ht, hn => by rw [levelsAll] at hn; omega
  | h :: hs, n, t, ht, hn => by
    rw [levelsAll] at hn
    unfold unparseHierarchies at ht
    cases h1 : unparseHierarchy h with
    | error e => rw [h1] at ht; cases ht
    | ok a =>
      rw [h1] at ht
      dsimp only at ht
      cases h2 : unparseHierarchies hs with
      | error e => rw [h2] at ht; cases ht
      | ok b =>
        unfold unparseHierarchiesIn
        by_cases c : n < 2 * levels h
        · rw [stack_unparse_fails h n a h1 c]
        · rw [stack_unparse h n (by omega), h1]
          dsimp only
          rw [stack_unparses_fails hs n b h2 (by omega)]
end

mutual
theorem stack_ns (nskey : Option Str) (forced : Bool) : ∀ (x : Node) (n : Nat), height x < n →
    stringifyNsNodeIn n nskey forced x = some (stringifyNsNode nskey forced x)
  | .text _, n, h => by unfold stringifyNsNodeIn stringifyNsNode; rfl
  | .comment _, n, h => by unfold stringifyNsNodeIn stringifyNsNode; rw [if_neg (by omega)]
  | .pi _ _, n, h => by unfold stringifyNsNodeIn stringifyNsNode; rw [if_neg (by omega)]
  | .elem i ks, n, h => by
    rw [height] at h
    obtain ⟨m, rfl⟩ : ∃ m, n = m + 1 := ⟨n - 1, by omega⟩
    unfold stringifyNsNodeIn stringifyNsNode
    dsimp only
    rw [stack_nsKids nskey forced ks m (by omega)]
    split
    · cases stringifyNsKids nskey forced ks <;> rfl
    · rfl

theorem stack_nsKids (nskey : Option Str) (forced : Bool) : ∀ (ks : List Node) (n : Nat), heightAll ks < n →
    stringifyNsKidsIn n nskey forced ks = some (stringifyNsKids nskey forced ks)
  | [], n, h => by unfold stringifyNsKidsIn stringifyNsKids; rfl
  | x :: ns, n, h => by
    rw [heightAll] at h
    unfold stringifyNsKidsIn stringifyNsKids
    rw [stack_ns nskey forced x n (by omega), stack_nsKids nskey forced ns n (by omega)]
    cases stringifyNsNode nskey forced x with
    | error e => rfl
    | ok a => dsimp only; cases stringifyNsKids nskey forced ns <;> rfl
end

mutual
theorem stack_node : ∀ (x : Node) (n : Nat) (root : Bool), height x < n → stringifyNodeIn n root x = some (stringifyNode root x)
  | .text _, n, root, h => by unfold stringifyNodeIn stringifyNode; rfl
  | .comment _, n, root, h => by unfold stringifyNodeIn stringifyNode; rw [if_neg (by omega)]
  | .pi _ _, n, root, h => by unfold stringifyNodeIn stringifyNode; rw [if_neg (by omega)]
  | .elem i ks, n, root, h => by
    rw [height] at h
    obtain ⟨m, rfl⟩ : ∃ m, n = m + 1 := ⟨n - 1, by omega⟩
    unfold stringifyNodeIn stringifyNode
    dsimp only
    rw [stack_kids ks m (by omega)]
    split
    · cases stringifyKids ks <;> rfl
    · rfl

theorem stack_kids : ∀ (ks : List Node) (n : Nat), heightAll ks < n → stringifyKidsIn n ks = some (stringifyKids ks)
  | [], n, h => by unfold stringifyKidsIn stringifyKids; rfl
  | x :: ns, n, h => by
    rw [heightAll] at h
    unfold stringifyKidsIn stringifyKids
    rw [stack_node x n false (by omega), stack_kids ns n (by omega)]
    cases stringifyNode false x with
    | error e => rfl
    | ok a => dsimp only; cases stringifyKids ns <;> rfl
end

end ReqIF
