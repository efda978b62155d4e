import Verif.Spec.Hierarchy
/-! Lemmas about hierarchy traversal. -/
namespace ReqIF
open Spec

theorem preorderList_append (a b : List Hierarchy) :
    preorderList (a ++ b) = preorderList a ++ preorderList b := by
  induction a with
  | nil => rfl
  | cons h t ih => simp [preorderList, ih]

theorem iterLoop_eq (hs : List Hierarchy) : iterLoop hs = preorderList hs := by
  match hs with
  | [] => simp [iterLoop, preorderList]
  | .leaf i :: tasks =>
    rw [iterLoop, preorderList, preorder, iterLoop_eq tasks]
    rfl
  | .node i cs :: tasks =>
    have ih := iterLoop_eq (cs ++ tasks)
    rw [iterLoop, extendLeft_reverse, ih, preorderList_append, preorderList, preorder]
    rfl
termination_by Hierarchy.sizeList hs
decreasing_by
  · simp [Hierarchy.sizeList, Hierarchy.size]
  · rw [Hierarchy.sizeList_append]
    simp only [Hierarchy.sizeList, Hierarchy.size]
    omega

/-! ## Conversion -/

section
variable {σ ν : Type}

/-- Every entry of the section stack has its height as level (the root node 0). -/
def Stacked (getLevel : ν → Int) : List ν → Prop
  | [] => True
  | n :: st => getLevel n = st.length ∧ Stacked getLevel st

theorem Stacked.of_append {getLevel : ν → Int} {a b : List ν} (h : Stacked getLevel (a ++ b)) :
    Stacked getLevel b := by
  induction a with
  | nil => exact h
  | cons x xs ih => exact ih h.2

theorem popN_append (a b : List ν) : popN a.length (a ++ b) = .ok b := by
  induction a with
  | nil => rfl
  | cons x xs ih => exact ih

/-- Leaving the ended sections brings the stack back to the section of the parent. -/
theorem leave_ext {getLevel : ν → Int} {ext st : List ν} {level : Nat} (hst : st ≠ [])
    (h : Stacked getLevel (ext ++ st))
    (hl : st.length = level ∨ (ext = [] ∧ st.length ≤ level)) :
    ∃ top, stackTop (ext ++ st) = .ok top ∧ leaveSections (level : Int) (getLevel top) (ext ++ st) = .ok st := by
  cases ext with
  | nil =>
    cases st with
    | nil => exact absurd rfl hst
    | cons n t =>
      refine ⟨n, rfl, ?_⟩
      have h1 : getLevel n = t.length := h.1
      unfold leaveSections
      rw [h1, if_neg]
      · rfl
      · simp only [List.length_cons] at hl
        omega
  | cons n t =>
    refine ⟨n, rfl, ?_⟩
    have hlev : st.length = level := by rcases hl with h | ⟨h, _⟩; exact h; cases h
    have h1 : getLevel n = ((t ++ st).length : Int) := h.1
    unfold leaveSections
    rw [h1, List.length_append, if_pos (by omega)]
    have h2 : (((t.length + st.length : Nat) : Int) - (level : Int) + 1).toNat = (n :: t).length := by
      simp only [List.length_cons]
      omega
    rw [h2, popN_append]

mutual
/-- `convertTree` that also returns the sections left on the stack, top first. -/
def convertTreeX (f : Hierarchy → ν → M σ (ν × Bool)) (sec : ν) : Hierarchy → M σ (List ν)
  | .leaf i => M.bind (f (.leaf i) sec) fun r => M.pure (if r.2 then [r.1] else [])
  | .node i cs => M.bind (f (.node i cs) sec) fun r =>
    M.bind (convertForestX f (if r.2 then r.1 else sec) [] cs) fun ext =>
    M.pure (if r.2 then ext ++ [r.1] else ext)

def convertForestX (f : Hierarchy → ν → M σ (ν × Bool)) (sec : ν) (ext : List ν) : List Hierarchy → M σ (List ν)
  | [] => M.pure ext
  | h :: hs => M.bind (convertTreeX f sec h) fun ext' => convertForestX f sec ext' hs
end

/-- The stack of the loop during and after a tree, see `convertLoop_tree`. -/
def LoopOk (getLevel : ν → Int) (f : Hierarchy → ν → M σ (ν × Bool)) (ext st : List ν)
    (work rest : List Hierarchy) (spec : M σ (List ν)) (allowed : Bool) (s : σ) : Prop :=
  match spec s with
  | (.error e, s') => convertLoop getLevel f (ext ++ st) (work ++ rest) s = (.error e, s')
  | (.ok ext', s') =>
    convertLoop getLevel f (ext ++ st) (work ++ rest) s = convertLoop getLevel f (ext' ++ st) rest s' ∧
    Stacked getLevel (ext' ++ st) ∧ (allowed = false → ext' = [])

variable {getLevel : ν → Int} {f : Hierarchy → ν → M σ (ν × Bool)} {isSection : Hierarchy → Bool}

/-- The visited node's answer fits the fixed choice of sections. -/
def AnswersFit (getLevel : ν → Int) (f : Hierarchy → ν → M σ (ν × Bool)) (isSection : Hierarchy → Bool) : Prop :=
  ∀ h sec s n b s', f h sec s = (.ok (n, b), s') →
    b = isSection h ∧ (b = true → getLevel n = (h.info.level : Int))

theorem loop_step {ext st : List ν} {sec : ν} {h : Hierarchy} {rest : List Hierarchy} {s : σ}
    (hst : Stacked getLevel (ext ++ sec :: st))
    (hl : (sec :: st).length = h.info.level ∨ (ext = [] ∧ (sec :: st).length ≤ h.info.level)) :
    convertLoop getLevel f (ext ++ sec :: st) (h :: rest) s =
      (M.bind (f h sec) fun r => convertLoop getLevel f (if r.2 then r.1 :: sec :: st else sec :: st) rest) s := by
  obtain ⟨top, h1, h2⟩ := leave_ext (by simp) hst hl
  have h3 : stackTop (sec :: st) = .ok sec := rfl
  simp only [convertLoop, M.bind, M.lift, h1, h2, h3]

theorem preorder_self (h : Hierarchy) : h ∈ preorder h := by
  cases h <;> simp [preorder]

mutual
theorem convertLoop_tree (hf : AnswersFit getLevel f isSection) (level : Nat) (allowed : Bool) (h : Hierarchy)
    (hlev : LevelsFrom level h) (hsec : SectionsOnTop isSection h)
    (ext : List ν) (sec : ν) (st : List ν) (rest : List Hierarchy) (s : σ)
    (hst : Stacked getLevel (ext ++ sec :: st))
    (hok : (allowed = true ∧ (sec :: st).length = level) ∨
      (allowed = false ∧ ext = [] ∧ (sec :: st).length ≤ level ∧ ∀ x ∈ preorder h, isSection x = false)) :
    LoopOk getLevel f ext (sec :: st) (preorder h) rest (convertTreeX f sec h) allowed s := by
  have hl : h.info.level = level := by cases h <;> first | exact hlev | exact hlev.1
  have hl' : (sec :: st).length = h.info.level ∨ (ext = [] ∧ (sec :: st).length ≤ h.info.level) := by
    rcases hok with ⟨_, h⟩ | ⟨_, h1, h2, _⟩
    · left; omega
    · right; exact ⟨h1, by omega⟩
  have hstep := fun rest => loop_step (f := f) (rest := rest) (s := s) hst hl'
  have hst0 : Stacked getLevel (sec :: st) := hst.of_append
  match h, hlev, hsec, hok, hl, hstep with
  | .leaf i, hlev, hsec, hok, hl, hstep =>
    simp only [LoopOk, convertTreeX, preorder, M.bind, M.pure, List.singleton_append]
    rw [hstep]
    simp only [M.bind]
    cases hfs : f (.leaf i) sec s with
    | mk r s' =>
      cases r with
      | error e => rfl
      | ok r =>
        obtain ⟨n, b⟩ := r
        obtain ⟨hb, hn⟩ := hf _ _ _ _ _ _ hfs
        cases b with
        | false => exact ⟨rfl, hst0, fun _ => rfl⟩
        | true =>
          have hall : allowed = true := by
            rcases hok with ⟨h, _⟩ | ⟨_, _, _, h⟩
            · exact h
            · have := h _ (preorder_self _); rw [← hb] at this; cases this
          refine ⟨rfl, ?_, fun h => by rw [hall] at h; cases h⟩
          rcases hok with ⟨_, h⟩ | ⟨h, _⟩
          · refine ⟨?_, hst0⟩
            rw [hn rfl, hl, ← h]
            rfl
          · rw [hall] at h; cases h
  | .node i cs, hlev, hsec, hok, hl, hstep =>
    simp only [LoopOk, convertTreeX, preorder, M.bind, M.pure, List.cons_append]
    rw [hstep]
    simp only [M.bind]
    cases hfs : f (.node i cs) sec s with
    | mk r s' =>
      cases r with
      | error e => rfl
      | ok r =>
        obtain ⟨n, b⟩ := r
        obtain ⟨hb, hn⟩ := hf _ _ _ _ _ _ hfs
        cases b with
        | false =>
          have hkids : ∀ x ∈ preorderList cs, isSection x = false := hsec.1 hb.symm
          have hlen : (sec :: st).length ≤ level + 1 := by
            rcases hok with ⟨_, h⟩ | ⟨_, _, h, _⟩ <;> omega
          have ih := convertLoop_forest hf (level + 1) false cs hlev.2 hsec.2 [] sec st rest s' hst0
            (Or.inr ⟨rfl, rfl, hlen, hkids⟩)
          simp only [LoopOk, List.nil_append] at ih
          dsimp only
          simp only [Bool.false_eq_true, if_false]
          cases hc : convertForestX f sec [] cs s' with
          | mk r' s'' =>
            rw [hc] at ih
            cases r' with
            | error e => exact ih
            | ok ext' =>
              obtain ⟨h1, h2, h3⟩ := ih
              exact ⟨h1, h2, fun _ => h3 trivial⟩
        | true =>
          have hall : allowed = true := by
            rcases hok with ⟨h, _⟩ | ⟨_, _, _, h⟩
            · exact h
            · have := h _ (preorder_self _); rw [← hb] at this; cases this
          have hlen : (sec :: st).length = level := by
            rcases hok with ⟨_, h⟩ | ⟨h, _⟩
            · exact h
            · rw [hall] at h; cases h
          have hst1 : Stacked getLevel (n :: sec :: st) := ⟨by rw [hn rfl, hl, ← hlen], hst0⟩
          have ih := convertLoop_forest hf (level + 1) true cs hlev.2 hsec.2 [] n (sec :: st) rest s' hst1
            (Or.inl ⟨rfl, by rw [List.length_cons, hlen]⟩)
          simp only [LoopOk, List.nil_append] at ih
          dsimp only
          simp only [if_true]
          cases hc : convertForestX f n [] cs s' with
          | mk r' s'' =>
            rw [hc] at ih
            cases r' with
            | error e => exact ih
            | ok ext' =>
              obtain ⟨h1, h2, h3⟩ := ih
              refine ⟨?_, ?_, fun h => by rw [hall] at h; cases h⟩
              · rw [h1]; simp
              · simpa using h2

theorem convertLoop_forest (hf : AnswersFit getLevel f isSection) (level : Nat) (allowed : Bool)
    (hs : List Hierarchy) (hlev : LevelsFromList level hs) (hsec : SectionsOnTopList isSection hs)
    (ext : List ν) (sec : ν) (st : List ν) (rest : List Hierarchy) (s : σ)
    (hst : Stacked getLevel (ext ++ sec :: st))
    (hok : (allowed = true ∧ (sec :: st).length = level) ∨
      (allowed = false ∧ ext = [] ∧ (sec :: st).length ≤ level ∧ ∀ x ∈ preorderList hs, isSection x = false)) :
    LoopOk getLevel f ext (sec :: st) (preorderList hs) rest (convertForestX f sec ext hs) allowed s := by
  match hs, hlev, hsec, hok with
  | [], _, _, hok =>
    refine ⟨rfl, hst, fun h => ?_⟩
    rcases hok with ⟨h', _⟩ | ⟨_, h', _⟩
    · rw [h'] at h; cases h
    · exact h'
  | h :: hs, hlev, hsec, hok =>
    have ih1 := convertLoop_tree hf level allowed h hlev.1 hsec.1 ext sec st (preorderList hs ++ rest) s hst (by
      rcases hok with h | ⟨h1, h2, h3, h4⟩
      · exact Or.inl h
      · exact Or.inr ⟨h1, h2, h3, fun x hx => h4 x (by simp [preorderList, hx])⟩)
    simp only [LoopOk, convertForestX, preorderList, M.bind, List.append_assoc] at ih1 ⊢
    cases hc : convertTreeX f sec h s with
    | mk r s' =>
      rw [hc] at ih1
      cases r with
      | error e => exact ih1
      | ok ext' =>
        obtain ⟨h1, h2, h3⟩ := ih1
        dsimp only
        have ih2 := convertLoop_forest hf level allowed hs hlev.2 hsec.2 ext' sec st rest s' h2 (by
          rcases hok with h | ⟨h1, h2, h4, h5⟩
          · exact Or.inl h
          · exact Or.inr ⟨h1, h3 h1, h4, fun x hx => h5 x (by simp [preorderList, hx])⟩)
        simp only [LoopOk] at ih2
        rw [h1]
        exact ih2
end

mutual
theorem convertTreeX_eq (sec : ν) (h : Hierarchy) (s : σ) :
    (M.bind (convertTreeX f sec h) fun _ => M.pure ()) s = convertTree f sec h s := by
  match h with
  | .leaf i =>
    simp only [convertTreeX, convertTree, M.bind, M.pure]
    rcases f (.leaf i) sec s with ⟨r | r, s'⟩ <;> rfl
  | .node i cs =>
    simp only [convertTreeX, convertTree, M.bind, M.pure]
    rcases f (.node i cs) sec s with ⟨r | r, s'⟩
    · rfl
    · dsimp only
      have ih := convertForestX_eq (if r.2 then r.1 else sec) [] cs s'
      simp only [M.bind, M.pure] at ih
      rw [← ih]
      rcases convertForestX f (if r.2 then r.1 else sec) [] cs s' with ⟨r' | r', s''⟩ <;> rfl

theorem convertForestX_eq (sec : ν) (ext : List ν) (hs : List Hierarchy) (s : σ) :
    (M.bind (convertForestX f sec ext hs) fun _ => M.pure ()) s = convertForest f sec hs s := by
  match hs with
  | [] => rfl
  | h :: hs =>
    simp only [convertForestX, convertForest, M.bind, M.pure]
    have ih := convertTreeX_eq sec h s
    simp only [M.bind, M.pure] at ih
    rw [← ih]
    rcases convertTreeX f sec h s with ⟨r | r, s'⟩
    · rfl
    · dsimp only
      have ih2 := convertForestX_eq sec r hs s'
      simp only [M.bind, M.pure] at ih2
      exact ih2
end

/-- The loop over the whole hierarchy is the recursive conversion. -/
theorem convertLoop_eq (hf : AnswersFit getLevel f isSection) (hs : List Hierarchy)
    (hlev : LevelsFromList 1 hs) (hsec : SectionsOnTopList isSection hs) (root : ν) (hroot : getLevel root = 0) (s : σ) :
    convertLoop getLevel f [root] (preorderList hs) s = convertForest f root hs s := by
  have h := convertLoop_forest hf 1 true hs hlev hsec [] root [] [] s ⟨hroot, trivial⟩ (Or.inl ⟨rfl, rfl⟩)
  simp only [LoopOk, List.nil_append, List.append_nil] at h
  have h2 := convertForestX_eq (f := f) root [] hs s
  simp only [M.bind, M.pure] at h2
  rw [← h2]
  cases hc : convertForestX f root [] hs s with
  | mk r s' =>
    rw [hc] at h
    cases r with
    | error e => exact h
    | ok ext' => exact h.1
end

end ReqIF
