import Verif.Proofs.Objects
import Verif.Props.C13_17
/-!
# C100: hierarchies built step by step

A user, or the parser, creates nodes and lists one after the other and puts them together
with the constructor and `add_child`.  Nodes are objects: they can be referred to from
several places and changed later.  `Reached` (`Spec/Objects.lean`) are the stores after any
sequence of such calls, successful or not, in which a list given to the constructor is given
to one node only and holds nodes one level deeper.
-/
namespace ReqIF.Build
open Spec

/-- Whatever was called: every node stands for exactly one finite tree, with the fields the node was created
with at its root and levels that increase by one from parent to child. -/
theorem C100_tree {s : Store} (h : Reached s) (a : Nat) (P : NodeObject) (ha : s.nodes[a]? = some P) :
    ∃ t, Stands s a t ∧ (∀ t', Stands s a t' → t' = t) ∧ t.info = P.info ∧ LevelsFrom P.info.level t := by
  obtain ⟨m, hm⟩ := level_bound s.nodes
  obtain ⟨t, h1, h2, h3⟩ := stands_exists (sound h) hm (m + 1) a P ha (by omega)
  exact ⟨t, h1, fun t' h' => stands_unique h1 h', h2, h3⟩

/-- No node is below itself. -/
theorem C100_acyclic {s : Store} (h : Reached s) (a : Nat) : ¬ Below s a a := by
  intro hb
  have ha : ∃ P, s.nodes[a]? = some P := by
    have : ∀ {a b : Nat}, Below s a b → ∃ P, s.nodes[a]? = some P := by
      intro a b h
      induction h with
      | child h _ => obtain ⟨P, hP, -⟩ := h.node; exact ⟨P, hP⟩
      | trans _ _ ih _ => exact ih
    exact this hb
  obtain ⟨P, hP⟩ := ha
  exact Nat.lt_irrefl _ (below_level (sound h) hb hP hP)

mutual
theorem levels_above {n : Nat} : ∀ {t : Hierarchy}, LevelsFrom n t → ∀ x ∈ preorder t, n ≤ x.info.level
  | .leaf i, h, x, hx => by
    simp only [preorder, List.mem_singleton] at hx
    subst hx
    exact Nat.le_of_eq h.symm
  | .node i cs, h, x, hx => by
    simp only [preorder, List.mem_cons] at hx
    rcases hx with rfl | hx
    · exact Nat.le_of_eq h.1.symm
    · have := levels_above_list h.2 x hx
      omega

theorem levels_above_list {n : Nat} : ∀ {ts : List Hierarchy}, LevelsFromList n ts → ∀ x ∈ preorderList ts, n ≤ x.info.level
  | [], _, x, hx => by cases hx
  | t :: ts, h, x, hx => by
    simp only [preorderList, List.mem_append] at hx
    rcases hx with hx | hx
    · exact levels_above h.1 x hx
    · exact levels_above_list h.2 x hx
end

/-- A node whose level is not zero can be printed. -/
theorem C100_printed {s : Store} (h : Reached s) {a : Nat} {t : Hierarchy} (ha : Stands s a t) (h0 : t.info.level ≠ 0) :
    ∃ text, unparseHierarchy t = .ok text := by
  have hP : ∃ P, s.nodes[a]? = some P := by
    cases ha with
    | leaf h => obtain ⟨P, hP, -⟩ := h.node; exact ⟨P, hP⟩
    | node h _ => obtain ⟨P, hP, -⟩ := h.node; exact ⟨P, hP⟩
  obtain ⟨P, hP⟩ := hP
  obtain ⟨t', h1, h2, h3, h4⟩ := C100_tree h a P hP
  have e := h2 t ha
  subst e
  rw [C17_refuses_level_zero]
  intro x hx
  have := levels_above h4 x hx
  rw [h3] at h0
  omega

/-- Iterating over the nodes from any list of nodes ends, and what it yields are the nodes of the trees in
depth-first order, each as often as it occurs. -/
theorem C100_walk {s : Store} (h : Reached s) (xs : List Nat) (hx : ∀ a ∈ xs, ∃ P, s.nodes[a]? = some P) :
    ∃ ts out, StandAll s xs ts ∧ StandAll s out (preorderList ts) ∧
      ∀ steps, (preorderList ts).length ≤ steps → s.walk steps xs = some out := by
  have key : ∃ ts, StandAll s xs ts := by
    induction xs with
    | nil => exact ⟨[], .nil⟩
    | cons a xs ih =>
      obtain ⟨ts, hts⟩ := ih (fun b hb => hx b (List.mem_cons_of_mem _ hb))
      obtain ⟨P, hP⟩ := hx a List.mem_cons_self
      obtain ⟨t, ht, -⟩ := C100_tree h a P hP
      exact ⟨t :: ts, .cons ht hts⟩
  obtain ⟨ts, hts⟩ := key
  obtain ⟨out, h1, h2⟩ := walk_ends _ xs ts hts (Nat.le_refl _)
  exact ⟨ts, out, hts, h1, h2⟩

theorem Stands.fields {s : Store} {a : Nat} {t : Hierarchy} (h : Stands s a t) :
    ∃ (P : NodeObject) (kids : Option (List Nat)), s.nodes[a]? = Option.some P ∧ P.info = t.info ∧ Has s a t.info kids ∧
      StandAll s (kids.getD []) t.childList := by
  cases h with
  | leaf h => obtain ⟨P, hP, e⟩ := h.node; exact ⟨P, none, hP, e, h, .nil⟩
  | node h h2 => obtain ⟨P, hP, e⟩ := h.node; exact ⟨P, _, hP, e, h, h2⟩

/-- `add_child` when the child is one level deeper: it succeeds, the parent then stands for its tree with the
tree of the child as last child, and every other node that does not have the parent below it (the child, for
instance) stands for the same tree as before. -/
theorem C100_add {s : Store} (h : Reached s) {p c : Nat} {tp tc : Hierarchy} (hp : Stands s p tp) (hc : Stands s c tc)
    (hl : tc.info.level = tp.info.level + 1) :
    (s.step (.addChild p c)).1 = .ok () ∧
    (∃ t', tp.addChild tc = .ok t' ∧ t' = .node tp.info (tp.childList ++ [tc]) ∧ Stands (s.step (.addChild p c)).2 p t') ∧
    (∀ a t, a ≠ p → ¬ Below s a p → Stands s a t → Stands (s.step (.addChild p c)).2 a t) ∧
    Stands (s.step (.addChild p c)).2 c tc := by
  have hs := sound h
  obtain ⟨P, k, hP, eP, hk, hch⟩ := hp.fields
  obtain ⟨C, -, hC, eC, -, -⟩ := hc.fields
  rw [← eP] at hk
  obtain ⟨h1, h2, h3, -, -⟩ := step_add hs hP hC hk
  have hlv : P.info.level + 1 = C.info.level := by rw [eP, eC, hl]
  rw [if_pos hlv] at h1 h2
  have hpc : ∀ x : Nat, (x = c ∨ x ∈ k.getD []) → x ≠ p ∧ ¬ Below s x p := by
    intro x hx
    have hX : ∃ X, s.nodes[x]? = some X ∧ X.info.level = P.info.level + 1 := by
      rcases hx with rfl | hx
      · exact ⟨C, hC, hlv.symm⟩
      · cases k with
        | none => cases hx
        | some ys => exact hs.levels p _ ys hk x hx
    obtain ⟨X, hX, e⟩ := hX
    refine ⟨?_, ?_⟩
    · rintro rfl
      rw [hP] at hX; cases hX; omega
    · intro hb
      have := below_level hs hb hX hP
      omega
  have hc' := stands_kept h3 hc (hpc c (Or.inl rfl)).1 (hpc c (Or.inl rfl)).2
  refine ⟨h1, ⟨_, by unfold Hierarchy.addChild; rw [if_pos hl.symm], rfl, ?_⟩, fun a t ha hb hst => stands_kept h3 hst ha hb, hc'⟩
  rw [eP] at h2
  refine .node h2 (standAll_append ?_ (.cons hc' .nil))
  exact standAll_kept h3 hch (fun x hx => hpc x (Or.inr hx))

/-- `add_child` otherwise: it fails, and no other node is changed; but the parent has a list of children from
then on, even if it had none before. -/
theorem C100_refused {s : Store} (h : Reached s) {p c : Nat} {tp tc : Hierarchy} (hp : Stands s p tp) (hc : Stands s c tc)
    (hl : tc.info.level ≠ tp.info.level + 1) :
    (s.step (.addChild p c)).1 = .error .assertion ∧
    Stands (s.step (.addChild p c)).2 p (.node tp.info tp.childList) ∧
    (∀ a t, a ≠ p → ¬ Below s a p → Stands s a t → Stands (s.step (.addChild p c)).2 a t) := by
  have hs := sound h
  obtain ⟨P, k, hP, eP, hk, hch⟩ := hp.fields
  obtain ⟨C, -, hC, eC, -, -⟩ := hc.fields
  rw [← eP] at hk
  obtain ⟨h1, h2, h3, -, -⟩ := step_add hs hP hC hk
  have hlv : ¬ P.info.level + 1 = C.info.level := by rw [eP, eC]; exact fun e => hl e.symm
  rw [if_neg hlv] at h1 h2
  rw [List.append_nil, eP] at h2
  refine ⟨h1, .node h2 (standAll_kept h3 hch ?_), fun a t ha hb hst => stands_kept h3 hst ha hb⟩
  intro x hx
  have hX : ∃ X, s.nodes[x]? = some X ∧ X.info.level = P.info.level + 1 := by
    cases k with
    | none => cases hx
    | some ys => exact hs.levels p _ ys hk x hx
  obtain ⟨X, hX, e⟩ := hX
  refine ⟨?_, ?_⟩
  · rintro rfl
    rw [hP] at hX; cases hX; omega
  · intro hb
    have := below_level hs hb hX hP
    omega

/-- In either case the fields and the list of children of every node but the parent are what they were.  The
nodes above the parent are the same nodes: they show the change because they refer to the parent. -/
theorem C100_frame {s : Store} (h : Reached s) {p c : Nat} (hp : ∃ P, s.nodes[p]? = some P) (hc : ∃ C, s.nodes[c]? = some C)
    (a : Nat) (ha : a ≠ p) (i : HInfo) (x : Option (List Nat)) : Has (s.step (.addChild p c)).2 a i x ↔ Has s a i x := by
  have hs := sound h
  obtain ⟨P, hP⟩ := hp
  obtain ⟨C, hC⟩ := hc
  obtain ⟨k, hk⟩ := hs.held p P hP
  obtain ⟨-, -, h3, h4, -⟩ := step_add hs hP hC hk
  refine ⟨fun hh => ?_, h3 a i x ha⟩
  obtain ⟨Q, hQ, rfl⟩ := hh.node
  obtain ⟨Q0, h5, h6, -⟩ := h4 a Q hQ
  obtain ⟨k', hk'⟩ := hs.held a Q0 h5
  rw [h6] at hk'
  obtain ⟨-, e⟩ := hh.unique (h3 a _ _ ha hk')
  rw [e]; exact hk'

/-! ## Trees there are already -/

/-- What is there stays as it is. -/
def Grown (s s' : Store) : Prop :=
  (∀ (a : Nat) (P : NodeObject), s.nodes[a]? = some P → s'.nodes[a]? = some P) ∧
  ∀ (l : Nat) (xs : List Nat), s.lists[l]? = some xs → s'.lists[l]? = some xs

theorem Grown.trans {s s' s'' : Store} (h : Grown s s') (h' : Grown s' s'') : Grown s s'' :=
  ⟨fun a P x => h'.1 a P (h.1 a P x), fun l xs x => h'.2 l xs (h.2 l xs x)⟩

mutual
theorem Grown.stands {s s' : Store} (hg : Grown s s') : ∀ {t : Hierarchy} {a : Nat}, Stands s a t → Stands s' a t
  | .leaf i, a, h => by
    cases h with
    | leaf h => exact .leaf (h.mono hg.1 hg.2)
  | .node i ts, a, h => by
    cases h with
    | node h h2 => exact .node (h.mono hg.1 hg.2) (hg.standAll h2)

theorem Grown.standAll {s s' : Store} (hg : Grown s s') : ∀ {ts : List Hierarchy} {xs : List Nat}, StandAll s xs ts → StandAll s' xs ts
  | [], xs, h => by cases h; exact .nil
  | t :: ts, xs, h => by
    cases h with
    | cons h1 h2 => exact .cons (hg.stands h1) (hg.standAll h2)
end

theorem LevelsFrom.level {n : Nat} {t : Hierarchy} (h : LevelsFrom n t) : t.info.level = n := by
  cases t with
  | leaf i => exact h
  | node i cs => exact h.1

theorem standAll_levels {s : Store} {n : Nat} : ∀ {ts : List Hierarchy} {xs : List Nat}, StandAll s xs ts → LevelsFromList n ts →
    ∀ c ∈ xs, ∃ C, s.nodes[c]? = some C ∧ C.info.level = n
  | [], xs, h, _, c, hc => by cases h; cases hc
  | t :: ts, xs, h, hl, c, hc => by
    cases h with
    | cons h1 h2 =>
      rcases List.mem_cons.1 hc with rfl | hc
      · obtain ⟨P, -, hP, e, -, -⟩ := h1.fields
        exact ⟨P, hP, by rw [e]; exact LevelsFrom.level hl.1⟩
      · exact standAll_levels h2 hl.2 c hc

mutual
/-- Every tree with levels that increase by one can be built with such calls, beside what there is. -/
theorem C100_built {s : Store} (h : Reached s) : ∀ (t : Hierarchy) (n : Nat), LevelsFrom n t →
    ∃ s' a, Reached s' ∧ Grown s s' ∧ Stands s' a t
  | .leaf i, n, hl => by
    refine ⟨_, s.nodes.length, .step (.create i none) h trivial, ⟨fun a P hP => getElem?_left hP, fun l xs hx => hx⟩, .leaf (.none ?_)⟩
    simp [Store.step]
  | .node i ts, n, hl => by
    obtain ⟨s1, xs, h1, g1, st⟩ := C100_built_list h ts (n + 1) hl.2
    have h2 : Reached (s1.step (.newList xs)).2 := .step (.newList xs) h1 trivial
    have g2 : Grown s1 (s1.step (.newList xs)).2 := ⟨fun a P hP => hP, fun l xs hx => getElem?_left hx⟩
    have hlist : (s1.step (.newList xs)).2.lists[s1.lists.length]? = some xs := by simp [Store.step]
    have hcare : Careful (s1.step (.newList xs)).2 (.create i (some s1.lists.length)) := by
      refine ⟨xs, hlist, ?_, ?_⟩
      · intro c hc
        rw [hl.1]
        exact standAll_levels st hl.2 c hc
      · intro a P hP hch
        obtain ⟨k, hk⟩ := (sound h1).held a P hP
        cases hk with
        | none h => rw [show s1.nodes[a]? = some P from hP] at h; injection h with h; rw [h] at hch; cases hch
        | some h h' =>
          rw [show s1.nodes[a]? = some P from hP] at h; injection h with h; rw [h] at hch
          injection hch with hch
          have := (List.getElem?_eq_some_iff.1 h').1
          omega
    have g3 : Grown (s1.step (.newList xs)).2 ((s1.step (.newList xs)).2.step (.create i (some s1.lists.length))).2 :=
      ⟨fun a P hP => getElem?_left hP, fun l xs hx => hx⟩
    refine ⟨_, s1.nodes.length, .step _ h2 hcare, (g1.trans g2).trans g3, .node (.some (l := s1.lists.length) ?_ hlist) ?_⟩
    · simp [Store.step]
    · exact g3.standAll (g2.standAll st)

theorem C100_built_list {s : Store} (h : Reached s) : ∀ (ts : List Hierarchy) (n : Nat), LevelsFromList n ts →
    ∃ s' xs, Reached s' ∧ Grown s s' ∧ StandAll s' xs ts
  | [], n, _ => ⟨s, [], h, ⟨fun _ _ h => h, fun _ _ h => h⟩, .nil⟩
  | t :: ts, n, hl => by
    obtain ⟨s1, a, h1, g1, st1⟩ := C100_built h t n hl.1
    obtain ⟨s2, xs, h2, g2, st2⟩ := C100_built_list h1 ts n hl.2
    exact ⟨s2, a :: xs, h2, g1.trans g2, .cons (g2.stands st1) st2⟩
end

/-- So all of the above holds of the nodes of a document that was read, and of what is made of them later. -/
theorem C100_parsed (text : Str) (b : Bundle) (h : parseString text = .ok b) (ss : List Specification)
    (hss : b.specifications? = some ss) :
    ∃ s xs, Reached s ∧ StandAll s xs (ss.flatMap fun sp => sp.children.getD []) := by
  have key : LevelsFromList 1 (ss.flatMap fun sp => sp.children.getD []) := by
    rw [LevelsFromList_iff]
    intro t ht
    obtain ⟨sp, h1, h2⟩ := List.mem_flatMap.1 ht
    exact LevelsFromList_iff.1 (C15_levels text b h ss hss sp h1) t h2
  obtain ⟨s, xs, h1, -, h2⟩ := C100_built_list .start _ 1 key
  exact ⟨s, xs, h1, h2⟩

/-! ## Findings -/

/-- A refused `add_child` leaves a mark: the parent had no children and is printed differently afterwards. -/
theorem C100_mark : ∃ s p c t t', Reached s ∧ Stands s p t ∧ (s.step (.addChild p c)).1 = .error .assertion ∧
    Stands (s.step (.addChild p c)).2 p t' ∧ ∃ x y, unparseHierarchy t = .ok x ∧ unparseHierarchy t' = .ok y ∧ x ≠ y := by
  let s : Store := ⟨[⟨plainInfo c!"p" 1, none⟩, ⟨plainInfo c!"c" 1, none⟩], []⟩
  have hr : Reached s := .step (.create (plainInfo c!"c" 1) none) (.step (.create (plainInfo c!"p" 1) none) .start trivial) trivial
  have hp : Stands s 0 (.leaf (plainInfo c!"p" 1)) := .leaf (.none rfl)
  have hc : Stands s 1 (.leaf (plainInfo c!"c" 1)) := .leaf (.none rfl)
  obtain ⟨h1, h2, -⟩ := C100_refused hr hp hc (by decide)
  refine ⟨s, 0, 1, _, _, hr, hp, h1, h2, _, _, rfl, rfl, ?_⟩
  decide +kernel

/-- The constructor does not look at the levels of the children it is given: with wrong ones, a node can be
made its own descendant; then no tree stands for it, and iterating over it does not end. -/
theorem C100_cycle : ∃ calls p c, ((Store.run ⟨[], []⟩ calls).step (.addChild p c)).1 = .ok () ∧
    Below ((Store.run ⟨[], []⟩ calls).step (.addChild p c)).2 p p ∧
    ∀ steps, ((Store.run ⟨[], []⟩ calls).step (.addChild p c)).2.walk steps [p] = none := by
  refine ⟨[.create (plainInfo c!"p" 1) none, .newList [0], .create (plainInfo c!"c" 2) (some 0)], 0, 1, rfl, ?_, ?_⟩
  · exact .trans (.child (b := 1) (i := plainInfo c!"p" 1) (xs := [1]) (.some (l := 1) rfl rfl) (by decide))
      (.child (i := plainInfo c!"c" 2) (xs := [0]) (.some (l := 0) rfl rfl) (by decide))
  · intro steps
    generalize hS : ((Store.run ⟨[], []⟩ [.create (plainInfo c!"p" 1) none, .newList [0], .create (plainInfo c!"c" 2) (some 0)]).step
      (.addChild 0 1)).2 = S
    have h0 : S.kids 0 = [1] := by subst hS; rfl
    have h1 : S.kids 1 = [0] := by subst hS; rfl
    have key : ∀ n, S.walk n [0] = none ∧ S.walk n [1] = none := by
      intro n
      induction n with
      | zero => exact ⟨rfl, rfl⟩
      | succ n ih =>
        refine ⟨?_, ?_⟩
        · rw [Store.walk, h0, List.append_nil, ih.2]; rfl
        · rw [Store.walk, h1, List.append_nil, ih.1]; rfl
    exact (key steps).1

/-- The constructor keeps the list it is given: if two nodes are created with the same list, a child added to
one of them becomes a child of the other one as well. -/
theorem C100_list : ∃ calls p q c, (Store.run ⟨[], []⟩ calls).kids q = [] ∧
    ((Store.run ⟨[], []⟩ calls).step (.addChild p c)).1 = .ok () ∧
    ((Store.run ⟨[], []⟩ calls).step (.addChild p c)).2.kids q = [c] ∧ p ≠ q :=
  ⟨[.newList [], .create (plainInfo c!"p" 1) (some 0), .create (plainInfo c!"q" 1) (some 0), .create (plainInfo c!"c" 2) none],
    0, 1, 2, rfl, rfl, rfl, by decide⟩

/-! ## Cases -/

/-- A parent of two children, the second of which was given a child before. -/
def sample : Store := Store.run ⟨[], []⟩
  [.create (plainInfo c!"a" 1) none, .create (plainInfo c!"b" 2) none, .create (plainInfo c!"c" 2) none,
   .create (plainInfo c!"d" 3) none, .addChild 2 3, .addChild 0 1]

theorem sample_reached : Reached sample :=
  .step (.addChild 0 1) (.step (.addChild 2 3) (.step (.create (plainInfo c!"d" 3) none) (.step (.create (plainInfo c!"c" 2) none)
    (.step (.create (plainInfo c!"b" 2) none) (.step (.create (plainInfo c!"a" 1) none) .start trivial) trivial) trivial) trivial)
    ⟨⟨_, rfl⟩, ⟨_, rfl⟩⟩) ⟨⟨_, rfl⟩, ⟨_, rfl⟩⟩

theorem sample_c : Stands sample 2 (.node (plainInfo c!"c" 2) [.leaf (plainInfo c!"d" 3)]) :=
  .node (xs := [3]) (.some (l := 0) rfl rfl) (.cons (.leaf (.none rfl)) .nil)

theorem sample_a : Stands sample 0 (.node (plainInfo c!"a" 1) [.leaf (plainInfo c!"b" 2)]) :=
  .node (xs := [1]) (.some (l := 1) rfl rfl) (.cons (.leaf (.none rfl)) .nil)

/-- C100_add: the parent then has both children, the second with its child. -/
example : Stands (sample.step (.addChild 0 2)).2 0 (.node (plainInfo c!"a" 1)
    [.leaf (plainInfo c!"b" 2), .node (plainInfo c!"c" 2) [.leaf (plainInfo c!"d" 3)]]) := by
  obtain ⟨-, ⟨t', -, e, h⟩, -⟩ := C100_add sample_reached sample_a sample_c rfl
  subst e
  exact h

/-- C100_walk: the nodes in order. -/
example : (sample.step (.addChild 0 2)).2.walk 4 [0] = some [0, 1, 2, 3] := rfl

/-- C100_refused: a node two levels deeper. -/
example : (sample.step (.addChild 0 3)).1 = .error .assertion :=
  (C100_refused sample_reached sample_a (.leaf (.none rfl) : Stands sample 3 (.leaf (plainInfo c!"d" 3))) (by decide)).1

/-- C100_tree, C100_printed: the hypotheses. -/
example : ∃ P, sample.nodes[2]? = some P := ⟨_, rfl⟩
example : ∃ text, unparseHierarchy (.node (plainInfo c!"c" 2) [.leaf (plainInfo c!"d" 3)]) = .ok text :=
  C100_printed sample_reached sample_c (by decide)

/-- C100_acyclic, C100_frame: there are nodes below others, and others than the parent. -/
example : Below sample 0 1 := .child (i := plainInfo c!"a" 1) (xs := [1]) (.some (l := 1) rfl rfl) (by decide)
example : Has (sample.step (.addChild 0 2)).2 2 (plainInfo c!"c" 2) (some [3]) :=
  (C100_frame sample_reached ⟨_, rfl⟩ ⟨_, rfl⟩ 2 (by decide) _ _).2 (.some (l := 0) rfl rfl)

/-- C100_built: a tree. -/
example : LevelsFrom 1 (.node (plainInfo c!"a" 1) [.leaf (plainInfo c!"b" 2)]) := ⟨rfl, rfl, trivial⟩

end ReqIF.Build
