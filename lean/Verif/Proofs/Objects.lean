import Verif.Spec.Objects
import Verif.Spec.Hierarchy
/-!
# Stores of nodes
-/
namespace ReqIF.Build
open Spec

/-- Lists belong to one node each, and children are one level deeper. -/
structure Sound (s : Store) : Prop where
  held : ∀ (a : Nat) (P : NodeObject), s.nodes[a]? = some P → ∃ kids, Has s a P.info kids
  own : ∀ (a b : Nat) (P Q : NodeObject) (l : Nat), s.nodes[a]? = some P → s.nodes[b]? = some Q → P.children = some l → Q.children = some l → a = b
  levels : ∀ a i xs, Has s a i (some xs) → ∀ c ∈ xs, ∃ C, s.nodes[c]? = some C ∧ C.info.level = i.level + 1

theorem Has.unique {s : Store} {a : Nat} {i j : HInfo} {x y : Option (List Nat)} (h : Has s a i x) (h' : Has s a j y) : i = j ∧ x = y := by
  cases h with
  | none h1 =>
    cases h' with
    | none h2 => rw [h1] at h2; cases h2; exact ⟨rfl, rfl⟩
    | some h2 h3 => rw [h1] at h2; cases h2
  | some h1 h4 =>
    cases h' with
    | none h2 => rw [h1] at h2; cases h2
    | some h2 h3 => rw [h1] at h2; cases h2; rw [h3] at h4; cases h4; exact ⟨rfl, rfl⟩

theorem Has.node {s : Store} {a : Nat} {i : HInfo} {x : Option (List Nat)} (h : Has s a i x) : ∃ P : NodeObject, s.nodes[a]? = Option.some P ∧ P.info = i := by
  cases h with
  | none h => exact ⟨_, h, rfl⟩
  | some h _ => exact ⟨_, h, rfl⟩

theorem Has.lt {s : Store} {a : Nat} {i : HInfo} {x : Option (List Nat)} (h : Has s a i x) : a < s.nodes.length := by
  obtain ⟨P, hP, -⟩ := h.node
  exact (List.getElem?_eq_some_iff.1 hP).1

/-! ## What a call changes -/

/-- More nodes and lists do not change what there is. -/
theorem Has.mono {s s' : Store} {a : Nat} {i : HInfo} {x : Option (List Nat)} (h : Has s a i x)
    (hn : ∀ (a : Nat) (P : NodeObject), s.nodes[a]? = Option.some P → s'.nodes[a]? = Option.some P)
    (hl : ∀ (l : Nat) (xs : List Nat), s.lists[l]? = Option.some xs → s'.lists[l]? = Option.some xs) : Has s' a i x := by
  cases h with
  | none h => exact .none (hn _ _ h)
  | some h h2 => exact .some (hn _ _ h) (hl _ _ h2)

theorem getElem?_left {α : Type} {l : List α} {m : List α} {k : Nat} {x : α} (h : l[k]? = some x) : (l ++ m)[k]? = some x := by
  rw [List.getElem?_append_left (List.getElem?_eq_some_iff.1 h).1]; exact h

/-- `add_child`: the parent has a list afterwards, with the child at the end if the levels fit; nothing else
has changed. -/
theorem step_add {s : Store} (hs : Sound s) {p c : Nat} {P C : NodeObject} (hp : s.nodes[p]? = some P) (hc : s.nodes[c]? = some C)
    {kids : Option (List Nat)} (hk : Has s p P.info kids) :
    (s.step (.addChild p c)).1 = (if P.info.level + 1 = C.info.level then .ok () else .error .assertion) ∧
    Has (s.step (.addChild p c)).2 p P.info (some (kids.getD [] ++ if P.info.level + 1 = C.info.level then [c] else [])) ∧
    (∀ a i x, a ≠ p → Has s a i x → Has (s.step (.addChild p c)).2 a i x) ∧
    (∀ (a : Nat) (Q : NodeObject), (s.step (.addChild p c)).2.nodes[a]? = some Q → ∃ Q0, s.nodes[a]? = some Q0 ∧ Q0.info = Q.info ∧
      (Q0.children = Q.children ∨ a = p ∧ Q.children = some s.lists.length)) ∧
    (∀ (a : Nat) (Q0 : NodeObject), s.nodes[a]? = some Q0 → ∃ Q, (s.step (.addChild p c)).2.nodes[a]? = some Q ∧ Q.info = Q0.info) := by
  have hpl : p < s.nodes.length := (List.getElem?_eq_some_iff.1 hp).1
  cases hk with
  | none hk =>
    rw [hp] at hk
    injection hk with hk
    have hch : P.children = none := by rw [hk]
    have hset : ∀ (a : Nat) (Q : NodeObject), (s.nodes.set p { P with children := some s.lists.length })[a]? = some Q → ∃ Q0, s.nodes[a]? = some Q0 ∧ Q0.info = Q.info ∧
      (Q0.children = Q.children ∨ a = p ∧ Q.children = some s.lists.length) := by
      intro a Q h
      by_cases ha : p = a
      · subst ha
        rw [List.getElem?_set_self hpl] at h
        cases h
        exact ⟨P, hp, rfl, Or.inr ⟨rfl, rfl⟩⟩
      · rw [List.getElem?_set_ne ha] at h
        exact ⟨Q, h, rfl, Or.inl rfl⟩
    have hset' : ∀ (a : Nat) (Q0 : NodeObject), s.nodes[a]? = some Q0 → ∃ Q, (s.nodes.set p { P with children := some s.lists.length })[a]? = some Q ∧ Q.info = Q0.info := by
      intro a Q0 h
      by_cases ha : p = a
      · subst ha
        rw [hp] at h
        cases h
        exact ⟨_, List.getElem?_set_self hpl, rfl⟩
      · exact ⟨Q0, by rw [List.getElem?_set_ne ha]; exact h, rfl⟩
    have hother : ∀ (ls : List (List Nat)), (∀ (l : Nat) (xs : List Nat), s.lists[l]? = some xs → ls[l]? = some xs) → ∀ a i x, a ≠ p → Has s a i x →
        Has ⟨s.nodes.set p { P with children := some s.lists.length }, ls⟩ a i x := by
      intro ls hls a i x ha h
      cases h with
      | none h => exact .none (by rw [List.getElem?_set_ne (Ne.symm ha)]; exact h)
      | some h h2 => exact .some (by rw [List.getElem?_set_ne (Ne.symm ha)]; exact h) (hls _ _ h2)
    simp only [Store.step, hp, hc, hch]
    by_cases hl : P.info.level + 1 = C.info.level
    · simp only [if_pos hl]
      refine ⟨trivial, ?_, ?_, hset, hset'⟩
      · refine .some (List.getElem?_set_self hpl) ?_
        rw [List.getElem?_modify]
        simp
      · apply hother
        intro l xs h
        have hlt := (List.getElem?_eq_some_iff.1 h).1
        rw [List.getElem?_modify, List.getElem?_append_left hlt, h]
        have hne : s.lists.length ≠ l := by omega
        simp [hne]
    · simp only [if_neg hl]
      refine ⟨trivial, ?_, ?_, hset, hset'⟩
      · refine .some (List.getElem?_set_self hpl) ?_
        simp
      · exact hother _ (fun l xs h => getElem?_left h)
  | some hk hxs =>
    rename_i l xs
    rw [hp] at hk
    injection hk with hk
    have hch : P.children = some l := by rw [hk]
    simp only [Store.step, hp, hc, hch]
    have same : ∀ (a : Nat) (Q : NodeObject), s.nodes[a]? = some Q → ∃ Q0, s.nodes[a]? = some Q0 ∧ Q0.info = Q.info ∧
      (Q0.children = Q.children ∨ a = p ∧ Q.children = some s.lists.length) := fun a Q h => ⟨Q, h, rfl, Or.inl rfl⟩
    have same' : ∀ (a : Nat) (Q0 : NodeObject), s.nodes[a]? = some Q0 → ∃ Q : NodeObject, s.nodes[a]? = some Q ∧ Q.info = Q0.info := fun a Q h => ⟨Q, h, rfl⟩
    by_cases hl : P.info.level + 1 = C.info.level
    · simp only [if_pos hl]
      refine ⟨trivial, ?_, ?_, same, same'⟩
      · refine .some (l := l) (by rw [hp]; exact congrArg some hk) ?_
        rw [List.getElem?_modify, hxs]
        simp
      · intro a i x ha h
        cases h with
        | none h => exact .none h
        | some h h2 =>
          rename_i l' xs'
          refine .some h ?_
          have hne : l ≠ l' := by
            rintro rfl
            exact ha (hs.own a p _ _ l h hp rfl hch)
          rw [List.getElem?_modify, h2]
          simp [hne]
    · simp only [if_neg hl]
      refine ⟨trivial, ?_, fun a i x _ h => h, same, same'⟩
      refine .some (l := l) (by rw [hp]; exact congrArg some hk) ?_
      simpa using hxs

theorem sound_start : Sound ⟨[], []⟩ := by
  refine ⟨?_, ?_, ?_⟩
  · intro a P h; simp at h
  · intro a b P Q l h; simp at h
  · intro a i xs h
    cases h with
    | some h _ => simp at h

theorem sound_step {s : Store} (hs : Sound s) {call : Call} (hc : Careful s call) : Sound (s.step call).2 := by
  cases call with
  | newList items =>
    show Sound { s with lists := s.lists ++ [items] }
    have hm : ∀ a i x, Has s a i x → Has { s with lists := s.lists ++ [items] } a i x :=
      fun a i x h => h.mono (fun _ _ h => h) (fun l xs h => getElem?_left h)
    refine ⟨?_, hs.own, ?_⟩
    · intro a P h
      obtain ⟨k, hk⟩ := hs.held a P h
      exact ⟨k, hm a _ _ hk⟩
    · intro a i xs h c hcx
      obtain ⟨P, hP, rfl⟩ := h.node
      obtain ⟨k, hk⟩ := hs.held a P hP
      obtain ⟨-, e⟩ := h.unique (hm a _ _ hk)
      exact hs.levels a _ xs (e ▸ hk) c hcx
  | create i ch =>
    show Sound { s with nodes := s.nodes ++ [⟨i, ch⟩] }
    have hm : ∀ a j x, Has s a j x → Has { s with nodes := s.nodes ++ [⟨i, ch⟩] } a j x :=
      fun a j x h => h.mono (fun _ _ h => getElem?_left h) (fun _ _ h => h)
    have hnode : ∀ (a : Nat) (P : NodeObject), (s.nodes ++ [⟨i, ch⟩])[a]? = some P → s.nodes[a]? = some P ∨ (a = s.nodes.length ∧ P = ⟨i, ch⟩) := by
      intro a P h
      rcases Nat.lt_trichotomy a s.nodes.length with hlt | heq | hgt
      · rw [List.getElem?_append_left hlt] at h; exact Or.inl h
      · subst heq
        simp at h
        exact Or.inr ⟨rfl, h.symm⟩
      · rw [List.getElem?_append_right (by omega)] at h
        have : a - s.nodes.length ≠ 0 := by omega
        cases hx : a - s.nodes.length with
        | zero => omega
        | succ k => rw [hx] at h; simp at h
    have hnew : ∃ k, Has { s with nodes := s.nodes ++ [⟨i, ch⟩] } s.nodes.length i k ∧
        ∀ xs, k = some xs → ∀ c ∈ xs, ∃ C, s.nodes[c]? = some C ∧ C.info.level = i.level + 1 := by
      cases ch with
      | none => exact ⟨none, .none (by simp), fun xs h => (by cases h)⟩
      | some l =>
        obtain ⟨xs, h1, h2, -⟩ := hc
        exact ⟨some xs, .some (l := l) (by simp) h1, fun ys h => (by cases h; exact h2)⟩
    refine ⟨?_, ?_, ?_⟩
    · intro a P h
      rcases hnode a P h with h | ⟨rfl, rfl⟩
      · obtain ⟨k, hk⟩ := hs.held a P h
        exact ⟨k, hm a _ _ hk⟩
      · obtain ⟨k, hk, -⟩ := hnew
        exact ⟨k, hk⟩
    · intro a b P Q l ha hb hP hQ
      have hno : ∀ (a : Nat) (P : NodeObject), ch = some l → s.nodes[a]? = some P → P.children = some l → False := by
        rintro a P rfl h1 h2
        obtain ⟨xs, -, -, h3⟩ := hc
        exact h3 a P h1 h2
      rcases hnode a P ha with ha | ⟨rfl, rfl⟩
      · rcases hnode b Q hb with hb | ⟨rfl, rfl⟩
        · exact hs.own a b P Q l ha hb hP hQ
        · exact (hno a P hQ ha hP).elim
      · rcases hnode b Q hb with hb | ⟨rfl, rfl⟩
        · exact (hno b Q hP hb hQ).elim
        · rfl
    · intro a j xs h c hcx
      obtain ⟨P, hP, rfl⟩ := h.node
      have key : ∃ C, s.nodes[c]? = some C ∧ C.info.level = P.info.level + 1 := by
        rcases hnode a P hP with hP' | ⟨rfl, rfl⟩
        · obtain ⟨k, hk⟩ := hs.held a P hP'
          obtain ⟨-, e⟩ := h.unique (hm a _ _ hk)
          exact hs.levels a _ xs (e ▸ hk) c hcx
        · obtain ⟨k, hk, h2⟩ := hnew
          obtain ⟨-, e⟩ := h.unique hk
          exact h2 xs e.symm c hcx
      obtain ⟨C, h1, h2⟩ := key
      exact ⟨C, getElem?_left h1, h2⟩
  | addChild p c =>
    obtain ⟨⟨P, hp⟩, ⟨C, hcc⟩⟩ := hc
    obtain ⟨k, hk⟩ := hs.held p P hp
    obtain ⟨-, h2, h3, h4, h5⟩ := step_add hs hp hcc hk
    have hlist : ∀ (a : Nat) (Q : NodeObject), s.nodes[a]? = some Q → Q.children ≠ some s.lists.length := by
      intro a Q hQ hl
      obtain ⟨k', hk'⟩ := hs.held a Q hQ
      cases hk' with
      | none h => rw [hQ] at h; injection h with h; rw [h] at hl; cases hl
      | some h h' =>
        rw [hQ] at h; injection h with h; rw [h] at hl
        injection hl with hl
        have := (List.getElem?_eq_some_iff.1 h').1
        omega
    refine ⟨?_, ?_, ?_⟩
    · intro a Q hQ
      obtain ⟨Q0, h6, h7, -⟩ := h4 a Q hQ
      by_cases ha : a = p
      · subst ha
        rw [hp] at h6
        cases h6
        rw [← h7]
        exact ⟨_, h2⟩
      · obtain ⟨k', hk'⟩ := hs.held a Q0 h6
        rw [← h7]
        exact ⟨k', h3 a _ _ ha hk'⟩
    · intro a b Q R l ha hb hQ hR
      obtain ⟨Q0, h6, -, h7⟩ := h4 a Q ha
      obtain ⟨R0, h8, -, h9⟩ := h4 b R hb
      rcases h7 with h7 | ⟨h7, h7'⟩
      · rcases h9 with h9 | ⟨h9, h9'⟩
        · exact hs.own a b Q0 R0 l h6 h8 (h7.trans hQ) (h9.trans hR)
        · exfalso
          rw [hR] at h9'
          exact hlist a Q0 h6 (by rw [h7, hQ]; exact h9')
      · rcases h9 with h9 | ⟨h9, h9'⟩
        · exfalso
          rw [hQ] at h7'
          exact hlist b R0 h8 (by rw [h9, hR]; exact h7')
        · rw [h7, h9]
    · intro a i xs h x hx
      have key : ∃ X, s.nodes[x]? = some X ∧ X.info.level = i.level + 1 := by
        obtain ⟨Q, hQ, rfl⟩ := h.node
        obtain ⟨Q0, h6, h7, -⟩ := h4 a Q hQ
        by_cases ha : a = p
        · subst ha
          obtain ⟨e1, e2⟩ := h.unique h2
          rw [e1]
          injection e2 with e2
          rw [e2] at hx
          rcases List.mem_append.1 hx with hx | hx
          · cases k with
            | none => cases hx
            | some ys => exact hs.levels a _ ys hk x hx
          · by_cases hl : P.info.level + 1 = C.info.level
            · rw [if_pos hl, List.mem_singleton] at hx
              subst hx
              exact ⟨C, hcc, hl.symm⟩
            · rw [if_neg hl] at hx; cases hx
        · obtain ⟨k', hk'⟩ := hs.held a Q0 h6
          obtain ⟨e1, e2⟩ := h.unique (h3 a _ _ ha hk')
          rw [← h7]
          exact hs.levels a _ xs (e2 ▸ hk') x hx
      obtain ⟨X, hX, hlev⟩ := key
      obtain ⟨X', hX', e⟩ := h5 x X hX
      exact ⟨X', hX', by rw [e]; exact hlev⟩

theorem sound {s : Store} (h : Reached s) : Sound s := by
  induction h with
  | start => exact sound_start
  | step call _ hc ih => exact sound_step ih hc

/-! ## Trees -/

theorem level_bound (ns : List NodeObject) : ∃ m, ∀ P ∈ ns, P.info.level ≤ m := by
  induction ns with
  | nil => exact ⟨0, by simp⟩
  | cons P ns ih =>
    obtain ⟨m, hm⟩ := ih
    refine ⟨max m P.info.level, ?_⟩
    intro Q hQ
    rcases List.mem_cons.1 hQ with rfl | hQ
    · exact Nat.le_max_right _ _
    · exact Nat.le_trans (hm Q hQ) (Nat.le_max_left _ _)

theorem stands_exists {s : Store} (hs : Sound s) {m : Nat} (hm : ∀ P ∈ s.nodes, P.info.level ≤ m) : ∀ (k a : Nat) (P : NodeObject),
    s.nodes[a]? = some P → m < P.info.level + k → ∃ t, Stands s a t ∧ t.info = P.info ∧ LevelsFrom P.info.level t
  | 0, a, P, h, hk => by
    have := hm P (List.mem_of_getElem? h)
    omega
  | k + 1, a, P, h, hk => by
    obtain ⟨kids, hkids⟩ := hs.held a P h
    cases kids with
    | none => exact ⟨_, .leaf hkids, rfl, rfl⟩
    | some xs =>
      have hl := hs.levels a P.info xs hkids
      have key : ∀ ys : List Nat, (∀ c ∈ ys, c ∈ xs) → ∃ ts, StandAll s ys ts ∧ LevelsFromList (P.info.level + 1) ts := by
        intro ys
        induction ys with
        | nil => exact fun _ => ⟨[], .nil, trivial⟩
        | cons y ys ih =>
          intro hsub
          obtain ⟨ts, h1, h2⟩ := ih (fun c hc => hsub c (List.mem_cons_of_mem _ hc))
          obtain ⟨C, hC, hlev⟩ := hl y (hsub y List.mem_cons_self)
          obtain ⟨t, h3, h4, h5⟩ := stands_exists hs hm k y C hC (by omega)
          rw [hlev] at h5
          exact ⟨t :: ts, .cons h3 h1, h5, h2⟩
      obtain ⟨ts, h1, h2⟩ := key xs (fun _ h => h)
      exact ⟨.node P.info ts, .node hkids h1, rfl, rfl, h2⟩

mutual
theorem stands_unique {s : Store} {a : Nat} : ∀ {t t' : Hierarchy}, Stands s a t → Stands s a t' → t' = t
  | .leaf i, t', h, h' => by
    cases h with
    | leaf h1 =>
      cases h' with
      | leaf h2 => obtain ⟨e, -⟩ := h1.unique h2; rw [e]
      | node h2 _ => obtain ⟨-, e⟩ := h1.unique h2; cases e
  | .node i ts, t', h, h' => by
    cases h with
    | node h1 h3 =>
      cases h' with
      | leaf h2 => obtain ⟨-, e⟩ := h1.unique h2; cases e
      | node h2 h4 =>
        obtain ⟨e1, e2⟩ := h1.unique h2
        cases e1; cases e2
        rw [standAll_unique h3 h4]

theorem standAll_unique {s : Store} : ∀ {ts ts' : List Hierarchy} {xs : List Nat}, StandAll s xs ts → StandAll s xs ts' → ts' = ts
  | [], ts', xs, h, h' => by cases h; cases h'; rfl
  | t :: ts, ts', xs, h, h' => by
    cases h with
    | cons h1 h2 =>
      cases h' with
      | cons h3 h4 => rw [stands_unique h1 h3, standAll_unique h2 h4]
end

theorem standAll_append {s : Store} : ∀ {xs ys : List Nat} {ts us : List Hierarchy}, StandAll s xs ts → StandAll s ys us →
    StandAll s (xs ++ ys) (ts ++ us)
  | [], _, _, _, h, h' => by cases h; exact h'
  | x :: xs, _, _, _, h, h' => by
    cases h with
    | cons h1 h2 => exact .cons h1 (standAll_append h2 h')

/-- A node that does not reach the changed one stands for the same tree. -/
theorem below_level {s : Store} (hs : Sound s) {a b : Nat} (h : Below s a b) : ∀ {A B : NodeObject}, s.nodes[a]? = some A → s.nodes[b]? = some B →
    A.info.level < B.info.level := by
  induction h with
  | child h hb =>
    intro A B hA hB
    obtain ⟨P, hP, rfl⟩ := h.node
    rw [hP] at hA; cases hA
    obtain ⟨C, hC, e⟩ := hs.levels _ _ _ h _ hb
    rw [hC] at hB; cases hB
    omega
  | trans h1 h2 ih1 ih2 =>
    intro A C hA hC
    have hm : ∀ {a b : Nat}, Below s a b → ∃ B, s.nodes[b]? = some B := by
      intro a b h
      induction h with
      | child h hb => obtain ⟨C, hC, -⟩ := hs.levels _ _ _ h _ hb; exact ⟨C, hC⟩
      | trans _ _ _ ih => exact ih
    obtain ⟨B, hB⟩ := hm h1
    exact Nat.lt_trans (ih1 hA hB) (ih2 hB hC)

mutual
theorem stands_kept {s s' : Store} {p : Nat} (hk : ∀ a i x, a ≠ p → Has s a i x → Has s' a i x) : ∀ {t : Hierarchy} {a : Nat},
    Stands s a t → a ≠ p → ¬ Below s a p → Stands s' a t
  | .leaf i, a, h, ha, _ => by
    cases h with
    | leaf h => exact .leaf (hk _ _ _ ha h)
  | .node i ts, a, h, ha, hb => by
    cases h with
    | node h h2 =>
      refine .node (hk _ _ _ ha h) (standAll_kept hk h2 ?_)
      intro x hx
      refine ⟨?_, fun hxb => hb (.trans (.child h hx) hxb)⟩
      rintro rfl
      exact hb (.child h hx)

theorem standAll_kept {s s' : Store} {p : Nat} (hk : ∀ a i x, a ≠ p → Has s a i x → Has s' a i x) : ∀ {ts : List Hierarchy} {xs : List Nat},
    StandAll s xs ts → (∀ x ∈ xs, x ≠ p ∧ ¬ Below s x p) → StandAll s' xs ts
  | [], xs, h, _ => by cases h; exact .nil
  | t :: ts, xs, h, hx => by
    cases h with
    | cons h1 h2 =>
      exact .cons (stands_kept hk h1 (hx _ List.mem_cons_self).1 (hx _ List.mem_cons_self).2)
        (standAll_kept hk h2 (fun x h => hx x (List.mem_cons_of_mem _ h)))
end

/-! ## The loop over the nodes -/

theorem Has.kids {s : Store} {a : Nat} {i : HInfo} {x : Option (List Nat)} (h : Has s a i x) : s.kids a = x.getD [] := by
  unfold Store.kids
  cases h with
  | none h => rw [h]; rfl
  | some h h2 => rw [h]; dsimp only; rw [h2]

theorem preorder_append (ts us : List Hierarchy) : preorderList (ts ++ us) = preorderList ts ++ preorderList us := by
  induction ts with
  | nil => rfl
  | cons t ts ih => simp only [List.cons_append, preorderList, ih, List.append_assoc]

theorem walk_ends {s : Store} : ∀ (n : Nat) (xs : List Nat) (ts : List Hierarchy), StandAll s xs ts → (preorderList ts).length ≤ n →
    ∃ out, StandAll s out (preorderList ts) ∧ ∀ m, (preorderList ts).length ≤ m → s.walk m xs = some out
  | n, [], ts, h, hn => by
    cases h
    exact ⟨[], .nil, fun m _ => by cases m <;> rfl⟩
  | 0, a :: xs, ts, h, hn => by
    cases h with
    | cons h1 h2 =>
      cases h1 <;> simp [preorderList, preorder] at hn
  | n + 1, a :: xs, ts, h, hn => by
    cases h with
    | cons h1 h2 =>
      rename_i t ts
      have key : ∀ (ks : List Nat) (us : List Hierarchy) (e : preorder t = t :: preorderList us), StandAll s ks us → s.kids a = ks →
          ∃ out, StandAll s out (preorderList (t :: ts)) ∧ ∀ m, (preorderList (t :: ts)).length ≤ m → s.walk m (a :: xs) = some out := by
        intro ks us e hks hkk
        have e2 : preorderList (t :: ts) = t :: preorderList (us ++ ts) := by
          rw [preorderList, e, preorder_append]; rfl
        rw [e2, List.length_cons] at hn
        obtain ⟨out, ho, hw⟩ := walk_ends n (ks ++ xs) (us ++ ts) (standAll_append hks h2) (by omega)
        refine ⟨a :: out, by rw [e2]; exact .cons h1 ho, ?_⟩
        intro m hm
        rw [e2, List.length_cons] at hm
        cases m with
        | zero => omega
        | succ m => rw [Store.walk, hkk, hw m (by omega)]; rfl
      cases h1 with
      | leaf h => exact key [] [] (by simp [preorder, preorderList]) .nil h.kids
      | node h h3 => exact key _ _ (by simp [preorder]) h3 h.kids

end ReqIF.Build
