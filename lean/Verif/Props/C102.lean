import Verif.Props.C100
/-!
# C102: hierarchies that are changed while they are iterated over

The iterators are generators: between one node and the next the user can change the hierarchy.  If no
child is added to a node that was passed before the current one, all nodes of the hierarchy as it is in the
end are yielded, in order; children added to the current node and to nodes that are still to come are among them.
-/
namespace ReqIF.Build
open Spec

theorem reached_run {s : Store} (h : Reached s) {calls : List Call} (hc : CarefulRun s calls) : Reached (s.run calls) := by
  induction calls generalizing s with
  | nil => exact h
  | cons c cs ih => exact ih (.step c h hc.1) hc.2

theorem carefulRun_append {s : Store} {a b : List Call} (h : CarefulRun s (a ++ b)) : CarefulRun s a ∧ CarefulRun (s.run a) b := by
  induction a generalizing s with
  | nil => exact ⟨trivial, h⟩
  | cons c cs ih => exact ⟨⟨h.1, (ih h.2).1⟩, (ih h.2).2⟩

theorem run_append (s : Store) (a b : List Call) : s.run (a ++ b) = (s.run a).run b := List.foldl_append ..

/-- A node to which nothing is added stays as it is. -/
theorem has_step {s : Store} (h : Reached s) {call : Call} (hc : Careful s call) {a : Nat} (ha : ∀ c, call ≠ .addChild a c)
    {i : HInfo} {x : Option (List Nat)} (hx : Has s a i x) : Has (s.step call).2 a i x := by
  cases call with
  | newList items => exact hx.mono (fun _ _ h => h) (fun l xs h => getElem?_left h)
  | create info children => exact hx.mono (fun _ _ h => getElem?_left h) (fun l xs h => h)
  | addChild p c =>
    exact (C100_frame h hc.1 hc.2 a (by rintro rfl; exact ha c rfl) i x).2 hx

theorem has_run {s : Store} (h : Reached s) {calls : List Call} (hc : CarefulRun s calls) {a : Nat} (ha : ∀ c, .addChild a c ∉ calls)
    {i : HInfo} {x : Option (List Nat)} (hx : Has s a i x) : Has (s.run calls) a i x := by
  induction calls generalizing s with
  | nil => exact hx
  | cons c cs ih =>
    refine ih (.step c h hc.1) hc.2 (fun d hd => ha d (List.mem_cons_of_mem _ hd)) (has_step h hc.1 ?_ hx)
    rintro d rfl
    exact ha d List.mem_cons_self

/-- Nodes do not go away. -/
theorem node_step {s : Store} (h : Reached s) {call : Call} (hc : Careful s call) {a : Nat} (ha : ∃ P, s.nodes[a]? = some P) :
    ∃ P, (s.step call).2.nodes[a]? = some P := by
  obtain ⟨P, hP⟩ := ha
  cases call with
  | newList items => exact ⟨P, hP⟩
  | create info children => exact ⟨P, getElem?_left hP⟩
  | addChild p c =>
    obtain ⟨⟨Q, hQ⟩, C, hC⟩ := hc
    obtain ⟨k, hk⟩ := (sound h).held p Q hQ
    obtain ⟨-, h2, h3, -⟩ := step_add (sound h) hQ hC hk
    by_cases e : a = p
    · subst e
      obtain ⟨R, hR, -⟩ := h2.node
      exact ⟨R, hR⟩
    · obtain ⟨k', hk'⟩ := (sound h).held a P hP
      obtain ⟨R, hR, -⟩ := (h3 a _ _ e hk').node
      exact ⟨R, hR⟩

theorem node_run {s : Store} (h : Reached s) {calls : List Call} (hc : CarefulRun s calls) {a : Nat} (ha : ∃ P, s.nodes[a]? = some P) :
    ∃ P, (s.run calls).nodes[a]? = some P := by
  induction calls generalizing s with
  | nil => exact ha
  | cons c cs ih => exact ih (.step c h hc.1) hc.2 (node_step h hc.1 ha)

theorem node_kids {s : Store} (h : Reached s) {a : Nat} (ha : ∃ P, s.nodes[a]? = some P) : ∀ b ∈ s.kids a, ∃ P, s.nodes[b]? = some P := by
  obtain ⟨P, hP⟩ := ha
  obtain ⟨k, hk⟩ := (sound h).held a P hP
  intro b hb
  rw [hk.kids] at hb
  cases k with
  | none => cases hb
  | some xs =>
    obtain ⟨C, hC, -⟩ := (sound h).levels a _ xs hk b hb
    exact ⟨C, hC⟩

/-- The loop yields what it would yield on the store at the end. -/
theorem walkWith_walk : ∀ {turns : List (List Call)} {s : Store} {tasks out : List Nat}, Reached s → (∀ a ∈ tasks, ∃ P, s.nodes[a]? = some P) →
    CarefulRun s turns.flatten → s.walkWith tasks turns = some out → InTime turns out →
    (s.run turns.flatten).walk out.length tasks = some out
  | [], s, [], out, _, _, _, h, _ => by
    simp only [Store.walkWith, Option.some.injEq] at h
    subst h; rfl
  | [], s, a :: tasks, out, _, _, _, h, _ => by simp [Store.walkWith] at h
  | _ :: _, s, [], out, _, _, _, h, _ => by simp [Store.walkWith] at h
  | calls :: turns, s, a :: tasks, out, hr, ht, hc, h, hi => by
    rw [Store.walkWith] at h
    obtain ⟨out', h', rfl⟩ := Option.map_eq_some_iff.1 h
    rw [List.flatten_cons] at hc
    obtain ⟨hc1, hc2⟩ := carefulRun_append hc
    have hr1 := reached_run hr hc1
    have ha := node_run hr hc1 (ht a List.mem_cons_self)
    have ih := walkWith_walk hr1 (tasks := (s.run calls).kids a ++ tasks) (by
      intro b hb
      rcases List.mem_append.1 hb with hb | hb
      · exact node_kids hr1 ha b hb
      · exact node_run hr hc1 (ht b (List.mem_cons_of_mem _ hb))) hc2 h' (by
      intro k cs p c hk hp hm
      exact hi (k + 1) cs p c hk hp (by rw [List.take_succ_cons]; exact List.mem_cons_of_mem _ hm))
    rw [List.flatten_cons, run_append, List.length_cons, Store.walk]
    have e : ((s.run calls).run turns.flatten).kids a = (s.run calls).kids a := by
      obtain ⟨P, hP⟩ := ha
      obtain ⟨k, hk⟩ := (sound hr1).held a P hP
      rw [hk.kids, (has_run hr1 hc2 ?_ hk).kids]
      intro c hm
      obtain ⟨cs, h1, h2⟩ := List.mem_flatten.1 hm
      obtain ⟨k, hk⟩ := List.getElem?_of_mem h1
      exact hi (k + 1) cs a c hk h2 (by rw [List.take_succ_cons]; exact List.mem_cons_self)
    rw [e, ih]; rfl

theorem walk_more {s : Store} : ∀ {n m : Nat} {tasks out : List Nat}, n ≤ m → s.walk n tasks = some out → s.walk m tasks = some out
  | n, m, [], out, _, h => by
    have e : ∀ k, s.walk k [] = some [] := fun k => by cases k <;> rfl
    rw [e] at h ⊢; exact h
  | 0, m, a :: tasks, out, _, h => by cases h
  | n + 1, 0, a :: tasks, out, hm, h => by omega
  | n + 1, m + 1, a :: tasks, out, hm, h => by
    rw [Store.walk] at h ⊢
    obtain ⟨o, h', rfl⟩ := Option.map_eq_some_iff.1 h
    rw [walk_more (Nat.le_of_succ_le_succ hm) h']; rfl

/-- **C102**: a hierarchy is changed with careful calls, successful or not, while it is iterated over, and no child is added to
a node that was yielded before the current one.  Then, if the iteration ends, it has yielded the nodes of the trees that
stand there at the end, in depth-first order. -/
theorem C102_changed {s : Store} (h : Reached s) (xs : List Nat) (hx : ∀ a ∈ xs, ∃ P, s.nodes[a]? = some P) (turns : List (List Call))
    (hc : CarefulRun s turns.flatten) (out : List Nat) (hw : s.walkWith xs turns = some out) (hi : InTime turns out) :
    ∃ ts, StandAll (s.run turns.flatten) xs ts ∧ StandAll (s.run turns.flatten) out (preorderList ts) := by
  have hr := reached_run h hc
  obtain ⟨ts, out', h1, h2, h3⟩ := C100_walk hr xs (fun a ha => node_run h hc (hx a ha))
  have e1 := walk_more (Nat.le_max_left out.length (preorderList ts).length) (walkWith_walk h hx hc hw hi)
  rw [h3 _ (Nat.le_max_right _ _)] at e1
  cases e1
  exact ⟨ts, h1, h2⟩

theorem walkWith_idle {s : Store} : ∀ {n : Nat} {tasks out : List Nat}, s.walk n tasks = some out →
    s.walkWith tasks (List.replicate out.length []) = some out
  | n, [], out, h => by
    have e : s.walk n [] = some [] := by cases n <;> rfl
    rw [e] at h; cases h; rfl
  | 0, a :: tasks, out, h => by cases h
  | n + 1, a :: tasks, out, h => by
    rw [Store.walk] at h
    obtain ⟨o, h', rfl⟩ := Option.map_eq_some_iff.1 h
    rw [List.length_cons, List.replicate_succ, Store.walkWith, show s.run [] = s from rfl, walkWith_idle h']; rfl

/-- **C102**: whatever is called meanwhile, the iteration ends once the hierarchy is left alone, if not before. -/
theorem C102_ends {s : Store} (h : Reached s) (xs : List Nat) (hx : ∀ a ∈ xs, ∃ P, s.nodes[a]? = some P) (turns : List (List Call))
    (hc : CarefulRun s turns.flatten) :
    ∃ k n out, s.walkWith xs (turns.take k ++ List.replicate n []) = some out ∧ (n = 0 ∨ k = turns.length) := by
  induction turns generalizing s xs with
  | nil =>
    obtain ⟨ts, out, -, -, h3⟩ := C100_walk h xs hx
    exact ⟨0, out.length, out, walkWith_idle (h3 _ (Nat.le_refl _)), .inr rfl⟩
  | cons calls turns ih =>
    cases xs with
    | nil => exact ⟨0, 0, [], rfl, .inl rfl⟩
    | cons a xs =>
      rw [List.flatten_cons] at hc
      obtain ⟨hc1, hc2⟩ := carefulRun_append hc
      have hr1 := reached_run h hc1
      obtain ⟨k, n, out, h1, h2⟩ := ih hr1 ((s.run calls).kids a ++ xs) (by
        intro b hb
        rcases List.mem_append.1 hb with hb | hb
        · exact node_kids hr1 (node_run h hc1 (hx a List.mem_cons_self)) b hb
        · exact node_run h hc1 (hx b (List.mem_cons_of_mem _ hb))) hc2
      refine ⟨k + 1, n, a :: out, ?_, ?_⟩
      · rw [List.take_succ_cons, List.cons_append, Store.walkWith, h1]; rfl
      · rcases h2 with h2 | h2
        · exact .inl h2
        · exact .inr (by rw [h2]; rfl)

/-- **C102**: a run without calls is the plain iteration. -/
theorem C102_idle {s : Store} (xs out : List Nat) (n : Nat) (h : s.walk n xs = some out) :
    s.walkWith xs (List.replicate out.length []) = some out := walkWith_idle h

/-! ## Cases and a finding -/

/-- The store of C100 with the calls: while node 1 is the current one it is given a new child. -/
def sampleTurns : List (List Call) := [[.addChild 0 2], [.create (plainInfo c!"e" 3) none, .addChild 1 4], [], [], []]

theorem sampleTurns_careful : CarefulRun sample sampleTurns.flatten :=
  ⟨⟨⟨_, rfl⟩, ⟨_, rfl⟩⟩, trivial, ⟨⟨_, rfl⟩, ⟨_, rfl⟩⟩, trivial⟩

/-- The hypotheses of C102_changed are met; the added nodes are yielded. -/
example : sample.walkWith [0] sampleTurns = some [0, 1, 4, 2, 3] := rfl

example : InTime sampleTurns [0, 1, 4, 2, 3] := by
  intro k calls p c hk hp
  match k with
  | 0 => simp
  | 1 =>
    simp only [sampleTurns, List.getElem?_cons_succ, List.getElem?_cons_zero, Option.some.injEq] at hk
    subst hk
    simp at hp
    simp [hp.1]
  | 2 => cases hk; cases hp
  | 3 => cases hk; cases hp
  | 4 => cases hk; cases hp
  | k + 5 => cases hk

/-- Finding: a child added to a node that is above the current one is not yielded, although it comes later in the
hierarchy than the current one. -/
theorem C102_late : ∃ (s : Store) (turns : List (List Call)) (out : List Nat), Reached s ∧ CarefulRun s turns.flatten ∧
    s.walkWith [0] turns = some out ∧ out = [0, 1] ∧
    (s.run turns.flatten).walk 4 [0] = some [0, 1, 2, 3] :=
  ⟨sample, [[], [.addChild 0 2]], _, sample_reached, ⟨⟨⟨_, rfl⟩, ⟨_, rfl⟩⟩, trivial⟩, rfl, rfl, rfl⟩

end ReqIF.Build
