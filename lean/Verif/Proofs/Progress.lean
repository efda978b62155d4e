import Verif.Spec.Progress
/-! Lemmas about tracked loops. -/
namespace ReqIF
open Spec

/-- The loop body folded over the items, stopping at the first exception. -/
def foldPy {α β : Type} (body : β → α → Py β) : β → List α → Py β
  | b, [] => .ok b
  | b, x :: xs =>
    match body b x with
    | .error e => .error e
    | .ok b' => foldPy body b' xs

variable {σ α β : Type}

theorem runCalls_append (p : Callback σ) (a b : List Call) (s : σ) :
    runCalls p (a ++ b) s = runCalls p b (runCalls p a s) := by
  induction a generalizing s with
  | nil => rfl
  | cons c cs ih => simp [runCalls, ih]

/-- Calls for items `k+1 .. k+n`. -/
def callsFrom (sec : Str) (total k n : Nat) : List Call :=
  (List.range n).map (fun j => ⟨sec, k + j + 1, total⟩)

theorem callsFrom_zero (sec : Str) (n total : Nat) : callsFrom sec total 0 n = callsUpTo sec n total := by
  simp [callsFrom, callsUpTo]

theorem callsFrom_succ (sec : Str) (total k n : Nat) :
    callsFrom sec total k (n + 1) = ⟨sec, k + 1, total⟩ :: callsFrom sec total (k + 1) n := by
  simp only [callsFrom, List.range_succ_eq_map, List.map_cons, List.map_map]
  congr 1
  apply List.map_congr_left
  intro j _
  simp [Function.comp, Nat.succ_eq_add_one]; omega

/-- The number of items processed without exception. -/
def doneCount (body : β → α → Py β) : β → List α → Nat
  | _, [] => 0
  | b, x :: xs =>
    match body b x with
    | .error _ => 0
    | .ok b' => doneCount body b' xs + 1

theorem trackedGo_none (sec : Str) (total : Nat) (body : β → α → Py β) (k : Nat) (b : β) (xs : List α) (s : σ) :
    trackedGo none sec total body k b xs s = (foldPy body b xs, s) := by
  induction xs generalizing k b with
  | nil => rfl
  | cons x xs ih =>
    simp only [trackedGo, foldPy, M.bind, M.lift, notify, M.pure]
    cases body b x with
    | error e => rfl
    | ok b' => exact ih (k + 1) b'

theorem trackedGo_some {p : Callback σ} (hp : NonRaising p) (sec : Str) (total : Nat)
    (body : β → α → Py β) (k : Nat) (b : β) (xs : List α) (s : σ) :
    trackedGo (some p) sec total body k b xs s =
      (foldPy body b xs, runCalls p (callsFrom sec total k (doneCount body b xs)) s) := by
  induction xs generalizing k b s with
  | nil => rfl
  | cons x xs ih =>
    simp only [trackedGo, foldPy, doneCount, M.bind, M.lift, notify]
    cases body b x with
    | error e => rfl
    | ok b' =>
      have h := hp sec (k + 1) total s
      dsimp only
      rw [callsFrom_succ, runCalls]
      cases hq : p sec (k + 1) total s with
      | mk r s' =>
        rw [hq] at h
        simp only at h
        subst h
        exact ih (k + 1) b' s'

/-- Any callback: if the loop succeeds, every call was made. -/
theorem trackedGo_ok {p : Callback σ} {sec : Str} {total : Nat} {body : β → α → Py β} {k : Nat} {b : β}
    {xs : List α} {s : σ} {b' : β} {s' : σ}
    (h : trackedGo (some p) sec total body k b xs s = (.ok b', s')) :
    foldPy body b xs = .ok b' ∧ s' = runCalls p (callsFrom sec total k xs.length) s := by
  induction xs generalizing k b s with
  | nil =>
    simp only [trackedGo, M.pure, Prod.mk.injEq, Except.ok.injEq] at h
    exact ⟨by rw [foldPy, h.1], h.2.symm⟩
  | cons x xs ih =>
    simp only [trackedGo, M.bind, M.lift, notify] at h
    cases hb : body b x with
    | error e => rw [hb] at h; simp at h
    | ok b1 =>
      rw [hb] at h
      dsimp only at h
      cases hq : p sec (k + 1) total s with
      | mk r s1 =>
        rw [hq] at h
        cases r with
        | error e => simp at h
        | ok u =>
          dsimp only at h
          obtain ⟨h1, h2⟩ := ih h
          refine ⟨by simp [foldPy, hb, h1], ?_⟩
          rw [h2, List.length_cons, callsFrom_succ, runCalls]
          simp only [hq]

theorem doneCount_eq {body : β → α → Py β} {ok : α → Bool} (h : ∀ b x, (body b x).isOk = ok x) (b : β) (xs : List α) :
    doneCount body b xs = (xs.takeWhile ok).length := by
  induction xs generalizing b with
  | nil => rfl
  | cons x xs ih =>
    have hx := h b x
    simp only [doneCount, List.takeWhile_cons]
    cases hb : body b x with
    | error e => rw [hb] at hx; have hx : ok x = false := hx.symm; simp [hx]
    | ok b' => rw [hb] at hx; have hx : ok x = true := hx.symm; simp [hx, ih]

theorem foldPy_isOk {body : β → α → Py β} {ok : α → Bool} (h : ∀ b x, (body b x).isOk = ok x) (b : β) (xs : List α) :
    (foldPy body b xs).isOk = xs.all ok := by
  induction xs generalizing b with
  | nil => rfl
  | cons x xs ih =>
    have hx := h b x
    simp only [foldPy, List.all_cons]
    cases hb : body b x with
    | error e => rw [hb] at hx; have hx : ok x = false := hx.symm; simp [hx, Except.isOk, Except.toBool]
    | ok b' => rw [hb] at hx; have hx : ok x = true := hx.symm; simp [hx, ih]


/-! ## Computations with a callback parameter -/

/-- With no callback `m` gives `r` and leaves the state alone; with a callback that
does not raise it gives `r` too and the callback gets exactly `calls`. -/
def Traced (m : Option (Callback σ) → M σ α) (r : Py α) (calls : List Call) : Prop :=
  (∀ s, m none s = (r, s)) ∧ (∀ p, NonRaising p → ∀ s, m (some p) s = (r, runCalls p calls s))

theorem Traced.lift (r : Py α) : Traced (fun _ => (M.lift r : M σ α)) r [] :=
  ⟨fun _ => rfl, fun _ _ _ => rfl⟩

theorem Traced.pure (a : α) : Traced (fun _ => (M.pure a : M σ α)) (.ok a) [] :=
  ⟨fun _ => rfl, fun _ _ _ => rfl⟩

theorem Traced.bind_ok {m : Option (Callback σ) → M σ α} {f : Option (Callback σ) → α → M σ β}
    {a : α} {r : Py β} {c1 c2 : List Call} (h1 : Traced m (.ok a) c1)
    (h2 : Traced (fun p => f p a) r c2) : Traced (fun p => M.bind (m p) (f p)) r (c1 ++ c2) := by
  constructor
  · intro s
    simp only [M.bind, h1.1 s]
    exact h2.1 s
  · intro p hp s
    simp only [M.bind, h1.2 p hp s]
    rw [runCalls_append]
    exact h2.2 p hp _

theorem Traced.bind_error {m : Option (Callback σ) → M σ α} {f : Option (Callback σ) → α → M σ β}
    {e : PyErr} {c1 : List Call} (h1 : Traced m (.error e) c1) :
    Traced (fun p => M.bind (m p) (f p)) (.error e) c1 := by
  constructor
  · intro s
    simp only [M.bind, h1.1 s]
  · intro p hp s
    simp only [M.bind, h1.2 p hp s]

/-- The loop with a callback. -/
theorem Traced.loop {body : β → α → Py β} {ok : α → Bool} (h : ∀ b x, (body b x).isOk = ok x)
    (sec : Str) (b : β) (xs : List α) :
    Traced (fun p : Option (Callback σ) => trackedLoop p sec body b xs) (foldPy body b xs)
      (callsUpTo sec ((xs.map ok).takeWhile (fun o => o)).length (xs.map ok).length) := by
  constructor
  · intro s
    exact trackedGo_none ..
  · intro p hp s
    have : ((xs.map ok).takeWhile (fun o => o)).length = (xs.takeWhile ok).length := by
      rw [List.takeWhile_map, List.length_map]; rfl
    show trackedGo _ _ _ _ _ _ _ _ = _
    rw [trackedGo_some hp, callsFrom_zero, doneCount_eq h, this, List.length_map]

theorem takeWhile_of_all {l : List Bool} (h : l.all (fun o => o) = true) : l.takeWhile (fun o => o) = l := by
  induction l with
  | nil => rfl
  | cons x xs ih => simp only [List.all_cons, Bool.and_eq_true] at h; simp [h.1, ih h.2]

theorem callsUntilFailure_ok {sec : Str} {l : List Bool} {rest : List (Str × List Bool)}
    (h : l.all (fun o => o) = true) :
    callsUntilFailure ((sec, l) :: rest) =
      callsUpTo sec (l.takeWhile (fun o => o)).length l.length ++ callsUntilFailure rest := by
  rw [callsUntilFailure, if_pos h, takeWhile_of_all h, sectionCalls]

theorem callsUntilFailure_error {sec : Str} {l : List Bool} {rest : List (Str × List Bool)}
    (h : l.all (fun o => o) = false) :
    callsUntilFailure ((sec, l) :: rest) =
      callsUpTo sec (l.takeWhile (fun o => o)).length l.length := by
  rw [callsUntilFailure, if_neg (by simp [h])]

theorem callsUntilFailure_all {l : List (Str × List Bool)}
    (h : ∀ x ∈ l, x.2.all (fun o => o) = true) :
    callsUntilFailure l = l.flatMap (fun x => sectionCalls x.1 x.2.length) := by
  induction l with
  | nil => rfl
  | cons x xs ih =>
    obtain ⟨sec, items⟩ := x
    rw [callsUntilFailure, if_pos (h (sec, items) (by simp)), ih (fun y hy => h y (by simp [hy]))]
    rfl

/-! ## Any callback, successful end -/

theorem M.bind_inv {m : M σ α} {f : α → M σ β} {s s'' : σ} {b : β}
    (h : M.bind m f s = (.ok b, s'')) : ∃ a s', m s = (.ok a, s') ∧ f a s' = (.ok b, s'') := by
  simp only [M.bind] at h
  cases hm : m s with
  | mk r s' =>
    rw [hm] at h
    cases r with
    | error e => simp at h
    | ok a => exact ⟨a, s', rfl, h⟩

/-- With any callback: if `m` succeeds, it succeeds with the same result without a
callback, and the callback got exactly `calls`. -/
def TracedOk (m : Option (Callback σ) → M σ α) (calls : List Call) : Prop :=
  ∀ p s a s', m (some p) s = (.ok a, s') → (∀ t, m none t = (.ok a, t)) ∧ s' = runCalls p calls s

theorem TracedOk.lift (r : Py α) : TracedOk (fun _ => (M.lift r : M σ α)) [] := by
  intro p s a s' h
  simp only [M.lift, Prod.mk.injEq] at h
  exact ⟨fun t => by simp [M.lift, h.1], h.2.symm⟩

theorem TracedOk.pure (a : α) : TracedOk (fun _ => (M.pure a : M σ α)) [] := TracedOk.lift (.ok a)

theorem TracedOk.bind {m : Option (Callback σ) → M σ α} {f : Option (Callback σ) → α → M σ β}
    {c1 c2 : List Call} (h1 : TracedOk m c1) (h2 : ∀ a, TracedOk (fun p => f p a) c2) :
    TracedOk (fun p => M.bind (m p) (f p)) (c1 ++ c2) := by
  intro p s b s'' h
  obtain ⟨a, s', ha, hb⟩ := M.bind_inv h
  obtain ⟨h3, h4⟩ := h1 p s a s' ha
  obtain ⟨h5, h6⟩ := h2 a p s' b s'' hb
  refine ⟨fun t => ?_, ?_⟩
  · simp only [M.bind, h3 t]
    exact h5 t
  · rw [runCalls_append, ← h4, h6]

theorem TracedOk.loop (body : β → α → Py β) (sec : Str) (b : β) (xs : List α) :
    TracedOk (fun p : Option (Callback σ) => trackedLoop p sec body b xs) (sectionCalls sec xs.length) := by
  intro p s a s' h
  obtain ⟨h1, h2⟩ := trackedGo_ok h
  refine ⟨fun t => ?_, ?_⟩
  · show trackedGo _ _ _ _ _ _ _ _ = _
    rw [trackedGo_none, h1]
  · rw [h2, callsFrom_zero, sectionCalls]

end ReqIF
