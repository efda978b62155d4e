import Verif.Spec.Together
import Verif.Proofs.Together
import Verif.Props.C74
import Verif.Props.C90
/-!
# C91: several runs at the same time
-/
namespace ReqIF.Cli
open Spec

variable {ι : Type}

/-- The steps of a call: what it does once it has read its input is what `Model/Commands` says. -/
noncomputable def process (env : Env) (c : FileCall) : Process :=
  ⟨c.input, c.output, fun seen => filePlan env c.command c.input c.output (fun _ => seen)⟩

/-- The calls have taken the turns the schedule says, beginning on the disk `d`. -/
noncomputable def together [DecidableEq ι] (env : Env) (place : Str → Nat) (calls : ι → FileCall) (d : Disk) (schedule : List ι) : World ι :=
  World.run place (fun p => process env (calls p)) schedule (World.start d)

/-- What the call gives when it is the only one. -/
noncomputable def alone (env : Env) (place : Str → Nat) (c : FileCall) (d : Disk) : Py CommandEnd × Files :=
  FileCommand.run env c.command c.input c.output (d.files place)

/-- How many turns a call needs at most: one for each byte of its input and its output, and four. -/
noncomputable def turnsFor (env : Env) (place : Str → Nat) (c : FileCall) (d : Disk) : Nat :=
  (process env c).left place d (d (place c.input)) .ready

theorem process_plan (env : Env) (place : Str → Nat) (c : FileCall) (d : Disk) :
    (process env c).plan (d (place c.input)) = filePlan env c.command c.input c.output (d.files place) :=
  plan_input rfl

theorem process_reached (env : Env) (place : Str → Nat) (c : FileCall) (d : Disk) :
    (process env c).Reached place d (d (place c.input)) .ready d := ⟨rfl, rfl⟩

theorem process_ending (env : Env) (place : Str → Nat) (c : FileCall) (d : Disk) :
    ((process env c).plan (d (place c.input))).ending = (alone env place c d).1 := by
  rw [process_plan]
  unfold alone
  rw [plan_done]
  rfl

theorem process_final (env : Env) (place : Str → Nat) (c : FileCall) (d : Disk) :
    (process env c).final place d (d (place c.input)) (place c.output) = (alone env place c d).2 c.output := by
  unfold Process.final alone
  rw [process_plan, plan_done]
  unfold Plan.done
  cases hw : (filePlan env c.command c.input c.output (d.files place)).write with
  | none => rfl
  | some w =>
    obtain ⟨path, bytes⟩ := w
    obtain ⟨rfl, -⟩ := plan_writes hw
    dsimp only
    refine (store_same d _ _).trans ?_
    rw [toArray_bytes]
    exact (if_pos rfl).symm

theorem process_completed (env : Env) (place : Str → Nat) (c : FileCall) (d : Disk) :
    (process env c).final place d (d (place c.input)) = completed env place c.command c.input c.output d := by
  unfold Process.final completed
  rw [process_plan]
  cases hw : (filePlan env c.command c.input c.output (d.files place)).write with
  | none => unfold Plan.steps; rw [hw]; rfl
  | some w =>
    obtain ⟨path, bytes⟩ := w
    obtain ⟨rfl, -⟩ := plan_writes hw
    dsimp only
    have hs : (filePlan env c.command c.input c.output (d.files place)).steps place =
        .truncate (place c.output) :: bytes.data.toList.map (.append (place c.output)) := by
      unfold Plan.steps; rw [hw]
    rw [hs]
    obtain ⟨g1, g2⟩ := after_write (place c.output) bytes.data.toList d
    funext j
    by_cases hj : j = place c.output
    · subst hj; rw [g2]; exact store_same d _ _
    · rw [g1 j hj]; exact store_other d hj _

/-- A call that shares no file with the others goes on as if it were alone. -/
theorem together_same [DecidableEq ι] (env : Env) (place : Str → Nat) (calls : ι → FileCall) (hind : Independent place calls) (d : Disk) (schedule : List ι) (p : ι) :
    (together env place calls d schedule).stages p =
      ((process env (calls p)).go place (schedule.count p) (.ready, d)).1 ∧
    (together env place calls d schedule).disk (place (calls p).output) =
      ((process env (calls p)).go place (schedule.count p) (.ready, d)).2 (place (calls p).output) := by
  have h := run_turns (place := place) (procs := fun p => process env (calls p)) (p := p)
    (fun q hq => (hind q p hq).2.symm) (fun q hq => (hind q p hq).1.symm) schedule (World.start d) (World.start d) ⟨rfl, rfl, rfl⟩
  rw [turns_replicate] at h
  obtain ⟨h1, -, h3⟩ := h
  dsimp only at h1
  rw [if_pos rfl] at h1
  exact ⟨h1, h3⟩

/-! ## The property -/

/-- **C91.** Whatever the calls are, and whoever's turn it is when, a file that is no call's
output never changes. -/
theorem C91_others [DecidableEq ι] (env : Env) (place : Str → Nat) (calls : ι → FileCall) (d : Disk) (schedule : List ι) (j : Nat)
    (h : ∀ p, place (calls p).output ≠ j) : (together env place calls d schedule).disk j = d j :=
  turns_frame place _ (fun p => (h p).symm) schedule _

/-- **C91.** A call of which the output is nobody else's file, and the input nobody else's output, ends as it
does alone and leaves its output as it does alone. -/
theorem C91_result [DecidableEq ι] (env : Env) (place : Str → Nat) (calls : ι → FileCall) (hind : Independent place calls) (d : Disk) (schedule : List ι) (p : ι)
    {e : Py CommandEnd} (h : (together env place calls d schedule).stages p = .ended e) :
    e = (alone env place (calls p) d).1 ∧
    (together env place calls d schedule).disk (place (calls p).output) = (alone env place (calls p) d).2 (calls p).output := by
  obtain ⟨h1, h2⟩ := together_same env place calls hind d schedule p
  obtain ⟨g, -⟩ := go_reached (schedule.count p) (process_reached env place (calls p) d)
  rw [← h1, h] at g
  obtain ⟨rfl, g2⟩ := g
  refine ⟨process_ending env place _ d, ?_⟩
  rw [h2, g2]
  exact process_final env place _ d

/-- **C91.** It ends: after so many turns of its own, however many the others have in between. -/
theorem C91_ends [DecidableEq ι] (env : Env) (place : Str → Nat) (calls : ι → FileCall) (hind : Independent place calls) (d : Disk) (schedule : List ι) (p : ι)
    (h : turnsFor env place (calls p) d ≤ schedule.count p) :
    (together env place calls d schedule).stages p = .ended (alone env place (calls p) d).1 := by
  rw [(together_same env place calls hind d schedule p).1, go_ends (process_reached env place (calls p) d) h, process_ending]

/-- **C91.** Until it ends its output is as it was, or holds the beginning of what it will hold. -/
theorem C91_meanwhile [DecidableEq ι] (env : Env) (place : Str → Nat) (calls : ι → FileCall) (hind : Independent place calls) (d : Disk) (schedule : List ι) (p : ι) :
    (together env place calls d schedule).disk (place (calls p).output) = d (place (calls p).output) ∨
    ∃ a c, (together env place calls d schedule).disk (place (calls p).output) = some a ∧ (alone env place (calls p) d).1 = .ok .success ∧
      (alone env place (calls p) d).2 (calls p).output = some (a ++ c) := by
  rw [(together_same env place calls hind d schedule p).2]
  obtain ⟨g, -⟩ := go_reached (schedule.count p) (process_reached env place (calls p) d)
  revert g
  generalize (process env (calls p)).go place (schedule.count p) (.ready, d) = x
  obtain ⟨s, d'⟩ := x
  intro g
  dsimp only at g ⊢
  have written : ∀ (path : Str) (bytes : ByteArray) (done rest : List UInt8),
      ((process env (calls p)).plan (d (place (calls p).input))).write = some (path, bytes) → bytes.data.toList = done ++ rest →
      ∃ a c, d.store (place (calls p).output) done (place (calls p).output) = some a ∧ (alone env place (calls p) d).1 = .ok .success ∧
        (alone env place (calls p) d).2 (calls p).output = some (a ++ c) := by
    intro path bytes done rest hw hb
    refine ⟨⟨done.toArray⟩, ⟨rest.toArray⟩, store_same d _ _, ?_, ?_⟩
    · rw [← process_ending, process_plan]
      rw [process_plan] at hw
      exact (plan_writes hw).2
    · rw [← process_final]
      unfold Process.final
      have ho : place (calls p).output = place (process env (calls p)).output := rfl
      rw [hw, ho]
      refine (store_same d _ _).trans ?_
      rw [hb]
      congr 1
  cases s with
  | ready => exact .inl (by rw [g.1])
  | reading got => exact .inl (by rw [g.1])
  | decided plan => exact .inl (by rw [g.1])
  | writing e n rest =>
    obtain ⟨-, path, bytes, done, hw, hb, -, rfl⟩ := g
    exact .inr (written path bytes done rest hw hb)
  | ended e =>
    obtain ⟨-, rfl⟩ := g
    cases hw : ((process env (calls p)).plan (d (place (calls p).input))).write with
    | none => left; unfold Process.final; rw [hw]
    | some w =>
      obtain ⟨path, bytes⟩ := w
      right
      have : (process env (calls p)).final place d (d (place (calls p).input)) = d.store (place (calls p).output) bytes.data.toList := by
        unfold Process.final; rw [hw]; rfl
      rw [this]
      exact written path bytes _ [] hw (by simp)

/-- One call after the other. -/
noncomputable def inOrder (env : Env) (place : Str → Nat) (calls : ι → FileCall) (order : List ι) (d : Disk) : Disk :=
  order.foldl (fun d p => completed env place (calls p).command (calls p).input (calls p).output d) d

theorem completed_frame (env : Env) (place : Str → Nat) (c : FileCall) (d : Disk) {j : Nat} (h : j ≠ place c.output) :
    completed env place c.command c.input c.output d j = d j := by
  rw [← process_completed]
  unfold Process.final
  cases ((process env c).plan (d (place c.input))).write with
  | none => rfl
  | some w => exact store_other d h _

theorem completed_local (env : Env) (place : Str → Nat) (c : FileCall) {d d' : Disk} (hi : d' (place c.input) = d (place c.input))
    (ho : d' (place c.output) = d (place c.output)) :
    completed env place c.command c.input c.output d' (place c.output) = completed env place c.command c.input c.output d (place c.output) := by
  rw [← process_completed, ← process_completed, hi]
  unfold Process.final
  cases ((process env c).plan (d (place c.input))).write with
  | none => exact ho
  | some w => exact (store_same d' _ _).trans (store_same d _ _).symm

theorem inOrder_frame (env : Env) (place : Str → Nat) (calls : ι → FileCall) {j : Nat} : ∀ (order : List ι) (d : Disk),
    (∀ p ∈ order, j ≠ place (calls p).output) → inOrder env place calls order d j = d j
  | [], _, _ => rfl
  | p :: l, d, h => (inOrder_frame env place calls l _ (fun q hq => h q (List.mem_cons_of_mem _ hq))).trans
      (completed_frame env place (calls p) d (h p (List.mem_cons_self)))

theorem inOrder_output [DecidableEq ι] (env : Env) (place : Str → Nat) (calls : ι → FileCall) (hind : Independent place calls) {p : ι} :
    ∀ (order : List ι) (d : Disk), p ∈ order → order.Nodup →
      inOrder env place calls order d (place (calls p).output) =
        completed env place (calls p).command (calls p).input (calls p).output d (place (calls p).output)
  | [], _, h, _ => by cases h
  | q :: l, d, h, hn => by
    obtain ⟨hq, hl⟩ := List.nodup_cons.1 hn
    by_cases hp : p = q
    · subst hp
      exact inOrder_frame env place calls l _ (fun r hr => (hind p r (fun e => hq (e ▸ hr))).1)
    · have hm : p ∈ l := (List.mem_cons.1 h).resolve_left hp
      refine (inOrder_output env place calls hind l _ hm hl).trans ?_
      refine completed_local env place (calls p) ?_ ?_
      · exact completed_frame env place (calls q) d (hind q p (fun e => hp e.symm)).2.symm
      · exact completed_frame env place (calls q) d (hind p q hp).1

/-- **C91.** When all have ended the disk is as if they had run one after the other, in any order. -/
theorem C91_order [DecidableEq ι] (env : Env) (place : Str → Nat) (calls : ι → FileCall) (hind : Independent place calls) (d : Disk) (schedule : List ι)
    (hend : ∀ p, ∃ e, (together env place calls d schedule).stages p = .ended e) (order : List ι) (hall : ∀ p, p ∈ order) (hn : order.Nodup) :
    (together env place calls d schedule).disk = inOrder env place calls order d := by
  funext j
  by_cases h : ∃ p, place (calls p).output = j
  · obtain ⟨p, rfl⟩ := h
    obtain ⟨e, he⟩ := hend p
    rw [(C91_result env place calls hind d schedule p he).2, inOrder_output env place calls hind order d (hall p) hn, ← process_completed, process_final]
  · rw [C91_others env place calls d schedule j (fun p e => h ⟨p, e⟩),
      inOrder_frame env place calls order d (fun p _ e => h ⟨p, e.symm⟩)]

/-! ## Files that are shared -/

/-- The bytes of a file of which the front was read before, and the remainder after it was written. -/
def torn (old new : ByteArray) (n : Nat) : ByteArray := ⟨(old.data.toList.take n ++ new.data.toList.drop n).toArray⟩

/-- **C91**, a call that reads what another call writes: it may work on the front of the old and the
remainder of the new file, cut anywhere, and ends as it would have ended for that. -/
theorem C91_torn [DecidableEq ι] (env : Env) (place : Str → Nat) (calls : ι → FileCall) (d : Disk) (r w : ι) (hrw : r ≠ w)
    (hsame : place (calls w).output = place (calls r).input) (old new : ByteArray) (hold : d (place (calls r).input) = some old)
    (hnew : alone env place (calls w) d = (.ok .success, update (d.files place) (calls w).output new)) (n : Nat) (hn : n ≤ old.size) :
    ∃ schedule, (together env place calls d schedule).stages r =
      .ended (FileCommand.run env (calls r).command (calls r).input (calls r).output (fun _ => some (torn old new n))).1 := by
  have hlen : n ≤ old.data.toList.length := by rw [Array.length_toList]; exact hn
  -- the reader begins, the writer does all it does, the reader goes on
  obtain ⟨N, hN⟩ : ∃ N, (process env (calls w)).go place N (.ready, d) =
      (.ended (alone env place (calls w) d).1, completed env place (calls w).command (calls w).input (calls w).output d) :=
    ⟨_, by rw [go_ends (process_reached env place (calls w) d) (Nat.le_refl _), process_ending, process_completed]⟩
  generalize hd2 : completed env place (calls w).command (calls w).input (calls w).output d = d2 at hN
  have h2 : d2 (place (calls r).input) = some new := by
    rw [← hsame, ← hd2, ← process_completed, process_final, hnew]
    exact if_pos rfl
  have hb2 : d2.bytes (place (calls r).input) = new.data.toList := by unfold Disk.bytes; rw [h2]; rfl
  have hreach : (process env (calls r)).Reached place d2 (some (torn old new n)) (.reading (old.data.toList.take n)) d2 := by
    refine ⟨rfl, ⟨new, h2⟩, ?_⟩
    show some (torn old new n) = some _
    have : d2.bytes (place (process env (calls r)).input) = new.data.toList := hb2
    rw [this, List.length_take, Nat.min_eq_left hlen]
    rfl
  refine ⟨List.replicate (n + 1) r ++ (List.replicate N w ++ List.replicate ((process env (calls r)).left place d2 (some (torn old new n)) (.reading (old.data.toList.take n))) r), ?_⟩
  unfold together
  rw [turns_append, turns_append, turns_replicate, turns_replicate, turns_replicate]
  have h1 : (process env (calls r)).go place (n + 1) (.ready, d) = (.reading (old.data.toList.take n), d) := go_reads hold n hlen
  dsimp only [World.start]
  rw [h1]
  simp only [if_true, if_neg hrw, if_neg hrw.symm]
  rw [hN]
  dsimp only
  rw [go_ends hreach (Nat.le_refl _)]
  dsimp only
  rw [plan_done]
  rfl

/-- A call that succeeds writes. -/
theorem plan_succeeds {env : Env} {k : FileCommand} {i o : Str} {fs : Files} {a : ByteArray}
    (h : FileCommand.run env k i o fs = (.ok .success, update fs o a)) : (filePlan env k i o fs).write = some (o, a) := by
  have key : ∀ {os : OsEnv} {bytes : ByteArray}, (openAndWrite os o bytes).ending = .ok .success → (openAndWrite os o bytes).write ≠ none := by
    intro os bytes h
    unfold openAndWrite at h ⊢
    split at h
    · cases h
    · simp
  have he : (filePlan env k i o fs).ending = .ok .success := by
    rw [plan_done] at h
    exact congrArg Prod.fst h
  have hw : (filePlan env k i o fs).write ≠ none := by
    cases k with
    | passthrough =>
      have h' : (passthroughPlan env.os i o fs).ending = .ok .success := he
      show (passthroughPlan env.os i o fs).write ≠ none
      unfold passthroughPlan at h' ⊢
      revert h'
      repeat' split
      all_goals first | (intro h'; cases h'; done) | exact key
    | anonymize =>
      have h' : (anonymizePlan env.os env.hash env.print i o fs).ending = .ok .success := he
      show (anonymizePlan env.os env.hash env.print i o fs).write ≠ none
      unfold anonymizePlan at h' ⊢
      revert h'
      repeat' split
      all_goals first | (intro h'; cases h'; done) | exact key
    | dump =>
      have h' : (dumpPlan env.os env.repr i o fs).ending = .ok .success := he
      show (dumpPlan env.os env.repr i o fs).write ≠ none
      unfold dumpPlan at h' ⊢
      revert h'
      repeat' split
      all_goals first | (intro h'; cases h'; done) | exact key
    | format =>
      have h' : (formatPlan env.os env.keep i o fs).ending = .ok .success := he
      show (formatPlan env.os env.keep i o fs).write ≠ none
      unfold formatPlan at h' ⊢
      revert h'
      repeat' split
      all_goals first | (intro h'; cases h'; done) | exact key
  cases hx : (filePlan env k i o fs).write with
  | none => exact absurd hx hw
  | some w =>
    obtain ⟨path, bytes⟩ := w
    obtain ⟨rfl, -⟩ := plan_writes hx
    rw [plan_done] at h
    unfold Plan.done at h
    rw [hx] at h
    have h2 := congrFun (congrArg Prod.snd h) path
    dsimp only [update] at h2
    rw [if_pos rfl, if_pos rfl] at h2
    cases h2
    rfl

/-- **C91**, two calls with the same output: one may write over the front of what the other has written,
and both report success. -/
theorem C91_same_output [DecidableEq ι] (env : Env) (place : Str → Nat) (calls : ι → FileCall) (d : Disk) (p q : ι) (hpq : p ≠ q)
    (hsame : place (calls p).output = place (calls q).output) (a b : ByteArray)
    (hp : alone env place (calls p) d = (.ok .success, update (d.files place) (calls p).output a))
    (hq : alone env place (calls q) d = (.ok .success, update (d.files place) (calls q).output b)) :
    ∃ schedule, (together env place calls d schedule).stages p = .ended (.ok .success) ∧
      (together env place calls d schedule).stages q = .ended (.ok .success) ∧
      (together env place calls d schedule).disk (place (calls p).output) = some ⟨(b.data.toList ++ a.data.toList.drop b.size).toArray⟩ := by
  obtain ⟨M, hM⟩ := go_decided place (process env (calls p)) d
  obtain ⟨N, hN⟩ := go_decided place (process env (calls q)) d
  have wp : ((process env (calls p)).plan (d (place (process env (calls p)).input))).write = some ((calls p).output, a) := by
    have := process_plan env place (calls p) d
    rw [show (process env (calls p)).input = (calls p).input from rfl, this]
    exact plan_succeeds hp
  have wq : ((process env (calls q)).plan (d (place (process env (calls q)).input))).write = some ((calls q).output, b) := by
    have := process_plan env place (calls q) d
    rw [show (process env (calls q)).input = (calls q).input from rfl, this]
    exact plan_succeeds hq
  have ep : ((process env (calls p)).plan (d (place (process env (calls p)).input))).ending = .ok .success := by
    refine (process_ending env place (calls p) d).trans ?_
    rw [hp]
  have eq : ((process env (calls q)).plan (d (place (process env (calls q)).input))).ending = .ok .success := by
    refine (process_ending env place (calls q) d).trans ?_
    rw [hq]
  generalize (process env (calls p)).plan (d (place (process env (calls p)).input)) = planP at hM wp ep
  generalize (process env (calls q)).plan (d (place (process env (calls q)).input)) = planQ at hN wq eq
  have op : ∀ d' : Disk, (process env (calls p)).go place 1 (.decided planP, d') = (.writing (.ok .success) 0 a.data.toList, d'.store (place (calls p).output) []) := by
    intro d'
    show (process env (calls p)).turn place d' (.decided planP) = _
    simp only [Process.turn]
    rw [wp, ep]
    rfl
  have oq : ∀ d' : Disk, (process env (calls q)).go place 1 (.decided planQ, d') = (.writing (.ok .success) 0 b.data.toList, d'.store (place (calls p).output) []) := by
    intro d'
    show (process env (calls q)).turn place d' (.decided planQ) = _
    simp only [Process.turn]
    rw [wq, eq, hsame]
    rfl
  have fp := fun d' : Disk => go_overwrites (place := place) (p := process env (calls p)) (e := .ok .success) a.data.toList (d := d') [] []
  have fq := fun d' : Disk => go_overwrites (place := place) (p := process env (calls q)) (e := .ok .success) b.data.toList (d := d') [] a.data.toList
  refine ⟨List.replicate M p ++ (List.replicate N q ++ (List.replicate 1 p ++ (List.replicate 1 q ++
    (List.replicate (a.data.toList.length + 1) p ++ List.replicate (b.data.toList.length + 1) q)))), ?_⟩
  have hout : place (process env (calls q)).output = place (calls p).output := hsame.symm
  have hout' : place (process env (calls p)).output = place (calls p).output := rfl
  rw [hout'] at fp
  rw [hout] at fq
  simp only [List.nil_append, List.length_nil, List.drop_nil, List.append_nil] at fp fq
  unfold together
  simp only [turns_append, turns_replicate, World.start, hM, hN, op, oq, if_true, if_neg hpq, if_neg hpq.symm, store_store, fp, fq, store_same]
  refine ⟨trivial, trivial, ?_⟩
  rw [Array.length_toList]
  rfl

/-! ## Cases -/

/-- Three paths, three files. -/
def threePlaces : Str → Nat := fun p => if p = c!"b" then 1 else if p = c!"c" then 2 else 0

/-- The same document, once through and once as a page. -/
def bothCalls : Bool → FileCall
  | true => ⟨.passthrough, c!"a", c!"b"⟩
  | false => ⟨.dump, c!"a", c!"c"⟩

/-- They are independent, and a schedule that takes turns lets both end. -/
example (d : Disk) : Independent threePlaces bothCalls ∧
    ∃ schedule, ∀ p, ∃ e, (together calmEnv threePlaces bothCalls d schedule).stages p = .ended e := by
  have hind : Independent threePlaces bothCalls := by
    intro p q h
    cases p <;> cases q <;> first | exact absurd rfl h | decide
  refine ⟨hind, List.replicate (turnsFor calmEnv threePlaces (bothCalls true) d) true ++
    List.replicate (turnsFor calmEnv threePlaces (bothCalls false) d) false, fun p => ?_⟩
  refine ⟨_, C91_ends calmEnv threePlaces bothCalls hind d _ p ?_⟩
  rw [List.count_append]
  cases p <;> simp [List.count_replicate]

/-- In place is independent as well, if the files are different. -/
example : Independent threePlaces (fun b : Bool => if b then ⟨.format, c!"b", c!"b"⟩ else ⟨.format, c!"c", c!"c"⟩) := by
  intro p q h
  cases p <;> cases q <;> first | exact absurd rfl h | decide

set_option maxRecDepth 20000 in
/-- All commands succeed for this document: two of them with the same output are a case of
`C91_same_output`. -/
example (k l : FileCommand) : ∃ (d : Disk) (a b : ByteArray),
    alone calmEnv threePlaces ⟨k, c!"a", c!"b"⟩ d = (.ok .success, update (d.files threePlaces) c!"b" a) ∧
    alone calmEnv threePlaces ⟨l, c!"a", c!"b"⟩ d = (.ok .success, update (d.files threePlaces) c!"b" b) := by
  have hk : ∀ k : FileCommand, ∃ a, FileCommand.run calmEnv k c!"a" c!"b" ((oneFile (List.utf8Encode calmDocument)).files threePlaces) =
      (.ok .success, update ((oneFile (List.utf8Encode calmDocument)).files threePlaces) c!"b" a) := by
    intro k
    have h0 := calmDocument_passes k
    have hi : NoOption false c!"a" := .inl (by intro r h; cases h)
    have ho : NoOption false c!"b" := .inl (by intro r h; cases h)
    rw [C69_files _ _ k _ _ (.files k hi ho)] at h0
    have hin : filePlan calmEnv k c!"a" c!"b" (onlyFile calmDocument) = filePlan calmEnv k c!"a" c!"b" ((oneFile (List.utf8Encode calmDocument)).files threePlaces) :=
      plan_input rfl
    rcases run_cases calmEnv k c!"a" c!"b" ((oneFile (List.utf8Encode calmDocument)).files threePlaces) with ⟨src, bytes, -, -, h⟩ | ⟨h, -⟩
    · exact ⟨bytes, h⟩
    · exfalso
      apply h
      rw [plan_done, ← hin]
      rw [plan_done] at h0
      generalize filePlan calmEnv k c!"a" c!"b" (onlyFile calmDocument) = x at h0 ⊢
      obtain ⟨e, w⟩ := x
      unfold Plan.done at h0 ⊢
      dsimp only at h0 ⊢
      cases e with
      | error e => cases h0
      | ok c => cases c <;> first | rfl | cases h0
  obtain ⟨a, ha⟩ := hk k
  obtain ⟨b, hb⟩ := hk l
  exact ⟨_, a, b, ha, hb⟩

end ReqIF.Cli
