import Verif.Model.Disk
import Verif.Props.C69
import Verif.Props.C73
/-!
# C74: interrupted commands
-/
namespace ReqIF.Cli
open Spec

/-- What a command over files is going to do. -/
noncomputable def filePlan (env : Env) (k : FileCommand) (i o : Str) (fs : Files) : Plan :=
  match k with
  | .passthrough => passthroughPlan env.os i o fs
  | .anonymize => anonymizePlan env.os env.hash env.print i o fs
  | .dump => dumpPlan env.os env.repr i o fs
  | .format => formatPlan env.os env.keep i o fs

/-- The disk at which the command has arrived after `n` steps. -/
noncomputable def interrupted (env : Env) (place : Str → Nat) (k : FileCommand) (i o : Str) (d : Disk) (n : Nat) : Disk :=
  d.after (((filePlan env k i o (d.files place)).steps place).take n)

/-- The disk after all steps. -/
noncomputable def completed (env : Env) (place : Str → Nat) (k : FileCommand) (i o : Str) (d : Disk) : Disk :=
  d.after ((filePlan env k i o (d.files place)).steps place)

/-! ## Plans -/

/-- What a plan does to the files when nothing interferes. -/
def Plan.done (p : Plan) (fs : Files) : Py CommandEnd × Files :=
  (p.ending, match p.write with
    | none => fs
    | some (path, bytes) => update fs path bytes)

theorem openAndWrite_done (os : OsEnv) (path : Str) (bytes : ByteArray) (fs : Files) :
    M.bind (writeFile os path bytes) (fun _ => M.pure CommandEnd.success) fs = Plan.done (openAndWrite os path bytes) fs := by
  unfold openAndWrite Plan.done
  rcases writeFile_cases os path bytes fs with ⟨e, h1, h2⟩ | ⟨h1, h2⟩
  · rw [h2, h1]
  · rw [h2, h1]

/-- The plans are those of the commands of `Model/Commands`. -/
theorem plan_done (env : Env) (k : FileCommand) (i o : Str) (fs : Files) :
    FileCommand.run env k i o fs = Plan.done (filePlan env k i o fs) fs := by
  cases k with
  | passthrough =>
    show passthroughCommand env.os i o fs = Plan.done (passthroughPlan env.os i o fs) fs
    unfold passthroughCommand passthroughPlan
    split
    · rfl
    · split
      · rfl
      · dsimp only
        generalize (if endsWith i c!".reqifz" = true then passthroughZBytes env.os (readFile fs i) else passthroughBytes (readFile fs i)) = r
        cases r with
        | error e => rfl
        | ok bytes => exact openAndWrite_done _ _ _ _
  | anonymize =>
    show anonymizeCommand env.os env.hash env.print i o fs = Plan.done (anonymizePlan env.os env.hash env.print i o fs) fs
    unfold anonymizeCommand anonymizePlan
    split
    · rfl
    · generalize anonymize env.hash env.print (readFile fs i) = r
      cases r with
      | error e => rfl
      | ok text =>
        dsimp only
        split
        · rfl
        · exact openAndWrite_done _ _ _ _
  | dump =>
    show M.bind (Dump.dumpCommand env.os env.repr i o) (fun _ => M.pure CommandEnd.success) fs = Plan.done (dumpPlan env.os env.repr i o fs) fs
    cases h1 : (parseFile (none : Option (Callback Unit)) (readFile fs i) ()).1 with
    | error e =>
      have hd : Dump.dumpCommand env.os env.repr i o fs = (.error e, fs) := by unfold Dump.dumpCommand; rw [h1]
      have hp : dumpPlan env.os env.repr i o fs = ⟨.error e, none⟩ := by unfold dumpPlan; rw [h1]
      rw [hp]
      simp only [M.bind, hd]
      rfl
    | ok b =>
      cases h2 : Dump.dumpText env.repr b with
      | error e =>
        have hd : Dump.dumpCommand env.os env.repr i o fs = (.error e, fs) := by unfold Dump.dumpCommand; rw [h1]; dsimp only; rw [h2]
        have hp : dumpPlan env.os env.repr i o fs = ⟨.error e, none⟩ := by unfold dumpPlan; rw [h1]; dsimp only; rw [h2]
        rw [hp]
        simp only [M.bind, hd]
        rfl
      | ok text =>
        have hd : Dump.dumpCommand env.os env.repr i o fs = writeFile env.os o text.utf8Encode fs := by
          unfold Dump.dumpCommand; rw [h1]; dsimp only; rw [h2]
        have hp : dumpPlan env.os env.repr i o fs = openAndWrite env.os o text.utf8Encode := by
          unfold dumpPlan; rw [h1]; dsimp only; rw [h2]
        rw [hp, ← openAndWrite_done]
        simp only [M.bind, hd]
  | format =>
    show Format.formatCommand env.os env.keep i o fs = Plan.done (formatPlan env.os env.keep i o fs) fs
    unfold Format.formatCommand formatPlan
    generalize readFile fs i = r
    cases r with
    | error e => rfl
    | ok bytes =>
      dsimp only
      generalize decodeUtf8 bytes = r
      cases r with
      | error e => rfl
      | ok text =>
        dsimp only
        generalize Format.formatText env.keep text = r
        cases r with
        | none => rfl
        | some out => exact openAndWrite_done _ _ _ _

theorem openAndWrite_path {os : OsEnv} {path p : Str} {bytes b : ByteArray} (h : (openAndWrite os path bytes).write = some (p, b)) :
    p = path ∧ b = bytes ∧ (openAndWrite os path bytes).ending = .ok .success := by
  unfold openAndWrite at h ⊢
  split at h
  · cases h
  · cases h; exact ⟨rfl, rfl, rfl⟩

/-- A command writes nothing but its output file, and only if it will succeed. -/
theorem plan_writes {env : Env} {k : FileCommand} {i o p : Str} {fs : Files} {b : ByteArray}
    (h : (filePlan env k i o fs).write = some (p, b)) : p = o ∧ (filePlan env k i o fs).ending = .ok .success := by
  have key : ∀ {os : OsEnv} {bytes : ByteArray}, (openAndWrite os o bytes).write = some (p, b) →
      p = o ∧ (openAndWrite os o bytes).ending = .ok .success :=
    fun h => ⟨(openAndWrite_path h).1, (openAndWrite_path h).2.2⟩
  cases k with
  | passthrough =>
    show _ ∧ (passthroughPlan env.os i o fs).ending = _
    have h' : (passthroughPlan env.os i o fs).write = some (p, b) := h
    unfold passthroughPlan at h' ⊢
    revert h'
    repeat' split
    all_goals first | (intro h'; cases h'; done) | exact key
  | anonymize =>
    show _ ∧ (anonymizePlan env.os env.hash env.print i o fs).ending = _
    have h' : (anonymizePlan env.os env.hash env.print i o fs).write = some (p, b) := h
    unfold anonymizePlan at h' ⊢
    revert h'
    repeat' split
    all_goals first | (intro h'; cases h'; done) | exact key
  | dump =>
    show _ ∧ (dumpPlan env.os env.repr i o fs).ending = _
    have h' : (dumpPlan env.os env.repr i o fs).write = some (p, b) := h
    unfold dumpPlan at h' ⊢
    revert h'
    repeat' split
    all_goals first | (intro h'; cases h'; done) | exact key
  | format =>
    show _ ∧ (formatPlan env.os env.keep i o fs).ending = _
    have h' : (formatPlan env.os env.keep i o fs).write = some (p, b) := h
    unfold formatPlan at h' ⊢
    revert h'
    repeat' split
    all_goals first | (intro h'; cases h'; done) | exact key

/-- What a command does depends on its input file only. -/
theorem plan_input {env : Env} {k : FileCommand} {i o : Str} {fs fs' : Files} (h : fs' i = fs i) :
    filePlan env k i o fs' = filePlan env k i o fs := by
  have hr : readFile fs' i = readFile fs i := by unfold readFile; rw [h]
  cases k with
  | passthrough => show passthroughPlan _ _ _ _ = passthroughPlan _ _ _ _; unfold passthroughPlan; rw [h, hr]
  | anonymize => show anonymizePlan _ _ _ _ _ _ = anonymizePlan _ _ _ _ _ _; unfold anonymizePlan; rw [h, hr]
  | dump => show dumpPlan _ _ _ _ _ = dumpPlan _ _ _ _ _; unfold dumpPlan; rw [hr]
  | format => show formatPlan _ _ _ _ _ = formatPlan _ _ _ _ _; unfold formatPlan; rw [hr]

/-! ## Steps -/

theorem after_appends (at' : Nat) : ∀ (l : List UInt8) (d : Disk) (a : ByteArray), d at' = some a →
    (∀ j, j ≠ at' → d.after (l.map (.append at')) j = d j) ∧ d.after (l.map (.append at')) at' = some (a ++ ⟨l.toArray⟩)
  | [], d, a, h => by
    refine ⟨fun j _ => rfl, ?_⟩
    show d at' = _
    rw [h]
    congr 1
    apply ByteArray.ext
    simp [ByteArray.data_append]
  | b :: l, d, a, h => by
    have h1 : (DiskStep.append at' b).apply d at' = some (a.push b) := by
      unfold DiskStep.apply
      dsimp only
      rw [if_pos rfl, h]; rfl
    obtain ⟨g1, g2⟩ := after_appends at' l _ _ h1
    refine ⟨fun j hj => (g1 j hj).trans ?_, g2.trans ?_⟩
    · unfold DiskStep.apply
      dsimp only
      rw [if_neg hj]
    · congr 1
      apply ByteArray.ext
      simp [ByteArray.data_append, ByteArray.data_push, ← Array.append_singleton]

theorem after_write (at' : Nat) (l : List UInt8) (d : Disk) :
    (∀ j, j ≠ at' → d.after (.truncate at' :: l.map (.append at')) j = d j) ∧
      d.after (.truncate at' :: l.map (.append at')) at' = some ⟨l.toArray⟩ := by
  have h1 : (DiskStep.truncate at').apply d at' = some ByteArray.empty := if_pos rfl
  obtain ⟨g1, g2⟩ := after_appends at' l _ _ h1
  refine ⟨fun j hj => (g1 j hj).trans (if_neg hj), g2.trans ?_⟩
  congr 1

theorem steps_take {place : Str → Nat} {p : Plan} {path : Str} {bytes : ByteArray} (h : p.write = some (path, bytes)) (n : Nat) :
    (p.steps place).take (n + 1) = .truncate (place path) :: (bytes.data.toList.take n).map (.append (place path)) := by
  unfold Plan.steps
  rw [h]
  dsimp only
  rw [List.take_succ_cons, List.map_take]

/-! ## The property -/

/-- **C74.** However far a command gets, no other file than the output has changed; the output
file is as it was before, or holds the beginning of what the command was going to write. -/
theorem C74_interrupted (env : Env) (place : Str → Nat) (k : FileCommand) (i o : Str) (d : Disk) (n : Nat) :
    (∀ j, j ≠ place o → interrupted env place k i o d n j = d j) ∧
    (interrupted env place k i o d n (place o) = d (place o) ∨
      ∃ a c, interrupted env place k i o d n (place o) = some a ∧
        (FileCommand.run env k i o (d.files place)).1 = .ok .success ∧
        (FileCommand.run env k i o (d.files place)).2 o = some (a ++ c)) := by
  unfold interrupted
  rw [plan_done]
  generalize hp : filePlan env k i o (d.files place) = p
  cases hw : p.write with
  | none =>
    have : p.steps place = [] := by unfold Plan.steps; rw [hw]
    rw [this, List.take_nil]
    exact ⟨fun _ _ => rfl, Or.inl rfl⟩
  | some w =>
    obtain ⟨path, bytes⟩ := w
    obtain ⟨rfl, hend⟩ := plan_writes (by rw [hp]; exact hw)
    rw [hp] at hend
    cases n with
    | zero => rw [List.take_zero]; exact ⟨fun _ _ => rfl, Or.inl rfl⟩
    | succ n =>
      rw [steps_take hw]
      obtain ⟨g1, g2⟩ := after_write (place path) (bytes.data.toList.take n) d
      refine ⟨g1, Or.inr ⟨_, ⟨(bytes.data.toList.drop n).toArray⟩, g2, hend, ?_⟩⟩
      unfold Plan.done
      rw [hw]
      dsimp only [update]
      rw [if_pos rfl]
      congr 1
      apply ByteArray.ext
      rw [ByteArray.data_append]
      simp

/-- **C74.** After all its steps the command has done what `Model/Commands` says: it ends the
same way, and if different paths name different files, the files are the same. -/
theorem C74_completed (env : Env) (place : Str → Nat) (k : FileCommand) (i o : Str) (d : Disk) :
    (filePlan env k i o (d.files place)).ending = (FileCommand.run env k i o (d.files place)).1 ∧
    ((∀ p q, place p = place q → p = q) →
      (completed env place k i o d).files place = (FileCommand.run env k i o (d.files place)).2) := by
  unfold completed
  rw [plan_done]
  generalize hp : filePlan env k i o (d.files place) = p
  refine ⟨rfl, fun hinj => ?_⟩
  cases hw : p.write with
  | none =>
    have : p.steps place = [] := by unfold Plan.steps; rw [hw]
    rw [this]
    unfold Plan.done
    rw [hw]
    rfl
  | some w =>
    obtain ⟨path, bytes⟩ := w
    obtain ⟨rfl, hend⟩ := plan_writes (by rw [hp]; exact hw)
    have hs : p.steps place = .truncate (place path) :: bytes.data.toList.map (.append (place path)) := by
      unfold Plan.steps; rw [hw]
    rw [hs]
    obtain ⟨g1, g2⟩ := after_write (place path) bytes.data.toList d
    unfold Plan.done
    rw [hw]
    dsimp only
    funext q
    show d.after _ (place q) = update (d.files place) path bytes q
    unfold update
    by_cases hq : q = path
    · subst hq
      rw [if_pos rfl, g2]
    · rw [if_neg hq, g1 _ (fun e => hq (hinj _ _ e))]
      rfl

/-- **C74.** If input and output are different files, a command that was interrupted, at any
point, can be run again: it ends as it would have ended, and leaves every file as it
would have left it. -/
theorem C74_again (env : Env) (place : Str → Nat) (k : FileCommand) (i o : Str) (d : Disk) (n : Nat) (hio : place i ≠ place o) :
    (FileCommand.run env k i o ((interrupted env place k i o d n).files place)).1 = (FileCommand.run env k i o (d.files place)).1 ∧
    completed env place k i o (interrupted env place k i o d n) = completed env place k i o d := by
  obtain ⟨h1, -⟩ := C74_interrupted env place k i o d n
  have hplan : filePlan env k i o ((interrupted env place k i o d n).files place) = filePlan env k i o (d.files place) :=
    plan_input (h1 (place i) hio)
  refine ⟨by rw [plan_done, plan_done, hplan]; rfl, ?_⟩
  unfold completed
  rw [hplan]
  generalize hp : filePlan env k i o (d.files place) = p
  cases hw : p.write with
  | none =>
    have : p.steps place = [] := by unfold Plan.steps; rw [hw]
    unfold interrupted
    rw [hp, this, List.take_nil]
    rfl
  | some w =>
    obtain ⟨path, bytes⟩ := w
    obtain ⟨rfl, hend⟩ := plan_writes (by rw [hp]; exact hw)
    have hs : p.steps place = .truncate (place path) :: bytes.data.toList.map (.append (place path)) := by
      unfold Plan.steps; rw [hw]
    rw [hs]
    obtain ⟨g1, g2⟩ := after_write (place path) bytes.data.toList d
    obtain ⟨f1, f2⟩ := after_write (place path) bytes.data.toList (interrupted env place k i path d n)
    funext j
    by_cases hj : j = place path
    · subst hj; rw [g2, f2]
    · rw [g1 j hj, f1 j hj, h1 j hj]

/-- **C74**, half-written files are noticed: an output of passthrough of which the last two bytes
or more have not arrived is not parsed, if the whole output is well-formed. -/
theorem C74_noticed (env : Env) (place : Str → Nat) (i o : Str) (d : Disk) (n : Nat) (hz : endsWith i c!".reqifz" = false) {out : Str} {doc : Doc}
    (ho : (FileCommand.run env .passthrough i o (d.files place)).1 = .ok .success)
    (hb : (FileCommand.run env .passthrough i o (d.files place)).2 o = some out.utf8Encode) (hd : readDoc out = some doc)
    (h0 : 1 ≤ n) (hn : n + 1 ≤ out.utf8Encode.size) :
    ∃ a, interrupted env place .passthrough i o d n (place o) = some a ∧
      (parseBytes a = .error .unicode ∨ ∃ e, parseBytes a = .error (.xmlParsing e)) := by
  have hrun := C59_passthrough env.os i o (d.files place)
  have hu : ∃ b, unparse b = .ok out := by
    rcases hrun with ⟨src, bytes, -, h2, h3⟩ | ⟨h2, -⟩
    · rw [if_neg (by rw [hz]; simp)] at h2
      obtain ⟨text, b, out', -, -, h5, h6⟩ := h2
      have : FileCommand.run env .passthrough i o (d.files place) = (.ok .success, update (d.files place) o bytes) := h3
      rw [this] at hb
      dsimp only [update] at hb
      rw [if_pos rfl] at hb
      have e : out'.utf8Encode = out.utf8Encode := by rw [← h6]; exact Option.some.inj hb
      have e2 := congrArg decodeUtf8 e
      rw [decodeUtf8_encode, decodeUtf8_encode] at e2
      cases e2
      exact ⟨b, h5⟩
    · exact absurd ho h2
  obtain ⟨b, hu⟩ := hu
  unfold interrupted
  rw [plan_done] at ho hb
  generalize hp : filePlan env .passthrough i o (d.files place) = p at ho hb ⊢
  cases hw : p.write with
  | none =>
    exfalso
    -- a plan that succeeds writes
    have hend : p.ending = .ok .success := ho
    have hp' : passthroughPlan env.os i o (d.files place) = p := hp
    unfold passthroughPlan at hp'
    repeat' split at hp'
    all_goals first
      | (subst hp'; cases hend; done)
      | (unfold openAndWrite at hp'; split at hp' <;> subst hp' <;> first | (cases hend; done) | cases hw)
  | some w =>
    obtain ⟨path, bytes⟩ := w
    obtain ⟨rfl, -⟩ := plan_writes (by rw [hp]; exact hw)
    have hbytes : bytes = out.utf8Encode := by
      unfold Plan.done at hb
      rw [hw] at hb
      dsimp only [update] at hb
      rw [if_pos rfl] at hb
      exact Option.some.inj hb
    cases n with
    | zero => omega
    | succ n =>
      rw [steps_take hw]
      obtain ⟨-, g2⟩ := after_write (place path) (bytes.data.toList.take n) d
      refine ⟨_, g2, ?_⟩
      refine C73_output_file (c := ⟨(bytes.data.toList.drop n).toArray⟩) hu hd ?_ ?_
      · rw [← hbytes]
        apply ByteArray.ext
        rw [ByteArray.data_append]
        simp
      · rw [← hbytes, ← ByteArray.size_data] at hn
        show 2 ≤ (bytes.data.toList.drop n).toArray.size
        simp only [List.size_toArray, List.length_drop, Array.length_toList]
        omega

/-- **C74**, where input and output are the same file: as soon as the output has been opened the
document is lost, and if the command stops there it cannot be run again: passthrough ends with an exception. -/
theorem C74_in_place (env : Env) (place : Str → Nat) (i o : Str) (d : Disk) (hio : place i = place o) (hz : endsWith i c!".reqifz" = false)
    (ho : (FileCommand.run env .passthrough i o (d.files place)).1 = .ok .success) :
    interrupted env place .passthrough i o d 1 (place i) = some ByteArray.empty ∧
    (FileCommand.run env .passthrough i o ((interrupted env place .passthrough i o d 1).files place)).1 =
      .error (.xmlParsing .emptyDocument) := by
  have hex : outputDirOk env.os o = true := by
    cases hx : outputDirOk env.os o with
    | true => rfl
    | false =>
      exfalso
      have ho' : (passthroughCommand env.os i o (d.files place)).1 = .ok .success := ho
      unfold passthroughCommand at ho'
      rw [hx] at ho'
      split at ho' <;> cases ho'
  have h1 : interrupted env place .passthrough i o d 1 (place i) = some ByteArray.empty := by
    unfold interrupted
    rw [plan_done] at ho
    generalize hp : filePlan env .passthrough i o (d.files place) = p at ho ⊢
    cases hw : p.write with
    | none =>
      exfalso
      have hend : p.ending = .ok .success := ho
      have hp' : passthroughPlan env.os i o (d.files place) = p := hp
      unfold passthroughPlan at hp'
      repeat' split at hp'
      all_goals first
        | (subst hp'; cases hend; done)
        | (unfold openAndWrite at hp'; split at hp' <;> subst hp' <;> first | (cases hend; done) | cases hw)
    | some w =>
      obtain ⟨path, bytes⟩ := w
      obtain ⟨rfl, -⟩ := plan_writes (by rw [hp]; exact hw)
      rw [steps_take hw, hio]
      obtain ⟨-, g2⟩ := after_write (place path) (bytes.data.toList.take 0) d
      exact g2
  refine ⟨h1, ?_⟩
  show (passthroughCommand env.os i o _).1 = _
  generalize interrupted env place .passthrough i o d 1 = d' at h1
  have hf : (d'.files place) i = some ByteArray.empty := h1
  unfold passthroughCommand
  have hr : readFile (d'.files place) i = .ok ByteArray.empty := by unfold readFile; rw [hf]
  rw [hf, hex, hz, hr]
  have hb : passthroughBytes (.ok ByteArray.empty) = .error (.xmlParsing .emptyDocument) := by
    unfold passthroughBytes
    have : (parseFile (none : Option (Callback Unit)) (.ok ByteArray.empty) ()).1 = .error (.xmlParsing .emptyDocument) := by
      have e : decodeUtf8 ByteArray.empty = .ok [] := decodeUtf8_encode []
      exact parseBytes_text e
    rw [this]
  simp only [Option.isNone_some, Bool.not_true, Bool.false_eq_true, if_false]
  rw [hb]

/-! ## Cases -/

/-- A disk with one file, and the paths `a` and `b`. -/
def oneFile (bytes : ByteArray) : Disk := fun j => if j = 0 then some bytes else none

/-- `b` is another file than everything else. -/
def twoPlaces : Str → Nat := fun p => if p = c!"b" then 1 else 0

/-- A document for which passthrough succeeds with well-formed output: it meets the hypotheses
of `C74_noticed` and `C74_again`, on any machine where the output can be opened. -/
example (env : Env) (he : env.os = exOs) : ∃ (bytes : ByteArray) (out : Str) (doc : Doc), 2 ≤ out.utf8Encode.size ∧ readDoc out = some doc ∧
    (FileCommand.run env .passthrough c!"a" c!"b" ((oneFile bytes).files twoPlaces)).1 = .ok .success ∧
    (FileCommand.run env .passthrough c!"a" c!"b" ((oneFile bytes).files twoPlaces)).2 c!"b" = some out.utf8Encode ∧
    twoPlaces c!"a" ≠ twoPlaces c!"b" := by
  obtain ⟨t, b', h1, h2, -, -, h4⟩ := C44_passthrough exampleBundle_safe (Or.inr (by decide)) (by rintro hd ⟨⟩; decide)
  obtain ⟨t', e, doc, i, ks, h5, -⟩ := C45_wellformed exampleBundle_safe
  rw [h1] at e
  cases e
  have hrun := h4 exOs c!"a" c!"b" ((oneFile t.utf8Encode).files twoPlaces) rfl (by decide)
    (fun d hd h => absurd (dirName_of hd).symm h) rfl
  have hr : FileCommand.run env .passthrough c!"a" c!"b" ((oneFile t.utf8Encode).files twoPlaces) = (.ok .success, update ((oneFile t.utf8Encode).files twoPlaces) c!"b" t.utf8Encode) := by
    show passthroughCommand env.os _ _ _ = _
    rw [he]; exact hrun
  refine ⟨t.utf8Encode, t, doc, ?_, h5, by rw [hr], by rw [hr]; simp [update], by decide⟩
  obtain ⟨⟨x, hx⟩, -⟩ := unparse_ends h1
  rw [hx, List.utf8Encode_append, ByteArray.size_append]
  have : rootEnd.utf8Encode.size = 10 := by decide
  omega

/-- The same in place: the hypotheses of `C74_in_place`, for one path and for two names of the
same file. -/
example (env : Env) (he : env.os = exOs) : ∃ bytes : ByteArray,
    (FileCommand.run env .passthrough c!"a" c!"b" ((oneFile bytes).files (fun _ => 0))).1 = .ok .success ∧
    (FileCommand.run env .passthrough c!"a" c!"a" ((oneFile bytes).files (fun _ => 0))).1 = .ok .success := by
  obtain ⟨t, b', h1, h2, -, -, h4⟩ := C44_passthrough exampleBundle_safe (Or.inr (by decide)) (by rintro hd ⟨⟩; decide)
  have hr : ∀ o : Str, (o = c!"a" ∨ o = c!"b") → (FileCommand.run env .passthrough c!"a" o ((oneFile t.utf8Encode).files (fun _ => 0))).1 = .ok .success := by
    intro o ho
    show (passthroughCommand env.os _ _ _).1 = _
    rw [he, h4 exOs c!"a" o ((oneFile t.utf8Encode).files (fun _ => 0)) rfl (by decide)
      (by rcases ho with rfl | rfl <;> exact fun d hd h => absurd (dirName_of hd).symm h) rfl]
  exact ⟨_, hr _ (Or.inr rfl), hr _ (Or.inl rfl)⟩

end ReqIF.Cli
