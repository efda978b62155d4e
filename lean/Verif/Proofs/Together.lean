import Verif.Model.Together
/-!
# Runs that share a disk
-/
namespace ReqIF

/-! ## Bytes -/

theorem bytes_toArray (l : List UInt8) : (⟨l.toArray⟩ : ByteArray).data.toList = l := by simp

theorem toArray_bytes (a : ByteArray) : (⟨a.data.toList.toArray⟩ : ByteArray) = a := by
  apply ByteArray.ext; simp

theorem store_same (d : Disk) (k : Nat) (l : List UInt8) : (d.store k l) k = some ⟨l.toArray⟩ := if_pos rfl

theorem store_other (d : Disk) {k j : Nat} (h : j ≠ k) (l : List UInt8) : (d.store k l) j = d j := if_neg h

theorem bytes_store (d : Disk) (k : Nat) (l : List UInt8) : (d.store k l).bytes k = l := by
  unfold Disk.bytes
  rw [store_same]
  exact bytes_toArray l

theorem store_store (d : Disk) (k : Nat) (l m : List UInt8) : (d.store k l).store k m = d.store k m := by
  funext j
  unfold Disk.store
  split <;> rfl

theorem bytes_congr {d d' : Disk} {k : Nat} (h : d' k = d k) : d'.bytes k = d.bytes k := by
  unfold Disk.bytes; rw [h]

theorem putByte_end (l : List UInt8) (b : UInt8) : putByte l l.length b = l ++ [b] := by
  unfold putByte
  rw [List.take_length, Nat.sub_self, List.drop_eq_nil_of_le (by omega)]
  simp

theorem putByte_inside {l : List UInt8} {n : Nat} (h : n ≤ l.length) (b : UInt8) : putByte l n b = l.take n ++ b :: l.drop (n + 1) := by
  unfold putByte
  rw [Nat.sub_eq_zero_of_le h]
  simp

/-! ## One run and the disk -/

/-- A run changes nothing but its output. -/
theorem turn_frame (place : Str → Nat) (p : Process) (d : Disk) (s : Stage) {j : Nat} (h : j ≠ place p.output) :
    (p.turn place d s).2 j = d j := by
  cases s with
  | ready => simp only [Process.turn]; split <;> rfl
  | reading got => simp only [Process.turn]; split <;> rfl
  | decided plan =>
    simp only [Process.turn]
    split
    · rfl
    · exact store_other d h _
  | writing e n rest =>
    cases rest with
    | nil => rfl
    | cons b rest => exact store_other d h _
  | ended e => rfl

/-- What a run does depends on its two files only. -/
theorem turn_local (place : Str → Nat) (p : Process) {d d' : Disk} (s : Stage) (hi : d' (place p.input) = d (place p.input))
    (ho : d' (place p.output) = d (place p.output)) :
    (p.turn place d' s).1 = (p.turn place d s).1 ∧ (p.turn place d' s).2 (place p.input) = (p.turn place d s).2 (place p.input) ∧
      (p.turn place d' s).2 (place p.output) = (p.turn place d s).2 (place p.output) := by
  have key : (p.turn place d' s).1 = (p.turn place d s).1 ∧ (p.turn place d' s).2 (place p.output) = (p.turn place d s).2 (place p.output) := by
    cases s with
    | ready =>
      simp only [Process.turn]
      rw [hi]
      cases d (place p.input) <;> exact ⟨rfl, ho⟩
    | reading got =>
      simp only [Process.turn]
      rw [bytes_congr hi]
      cases (d.bytes (place p.input))[got.length]? <;> exact ⟨rfl, ho⟩
    | decided plan =>
      simp only [Process.turn]
      cases plan.write with
      | none => exact ⟨rfl, ho⟩
      | some w => exact ⟨rfl, (store_same d' _ _).trans (store_same d _ _).symm⟩
    | writing e n rest =>
      cases rest with
      | nil => exact ⟨rfl, ho⟩
      | cons b rest =>
        simp only [Process.turn]
        rw [bytes_congr ho, store_same, store_same]
        exact ⟨trivial, rfl⟩
    | ended e => exact ⟨rfl, ho⟩
  refine ⟨key.1, ?_, key.2⟩
  by_cases h : place p.input = place p.output
  · rw [h]; exact key.2
  · rw [turn_frame place p d' s h, turn_frame place p d s h, hi]

/-- Some steps of one run without the others. -/
def Process.go (place : Str → Nat) (p : Process) : Nat → Stage × Disk → Stage × Disk
  | 0, x => x
  | n + 1, x => p.go place n (p.turn place x.2 x.1)

theorem go_add (place : Str → Nat) (p : Process) : ∀ (m n : Nat) (x : Stage × Disk), p.go place (m + n) x = p.go place n (p.go place m x)
  | 0, n, x => by rw [Nat.zero_add]; rfl
  | m + 1, n, x => by rw [Nat.succ_add]; exact go_add place p m n _

variable {ι : Type} [DecidableEq ι]

theorem turns_append (place : Str → Nat) (procs : ι → Process) (a b : List ι) (w : World ι) :
    World.run place procs (a ++ b) w = World.run place procs b (World.run place procs a w) := List.foldl_append

/-- If only one run has turns, the others stay where they are. -/
theorem turns_replicate (place : Str → Nat) (procs : ι → Process) (p : ι) : ∀ (n : Nat) (w : World ι),
    World.run place procs (List.replicate n p) w =
      ⟨fun j => if j = p then ((procs p).go place n (w.stages p, w.disk)).1 else w.stages j, ((procs p).go place n (w.stages p, w.disk)).2⟩
  | 0, w => by
    show w = _
    obtain ⟨s, d⟩ := w
    have : s = fun j => if j = p then s p else s j := by
      funext j
      split
      · rename_i h; rw [h]
      · rfl
    show World.mk s d = World.mk (fun j => if j = p then s p else s j) d
    rw [← this]
  | n + 1, w => by
    show World.run place procs (List.replicate n p) (w.turn place procs p) = _
    rw [turns_replicate place procs p n]
    unfold World.turn
    dsimp only
    rw [if_pos rfl]
    congr 1
    funext j
    by_cases h : j = p
    · rw [if_pos h, if_pos h]; rfl
    · rw [if_neg h, if_neg h, if_neg h]

/-- Places that are nobody's output keep their content. -/
theorem turns_frame (place : Str → Nat) (procs : ι → Process) {j : Nat} (h : ∀ p, j ≠ place (procs p).output) :
    ∀ (schedule : List ι) (w : World ι), (World.run place procs schedule w).disk j = w.disk j
  | [], _ => rfl
  | k :: l, _ => (turns_frame place procs h l _).trans (turn_frame place _ _ _ (h k))

/-- What a run sees of the world. -/
def SameFor (place : Str → Nat) (procs : ι → Process) (p : ι) (v w : World ι) : Prop :=
  v.stages p = w.stages p ∧ v.disk (place (procs p).input) = w.disk (place (procs p).input) ∧
    v.disk (place (procs p).output) = w.disk (place (procs p).output)

theorem turn_same {place : Str → Nat} {procs : ι → Process} {p : ι} {v w : World ι} (h : SameFor place procs p v w) :
    SameFor place procs p (v.turn place procs p) (w.turn place procs p) := by
  obtain ⟨h1, h2, h3⟩ := h
  obtain ⟨g1, g2, g3⟩ := turn_local place (procs p) (d := w.disk) (d' := v.disk) (w.stages p) h2 h3
  unfold World.turn SameFor
  dsimp only
  rw [if_pos rfl, if_pos rfl, h1]
  exact ⟨g1, g2, g3⟩

/-- Only its own turns matter to a run whose files nobody else writes. -/
theorem run_turns {place : Str → Nat} {procs : ι → Process} {p : ι}
    (hi : ∀ q, q ≠ p → place (procs p).input ≠ place (procs q).output) (ho : ∀ q, q ≠ p → place (procs p).output ≠ place (procs q).output) :
    ∀ (schedule : List ι) (v w : World ι), SameFor place procs p v w →
      SameFor place procs p (World.run place procs schedule v) (World.run place procs (List.replicate (schedule.count p) p) w)
  | [], _, _, h => h
  | k :: l, v, w, h => by
    by_cases hk : k = p
    · subst hk
      rw [List.count_cons_self]
      exact run_turns hi ho l _ _ (turn_same h)
    · rw [List.count_cons_of_ne hk]
      refine run_turns hi ho l _ _ ?_
      obtain ⟨h1, h2, h3⟩ := h
      refine ⟨?_, ?_, ?_⟩
      · show (if p = k then _ else v.stages p) = _
        rw [if_neg (fun e => hk e.symm), h1]
      · exact (turn_frame place (procs k) v.disk _ (hi k hk)).trans h2
      · exact (turn_frame place (procs k) v.disk _ (ho k hk)).trans h3

/-! ## One run alone -/

/-- The disk a run leaves when it has read `src`. -/
def Process.final (place : Str → Nat) (p : Process) (d : Disk) (src : Option ByteArray) : Disk :=
  match (p.plan src).write with
  | none => d
  | some (_, bytes) => d.store (place p.output) bytes.data.toList

/-- Where a run can be that will have read `src` when it has read everything. -/
def Process.Reached (place : Str → Nat) (p : Process) (d : Disk) (src : Option ByteArray) : Stage → Disk → Prop
  | .ready, d' => d' = d ∧ src = d (place p.input)
  | .reading got, d' => d' = d ∧ (∃ a, d (place p.input) = some a) ∧
      src = some ⟨(got ++ (d.bytes (place p.input)).drop got.length).toArray⟩
  | .decided plan, d' => d' = d ∧ plan = p.plan src
  | .writing e n rest, d' => e = (p.plan src).ending ∧ ∃ path bytes done, (p.plan src).write = some (path, bytes) ∧
      bytes.data.toList = done ++ rest ∧ n = done.length ∧ d' = d.store (place p.output) done
  | .ended e, d' => e = (p.plan src).ending ∧ d' = p.final place d src

/-- How many bytes are going to be written. -/
def Plan.size (p : Plan) : Nat :=
  match p.write with
  | none => 0
  | some (_, bytes) => bytes.data.toList.length

/-- How many steps remain at most. -/
def Process.left (place : Str → Nat) (p : Process) (d : Disk) (src : Option ByteArray) : Stage → Nat
  | .ready => (d.bytes (place p.input)).length + (p.plan src).size + 4
  | .reading got => ((d.bytes (place p.input)).length - got.length) + (p.plan src).size + 3
  | .decided _ => (p.plan src).size + 2
  | .writing _ _ rest => rest.length + 1
  | .ended _ => 0

theorem turn_reached {place : Str → Nat} {p : Process} {d d' : Disk} {src : Option ByteArray} {s : Stage} (h : p.Reached place d src s d') :
    p.Reached place d src (p.turn place d' s).1 (p.turn place d' s).2 ∧
      p.left place d src (p.turn place d' s).1 ≤ p.left place d src s - 1 := by
  cases s with
  | ready =>
    obtain ⟨rfl, rfl⟩ := h
    simp only [Process.turn]
    cases hd : d' (place p.input) with
    | none => exact ⟨⟨rfl, rfl⟩, by show (p.plan none).size + 2 ≤ _; simp only [Process.left]; omega⟩
    | some a =>
      refine ⟨⟨rfl, ⟨a, hd⟩, ?_⟩, ?_⟩
      · rw [List.length_nil, List.drop_zero, List.nil_append]
        unfold Disk.bytes
        rw [hd]
        exact congrArg some (toArray_bytes a).symm
      · simp only [Process.left, List.length_nil]; omega
  | reading got =>
    obtain ⟨rfl, ha, hs⟩ := h
    simp only [Process.turn]
    cases hb : (d'.bytes (place p.input))[got.length]? with
    | none =>
      have hl : (d'.bytes (place p.input)).length ≤ got.length := List.getElem?_eq_none_iff.1 hb
      rw [List.drop_eq_nil_of_le hl, List.append_nil] at hs
      refine ⟨⟨rfl, by rw [hs]⟩, ?_⟩
      simp only [Process.left]; omega
    | some b =>
      obtain ⟨hl, hv⟩ := List.getElem?_eq_some_iff.1 hb
      refine ⟨⟨rfl, ha, ?_⟩, ?_⟩
      · rw [hs, List.length_append, List.drop_eq_getElem_cons hl, hv, List.append_assoc]
        rfl
      · simp only [Process.left, List.length_append, List.length_cons, List.length_nil]; omega
  | decided plan =>
    obtain ⟨rfl, rfl⟩ := h
    simp only [Process.turn]
    cases hw : (p.plan src).write with
    | none =>
      refine ⟨⟨rfl, by unfold Process.final; rw [hw]⟩, by simp only [Process.left]; omega⟩
    | some w =>
      obtain ⟨path, bytes⟩ := w
      refine ⟨⟨rfl, path, bytes, [], hw, rfl, rfl, rfl⟩, ?_⟩
      simp only [Process.left, Plan.size, hw]
      omega
  | writing e n rest =>
    obtain ⟨rfl, path, bytes, done, hw, hb, rfl, rfl⟩ := h
    cases rest with
    | nil =>
      refine ⟨⟨rfl, ?_⟩, by simp only [Process.left, Process.turn]; omega⟩
      show d.store _ done = _
      unfold Process.final
      rw [hw]
      dsimp only
      rw [hb, List.append_nil]
    | cons b rest =>
      refine ⟨⟨rfl, path, bytes, done ++ [b], hw, by rw [hb]; simp, by simp, ?_⟩, ?_⟩
      · show (d.store _ done).store _ (putByte ((d.store _ done).bytes _) done.length b) = _
        rw [bytes_store, store_store, putByte_end]
      · simp only [Process.left, Process.turn, List.length_cons]; omega
  | ended e => exact ⟨h, by simp only [Process.left, Process.turn]; omega⟩

theorem go_reached {place : Str → Nat} {p : Process} {d : Disk} {src : Option ByteArray} : ∀ (n : Nat) {s : Stage} {d' : Disk},
    p.Reached place d src s d' → p.Reached place d src (p.go place n (s, d')).1 (p.go place n (s, d')).2 ∧
      p.left place d src (p.go place n (s, d')).1 ≤ p.left place d src s - n
  | 0, s, d', h => ⟨h, Nat.le_refl _⟩
  | n + 1, s, d', h => by
    obtain ⟨h1, h2⟩ := turn_reached h
    obtain ⟨g1, g2⟩ := go_reached n h1
    refine ⟨g1, Nat.le_trans g2 ?_⟩
    omega

theorem left_zero {place : Str → Nat} {p : Process} {d : Disk} {src : Option ByteArray} {s : Stage} (h : p.left place d src s = 0) :
    ∃ e, s = .ended e := by
  cases s with
  | ended e => exact ⟨e, rfl⟩
  | ready => simp only [Process.left] at h; omega
  | reading got => simp only [Process.left] at h; omega
  | decided plan => simp only [Process.left] at h; omega
  | writing e n rest => simp only [Process.left] at h; omega

/-- A run alone comes to its end. -/
theorem go_ends {place : Str → Nat} {p : Process} {d d' : Disk} {src : Option ByteArray} {s : Stage} (h : p.Reached place d src s d') {n : Nat}
    (hn : p.left place d src s ≤ n) : p.go place n (s, d') = (.ended (p.plan src).ending, p.final place d src) := by
  obtain ⟨h1, h2⟩ := go_reached n h
  obtain ⟨e, he⟩ := left_zero (Nat.eq_zero_of_le_zero (by omega : p.left place d src (p.go place n (s, d')).1 ≤ 0))
  rw [he] at h1
  obtain ⟨rfl, h3⟩ := h1
  exact Prod.ext he h3

/-- A run that has begun, and read some bytes. -/
theorem go_reads {place : Str → Nat} {p : Process} {d : Disk} {a : ByteArray} (h : d (place p.input) = some a) : ∀ n, n ≤ a.data.toList.length →
    p.go place (n + 1) (.ready, d) = (.reading (a.data.toList.take n), d)
  | 0, _ => by
    show p.turn place d .ready = _
    simp only [Process.turn]
    rw [h]
    rfl
  | n + 1, hn => by
    rw [go_add place p (n + 1) 1, go_reads h n (by omega)]
    show p.turn place d (.reading _) = _
    have hb : d.bytes (place p.input) = a.data.toList := by unfold Disk.bytes; rw [h]; rfl
    simp only [Process.turn]
    rw [hb, List.length_take, Nat.min_eq_left (by omega), List.getElem?_eq_getElem (by omega)]
    dsimp only
    rw [List.take_succ_eq_append_getElem (by omega)]

/-- A run that has read its whole input. -/
theorem go_decides {place : Str → Nat} {p : Process} {d : Disk} {a : ByteArray} (h : d (place p.input) = some a) :
    p.go place (a.data.toList.length + 1 + 1) (.ready, d) = (.decided (p.plan (some a)), d) := by
  rw [go_add place p (a.data.toList.length + 1) 1, go_reads h _ (Nat.le_refl _), List.take_length]
  show p.turn place d (.reading _) = _
  have hb : d.bytes (place p.input) = a.data.toList := by unfold Disk.bytes; rw [h]; rfl
  simp only [Process.turn]
  rw [hb, List.getElem?_eq_none (Nat.le_refl _)]

/-- Every run comes to the point where it knows what to do, and has changed nothing so far. -/
theorem go_decided (place : Str → Nat) (p : Process) (d : Disk) :
    ∃ n, p.go place n (.ready, d) = (.decided (p.plan (d (place p.input))), d) := by
  cases h : d (place p.input) with
  | some a => exact ⟨_, go_decides h⟩
  | none =>
    refine ⟨1, ?_⟩
    show p.turn place d .ready = _
    simp only [Process.turn]
    rw [h]

/-- Writing over a file. -/
theorem go_overwrites {place : Str → Nat} {p : Process} {e : Py CommandEnd} : ∀ (rest : List UInt8) {d : Disk} (pre post : List UInt8),
    p.go place (rest.length + 1) (.writing e pre.length rest, d.store (place p.output) (pre ++ post)) =
      (.ended e, d.store (place p.output) (pre ++ rest ++ post.drop rest.length))
  | [], d, pre, post => by
    show (Stage.ended e, _) = _
    simp
  | b :: rest, d, pre, post => by
    show p.go place (rest.length + 1) (p.turn place _ (.writing e pre.length (b :: rest))) = _
    simp only [Process.turn]
    rw [bytes_store, store_store, putByte_inside (by simp)]
    have h1 : (pre ++ post).take pre.length ++ b :: (pre ++ post).drop (pre.length + 1) = (pre ++ [b]) ++ post.drop 1 := by
      rw [List.take_left, List.drop_append, List.drop_eq_nil_of_le (by omega : pre.length ≤ pre.length + 1)]
      simp
    have h2 : pre.length + 1 = (pre ++ [b]).length := by simp
    rw [h1, h2, go_overwrites rest (pre ++ [b]) (post.drop 1)]
    simp

end ReqIF
