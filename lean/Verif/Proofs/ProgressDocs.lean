import Verif.Proofs.Progress
/-! Progress of the parser, the unparser and the archive functions. -/
namespace ReqIF
open Spec

variable {σ α β : Type}

/-- Result of a container without callback. -/
def containerResult (content : Node) (tag : Str) (body : β → Node → Py β) (init : β) : Py (Option β) :=
  match content.find tag with
  | none => .ok none
  | some x =>
    match foldPy body init x.children with
    | .error e => .error e
    | .ok b => .ok (some b)

/-- The calls of one section until it fails. -/
def sectionUntil (x : Str × List Bool) : List Call :=
  callsUpTo x.1 (x.2.takeWhile (fun o => o)).length x.2.length

theorem parseContainer_traced {body : β → Node → Py β} {tag : Str}
    (h : ∀ b x, (body b x).isOk = itemParses tag x) (content : Node) (init : β) :
    Traced (fun p : Option (Callback σ) => parseContainer p content tag body init)
      (containerResult content tag body init)
      (sectionUntil (tag, (itemsOf content tag).map (itemParses tag))) := by
  unfold parseContainer containerResult sectionUntil itemsOf
  cases content.find tag with
  | none => exact Traced.pure none
  | some x =>
    dsimp only
    have h1 := Traced.loop (σ := σ) h tag init x.children
    cases hf : foldPy body init x.children with
    | error e => rw [hf] at h1; exact h1.bind_error
    | ok b =>
      rw [hf] at h1
      have := h1.bind_ok (f := fun _ b => M.pure (some b)) (Traced.pure (some b))
      rwa [List.append_nil] at this

theorem containerResult_isOk {body : β → Node → Py β} {tag : Str}
    (h : ∀ b x, (body b x).isOk = itemParses tag x) (content : Node) (init : β) :
    (containerResult content tag body init).isOk = ((itemsOf content tag).map (itemParses tag)).all (fun o => o) := by
  unfold containerResult itemsOf
  cases content.find tag with
  | none => rfl
  | some x =>
    dsimp only
    have h1 := foldPy_isOk h init x.children
    rw [List.all_map]
    rw [show ((fun o => o) ∘ itemParses tag) = itemParses tag from rfl, ← h1]
    cases foldPy body init x.children <;> rfl

/-- `m` gives some result, and its callback gets exactly `calls`. -/
def Traces (m : Option (Callback σ) → M σ α) (calls : List Call) : Prop := ∃ r, Traced m r calls

theorem Traces.pure (a : α) : Traces (fun _ => (M.pure a : M σ α)) [] := ⟨_, Traced.pure a⟩

/-- `m` works through these sections: it succeeds when all items do, and its callback
gets the calls until the first failing item. -/
def TracesSec (m : Option (Callback σ) → M σ α) (secs : List (Str × List Bool)) : Prop :=
  ∃ r, Traced m r (callsUntilFailure secs) ∧ r.isOk = secs.all (fun x => x.2.all (fun o => o))

theorem TracesSec.pure (a : α) : TracesSec (fun _ => (M.pure a : M σ α)) [] := ⟨_, Traced.pure a, rfl⟩

theorem TracesSec.traces {m : Option (Callback σ) → M σ α} {secs : List (Str × List Bool)}
    (h : TracesSec m secs) : Traces m (callsUntilFailure secs) := ⟨h.choose, h.choose_spec.1⟩

/-- One more section in front: `m` runs the section, `f` the rest. -/
theorem Traced.section {m : Option (Callback σ) → M σ α} {f : Option (Callback σ) → α → M σ β}
    {r : Py α} {sec : Str × List Bool} {rest : List (Str × List Bool)}
    (h1 : Traced m r (sectionUntil sec)) (hok : r.isOk = sec.2.all (fun o => o))
    (h2 : ∀ a, TracesSec (fun p => f p a) rest) :
    TracesSec (fun p => M.bind (m p) (f p)) (sec :: rest) := by
  obtain ⟨tag, l⟩ := sec
  cases r with
  | error e =>
    refine ⟨.error e, ?_, ?_⟩
    · rw [callsUntilFailure_error hok.symm]
      exact h1.bind_error
    · rw [List.all_cons, ← hok]; rfl
  | ok a =>
    obtain ⟨r', h', h''⟩ := h2 a
    refine ⟨r', ?_, ?_⟩
    · rw [callsUntilFailure_ok hok.symm]
      exact h1.bind_ok h'
    · rw [List.all_cons, ← hok, h'']; rfl

theorem dataTypeStep_isOk (b : List DataType × Dict Str DataType) (x : Node) :
    (dataTypeStep b x).isOk = itemParses c!"DATATYPES" x := by
  have : itemParses c!"DATATYPES" x = (parseDataType x).isOk := rfl
  rw [this, dataTypeStep]
  cases parseDataType x <;> rfl

theorem specTypeStep_isOk (b : List SpecType × Dict Str SpecType) (x : Node) :
    (specTypeStep b x).isOk = itemParses c!"SPEC-TYPES" x := by
  have : itemParses c!"SPEC-TYPES" x = (parseSpecType x).isOk := rfl
  rw [this, specTypeStep]
  cases parseSpecType x with
  | error e => rfl
  | ok o => cases o <;> rfl

theorem specificationStep_isOk (b : List Specification) (x : Node) :
    (specificationStep b x).isOk = itemParses c!"SPECIFICATIONS" x := by
  have : itemParses c!"SPECIFICATIONS" x = (parseSpecification x).isOk := rfl
  rw [this, specificationStep]
  cases parseSpecification x <;> rfl

theorem relationStep_isOk (b : RelationAcc) (x : Node) :
    (relationStep b x).isOk = itemParses c!"SPEC-RELATIONS" x := by
  have : itemParses c!"SPEC-RELATIONS" x =
    match parseSpecRelation x with
    | .ok (.ok _) => true
    | .ok (.error e) => (stringifyNode false e.node).isOk
    | .error _ => false := rfl
  rw [this, relationStep]
  cases parseSpecRelation x with
  | error e => rfl
  | ok o =>
    cases o with
    | ok r => rfl
    | error e =>
      show ((stringifyNode false e.node >>= _ : Py _)).isOk = (stringifyNode false e.node).isOk
      cases stringifyNode false e.node <;> rfl

theorem specObjectStep_isOk (b : List SpecObject × Dict Str SpecObject) (x : Node) :
    (specObjectStep b x).isOk = itemParses c!"SPEC-OBJECTS" x := by
  have : itemParses c!"SPEC-OBJECTS" x = (isCommentNode x || (parseSpecObject x).isOk) := rfl
  rw [this, specObjectStep]
  cases isCommentNode x with
  | true => rfl
  | false =>
    simp only [Bool.false_eq_true, if_false, Bool.false_or]
    cases parseSpecObject x <;> rfl

theorem relationGroupStep_isOk (b : List RelationGroup) (x : Node) :
    (relationGroupStep b x).isOk = itemParses c!"SPEC-RELATION-GROUPS" x := by
  have : itemParses c!"SPEC-RELATION-GROUPS" x = (parseRelationGroup x).isOk := rfl
  rw [this, relationGroupStep]
  cases parseRelationGroup x <;> rfl

theorem parseContent_traced (x : Node) :
    TracesSec (fun p : Option (Callback σ) => parseContent p x) (parseSections x) :=
  Traced.section (parseContainer_traced dataTypeStep_isOk x _) (containerResult_isOk dataTypeStep_isOk x _) fun _ =>
  Traced.section (parseContainer_traced specTypeStep_isOk x _) (containerResult_isOk specTypeStep_isOk x _) fun _ =>
  Traced.section (parseContainer_traced specificationStep_isOk x _) (containerResult_isOk specificationStep_isOk x _) fun _ =>
  Traced.section (parseContainer_traced relationStep_isOk x _) (containerResult_isOk relationStep_isOk x _) fun _ =>
  Traced.section (parseContainer_traced specObjectStep_isOk x _) (containerResult_isOk specObjectStep_isOk x _) fun _ =>
  Traced.section (parseContainer_traced relationGroupStep_isOk x _) (containerResult_isOk relationGroupStep_isOk x _) fun _ =>
  TracesSec.pure _

/-- Put something without calls before or after. -/
theorem Traces.lift_bind {r : Py α} {f : Option (Callback σ) → α → M σ β} {calls : List Call}
    (h : ∀ a, r = .ok a → Traces (fun p => f p a) calls) :
    Traces (fun p => M.bind (M.lift r) (f p)) (if r.isOk then calls else []) := by
  cases r with
  | error e => exact ⟨_, (Traced.lift (.error e)).bind_error⟩
  | ok a =>
    obtain ⟨r', h'⟩ := h a rfl
    exact ⟨_, (Traced.lift (.ok a)).bind_ok h'⟩

theorem Traces.bind_pure {m : Option (Callback σ) → M σ α} {f : α → β} {calls : List Call}
    (h : Traces m calls) : Traces (fun p => M.bind (m p) (fun a => M.pure (f a))) calls := by
  obtain ⟨r, h⟩ := h
  cases r with
  | error e => exact ⟨_, h.bind_error⟩
  | ok a =>
    have := h.bind_ok (f := fun _ a => M.pure (f a)) (Traced.pure (f a))
    rw [List.append_nil] at this
    exact ⟨_, this⟩

theorem parseCore_traced (root : Node) :
    Traces (fun p : Option (Callback σ) => parseCore p root)
      (match contentOf root with
       | none => []
       | some x => callsUntilFailure (parseSections x)) := by
  unfold parseCore contentOf
  cases root.find c!"CORE-CONTENT" with
  | none => exact Traces.pure _
  | some c =>
    simp only [Option.bind_some]
    cases c.find c!"REQ-IF-CONTENT" with
    | none => exact Traces.pure _
    | some x => exact Traces.bind_pure (parseContent_traced x).traces

/-! ## Unparsing -/

theorem printStep_isOk (f : α → Py Str) (out : Str) (x : α) : (printStep f out x).isOk = (f x).isOk := by
  unfold printStep
  cases f x <;> rfl

theorem unparseContainer_traced (tag : Str) (f : α → Py Str) (items : Option (List α)) :
    ∃ r, Traced (fun p : Option (Callback σ) => unparseContainer p tag f items) r
        (sectionUntil (tag, (items.getD []).map (fun x => (f x).isOk))) ∧
      r.isOk = ((items.getD []).map (fun x => (f x).isOk)).all (fun o => o) := by
  unfold unparseContainer
  cases items with
  | none => exact ⟨_, Traced.pure _, rfl⟩
  | some xs =>
    simp only [Option.getD_some]
    have h1 := Traced.loop (σ := σ) (printStep_isOk f) tag [] xs
    have h2 := foldPy_isOk (printStep_isOk f) [] xs
    rw [List.all_map, show ((fun o => o) ∘ fun x => (f x).isOk) = (fun x => (f x).isOk) from rfl, ← h2]
    cases hf : foldPy (printStep f) [] xs with
    | error e => rw [hf] at h1; exact ⟨_, h1.bind_error, rfl⟩
    | ok b =>
      rw [hf] at h1
      have := h1.bind_ok (f := fun _ body => M.pure (lineOpen 6 tag ++ body ++ lineClose 6 tag)) (Traced.pure _)
      rw [List.append_nil] at this
      exact ⟨_, this, rfl⟩

theorem unparseContainer_section (tag : Str) (f : α → Py Str) (items : Option (List α))
    {g : Option (Callback σ) → Str → M σ β} {rest : List (Str × List Bool)}
    (h : ∀ a, TracesSec (fun p => g p a) rest) :
    TracesSec (fun p => M.bind (unparseContainer p tag f items) (g p))
      ((tag, (items.getD []).map (fun x => (f x).isOk)) :: rest) := by
  obtain ⟨r, h1, h2⟩ := unparseContainer_traced (σ := σ) tag f items
  exact Traced.section h1 h2 h

theorem unparseContent_traced (c : Content) :
    TracesSec (fun p : Option (Callback σ) => unparseContent p c) (printSections c) :=
  unparseContainer_section _ _ _ fun _ =>
  unparseContainer_section _ _ _ fun _ =>
  unparseContainer_section _ _ _ fun _ =>
  unparseContainer_section _ _ _ fun _ =>
  unparseContainer_section _ _ _ fun _ =>
  unparseContainer_section _ _ _ fun _ =>
  TracesSec.pure _

theorem unparseCore_traced (c : Option (Option Content)) :
    Traces (fun p : Option (Callback σ) => unparseCore p c)
      (match c with
       | some (some c) => callsUntilFailure (printSections c)
       | _ => []) := by
  match c with
  | none => exact Traces.pure _
  | some none => exact Traces.pure _
  | some (some c) => exact Traces.bind_pure (unparseContent_traced c).traces

/-! ## Success with any callback -/

theorem parseContainer_ok (body : β → Node → Py β) (tag : Str) (content : Node) (init : β) :
    TracedOk (fun p : Option (Callback σ) => parseContainer p content tag body init)
      (sectionCalls tag (itemsOf content tag).length) := by
  unfold parseContainer itemsOf
  cases content.find tag with
  | none => exact TracedOk.pure _
  | some x =>
    have := (TracedOk.loop (σ := σ) body tag init x.children).bind
      (f := fun _ b => M.pure (some b)) (fun b => TracedOk.pure _)
    rwa [List.append_nil] at this

theorem parseContent_ok (x : Node) :
    TracedOk (fun p : Option (Callback σ) => parseContent p x) (contentCalls x) :=
  (parseContainer_ok dataTypeStep _ x _).bind fun _ =>
  (parseContainer_ok specTypeStep _ x _).bind fun _ =>
  (parseContainer_ok specificationStep _ x _).bind fun _ =>
  (parseContainer_ok relationStep _ x _).bind fun _ =>
  (parseContainer_ok specObjectStep _ x _).bind fun _ =>
  (parseContainer_ok relationGroupStep _ x _).bind fun _ =>
  TracedOk.pure _

theorem TracedOk.bind_pure {m : Option (Callback σ) → M σ α} {f : α → β} {calls : List Call}
    (h : TracedOk m calls) : TracedOk (fun p => M.bind (m p) (fun a => M.pure (f a))) calls := by
  have := h.bind (f := fun _ a => M.pure (f a)) (fun a => TracedOk.pure _)
  rwa [List.append_nil] at this

theorem TracedOk.lift_bind {r : Py α} {f : Option (Callback σ) → α → M σ β} {calls : List Call}
    (h : ∀ a, r = .ok a → TracedOk (fun p => f p a) calls) :
    TracedOk (fun p => M.bind (M.lift r) (f p)) calls := by
  cases r with
  | error e => intro p s a s' h'; simp [M.bind] at h'
  | ok a => exact h a rfl

theorem parseCore_ok (root : Node) :
    TracedOk (fun p : Option (Callback σ) => parseCore p root) (docCalls root) := by
  unfold parseCore docCalls contentOf
  cases root.find c!"CORE-CONTENT" with
  | none => exact TracedOk.pure _
  | some c =>
    simp only [Option.bind_some]
    cases c.find c!"REQ-IF-CONTENT" with
    | none => exact TracedOk.pure _
    | some x => exact TracedOk.bind_pure (parseContent_ok x)

theorem unparseContainer_ok (tag : Str) (f : α → Py Str) (items : Option (List α)) :
    TracedOk (fun p : Option (Callback σ) => unparseContainer p tag f items)
      (sectionCalls tag (items.getD []).length) := by
  unfold unparseContainer
  cases items with
  | none => exact TracedOk.pure _
  | some xs => exact TracedOk.bind_pure (TracedOk.loop (printStep f) tag [] xs)

theorem unparseContent_ok (c : Content) :
    TracedOk (fun p : Option (Callback σ) => unparseContent p c) (printCalls c) := by
  have h : TracedOk (fun p : Option (Callback σ) => unparseContent p c) _ :=
    (unparseContainer_ok _ _ _).bind fun _ =>
    (unparseContainer_ok _ _ _).bind fun _ =>
    (unparseContainer_ok _ _ _).bind fun _ =>
    (unparseContainer_ok _ _ _).bind fun _ =>
    (unparseContainer_ok _ _ _).bind fun _ =>
    (unparseContainer_ok _ _ _).bind fun _ =>
    TracedOk.pure _
  simpa [printCalls] using h

theorem unparseM_ok (b : Bundle) :
    TracedOk (fun p : Option (Callback σ) => unparseM p b) (bundleCalls b) := by
  unfold unparseM bundleCalls
  refine TracedOk.lift_bind fun _ _ => TracedOk.lift_bind fun _ _ => TracedOk.bind_pure ?_
  match b.coreContent with
  | none => exact TracedOk.pure _
  | some none => exact TracedOk.pure _
  | some (some c) => exact TracedOk.bind_pure (unparseContent_ok c)

/-! ## Archives -/

/-- Calls for members `k+1 ..`. -/
def memberCallsFrom (total : Nat) : Nat → List Str → List Call
  | _, [] => []
  | k, n :: ns => ⟨n, k + 1, total⟩ :: memberCallsFrom total (k + 1) ns

theorem memberCallsFrom_eq (total k : Nat) (names : List Str) :
    memberCallsFrom total k names = (names.zipIdx k).map (fun p => ⟨p.1, p.2 + 1, total⟩) := by
  induction names generalizing k with
  | nil => rfl
  | cons n ns ih => simp [memberCallsFrom, ih]

theorem memberCallsFrom_append (total k : Nat) (a b : List Str) :
    memberCallsFrom total k (a ++ b) = memberCallsFrom total k a ++ memberCallsFrom total (k + a.length) b := by
  induction a generalizing k with
  | nil => simp [memberCallsFrom]
  | cons n ns ih => simp [memberCallsFrom, ih, Nat.add_assoc, Nat.add_comm 1]

theorem notify_traced (sec : Str) (done total : Nat) :
    Traced (fun p : Option (Callback σ) => notify p sec done total) (.ok ()) [⟨sec, done, total⟩] := by
  constructor
  · intro s; rfl
  · intro p hp s
    have h := hp sec done total s
    show p sec done total s = _
    rw [Prod.ext_iff]
    exact ⟨h, rfl⟩

theorem notify_ok (sec : Str) (done total : Nat) :
    TracedOk (fun p : Option (Callback σ) => notify p sec done total) [⟨sec, done, total⟩] := by
  intro p s a s' h
  have h : p sec done total s = (.ok a, s') := h
  exact ⟨fun t => rfl, by simp [runCalls, h]⟩

theorem memberStep_isOk (ar : Archive) (acc : ZBundle) (name : Str) :
    (memberStep ar acc name).isOk = memberReads ar name := by
  unfold memberReads memberStep
  cases readMember ar name with
  | error e => rfl
  | ok bytes =>
    dsimp only
    cases isReqifName name with
    | false => rfl
    | true =>
      simp only [if_true]
      cases decodeUtf8 bytes with
      | error e => rfl
      | ok s =>
        dsimp only
        cases parseString s <;> rfl

theorem membersLoop_traced (ar : Archive) (total k : Nat) (acc : ZBundle) (names : List Str) :
    Traces (fun p : Option (Callback σ) => membersLoop p ar total k acc names)
      (memberCallsFrom total k (names.takeWhile (memberReads ar))) := by
  induction names generalizing k acc with
  | nil => exact Traces.pure _
  | cons n ns ih =>
    have hs := memberStep_isOk ar acc n
    have : Traces (fun p : Option (Callback σ) => membersLoop p ar total k acc (n :: ns)) _ :=
      Traces.lift_bind (r := memberStep ar acc n)
        (calls := ⟨n, k + 1, total⟩ :: memberCallsFrom total (k + 1) (ns.takeWhile (memberReads ar))) fun a _ => by
        obtain ⟨r, hr⟩ := ih (k + 1) a
        exact ⟨_, (notify_traced n (k + 1) total).bind_ok (f := fun p _ => membersLoop p ar total (k + 1) a ns) hr⟩
    rw [hs] at this
    rw [List.takeWhile_cons]
    cases hm : memberReads ar n with
    | true => rw [hm] at this; exact this
    | false => rw [hm] at this; exact this

theorem membersLoop_ok (ar : Archive) (total k : Nat) (acc : ZBundle) (names : List Str) :
    TracedOk (fun p : Option (Callback σ) => membersLoop p ar total k acc names)
      (memberCallsFrom total k names) := by
  induction names generalizing k acc with
  | nil => exact TracedOk.pure _
  | cons n ns ih =>
    exact TracedOk.lift_bind fun a _ => (notify_ok n (k + 1) total).bind fun _ => ih (k + 1) a

theorem Traces.wrapZ {m : Option (Callback σ) → M σ α} {calls : List Call} (h : Traces m calls) :
    Traces (fun p => ReqIF.wrapZ (m p)) calls := by
  obtain ⟨r, h⟩ := h
  refine ⟨match r with | .ok a => .ok a | .error _ => .error .reqifz, ?_, ?_⟩
  · intro s
    simp only [ReqIF.wrapZ, h.1 s]
    cases r <;> rfl
  · intro p hp s
    simp only [ReqIF.wrapZ, h.2 p hp s]
    cases r <;> rfl

theorem TracedOk.wrapZ {m : Option (Callback σ) → M σ α} {calls : List Call} (h : TracedOk m calls) :
    TracedOk (fun p => ReqIF.wrapZ (m p)) calls := by
  intro p s a s' h'
  simp only [ReqIF.wrapZ] at h' ⊢
  cases hm : m (some p) s with
  | mk r t =>
    rw [hm] at h'
    cases r with
    | error e => simp at h'
    | ok b =>
      simp only [Prod.mk.injEq, Except.ok.injEq] at h'
      obtain ⟨rfl, rfl⟩ := h'
      obtain ⟨h1, h2⟩ := h p s b t hm
      exact ⟨fun t => by simp [h1 t], h2⟩

theorem writeLoop_traced (total : Nat) (f : α → Py ByteArray) (k : Nat) (out : List (Str × ByteArray))
    (xs : Dict Str α) :
    ∃ r, Traced (fun p : Option (Callback σ) => writeLoop p total f k out xs) r
        (memberCallsFrom total k ((xs.takeWhile (fun x => (f x.2).isOk)).map (·.1))) ∧
      r.isOk = xs.all (fun x => (f x.2).isOk) ∧ (∀ a, r = .ok a → a.2 = k + xs.length) := by
  induction xs generalizing k out with
  | nil => exact ⟨_, Traced.pure _, rfl, by rintro a ⟨⟩; rfl⟩
  | cons x xs ih =>
    obtain ⟨n, x⟩ := x
    simp only [writeLoop, List.takeWhile_cons, List.all_cons]
    cases hf : f x with
    | error e =>
      exact ⟨_, (Traced.lift (.error e)).bind_error, rfl, by rintro a ⟨⟩⟩
    | ok bytes =>
      obtain ⟨r, hr, h2, h3⟩ := ih (k + 1) (out ++ [(n, bytes)])
      refine ⟨r, ?_, ?_, ?_⟩
      · exact (Traced.lift (.ok bytes)).bind_ok ((notify_traced n (k + 1) total).bind_ok hr)
      · rw [h2]; rfl
      · intro a ha
        rw [h3 a ha, List.length_cons]; omega

end ReqIF
