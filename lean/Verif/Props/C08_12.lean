import Verif.Proofs.ProgressDocs
/-!
# C08-C12: progress callbacks
-/
namespace ReqIF
open Spec

variable {σ : Type}

theorem find_of_len_zero {n : Node} (h : n.len = 0) (t : Str) : n.find t = none := by
  have h : n.children = [] := List.length_eq_zero_iff.mp h
  unfold Node.find
  rw [List.find?_eq_none]
  intro x hx hb
  simp only [Bool.and_eq_true] at hb
  have : x ∈ n.children := List.mem_filter.mpr ⟨hx, hb.1⟩
  rw [h] at this
  cases this

/-- **C08.** When parsing succeeds, with any callback (whatever state it keeps), the
callback got exactly one call per direct child of each container present, numbered
1..n within the container, containers in parsing order, and no other call.  The
containers are those of the document's root after the parser removed the default
namespace. -/
theorem C08_parse_calls (p : Callback σ) (text : Str) (s s' : σ) (b : Bundle)
    (h : parseFromString (some p) text s = (.ok b, s')) :
    ∃ d root, readDoc text = some d ∧ strippedRoot d.root = .ok root ∧
      s' = runCalls p (docCalls root) s := by
  unfold parseFromString at h
  split at h
  · simp [M.lift] at h
  · cases hd : readDoc text with
    | none => rw [hd] at h; simp [M.lift] at h
    | some d =>
      rw [hd] at h
      dsimp only at h
      obtain ⟨root, s1, h1, h2⟩ := M.bind_inv h
      simp only [M.lift, Prod.mk.injEq] at h1
      obtain ⟨hr, rfl⟩ := h1
      refine ⟨d, root, rfl, hr, ?_⟩
      split at h2
      · split at h2
        · rename_i hl
          simp only [M.pure, Prod.mk.injEq] at h2
          rw [← h2.2, docCalls, contentOf, find_of_len_zero hl]
          rfl
        · obtain ⟨hdr, s2, h3, h4⟩ := M.bind_inv h2
          simp only [M.lift, Prod.mk.injEq] at h3
          obtain ⟨_, rfl⟩ := h3
          obtain ⟨r, s3, h5, h6⟩ := M.bind_inv h4
          simp only [M.pure, Prod.mk.injEq] at h6
          rw [← h6.2]
          exact (parseCore_ok root p s r s3 h5).2
      · simp [M.lift] at h2

/-- The recorded calls, newest first. -/
theorem runCalls_recorder (calls log : List Call) :
    runCalls recorder calls log = calls.reverse ++ log := by
  induction calls generalizing log with
  | nil => rfl
  | cons c cs ih => simp [runCalls, recorder, ih]

/-- **C08**, for the callback that records its calls. -/
theorem C08_recorded (text : Str) (log : List Call) (b : Bundle)
    (h : parseFromString (some recorder) text [] = (.ok b, log)) :
    ∃ d root, readDoc text = some d ∧ strippedRoot d.root = .ok root ∧ log.reverse = docCalls root := by
  obtain ⟨d, root, h1, h2, h3⟩ := C08_parse_calls _ _ _ _ _ h
  refine ⟨d, root, h1, h2, ?_⟩
  rw [h3, runCalls_recorder, List.append_nil, List.reverse_reverse]

theorem parse_traces (text : Str) :
    ∃ calls, Traces (fun p : Option (Callback σ) => parseFromString p text) calls := by
  unfold parseFromString
  split
  · exact ⟨_, _, Traced.lift _⟩
  · cases readDoc text with
    | none => exact ⟨_, _, Traced.lift _⟩
    | some d =>
      refine ⟨_, Traces.lift_bind (calls :=
        match strippedRoot d.root with
        | .error _ => []
        | .ok root =>
          if root.tag = .name c!"REQ-IF" ∧ root.len ≠ 0 then
            if (optPy parseHeader (root.find c!"THE-HEADER")).isOk then
              (match contentOf root with
               | none => []
               | some x => callsUntilFailure (parseSections x))
            else []
          else []) fun root hroot => ?_⟩
      rw [hroot]
      dsimp only
      by_cases h1 : root.tag = .name c!"REQ-IF"
      · simp only [if_pos h1]
        by_cases h2 : root.len = 0
        · simp only [h2, ne_eq, not_true_eq_false, and_false, if_false]
          exact Traces.pure _
        · simp only [h1, ne_eq, h2, not_false_iff, and_self, if_true]
          exact Traces.lift_bind fun hdr _ => Traces.bind_pure (parseCore_traced root)
      · simp only [h1, false_and, if_false]
        exact ⟨_, Traced.lift _⟩

theorem unparseM_traced (b : Bundle) :
    Traces (fun p : Option (Callback σ) => unparseM p b)
      (if (unparseNamespaceInfo b.namespaceInfo).isOk then
        if (optPy unparseHeader b.header).isOk then
          (match b.coreContent with
           | some (some c) => callsUntilFailure (printSections c)
           | _ => [])
        else []
      else []) :=
  Traces.lift_bind fun _ _ => Traces.lift_bind fun _ _ => Traces.bind_pure (unparseCore_traced b.coreContent)

theorem parseZ_traced (opened : Py Archive) :
    Traces (fun p : Option (Callback σ) => parseZ p opened)
      (match opened with
       | .error _ => []
       | .ok ar => memberCallsFrom ar.length 0 ((ar.map (·.1)).takeWhile (memberReads ar))) := by
  refine Traces.wrapZ ?_
  cases opened with
  | error e => exact ⟨_, (Traced.lift _).bind_error⟩
  | ok ar =>
    obtain ⟨r, hr⟩ := membersLoop_traced (σ := σ) ar ar.length 0 ⟨[], []⟩ (ar.map (·.1))
    exact ⟨_, (Traced.lift (.ok ar)).bind_ok hr⟩

/-- The written members until a bundle cannot be printed. -/
def writtenNames (z : ZBundle) : List Str :=
  if z.reqifBundles.all (fun x => (unparse x.2).isOk) then
    z.reqifBundles.map (·.1) ++ z.attachments.map (·.1)
  else (z.reqifBundles.takeWhile (fun x => (unparse x.2).isOk)).map (·.1)

theorem bundleBytes_isOk (b : Bundle) : (bundleBytes b).isOk = (unparse b).isOk := by
  unfold bundleBytes
  cases unparse b <;> rfl

theorem takeWhile_all {α : Type} {f : α → Bool} {l : List α} (h : l.all f = true) : l.takeWhile f = l := by
  induction l with
  | nil => rfl
  | cons x xs ih => simp only [List.all_cons, Bool.and_eq_true] at h; simp [h.1, ih h.2]

theorem takeWhile_true {α : Type} (l : List α) : l.takeWhile (fun _ => true) = l := by
  induction l with
  | nil => rfl
  | cons x xs ih => simp [ih]

theorem unparseZ_traced (z : ZBundle) :
    Traces (fun p : Option (Callback σ) => unparseZ p z)
      (memberCallsFrom (z.reqifBundles.length + z.attachments.length) 0 (writtenNames z)) := by
  obtain ⟨r, h1, h2, h3⟩ := writeLoop_traced (σ := σ) (z.reqifBundles.length + z.attachments.length)
    bundleBytes 0 [] z.reqifBundles
  simp only [bundleBytes_isOk] at h1 h2
  unfold writtenNames unparseZ
  cases r with
  | error e =>
    rw [if_neg (by rw [← h2]; simp [Except.isOk, Except.toBool])]
    exact ⟨_, h1.bind_error⟩
  | ok a =>
    have hall : (z.reqifBundles.all fun x => (unparse x.2).isOk) = true := h2.symm
    rw [if_pos hall, memberCallsFrom_append]
    obtain ⟨r', h4, -, -⟩ := writeLoop_traced (σ := σ) (z.reqifBundles.length + z.attachments.length)
      .ok a.2 a.1 z.attachments
    have ht : z.reqifBundles.takeWhile (fun x => (unparse x.2).isOk) = z.reqifBundles := by
      exact takeWhile_all hall
    rw [ht] at h1
    rw [h3 a rfl] at h4
    have ht2 : z.attachments.takeWhile (fun x => (Except.ok x.2 : Py ByteArray).isOk) = z.attachments :=
      takeWhile_true _
    rw [ht2] at h4
    obtain ⟨r'', h5⟩ := Traces.bind_pure (f := fun r : List (Str × ByteArray) × Nat => r.1) ⟨r', h4⟩
    refine ⟨r'', h1.bind_ok ?_⟩
    rw [List.length_map]
    rw [h3 a rfl]
    exact h5

theorem Traces.same_result {α : Type} {m : Option (Callback σ) → M σ α} {calls : List Call} (h : Traces m calls)
    {p : Callback σ} (hp : NonRaising p) (s t : σ) : (m (some p) s).1 = (m none t).1 := by
  obtain ⟨r, h1, h2⟩ := h
  rw [h1 t, h2 p hp s]

/-- **C09.** A callback that does not raise never changes the result (value or
exception) of parsing or unparsing, whatever its state. -/
theorem C09_transparent (p : Callback σ) (hp : NonRaising p) (s t : σ) :
    (∀ text, (parseFromString (some p) text s).1 = (parseFromString none text t).1) ∧
    (∀ b, (unparseM (some p) b s).1 = (unparseM none b t).1) ∧
    (∀ opened, (parseZ (some p) opened s).1 = (parseZ none opened t).1) ∧
    (∀ z, (unparseZ (some p) z s).1 = (unparseZ none z t).1) := by
  refine ⟨fun text => ?_, fun b => ?_, fun o => ?_, fun z => ?_⟩
  · obtain ⟨_, h⟩ := parse_traces (σ := σ) text
    exact h.same_result hp s t
  · exact (unparseM_traced b).same_result hp s t
  · exact (parseZ_traced o).same_result hp s t
  · exact (unparseZ_traced z).same_result hp s t

/-- **C10.** When unparsing succeeds, with any callback, the callback got one call per
item of each printed container, in printing order, and no other call. -/
theorem C10_unparse_calls (p : Callback σ) (b : Bundle) (s s' : σ) (text : Str)
    (h : unparseM (some p) b s = (.ok text, s')) : s' = runCalls p (bundleCalls b) s :=
  (unparseM_ok b p s text s' h).2

theorem callsUntilFailure_at {before after : List (Str × List Bool)} {sec : Str} {done rest : List Bool}
    (h1 : ∀ x ∈ before, x.2.all (fun o => o) = true) (h2 : done.all (fun o => o) = true) :
    callsUntilFailure (before ++ (sec, done ++ false :: rest) :: after) =
      before.flatMap (fun x => sectionCalls x.1 x.2.length) ++
        callsUpTo sec done.length (done.length + rest.length + 1) := by
  induction before with
  | nil =>
    simp only [List.nil_append, List.flatMap_nil]
    rw [callsUntilFailure_error (by simp)]
    rw [List.takeWhile_append_of_pos (by simpa using h2)]
    simp [Nat.add_assoc]
  | cons x xs ih =>
    obtain ⟨s, l⟩ := x
    rw [List.cons_append, callsUntilFailure_ok (h1 (s, l) (by simp)), ih (fun x hx => h1 x (by simp [hx])),
      takeWhile_of_all (h1 (s, l) (by simp))]
    simp [sectionCalls]

/-- **C11.** If the first child that cannot be parsed is `bad`, in the container `tag`,
parsing fails and the callback got exactly the calls for all children of the
containers before and for the children before `bad` in its container. -/
theorem C11_calls_on_failure (p : Callback σ) (hp : NonRaising p) (text : Str) (d : Doc) (root content : Node)
    (before after : List Str) (tag : Str) (done rest : List Node) (bad : Node) (s : σ)
    (hread : readDoc text = some d) (hroot : strippedRoot d.root = .ok root)
    (htag : root.tag = .name c!"REQ-IF")
    (hheader : ∀ h, root.find c!"THE-HEADER" = some h → (parseHeader h).isOk = true)
    (hcontent : contentOf root = some content)
    (horder : parseOrder = before ++ tag :: after)
    (hbefore : ∀ t ∈ before, ∀ x ∈ itemsOf content t, itemParses t x = true)
    (hitems : itemsOf content tag = done ++ bad :: rest)
    (hdone : ∀ x ∈ done, itemParses tag x = true)
    (hbad : itemParses tag bad = false) :
    ∃ e, parseFromString (some p) text s =
      (.error e,
       runCalls p (before.flatMap (fun t => sectionCalls t (itemsOf content t).length) ++
         callsUpTo tag done.length (itemsOf content tag).length) s) := by
  have hlen : root.len ≠ 0 := by
    intro h0
    rw [contentOf, find_of_len_zero h0] at hcontent
    cases hcontent
  have hne : text.length ≠ 0 := by
    intro h0
    rw [List.length_eq_zero_iff.mp h0] at hread
    cases hread
  have hhdr : ∃ o, optPy parseHeader (root.find c!"THE-HEADER") = .ok o := by
    cases hf : root.find c!"THE-HEADER" with
    | none => exact ⟨none, rfl⟩
    | some h =>
      have := hheader h hf
      cases hp : parseHeader h with
      | error e => rw [hp] at this; cases this
      | ok x => exact ⟨some x, by simp [optPy, hp]⟩
  obtain ⟨hdr, hhdr⟩ := hhdr
  have hsec : parseSections content =
      before.map (fun t => (t, (itemsOf content t).map (itemParses t))) ++
        (tag, done.map (itemParses tag) ++ false :: rest.map (itemParses tag)) ::
          after.map (fun t => (t, (itemsOf content t).map (itemParses t))) := by
    rw [parseSections, horder, List.map_append, List.map_cons, hitems, List.map_append, List.map_cons, hbad]
  have hcalls := callsUntilFailure_at (before := before.map (fun t => (t, (itemsOf content t).map (itemParses t))))
    (after := after.map (fun t => (t, (itemsOf content t).map (itemParses t)))) (sec := tag)
    (done := done.map (itemParses tag)) (rest := rest.map (itemParses tag))
    (by simpa using hbefore) (by simpa using hdone)
  rw [← hsec] at hcalls
  obtain ⟨r, hr, hrok⟩ := parseContent_traced (σ := σ) content
  rw [hcalls] at hr
  simp only [List.flatMap_map, List.length_map] at hr
  have hrbad : r.isOk = false := by
    rw [hrok, hsec]
    simp
  cases r with
  | ok a => cases hrbad
  | error e =>
    refine ⟨e, ?_⟩
    have hlenItems : (itemsOf content tag).length = done.length + rest.length + 1 := by
      rw [hitems]; simp [Nat.add_assoc]
    rw [hlenItems]
    unfold contentOf at hcontent
    cases hcc : root.find c!"CORE-CONTENT" with
    | none => rw [hcc] at hcontent; cases hcontent
    | some core =>
      rw [hcc] at hcontent
      unfold parseFromString
      rw [if_neg hne, hread]
      dsimp only [parseReqif, M.bind, M.lift]
      rw [hroot]
      dsimp only
      rw [if_pos htag, if_neg hlen, hhdr]
      dsimp only [parseCore]
      rw [hcc]
      dsimp only
      rw [show core.find c!"REQ-IF-CONTENT" = some content from hcontent]
      simp only [M.bind, hr.2 p hp s]

/-- **C12**, parsing: a successful run calls the callback once per member. -/
theorem C12_parse (p : Callback σ) (ar : Archive) (s s' : σ) (z : ZBundle)
    (h : parseZ (some p) (.ok ar) s = (.ok z, s')) : s' = runCalls p (memberCalls (ar.map (·.1))) s := by
  have h1 : TracedOk (fun p : Option (Callback σ) => parseZ p (.ok ar))
      (memberCallsFrom ar.length 0 (ar.map (·.1))) :=
    TracedOk.wrapZ (TracedOk.lift_bind fun _ h => by cases h; exact membersLoop_ok _ _ _ _ _)
  rw [(h1 p s z s' h).2, memberCallsFrom_eq, memberCalls, List.length_map]

/-- **C12**, parsing that fails: the calls are those for the members before the first
one that cannot be read. -/
theorem C12_parse_failure (p : Callback σ) (hp : NonRaising p) (ar : Archive) (s : σ) :
    (parseZ (some p) (.ok ar) s).2 =
      runCalls p ((memberCalls (ar.map (·.1))).take ((ar.map (·.1)).takeWhile (memberReads ar)).length) s := by
  obtain ⟨r, -, h⟩ := parseZ_traced (σ := σ) (.ok ar)
  have h := h p hp s
  dsimp only at h
  rw [h]
  dsimp only
  congr 1
  rw [memberCallsFrom_eq, memberCalls, List.length_map, ← List.map_take]
  congr 1
  generalize ar.map (·.1) = names
  generalize 0 = k
  induction names generalizing k with
  | nil => rfl
  | cons n ns ih =>
    rw [List.takeWhile_cons]
    split
    · simp [ih]
    · rfl

/-- What a writing loop that succeeds did, with any callback. -/
theorem writeLoop_ok {α : Type} {p : Callback σ} {total : Nat} {f : α → Py ByteArray} {k : Nat}
    {out : List (Str × ByteArray)} {xs : Dict Str α} {s s' : σ} {r : List (Str × ByteArray) × Nat}
    (h : writeLoop (some p) total f k out xs s = (.ok r, s')) :
    ∃ members, r = (out ++ members, k + xs.length) ∧
      xs.map (fun x => (x.1, f x.2)) = members.map (fun m => (m.1, .ok m.2)) ∧
      s' = runCalls p (memberCallsFrom total k (xs.map (·.1))) s := by
  induction xs generalizing k out s with
  | nil =>
    simp only [writeLoop, M.pure, Prod.mk.injEq, Except.ok.injEq] at h
    exact ⟨[], by simp [h.1], rfl, h.2.symm⟩
  | cons x xs ih =>
    obtain ⟨n, x⟩ := x
    obtain ⟨bytes, s1, h1, h2⟩ := M.bind_inv h
    simp only [M.lift, Prod.mk.injEq] at h1
    obtain ⟨hf, rfl⟩ := h1
    obtain ⟨u, s2, h3, h4⟩ := M.bind_inv h2
    have h3 : p n (k + 1) total s = (.ok u, s2) := h3
    obtain ⟨members, h5, h6, h7⟩ := ih h4
    refine ⟨(n, bytes) :: members, ?_, ?_, ?_⟩
    · rw [h5]; simp; omega
    · simp [hf, h6]
    · rw [h7]; simp [memberCallsFrom, runCalls, h3]

/-- **C12**, unparsing: one call per written member, with the total over ReqIF files and
attachments. -/
theorem C12_unparse (p : Callback σ) (z : ZBundle) (s s' : σ)
    (members : List (Str × ByteArray)) (h : unparseZ (some p) z s = (.ok members, s')) :
    members.map (·.1) = z.reqifBundles.map (·.1) ++ z.attachments.map (·.1) ∧
    s' = runCalls p (memberCalls (z.reqifBundles.map (·.1) ++ z.attachments.map (·.1))) s := by
  obtain ⟨r, s1, h1, h2⟩ := M.bind_inv h
  obtain ⟨m1, h3, h4, h5⟩ := writeLoop_ok h1
  obtain ⟨r', s2, h6, h7⟩ := M.bind_inv h2
  obtain ⟨m2, h8, h9, h10⟩ := writeLoop_ok h6
  simp only [M.pure, Prod.mk.injEq, Except.ok.injEq] at h7
  obtain ⟨rfl, rfl⟩ := h7
  subst h3
  subst h8
  have e1 := congrArg (List.map Prod.fst) h4
  have e2 := congrArg (List.map Prod.fst) h9
  simp only [List.map_map] at e1 e2
  refine ⟨?_, ?_⟩
  · simp only [List.nil_append, List.map_append]
    exact (congr (congrArg (· ++ ·) e1) e2).symm
  · have : memberCalls (z.reqifBundles.map (·.1) ++ z.attachments.map (·.1)) =
        memberCallsFrom (z.reqifBundles.length + z.attachments.length) 0
          (z.reqifBundles.map (·.1) ++ z.attachments.map (·.1)) := by
      rw [memberCallsFrom_eq, memberCalls, List.length_append, List.length_map, List.length_map]
    rw [this, memberCallsFrom_append, runCalls_append, List.length_map, ← h5]
    exact h10

/-! ## Concrete cases -/

/-- A document with two data types, a comment and an empty container. -/
def progressDoc : Str :=
  c!"<REQ-IF xmlns=\"u\"><CORE-CONTENT><REQ-IF-CONTENT><DATATYPES><DATATYPE-DEFINITION-STRING IDENTIFIER=\"a\"/><DATATYPE-DEFINITION-STRING IDENTIFIER=\"b\"/></DATATYPES><SPEC-TYPES><!--x--></SPEC-TYPES><SPECIFICATIONS/></REQ-IF-CONTENT></CORE-CONTENT></REQ-IF>"

set_option maxRecDepth 20000 in
example : (parseFromString (some recorder) progressDoc []).1.isOk = true ∧
    (parseFromString (some recorder) progressDoc []).2.reverse =
      [⟨c!"DATATYPES", 1, 2⟩, ⟨c!"DATATYPES", 2, 2⟩, ⟨c!"SPEC-TYPES", 1, 1⟩] := by decide +kernel

/-- The second data type has an unknown tag; a spec type follows. -/
def failingDoc : Str :=
  c!"<REQ-IF xmlns=\"u\"><CORE-CONTENT><REQ-IF-CONTENT><DATATYPES><DATATYPE-DEFINITION-STRING IDENTIFIER=\"a\"/><FOO/><DATATYPE-DEFINITION-STRING IDENTIFIER=\"b\"/></DATATYPES><SPEC-TYPES><!--x--></SPEC-TYPES></REQ-IF-CONTENT></CORE-CONTENT></REQ-IF>"

set_option maxRecDepth 20000 in
example : (parseFromString (some recorder) failingDoc []).1.isOk = false ∧
    (parseFromString (some recorder) failingDoc []).2 = [⟨c!"DATATYPES", 1, 3⟩] := by decide +kernel

/-- The hypotheses of `C11_calls_on_failure` hold for it. -/
def failingParts : Option (Node × Node) :=
  match readDoc failingDoc with
  | none => none
  | some d =>
    match strippedRoot d.root with
    | .error _ => none
    | .ok root => (contentOf root).map (fun c => (root, c))

set_option maxRecDepth 20000 in
example : failingParts.any (fun x =>
    x.1.tag == .name c!"REQ-IF" && (x.1.find c!"THE-HEADER").isNone &&
    (itemsOf x.2 c!"DATATYPES").map (itemParses c!"DATATYPES") == [true, false, true]) = true := by decide +kernel

example : NonRaising recorder := fun _ _ _ _ => rfl

end ReqIF
