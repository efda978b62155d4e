import Verif.Model.Output
import Verif.Spec.Output
import Verif.Props.C69
import Verif.Props.C66
/-!
# C82: warnings and other lines on standard output
-/
set_option linter.unusedSimpArgs false
namespace ReqIF.Output
open Spec

/-- The elements of a bundle's SPEC-OBJECTs that come from a document. -/
def sources (b : Bundle) : List Node :=
  match b.coreContent with
  | some (some c) => (c.specObjects.getD []).filterMap (·.xmlNode)
  | _ => []

/-! ## Running with a log -/

/-- A computation that gives `r` and adds a part of `w` to the log, all of it if it succeeds. -/
def Logs {α : Type} (m : M (List Str) α) (r : Py α) (w : List Str) : Prop :=
  ∀ out, (m out).1 = r ∧ (∃ k, (m out).2 = out ++ w.take k) ∧ ∀ a, r = .ok a → (m out).2 = out ++ w

theorem Logs.lift {α : Type} (r : Py α) : Logs (M.lift r) r [] := fun out => ⟨rfl, ⟨0, by simp [M.lift]⟩, fun _ _ => by simp [M.lift]⟩

theorem Logs.pure {α : Type} (a : α) : Logs (M.pure a) (.ok a) [] := fun out => ⟨rfl, ⟨0, by simp [M.pure]⟩, fun _ _ => by simp [M.pure]⟩

theorem Logs.print (l : Str) : Logs (printLine l) (.ok ()) [l] := fun _ => ⟨rfl, ⟨1, rfl⟩, fun _ _ => rfl⟩

theorem Logs.bind {α β : Type} {m : M (List Str) α} {f : α → M (List Str) β} {r : Py α} {g : α → Py β} {w w' : List Str} (h : Logs m r w)
    (hf : ∀ a, r = .ok a → Logs (f a) (g a) w') : Logs (M.bind m f) (r.bind g) (w ++ w') := by
  intro out
  obtain ⟨h1, ⟨k, h2⟩, h3⟩ := h out
  cases hm : m out with
  | mk p out' =>
    rw [hm] at h1 h2 h3
    dsimp only at h1 h2 h3
    subst h1
    cases p with
    | error e =>
      have : M.bind m f out = (.error e, out') := by simp [M.bind, hm]
      rw [this]
      refine ⟨rfl, ?_, fun a ha => by cases ha⟩
      by_cases hk : k ≤ w.length
      · exact ⟨k, by rw [h2, List.take_append_of_le_length hk]⟩
      · exact ⟨w.length, by rw [h2, List.take_of_length_le (by omega)]; simp⟩
    | ok a =>
      have : M.bind m f out = f a out' := by simp [M.bind, hm]
      rw [this, h3 a rfl]
      obtain ⟨g1, ⟨k', g2⟩, g3⟩ := hf a rfl (out ++ w)
      refine ⟨g1, ⟨w.length + k', ?_⟩, fun b hb => ?_⟩
      · rw [g2, List.take_length_add_append, List.append_assoc]
      · rw [g3 b hb, List.append_assoc]

theorem Logs.congr {α : Type} {m : M (List Str) α} {r r' : Py α} {w w' : List Str} (h : Logs m r w) (hr : r = r') (hw : w = w') : Logs m r' w' := hr ▸ hw ▸ h

theorem quiet_logs {α : Type} (tag : Str) (f : α → Py Str) (items : Option (List α)) :
    Logs (quiet tag f items) (unparseContainer (none : Option (Callback Unit)) tag f items ()).1 [] := by
  have key : ∀ (xs : List α) (k : Nat) (n : Nat) (acc : Str) (out : List Str),
      trackedGo (none : Option (Callback (List Str))) tag n (printStep f) k acc xs out =
        ((trackedGo (none : Option (Callback Unit)) tag n (printStep f) k acc xs ()).1, out) := by
    intro xs
    induction xs with
    | nil => intros; rfl
    | cons x xs ih =>
      intro k n acc out
      simp only [trackedGo, M.bind, M.lift, notify, M.pure]
      cases printStep f acc x with
      | error e => rfl
      | ok b => exact ih _ _ _ _
  intro out
  have : quiet tag f items out = ((unparseContainer (none : Option (Callback Unit)) tag f items ()).1, out) := by
    unfold quiet unparseContainer
    cases items with
    | none => rfl
    | some xs =>
      simp only [M.bind, trackedLoop, key, M.pure]
      cases h : trackedGo (none : Option (Callback Unit)) tag xs.length (printStep f) 0 [] xs () with
      | mk p u => cases p <;> rfl
  rw [this]
  exact ⟨rfl, ⟨0, by simp⟩, fun _ _ => by simp⟩

theorem childL_logs (fn : Tag → Str) (o : SpecObject) (t : Tag) :
    Logs (childL fn o t) (unparseSpecObjectChild o t) (if t ≠ .name c!"TYPE" ∧ t ≠ .name c!"VALUES" then [warningLine fn t] else []) := by
  unfold childL unparseSpecObjectChild
  by_cases h1 : t = .name c!"VALUES"
  · rw [if_pos h1, if_pos h1, if_neg (by simp [h1])]
    exact Logs.lift _
  · by_cases h2 : t = .name c!"TYPE"
    · rw [if_neg h1, if_neg h1, if_pos h2, if_pos h2, if_neg (by simp [h2])]
      exact Logs.pure _
    · rw [if_neg h1, if_neg h1, if_neg h2, if_neg h2, if_pos ⟨h2, h1⟩]
      exact ((Logs.print _).bind (fun _ _ => Logs.pure _)).congr rfl rfl

theorem concatL_logs {α : Type} {f : α → M (List Str) Str} {g : α → Py Str} {w : α → List Str} (h : ∀ x, Logs (f x) (g x) (w x)) :
    ∀ xs, Logs (concatL f xs) (concatPy g xs) (xs.flatMap w)
  | [] => Logs.pure _
  | x :: xs => by
    unfold concatL
    refine ((h x).bind (fun y _ => (concatL_logs h xs).bind (fun ys _ => Logs.pure (y ++ ys)))).congr ?_ (by simp)
    rw [concatPy]
    cases g x with
    | error e => rfl
    | ok y =>
      dsimp only [Except.bind]
      cases concatPy g xs <;> rfl

/-- The warnings about one object. -/
def objectWarnings (fn : Tag → Str) (o : SpecObject) : List Str := warningsFor fn o.xmlNode.toList

theorem warnings_tags (fn : Tag → Str) (n : Node) :
    (childTags n).flatMap (fun t => if t ≠ .name c!"TYPE" ∧ t ≠ .name c!"VALUES" then [warningLine fn t] else []) = warningsFor fn [n] := by
  unfold warningsFor unknownChildren childTags
  simp only [List.flatMap_cons, List.flatMap_nil, List.append_nil]
  induction n.children with
  | nil => rfl
  | cons c cs ih =>
    simp only [List.map_cons, List.flatMap_cons, List.filter_cons, ih]
    by_cases h : c.tag ≠ .name c!"TYPE" ∧ c.tag ≠ .name c!"VALUES"
    · rw [if_pos h, if_pos (by simpa using h)]
      simp only [List.map_cons, List.cons_append, List.nil_append, List.cons.injEq, and_true]
      unfold warningLine unknownLine childText tagShown
      cases c.tag <;> simp
    · rw [if_neg h, if_neg (by simpa using h)]
      rfl

theorem specObjectL_logs (fn : Tag → Str) (o : SpecObject) : Logs (specObjectL fn o) (unparseSpecObject o) (objectWarnings fn o) := by
  unfold specObjectL unparseSpecObject
  refine Logs.congr (w := [] ++ objectWarnings fn o) ?_ rfl rfl
  refine Logs.bind (Logs.lift _) (fun tags ht => ?_)
  · refine ((concatL_logs (childL_logs fn o) tags).bind (fun body _ => Logs.pure _)).congr rfl ?_
    rw [List.append_nil]
    unfold specObjectChildTags at ht
    unfold objectWarnings
    cases hx : o.xmlNode with
    | none => rw [hx] at ht; cases ht; rfl
    | some n =>
      rw [hx] at ht
      have : tags = childTags n := by
        dsimp only at ht
        cases h1 : pyAssert ((childTags n).contains (.name c!"VALUES")) with
        | error e => rw [h1] at ht; cases ht
        | ok u =>
          rw [h1] at ht
          cases h2 : pyAssert ((childTags n).contains (.name c!"TYPE")) with
          | error e => rw [h2] at ht; cases ht
          | ok u => rw [h2] at ht; cases ht; rfl
      rw [this, warnings_tags]
      rfl

theorem container_concat {α : Type} (tag : Str) (f : α → Py Str) (xs : List α) :
    (unparseContainer (none : Option (Callback Unit)) tag f (some xs) ()).1 =
      (concatPy f xs).bind fun body => .ok (lineOpen 6 tag ++ body ++ lineClose 6 tag) := by
  have key : ∀ (xs : List α) (k n : Nat) (acc : Str), (trackedGo (none : Option (Callback Unit)) tag n (printStep f) k acc xs ()) =
      ((concatPy f xs).bind fun s => .ok (acc ++ s), ()) := by
    intro xs
    induction xs with
    | nil => intro k n acc; simp [trackedGo, M.pure, concatPy, Except.bind]
    | cons x xs ih =>
      intro k n acc
      simp only [trackedGo, M.bind, M.lift, notify, M.pure, printStep, concatPy]
      cases f x with
      | error e => rfl
      | ok y =>
        dsimp only
        rw [ih]
        cases concatPy f xs with
        | error e => rfl
        | ok ys => simp [Except.bind]
  unfold unparseContainer
  simp only [M.bind, trackedLoop, key, M.pure]
  cases concatPy f xs with
  | error e => rfl
  | ok ys => simp [Except.bind]

theorem objectsL_logs (fn : Tag → Str) (os : Option (List SpecObject)) :
    Logs (objectsL fn os) (unparseContainer (none : Option (Callback Unit)) c!"SPEC-OBJECTS" unparseSpecObject os ()).1
      ((os.getD []).flatMap (objectWarnings fn)) := by
  cases os with
  | none => exact Logs.pure _
  | some xs =>
    rw [container_concat]
    exact ((concatL_logs (specObjectL_logs fn) xs).bind (fun body _ => Logs.pure _)).congr rfl (by simp)

/-- Running without callback and without state. -/
theorem run_bind {α β : Type} (m : M Unit α) (f : α → M Unit β) : (M.bind m f ()).1 = (m ()).1.bind (fun a => (f a ()).1) := by
  unfold M.bind
  cases m () with
  | mk p u => cases p <;> rfl

theorem contentL_logs (fn : Tag → Str) (c : Content) :
    Logs (contentL fn c) (unparseContent (none : Option (Callback Unit)) c ()).1 ((c.specObjects.getD []).flatMap (objectWarnings fn)) := by
  unfold contentL unparseContent
  simp only [run_bind]
  refine ((quiet_logs _ _ _).bind (fun a _ => (quiet_logs _ _ _).bind (fun b _ => (objectsL_logs fn _).bind (fun o _ => (quiet_logs _ _ _).bind (fun r _ =>
    (quiet_logs _ _ _).bind (fun s _ => (quiet_logs _ _ _).bind (fun g _ => Logs.pure _))))))).congr rfl (by simp)

/-- The warnings about a bundle. -/
def bundleWarnings (fn : Tag → Str) (b : Bundle) : List Str := warningsFor fn (sources b)

theorem coreL_logs (fn : Tag → Str) (c : Option (Option Content)) :
    Logs (coreL fn c) (unparseCore (none : Option (Callback Unit)) c ()).1
      (match c with | some (some c) => (c.specObjects.getD []).flatMap (objectWarnings fn) | _ => []) := by
  cases c with
  | none => exact Logs.pure _
  | some c =>
    cases c with
    | none => exact Logs.pure _
    | some c =>
      unfold coreL unparseCore
      simp only [run_bind]
      exact ((contentL_logs fn c).bind (fun s _ => Logs.pure _)).congr rfl (by simp)

theorem objectWarnings_sources (fn : Tag → Str) (l : List SpecObject) : l.flatMap (objectWarnings fn) = warningsFor fn (l.filterMap (·.xmlNode)) := by
  unfold objectWarnings warningsFor
  induction l with
  | nil => rfl
  | cons o l ih =>
    rw [List.flatMap_cons, ih]
    cases h : o.xmlNode <;> simp [h]

theorem unparseL_logs (fn : Tag → Str) (b : Bundle) : Logs (unparseL fn b) (unparse b) (bundleWarnings fn b) := by
  unfold unparseL unparse unparseM
  simp only [run_bind]
  refine ((Logs.lift _).bind (fun tag _ => (Logs.lift _).bind (fun h _ => (coreL_logs fn _).bind (fun c _ => Logs.pure _)))).congr rfl ?_
  unfold bundleWarnings sources
  cases b.coreContent with
  | none => rfl
  | some c =>
    cases c with
    | none => rfl
    | some c => simp [objectWarnings_sources]

/-! ## The unparser -/

/-- **C82**, the text is not affected: logging changes nothing in what is written, and in whether writing fails. -/
theorem C82_text (fn : Tag → Str) (b : Bundle) (out : List Str) : (unparseL fn b out).1 = unparse b := (unparseL_logs fn b out).1

/-- **C82**, the warnings of a bundle: one line for each child of a SPEC-OBJECT that is neither TYPE nor VALUES, in document order, and
no other line. -/
theorem C82_bundle (fn : Tag → Str) (b : Bundle) (out : List Str) {t : Str} (h : unparse b = .ok t) :
    (unparseL fn b out).2 = out ++ warningsFor fn (sources b) := (unparseL_logs fn b out).2.2 t h

/-- **C82**, failures: if writing fails, some of these lines have been printed, from the first on. -/
theorem C82_failed (fn : Tag → Str) (b : Bundle) (out : List Str) : ∃ k, (unparseL fn b out).2 = out ++ (warningsFor fn (sources b)).take k :=
  (unparseL_logs fn b out).2.1

/-- **C82**, objects made by the caller: nothing is logged for objects without an XML element. -/
theorem C82_created (fn : Tag → Str) (b : Bundle) (out : List Str)
    (h : ∀ c, b.coreContent = some (some c) → ∀ o ∈ c.specObjects.getD [], o.xmlNode = none) : (unparseL fn b out).2 = out := by
  have : sources b = [] := by
    unfold sources
    split
    · rename_i c hc
      rw [List.filterMap_eq_nil_iff]
      exact h c hc
    · rfl
  obtain ⟨k, hk⟩ := C82_failed fn b out
  rw [hk, this]
  simp [warningsFor]

/-! ## Documents -/

theorem parseSpecObject_node {x : Node} {o : SpecObject} (h : parseSpecObject x = .ok o) : o.xmlNode = some x := by
  unfold parseSpecObject at h
  obtain ⟨a, -, h⟩ := py_bind_inv h
  obtain ⟨-, -, h⟩ := py_bind_inv h
  obtain ⟨b, -, h⟩ := py_bind_inv h
  obtain ⟨c, -, h⟩ := py_bind_inv h
  obtain ⟨e, -, h⟩ := py_bind_inv h
  obtain ⟨f, -, h⟩ := py_bind_inv h
  cases h
  rfl

theorem objects_nodes : ∀ {xs : List Node} {os : List SpecObject}, filterMapPy objectItem xs = .ok os →
    os.filterMap (·.xmlNode) = xs.filter (fun n => !isCommentNode n)
  | [], os, h => by cases h; rfl
  | x :: xs, os, h => by
    unfold filterMapPy at h
    split at h
    · cases h
    · rename_i o ho
      split at h
      · cases h
      · rename_i ys hys
        cases h
        rw [List.filterMap_append, objects_nodes hys, List.filter_cons]
        unfold objectItem at ho
        cases hc : isCommentNode x with
        | true =>
          rw [hc] at ho
          cases ho
          rfl
        | false =>
          rw [hc, if_neg (by decide)] at ho
          unfold someItem at ho
          split at ho
          · cases ho
          · rename_i v hv
            cases ho
            simp [parseSpecObject_node hv]

theorem sources_document {text : Str} {d : Doc} {b : Bundle} (hd : readDoc text = some d) (h : parseString text = .ok b) : sources b = documentObjects d := by
  have hcn : documentObjects d = match contentNode text with | none => [] | some x => objectElements x := by
    unfold documentObjects contentNode
    rw [hd]
    dsimp only
    cases strippedRoot d.root <;> rfl
  rw [hcn]
  unfold sources
  rcases parseString_inv h with ⟨h1, h2, -⟩ | ⟨x, c, h1, h2, h3⟩
  · rw [h1]
    split
    · rename_i c hc
      exact absurd hc (h2 c)
    · rfl
  · rw [h1, h2]
    obtain ⟨-, -, -, -, -, h5, -⟩ := parseContent_inv h3
    dsimp only
    unfold parsedItems at h5
    unfold objectElements
    cases hf : x.find c!"SPEC-OBJECTS" with
    | none => rw [hf] at h5; rw [← Except.ok.inj h5]; rfl
    | some k =>
      rw [hf] at h5
      dsimp only at h5 ⊢
      split at h5
      · cases h5
      · rename_i os hos
        rw [← Except.ok.inj h5]
        exact objects_nodes hos

/-- **C82**, passthrough of a document: what it prints are the warnings about the document's SPEC-OBJECTs. -/
theorem C82_passthrough (fn : Tag → Str) (os : OsEnv) {input output : Str} {fs : Files} {bytes : ByteArray} {text : Str} {d : Doc}
    (hf : fs input = some bytes) (ht : decodeUtf8 bytes = .ok text) (hd : readDoc (normEol text) = some d) (hz : endsWith input c!".reqifz" = false)
    (h : (passthroughCommand os input output fs).1 = .ok .success) :
    passthroughLines fn os input output fs = warningsFor fn (documentObjects d) := by
  have hr : readFile fs input = .ok bytes := by unfold readFile; rw [hf]
  unfold passthroughCommand at h
  unfold passthroughLines
  rw [hf, hz, hr] at h
  rw [hf, hz, hr]
  simp only [Option.isNone_some, Bool.false_eq_true, if_false] at h ⊢
  split at h
  · cases h
  · rename_i hdir
    rw [if_neg hdir]
    cases hp : (parseFile (none : Option (Callback Unit)) (.ok bytes) ()).1 with
    | error e =>
      unfold passthroughBytes at h
      rw [hp] at h
      cases h
    | ok b =>
      dsimp only
      have hb : parseString (normEol text) = .ok b := by
        rw [← hp]
        unfold parseFile parseString M.bind M.lift
        simp only [ht]
      unfold passthroughBytes at h
      rw [hp] at h
      cases hu : unparse b with
      | error e =>
        simp only [bundleBytes, hu] at h
        cases h
      | ok t =>
        rw [C82_bundle fn b [] hu, sources_document hd hb]
        rfl

/-! ## Archives -/

theorem bundlesL_ok (fn : Tag → Str) : ∀ (bs : Dict Str Bundle) (out : List Str), (∀ p ∈ bs, ∃ t, unparse p.2 = .ok t) →
    (bundlesL fn bs out).2 = out ++ bs.flatMap (fun p => warningsFor fn (sources p.2))
  | [], out, _ => by simp [bundlesL, M.pure]
  | (n, b) :: bs, out, h => by
    obtain ⟨t, ht⟩ := h (n, b) (by simp)
    have h1 := C82_bundle fn b out ht
    have h2 := C82_text fn b out
    rw [ht] at h2
    have e : unparseL fn b out = (.ok t, out ++ warningsFor fn (sources b)) := Prod.ext h2 h1
    unfold bundlesL
    rw [M.bind_ok e, bundlesL_ok fn bs _ (fun p hp => h p (by simp [hp]))]
    simp

theorem writeLoop_bundles {σ : Type} : ∀ (bs : Dict Str Bundle) (k : Nat) (n : Nat) (out : List (Str × ByteArray)) (s : σ) {r : List (Str × ByteArray) × Nat},
    (writeLoop (none : Option (Callback σ)) n bundleBytes k out bs s).1 = .ok r → ∀ p ∈ bs, ∃ t, unparse p.2 = .ok t
  | [], _, _, _, _, _, _ => by intro p hp; cases hp
  | (m, b) :: bs, k, n, out, s, r, h => by
    unfold writeLoop at h
    simp only [M.bind, M.lift, notify, M.pure] at h
    cases hb : bundleBytes b with
    | error e => rw [hb] at h; cases h
    | ok y =>
      rw [hb] at h
      have ih := writeLoop_bundles bs _ _ _ _ h
      intro p hp
      rcases List.mem_cons.1 hp with rfl | hp
      · unfold bundleBytes at hb
        cases hu : unparse b with
        | error e => rw [hu] at hb; cases hb
        | ok t => exact ⟨t, rfl⟩
      · exact ih p hp

/-- **C82**, passthrough of an archive: the warnings about its documents, one after the other. -/
theorem C82_archive (fn : Tag → Str) (os : OsEnv) {input output : Str} {fs : Files} {bytes : ByteArray} {z : ZBundle}
    (hf : fs input = some bytes) (hz : endsWith input c!".reqifz" = true)
    (hp : (parseZ (none : Option (Callback Unit)) (os.zipRead bytes) ()).1 = .ok z)
    (h : (passthroughCommand os input output fs).1 = .ok .success) :
    passthroughLines fn os input output fs = z.reqifBundles.flatMap (fun p => warningsFor fn (sources p.2)) := by
  have hr : readFile fs input = .ok bytes := by unfold readFile; rw [hf]
  unfold passthroughCommand at h
  unfold passthroughLines
  rw [hf, hz, hr] at h
  rw [hf, hz, hr]
  have hb : (Except.ok bytes : Py ByteArray).bind os.zipRead = os.zipRead bytes := rfl
  simp only [Option.isNone_some, Bool.false_eq_true, if_false, if_true, hb, hp] at h ⊢
  split at h
  · cases h
  · rename_i hdir
    rw [if_neg hdir]
    unfold passthroughZBytes at h
    simp only [hb, hp] at h
    rw [bundlesL_ok]
    · rfl
    · cases hu : (unparseZ (none : Option (Callback Unit)) z ()).1 with
      | error e => rw [hu] at h; cases h
      | ok ms =>
        unfold unparseZ at hu
        cases hw : (writeLoop (none : Option (Callback Unit)) (z.reqifBundles.length + z.attachments.length) bundleBytes 0 [] z.reqifBundles ()).1 with
        | error e =>
          simp only [run_bind, hw] at hu
          cases hu
        | ok r => exact writeLoop_bundles _ _ _ _ _ hw

end ReqIF.Output

/-! ## Valid documents -/

namespace ReqIF.Xsd
open Spec

/-- A list of equal things without duplicates. -/
theorem count_le_one {α : Type} [DecidableEq α] : ∀ {l : List α} {a : α}, l.Nodup → (∀ b ∈ l, b = a) → l = [] ∨ l = [a]
  | [], _, _, _ => .inl rfl
  | [b], a, _, h => .inr (by rw [h b (by simp)])
  | b :: c :: l, a, hn, h => by
    have h1 := h b (by simp)
    have h2 := h c (by simp)
    rw [List.nodup_cons] at hn
    exact absurd (by simp [h1, h2]) hn.1

theorem childNames_tags {m : Model} {d : Dialect} (ho : m.isOpen = false) : ∀ {ks : List Node}, kidsBy (schema d) none m ks = true → noSpecialsAll ks = true →
    (ks.filter (fun k => !k.isText)).map Node.tag = (childNames ks).map Tag.name
  | [], _, _ => rfl
  | .elem i cs :: ks, h, hp => by
    rw [kidsBy, Bool.and_eq_true, ho, Bool.false_or, Bool.and_eq_true, beq_iff_eq] at h
    rw [noSpecialsAll, Bool.and_eq_true] at hp
    have : (Node.elem i cs).tag = .name i.name := by simp [Node.tag, Info.tag, h.1.1, clark]
    rw [List.filter_cons_of_pos (by rfl), List.map_cons, this, childNames, List.map_cons, childNames_tags ho h.2 hp.2]
  | .text s :: ks, h, hp => by
    rw [kidsBy, Bool.and_eq_true] at h
    rw [noSpecialsAll, Bool.and_eq_true] at hp
    rw [List.filter_cons_of_neg (by simp [Node.isText])]
    exact childNames_tags ho h.2 hp.2
  | .comment s :: ks, h, hp => by
    rw [noSpecialsAll, Bool.and_eq_true] at hp
    cases hp.1
  | .pi a b :: ks, h, hp => by
    rw [noSpecialsAll, Bool.and_eq_true] at hp
    cases hp.1

/-- The line about an alternative identifier. -/
def alternativeLine : Str := c!"warning: Unknown child tag: ALTERNATIVE-ID."

theorem object_warnings {d : Dialect} (fn : Tag → Str) {n : Node} (h : Seen d .specObject n) :
    warningsFor fn [n] = if (n.find c!"ALTERNATIVE-ID").isSome then [alternativeLine] else [] := by
  have h1 := h.countOk
  have ht := childNames_tags (d := d) (by rfl) h.kidsOk h.kidsPlain
  have htags : n.children.map Node.tag = (childNames n.kids).map Tag.name := ht
  have hnm := childNames_typeOf (d := d) (by rfl) h.kidsOk
  have hmem : ∀ nm ∈ childNames n.kids, nm = c!"ALTERNATIVE-ID" ∨ nm = c!"VALUES" ∨ nm = c!"TYPE" := by
    intro nm hn
    have := hnm nm hn
    obtain ⟨t, ht⟩ := Option.isSome_iff_exists.1 this
    have := typeOf_mem ht
    simpa [schema, modelNames, alternative] using this
  have hnd : (childNames n.kids).Nodup := by
    have e : (schema d .specObject).model = .all [alternative, ⟨c!"VALUES", d.prints, .values⟩, ⟨c!"TYPE", true, .objectType⟩] := rfl
    rw [e, Model.countOk, Bool.and_eq_true] at h1
    exact noDup_iff.1 h1.1
  have hw : warningsFor fn [n] = ((childNames n.kids).filter (fun nm => nm = c!"ALTERNATIVE-ID")).map unknownLine := by
    rw [← Output.warnings_tags]
    unfold childTags
    rw [htags]
    generalize childNames n.kids = l at hmem
    induction l with
    | nil => rfl
    | cons a l ih =>
      rw [List.map_cons, List.flatMap_cons, ih (fun nm hn => hmem nm (by simp [hn])), List.filter_cons]
      rcases hmem a (by simp) with rfl | rfl | rfl
      · rw [if_pos (by decide), if_pos (by decide)]
        rfl
      · rw [if_neg (by decide), if_neg (by decide)]
        rfl
      · rw [if_neg (by decide), if_neg (by decide)]
        rfl
  have hf : (n.find c!"ALTERNATIVE-ID").isSome = true ↔ c!"ALTERNATIVE-ID" ∈ childNames n.kids := by
    constructor
    · intro hs
      obtain ⟨c, hc⟩ := Option.isSome_iff_exists.1 hs
      unfold Node.find at hc
      have m1 := List.mem_of_find?_eq_some hc
      have m2 := List.find?_some hc
      rw [Bool.and_eq_true, beq_iff_eq] at m2
      have : Tag.name c!"ALTERNATIVE-ID" ∈ n.children.map Node.tag := List.mem_map.2 ⟨c, List.mem_filter.2 ⟨m1, m2.1⟩, m2.2⟩
      rw [htags, List.mem_map] at this
      obtain ⟨a, ha, e⟩ := this
      cases e
      exact ha
    · intro hm
      exact childNames_find (d := d) (by rfl) h.kidsOk hm
  have hl := count_le_one (a := c!"ALTERNATIVE-ID") (hnd.filter (fun nm => nm = c!"ALTERNATIVE-ID")) (by
    intro b hb
    simpa using (List.mem_filter.1 hb).2)
  rw [hw]
  rcases hl with hl | hl
  · rw [if_neg, hl]
    · rfl
    · rw [hf]
      intro hm
      have : c!"ALTERNATIVE-ID" ∈ (childNames n.kids).filter (fun nm => nm = c!"ALTERNATIVE-ID") := List.mem_filter.2 ⟨hm, by decide⟩
      rw [hl] at this
      cases this
  · rw [if_pos, hl]
    · rfl
    · rw [hf]
      have : c!"ALTERNATIVE-ID" ∈ (childNames n.kids).filter (fun nm => nm = c!"ALTERNATIVE-ID") := by rw [hl]; simp
      exact (List.mem_filter.1 this).1

theorem objects_seen {text : Str} {doc : Doc} {d : Dialect} (hr : readDoc text = some doc)
    (hns : (doc.root.nsmap.get? none).isSome = true) (hv : validRoot d doc.root = true) (hp : noSpecials doc.root = true) :
    ∀ n ∈ documentObjects doc, Seen d .specObject n := by
  intro n hn
  obtain ⟨r, h1, h2, -⟩ := strippedRoot_seen hr hns hv hp
  unfold documentObjects at hn
  rw [h1] at hn
  dsimp only at hn
  split at hn
  · cases hn
  · rename_i x hx
    unfold contentOf at hx
    obtain ⟨c, hc, hx⟩ := Option.bind_eq_some_iff.1 hx
    obtain ⟨t1, e1, s1, -⟩ := h2.find rfl hc
    cases e1
    obtain ⟨t2, e2, s2, -⟩ := s1.find rfl hx
    cases e2
    unfold objectElements at hn
    split at hn
    · cases hn
    · rename_i k hk
      obtain ⟨nm, t', e1, e2, e3⟩ := s2.container (nm := c!"SPEC-OBJECTS") (t' := .specObjects) rfl rfl hk (List.mem_filter.1 hn).1
      have := typeOf_choice e2
      simp only [List.mem_singleton, Prod.mk.injEq] at this
      obtain ⟨rfl, rfl⟩ := this
      exact e3

/-- **C82**, valid documents: the only warnings are about alternative identifiers, one for each SPEC-OBJECT that has one. -/
theorem C82_valid (fn : Tag → Str) {text : Str} {doc : Doc} {d : Dialect} (hr : readDoc text = some doc)
    (hns : (doc.root.nsmap.get? none).isSome = true) (hv : validRoot d doc.root = true) (hp : noSpecials doc.root = true) :
    warningsFor fn (documentObjects doc) =
      List.replicate ((documentObjects doc).filter (fun n => (n.find c!"ALTERNATIVE-ID").isSome)).length alternativeLine := by
  have h := objects_seen hr hns hv hp
  generalize documentObjects doc = l at h
  induction l with
  | nil => rfl
  | cons n l ih =>
    have e : warningsFor fn (n :: l) = warningsFor fn [n] ++ warningsFor fn l := by simp [warningsFor]
    rw [e, ih (fun m hm => h m (by simp [hm])), object_warnings fn (h n (by simp)), List.filter_cons]
    split
    · rw [List.length_cons, List.replicate_succ]; rfl
    · rfl

end ReqIF.Xsd

namespace ReqIF.Output
open Spec Cli

/-! ## The command line -/

/-- **C82**, failures of passthrough that are reported: if it ends with exit code 1 without an exception, it has printed exactly one line, which
names the input file if this is missing and the output file otherwise; no file has changed. -/
theorem C82_reported (fn : Tag → Str) (os : OsEnv) (i o : Str) (fs : Files) (h : (passthroughCommand os i o fs).1 = .ok .exit1) :
    (passthroughCommand os i o fs).2 = fs ∧
    passthroughLines fn os i o fs = [if (fs i).isNone then c!"error: passthrough command's input file does not exist: " ++ i
      else c!"error: output directory does not exist: " ++ o] := by
  unfold passthroughCommand at h ⊢
  unfold passthroughLines
  cases h1 : (fs i).isNone with
  | true => exact ⟨rfl, rfl⟩
  | false =>
    rw [h1] at h
    cases h2 : outputDirOk os o with
    | false => exact ⟨rfl, rfl⟩
    | true =>
      rw [h2] at h
      simp only [Bool.false_eq_true, if_false, Bool.not_true] at h
      exfalso
      split at h
      · cases h
      · unfold M.bind writeFile at h
        cases hx : os.openError o <;> rw [hx] at h <;> cases h

/-- **C82**, the program: what each command prints. -/
theorem C82_program (fn : Tag → Str) (env : Cli.Env) (fs : Files) :
    (∀ argv i o, Invokes argv (.files .passthrough i o) → cliLines fn env argv fs = some (passthroughLines fn env.os i o fs)) ∧
    (∀ argv i o, Invokes argv (.files .dump i o) ∨ Invokes argv (.files .format i o) → cliLines fn env argv fs = some []) ∧
    (∀ argv i o, Invokes argv (.files .anonymize i o) → (cliMain env argv fs).1 = .ok (.ended .success) → cliLines fn env argv fs = some []) ∧
    (∀ argv i s r, Invokes argv (.validate i s) → (cliMain env argv fs).1 = .ok (.validated (.done r)) → cliLines fn env argv fs = some r.lines) ∧
    (∀ argv, Invokes argv .version → cliLines fn env argv fs = some [c!"0.0.52"]) := by
  refine ⟨?_, ?_, ?_, ?_, ?_⟩
  · intro argv i o h
    unfold cliLines
    rw [parse_invokes h]
    rfl
  · intro argv i o h
    unfold cliLines
    rcases h with h | h
    · rw [parse_invokes h]; rfl
    · rw [parse_invokes h]; rfl
  · intro argv i o h hs
    rw [C69_files env argv _ i o h] at hs
    have hs' : (anonymizeCommand env.os env.hash env.print i o fs).1 = .ok .success := by
      have hs2 : (anonymizeCommand env.os env.hash env.print i o fs).1.map Outcome.ended = .ok (.ended .success) := hs
      cases hr : (anonymizeCommand env.os env.hash env.print i o fs).1 with
      | error e => rw [hr] at hs2; cases hs2
      | ok v => rw [hr] at hs2; cases hs2; rfl
    unfold cliLines
    rw [parse_invokes h]
    show some (anonymizeLines env.os env.hash env.print i o fs) = _
    unfold anonymizeLines
    unfold anonymizeCommand at hs'
    cases h1 : (fs i).isNone with
    | true => rw [h1] at hs'; cases hs'
    | false =>
      rw [h1] at hs'
      simp only [Bool.false_eq_true, if_false] at hs' ⊢
      cases ha : anonymize env.hash env.print (readFile fs i) with
      | error e => rfl
      | ok t =>
        rw [ha] at hs'
        dsimp only at hs' ⊢
        cases h2 : outputDirOk env.os o with
        | false => rw [h2] at hs'; cases hs'
        | true => rfl
  · intro argv i s r h hs
    unfold cliMain at hs
    unfold cliLines
    rw [parse_invokes h] at hs ⊢
    dsimp only at hs ⊢
    have e : (namespaceOf (.validate i s)).command = c!"validate" := rfl
    have e2 : (namespaceOf (.validate i s)).inputFile = some i := rfl
    rw [e, if_neg (by decide), if_neg (by decide), if_neg (by decide), if_neg (by decide), if_pos rfl, hs, e2]
  · intro argv h
    unfold cliLines
    rw [parse_invokes h]
    rfl

/-- **C82**, failures of anonymize and validate that are reported: one line, which names the input file if this is missing and the
output file otherwise.  (The line for the input names another command.) -/
theorem C82_reported_too (fn : Tag → Str) (env : Cli.Env) (fs : Files) :
    (∀ argv i o, Invokes argv (.files .anonymize i o) → (cliMain env argv fs).1 = .ok (.ended .exit1) →
      cliLines fn env argv fs = some [if (fs i).isNone then c!"error: passthrough command's input file does not exist: " ++ i
        else c!"error: output directory does not exist: " ++ o]) ∧
    (∀ argv i s, Invokes argv (.validate i s) → (cliMain env argv fs).1 = .ok (.validated .noInput) →
      cliLines fn env argv fs = some [c!"error: passthrough command's input file does not exist: " ++ i]) := by
  refine ⟨?_, ?_⟩
  · intro argv i o h hs
    rw [C69_files env argv _ i o h] at hs
    have hs' : (anonymizeCommand env.os env.hash env.print i o fs).1 = .ok .exit1 := by
      have hs2 : (anonymizeCommand env.os env.hash env.print i o fs).1.map Outcome.ended = .ok (.ended .exit1) := hs
      cases hr : (anonymizeCommand env.os env.hash env.print i o fs).1 with
      | error e => rw [hr] at hs2; cases hs2
      | ok v => rw [hr] at hs2; cases hs2; rfl
    unfold cliLines
    rw [parse_invokes h]
    show some (anonymizeLines env.os env.hash env.print i o fs) = _
    unfold anonymizeLines
    unfold anonymizeCommand at hs'
    cases h1 : (fs i).isNone with
    | true => rfl
    | false =>
      rw [h1] at hs'
      simp only [Bool.false_eq_true, if_false] at hs' ⊢
      cases ha : anonymize env.hash env.print (readFile fs i) with
      | error e => rw [ha] at hs'; cases hs'
      | ok t =>
        rw [ha] at hs'
        dsimp only at hs' ⊢
        cases h2 : outputDirOk env.os o with
        | false => rfl
        | true =>
          rw [h2] at hs'
          simp only [Bool.false_eq_true, if_false, Bool.not_true] at hs'
          unfold M.bind writeFile at hs'
          cases hx : env.os.openError o <;> rw [hx] at hs' <;> cases hs'
  · intro argv i s h hs
    unfold cliMain at hs
    unfold cliLines
    rw [parse_invokes h] at hs ⊢
    dsimp only at hs ⊢
    have e : (namespaceOf (.validate i s)).command = c!"validate" := rfl
    have e2 : (namespaceOf (.validate i s)).inputFile = some i := rfl
    rw [e, if_neg (by decide), if_neg (by decide), if_neg (by decide), if_neg (by decide), if_pos rfl, hs, e2]
    rfl

/-- Non-vacuity: no file at all. -/
example (env : Cli.Env) : Invokes [c!"anonymize", c!"a", c!"b"] (.files .anonymize c!"a" c!"b") ∧
    (cliMain env [c!"anonymize", c!"a", c!"b"] (fun _ => none)).1 = .ok (.ended .exit1) ∧
    (cliMain env [c!"validate", c!"a"] (fun _ => none)).1 = .ok (.validated .noInput) :=
  ⟨.files .anonymize (Or.inl (by intro r h; cases h)) (Or.inl (by intro r h; cases h)), rfl, rfl⟩

/-! ## Cases -/

/-- The lines passthrough prints for a text, if it can be written again. -/
def linesFor (text : Str) : Option (List Str) :=
  match readDoc text, parseString text with
  | some d, .ok b =>
    match unparse b with
    | .ok _ => if (unparseL (fun _ => c!"?") b []).2 = warningsFor (fun _ => c!"?") (documentObjects d) then some (unparseL (fun _ => c!"?") b []).2 else none
    | .error _ => none
  | _, _ => none

/-- An object with an alternative identifier, a comment and an element of another kind. -/
def warnedDoc : Str := inObjects (c!"<VALUES/><ALTERNATIVE-ID/><!-- c --><MORE/>")

set_option maxRecDepth 20000 in
/-- Non-vacuity: warnings in document order. -/
example : linesFor warnedDoc = some [c!"warning: Unknown child tag: ALTERNATIVE-ID.", c!"warning: Unknown child tag: ?.", c!"warning: Unknown child tag: MORE."] := by decide +kernel

set_option maxRecDepth 20000 in
/-- **C82**, losses without a warning: the description of a hierarchy element and the identifiers in `EDITABLE-ATTS` are lost (C62) and nothing is
printed. -/
theorem C82_silent : (loses (inHierarchy c!" DESC=\"see there\"" []) c!"see there" = true ∧ linesFor (inHierarchy c!" DESC=\"see there\"" []) = some []) ∧
    linesFor (inHierarchy [] (el c!"EDITABLE-ATTS" [] (el c!"ATTRIBUTE-DEFINITION-STRING-REF" [] c!"a-5"))) = some [] :=
  ⟨⟨C62_loses_description, by decide +kernel⟩, by decide +kernel⟩

end ReqIF.Output
