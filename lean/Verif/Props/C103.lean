import Verif.Proofs.Cells
import Verif.Props.C77
import Verif.Props.C18_23
/-!
# C103: edits through the lookup

The usual way to edit a document is `bundle.lookup.get_spec_object_by_ref(ref).attribute_map[key].value = value`.  The
lookup and the map refer to the objects that are in the lists of the bundle, so the edit is written with the
bundle.  Histories of edits in any order, through the dictionaries and through the lists, act as edits of plain lists.
-/
namespace ReqIF.Cells
open Spec

/-- **C103**: for all objects that were parsed and all calls after that: every call has the result, and the lists at the end
hold the objects, that the same calls on plain lists have. -/
theorem C103_lists (os : List SpecObject) (calls : List Call) :
    ((load os).run calls).1 = ((readLists os).run calls).1 ∧
    ((load os).run calls).2.view = ((readLists os).run calls).2.objects.map (·.1) := by
  obtain ⟨h1, h2⟩ := (load_agrees os).run_ calls
  exact ⟨h1, h2.view_⟩

/-! ## The last item -/

theorem lastAt_none {α : Type} {p : α → Bool} : ∀ {l : List α}, lastAt p l = none → ∀ x ∈ l, p x = false
  | [], _, x, hx => by cases hx
  | y :: l, h, x, hx => by
    simp only [lastAt] at h
    cases hl : lastAt p l with
    | some k => rw [hl] at h; cases h
    | none =>
      rw [hl] at h
      dsimp only at h
      rcases List.mem_cons.1 hx with rfl | hx
      · cases hp : p x with
        | false => rfl
        | true => rw [if_pos hp] at h; cases h
      · exact lastAt_none hl x hx

theorem lastAt_split {α : Type} {p : α → Bool} : ∀ {l : List α} {i : Nat}, lastAt p l = some i →
    ∃ pre x post, l = pre ++ x :: post ∧ pre.length = i ∧ p x = true ∧ ∀ y ∈ post, p y = false
  | [], i, h => by cases h
  | y :: l, i, h => by
    simp only [lastAt] at h
    cases hl : lastAt p l with
    | some k =>
      rw [hl] at h
      cases h
      obtain ⟨pre, x, post, h1, h2, h3, h4⟩ := lastAt_split hl
      exact ⟨y :: pre, x, post, by rw [h1]; rfl, by rw [← h2]; rfl, h3, h4⟩
    | none =>
      rw [hl] at h
      dsimp only at h
      split at h
      · rename_i hp
        cases h
        exact ⟨[], y, l, rfl, rfl, hp, lastAt_none hl⟩
      · cases h

theorem lastAt_absent {α : Type} {p : α → Bool} {l : List α} (h : ∀ x ∈ l, p x = false) : lastAt p l = none := by
  induction l with
  | nil => rfl
  | cons y l ih =>
    simp only [lastAt, ih (fun x hx => h x (List.mem_cons_of_mem _ hx)), h y List.mem_cons_self, Bool.false_eq_true, if_false]

theorem lastAt_found {α : Type} {p : α → Bool} {pre post : List α} {x : α} (hx : p x = true) (h : ∀ y ∈ post, p y = false) :
    lastAt p (pre ++ x :: post) = some pre.length := by
  induction pre with
  | nil => simp only [List.nil_append, lastAt, lastAt_absent h, hx, if_true]; rfl
  | cons y pre ih => simp only [List.cons_append, lastAt, ih, List.length_cons]

theorem lastAt_filter {α : Type} {p q : α → Bool} (h : ∀ x, p x = q x) (l : List α) :
    ((lastAt p l).bind fun i : Nat => l[i]?) = (l.filter q).getLast? := by
  obtain rfl : p = q := funext h
  cases hi : lastAt p l with
  | none =>
    rw [List.filter_eq_nil_iff.2 (fun x hx => by simpa using lastAt_none hi x hx)]
    rfl
  | some i =>
    obtain ⟨pre, x, post, h1, h2, h3, h4⟩ := lastAt_split hi
    have e : post.filter p = [] := List.filter_eq_nil_iff.2 (fun y hy => by simpa using h4 y hy)
    rw [Option.bind_some, h1, ← h2, List.filter_append, List.filter_cons, if_pos h3, e]
    simp

/-! ## Histories without new items -/

/-- The call does not add an attribute or an object to a list. -/
def adds : Call → Bool
  | .append _ _ => true
  | .appendObject _ => true
  | _ => false

/-- All items are known to the dictionaries. -/
def Whole (s : Lists) : Prop := s.parsed = s.objects.length ∧ ∀ e ∈ s.objects, e.2 = e.1.attributes.length

theorem whole_change {s : Lists} (h : Whole s) (i : Nat) {f : SpecObject → SpecObject}
    (hf : ∀ o, (f o).attributes.length = o.attributes.length) : Whole (s.change i f) := by
  refine ⟨by simp [Lists.change, h.1], ?_⟩
  intro e he
  obtain ⟨k, hk⟩ := List.getElem?_of_mem he
  rw [change_get] at hk
  split at hk
  · obtain ⟨e0, h0, rfl⟩ := Option.map_eq_some_iff.1 hk
    dsimp only
    rw [hf, h.2 e0 (List.mem_of_getElem? h0)]
  · exact h.2 e (List.mem_of_getElem? hk)

theorem whole_step {s : Lists} (h : Whole s) {call : Call} (hc : adds call = false) : Whole (s.step call).2 := by
  cases call with
  | setValue ref key value =>
    simp only [Lists.step]
    split
    · exact h
    · split
      · exact h
      · exact whole_change h _ (fun o => by simp [withValue])
  | setValueAt i j value =>
    simp only [Lists.step]
    split
    · exact h
    · exact whole_change h _ (fun o => by simp [withValue])
  | setName ref name =>
    simp only [Lists.step]
    split
    · exact h
    · exact whole_change h _ (fun o => rfl)
  | append _ _ => cases hc
  | appendObject _ => cases hc

theorem whole_run {s : Lists} (h : Whole s) {calls : List Call} (hc : ∀ c ∈ calls, adds c = false) : Whole (s.run calls).2 := by
  induction calls generalizing s with
  | nil => exact h
  | cons c cs ih => exact ih (whole_step h (hc c List.mem_cons_self)) (fun d hd => hc d (List.mem_cons_of_mem _ hd))

theorem whole_read (os : List SpecObject) : Whole (readLists os) := by
  refine ⟨by simp [readLists], ?_⟩
  intro e he
  obtain ⟨o, -, rfl⟩ := List.mem_map.1 he
  rfl

theorem modify_at {α : Type} (pre : List α) (x : α) (post : List α) (f : α → α) : (pre ++ x :: post).modify pre.length f = pre ++ f x :: post := by
  induction pre with
  | nil => rfl
  | cons y pre ih => simp only [List.cons_append, List.length_cons, List.modify_succ_cons, ih]

/-- An object with one value replaced. -/
theorem withValue_at {o : SpecObject} {as as' : List SpecObjectAttribute} {a : SpecObjectAttribute} (h : o.attributes = as ++ a :: as')
    (v : AttrValue) : withValue o as.length v = { o with attributes := as ++ { a with value := v } :: as' } := by
  unfold withValue
  rw [h, modify_at]

/-- What is in the lists after parsing and calls that add nothing. -/
theorem run_whole {os : List SpecObject} {calls : List Call} (hc : ∀ c ∈ calls, adds c = false) :
    ∃ s, Agrees ((load os).run calls).2 s ∧ Whole s :=
  ⟨_, ((load_agrees os).run_ calls).2, whole_run (whole_read os) hc⟩

/-- **C103**: after parsing and any edits of what is there, setting a value through the lookup and the map changes the last
value with the key in the last object with the identifier, and nothing else; it raises `KeyError` and changes
nothing if there is no such object or no such value in it. -/
theorem C103_set (os : List SpecObject) (calls : List Call) (hc : ∀ c ∈ calls, adds c = false) (ref : Str) (key : Option Str) (v : AttrValue) :
    let h := ((load os).run calls).2
    let r := h.step (.setValue ref key v)
    (∃ pre o post as a as', h.view = pre ++ o :: post ∧ o.identifier = ref ∧ (∀ x ∈ post, x.identifier ≠ ref) ∧
      o.attributes = as ++ a :: as' ∧ a.definitionRef = key ∧ (∀ x ∈ as', x.definitionRef ≠ key) ∧
      r.1 = .ok () ∧ r.2.view = pre ++ { o with attributes := as ++ { a with value := v } :: as' } :: post) ∨
    (r.1 = .error .keyError ∧ r.2.view = h.view ∧ ((∀ x ∈ h.view, x.identifier ≠ ref) ∨
      ∃ pre o post, h.view = pre ++ o :: post ∧ o.identifier = ref ∧ (∀ x ∈ post, x.identifier ≠ ref) ∧
        ∀ x ∈ o.attributes, x.definitionRef ≠ key)) := by
  intro h r
  obtain ⟨s, ha, hw⟩ := run_whole (os := os) hc
  obtain ⟨e1, e2⟩ := ha.step_ (.setValue ref key v)
  have v1 := ha.view_
  have v2 := e2.view_
  show _ ∨ _
  rw [show r.1 = _ from e1, show r.2.view = _ from v2, show h.view = _ from v1]
  have hfind : s.find ref = lastAt (fun e => e.1.identifier == ref) s.objects := by
    unfold Lists.find
    rw [hw.1, List.take_of_length_le (Nat.le_refl _)]
  simp only [Lists.step, hfind]
  cases hi : lastAt (fun e : SpecObject × Nat => e.1.identifier == ref) s.objects with
  | none =>
    refine .inr ⟨rfl, rfl, .inl ?_⟩
    intro x hx
    obtain ⟨e, he, rfl⟩ := List.mem_map.1 hx
    simpa using lastAt_none hi e he
  | some i =>
    obtain ⟨pre, e, post, h1, h2, h3, h4⟩ := lastAt_split hi
    have hget : s.objects[i]? = some e := by rw [h1, ← h2]; simp
    have hid : e.1.identifier = ref := by simpa using h3
    have hpost : ∀ x ∈ post.map (·.1), x.identifier ≠ ref := by
      intro x hx
      obtain ⟨y, hy, rfl⟩ := List.mem_map.1 hx
      simpa using h4 y hy
    simp only [hget, Option.bind_some, attributeAt]
    rw [hw.2 e (List.mem_of_getElem? hget), List.take_of_length_le (Nat.le_refl _)]
    cases hj : lastAt (fun a : SpecObjectAttribute => a.definitionRef == key) e.1.attributes with
    | none =>
      refine .inr ⟨rfl, rfl, .inr ⟨pre.map (·.1), e.1, post.map (·.1), by rw [h1]; simp, hid, hpost, ?_⟩⟩
      intro x hx
      simpa using lastAt_none hj x hx
    | some j =>
      obtain ⟨as, a, as', g1, g2, g3, g4⟩ := lastAt_split hj
      refine .inl ⟨pre.map (·.1), e.1, post.map (·.1), as, a, as', by rw [h1]; simp, hid, hpost, g1, by simpa using g3,
        fun x hx => by simpa using g4 x hx, rfl, ?_⟩
      simp only [Lists.change]
      rw [h1, ← h2, modify_at, ← g2]
      simp only [List.map_append, List.map_cons, withValue_at g1]

/-- The bundle with the objects as they are now. -/
def bundleOf (b : Bundle) (c : Content) (h : Heap) : Bundle :=
  { b with coreContent := some (some { c with specObjects := some h.view }) }

/-- **C103**, with C77: setting a string value in this way replaces exactly its text in what is written. -/
theorem C103_written {b : Bundle} {c : Content} (os : List SpecObject) (calls : List Call) (hc : ∀ c ∈ calls, adds c = false)
    {pre post : List SpecObject} {o : SpecObject} {as as' : List SpecObjectAttribute} {a : SpecObjectAttribute} {v out : Str}
    (hview : ((load os).run calls).2.view = pre ++ o :: post) (hpost : ∀ x ∈ post, x.identifier ≠ o.identifier)
    (has : o.attributes = as ++ a :: as') (has' : ∀ x ∈ as', x.definitionRef ≠ a.definitionRef)
    (h1 : OneValues o) (ht : a.type = .string) (hv : a.value = .str v)
    (hb : unparse (bundleOf b c ((load os).run calls).2) = .ok out) :
    ∃ before after, out = before ++ htmlEscape v ++ after ∧
      ∀ w, (((load os).run calls).2.step (.setValue o.identifier a.definitionRef (.str w))).1 = .ok () ∧
        unparse (bundleOf b c (((load os).run calls).2.step (.setValue o.identifier a.definitionRef (.str w))).2) =
          .ok (before ++ htmlEscape w ++ after) := by
  obtain ⟨before, after, e1, e2⟩ := C77_string (b := bundleOf b c ((load os).run calls).2) (os := pre) (os' := post) (o := o) rfl
    (by rw [hview]) h1 has ht hv hb
  refine ⟨before, after, e1, fun w => ?_⟩
  have last : ∀ {α κ : Type} (f : α → κ) {p p' q q' : List α} {x x' : α}, p ++ x :: q = p' ++ x' :: q' → f x' = f x →
      (∀ y ∈ q, f y ≠ f x) → (∀ y ∈ q', f y ≠ f x) → p = p' ∧ x = x' ∧ q = q' := by
    intro α κ f p p' q q' x x' h hx hq hq'
    rcases List.append_eq_append_iff.1 h with ⟨m, e, e'⟩ | ⟨m, e, e'⟩
    · cases m with
      | nil => rw [List.nil_append] at e'; cases e'; exact ⟨by rw [e, List.append_nil], rfl, rfl⟩
      | cons y m =>
        cases e'
        exact absurd hx (hq x' (by simp))
    · cases m with
      | nil => rw [List.nil_append] at e'; cases e'; exact ⟨by rw [e, List.append_nil], rfl, rfl⟩
      | cons y m =>
        cases e'
        exact absurd rfl (hq' x (by simp))
  rcases C103_set os calls hc o.identifier a.definitionRef (.str w) with
    ⟨p, o', q, bs, a', bs', g1, g2, g3, g4, g5, g6, g7, g8⟩ | ⟨-, -, g⟩
  · rw [hview] at g1
    obtain ⟨rfl, rfl, rfl⟩ := last SpecObject.identifier g1 g2 hpost g3
    rw [has] at g4
    obtain ⟨rfl, rfl, rfl⟩ := last SpecObjectAttribute.definitionRef g4 g5 has' g6
    refine ⟨g7, ?_⟩
    rw [← e2 w]
    unfold bundleOf
    rw [g8]
  · exfalso
    rcases g with g | ⟨p, o', q, g1, g2, g3, g4⟩
    · exact g o (by rw [hview]; simp) rfl
    · rw [hview] at g1
      obtain ⟨rfl, rfl, rfl⟩ := last SpecObject.identifier g1 g2 hpost g3
      exact g4 a (by rw [has]; simp) rfl

/-- **C103**: the cells after parsing are the objects that were parsed, and the lookup finds the object that the lookup of the
parsed bundle finds (C18). -/
theorem C103_parsed (text : Str) (b : Bundle) (h : parseString text = .ok b) :
    (load (specObjectsOf b)).view = specObjectsOf b ∧
    ∀ ref, orKeyError (((load (specObjectsOf b)).lookup.get? ref).bind (load (specObjectsOf b)).object) = b.lookup.specObjectByRef ref := by
  have ha := load_agrees (specObjectsOf b)
  have hv : (load (specObjectsOf b)).view = specObjectsOf b := by
    rw [ha.view_]
    simp [readLists, Function.comp_def]
  refine ⟨hv, fun ref => ?_⟩
  rw [(C18_spec_objects text b h ref).2.1]
  congr 1
  rw [ha.lookup]
  unfold Lists.find
  rw [show (readLists (specObjectsOf b)).parsed = (readLists (specObjectsOf b)).objects.length by simp [readLists],
    List.take_of_length_le (Nat.le_refl _)]
  have hobj : ∀ i : Nat, (load (specObjectsOf b)).object i = (specObjectsOf b)[i]? := by
    intro i
    unfold Heap.object
    cases hc : (load (specObjectsOf b)).objects[i]? with
    | none =>
      have := List.getElem?_eq_none_iff.1 hc
      rw [ha.len] at this
      rw [List.getElem?_eq_none (by simpa [readLists] using this)]; rfl
    | some c =>
      obtain ⟨o, n, h1, h2⟩ := ha.cells i c hc
      simp only [readLists, List.getElem?_map] at h1
      obtain ⟨o', h3, h4⟩ := Option.map_eq_some_iff.1 h1
      cases h4
      rw [h3]
      exact congrArg some h2.object
  unfold lastWith readLists
  dsimp only
  have e := lastAt_map (fun o : SpecObject => o.identifier == ref) (fun e : SpecObject × Nat => e.1)
    ((specObjectsOf b).map fun o => (o, o.attributes.length))
  rw [List.map_map] at e
  simp only [Function.comp_def, List.map_id'] at e
  rw [e]
  rw [show (load (specObjectsOf b)).object = fun i : Nat => (specObjectsOf b)[i]? from funext hobj]
  apply lastAt_filter
  intro x
  rw [Bool.eq_iff_iff]
  exact Iff.trans (by simp) (@beq_iff_eq _ instBEqOfDecidableEq _ _ _).symm

/-! ## Findings -/

/-- A value appended to the list of an object is not in its map. -/
theorem C103_appended : ∃ (os : List SpecObject) (a : SpecObjectAttribute) (ref : Str),
    (load os |>.run [.append ref a, .setValue ref a.definitionRef (.str c!"w")]).1 = [.ok (), .error .keyError] ∧
    ∃ o ∈ (load os |>.run [.append ref a]).2.view, o.identifier = ref ∧ a ∈ o.attributes :=
  ⟨[⟨c!"o", [], none, none, none, none, none⟩], ⟨.string, some c!"d", .str c!"v", none, none⟩, c!"o", rfl, _, List.mem_singleton.2 rfl, rfl,
    List.mem_singleton.2 rfl⟩

/-- Of two objects with the same identifier only the last one can be reached through the lookup. -/
theorem C103_twins : ∃ os : List SpecObject,
    (load os |>.run [.setName c!"o" (some c!"n")]).2.view.map (·.longName) = [none, some c!"n"] :=
  ⟨[⟨c!"o", [], none, none, none, none, none⟩, ⟨c!"o", [], none, none, none, none, none⟩], rfl⟩

/-! ## A case -/

/-- Two objects with values. -/
def twoObjects : List SpecObject :=
  [⟨c!"o", [⟨.string, some c!"d", .str c!"v", none, none⟩, ⟨.string, some c!"e", .str c!"x", none, none⟩], some c!"t", none, none, none, none⟩,
   ⟨c!"p", [⟨.string, some c!"d", .str c!"y", none, none⟩], some c!"t", none, none, none, none⟩]

/-- Edits in both ways, one of which fails. -/
def someEdits : List Call := [.setValueAt 1 0 (.str c!"z"), .setValue c!"q" (some c!"d") (.str c!"a"), .setValue c!"o" (some c!"e") (.str c!"b")]

example : ((load twoObjects).run someEdits).1 = [.ok (), .error .keyError, .ok ()] := rfl
example : ((load twoObjects).run someEdits).2.view.map (fun o => o.attributes.map (·.value)) = [[.str c!"v", .str c!"b"], [.str c!"z"]] := rfl
/-- The hypotheses of C103_set and of C103_written are met. -/
example : ∀ c ∈ someEdits, adds c = false := by decide
example : ∃ pre o post as a as' v, ((load twoObjects).run someEdits).2.view = pre ++ o :: post ∧ (∀ x ∈ post, x.identifier ≠ o.identifier) ∧
    o.attributes = as ++ a :: as' ∧ (∀ x ∈ as', x.definitionRef ≠ a.definitionRef) ∧ OneValues o ∧ a.type = .string ∧ a.value = .str v :=
  ⟨[], _, _, [], _, _, c!"v", rfl, by decide, rfl, by decide, (by intro n h; cases h), rfl, rfl⟩

set_option maxRecDepth 20000 in
example : (match unparse (bundleOf (Bundle.createEmpty (some c!"u") none) ⟨none, none, none, none, none, none⟩
    ((load twoObjects).run someEdits).2) with | .ok _ => true | .error _ => false) = true := by decide +kernel

end ReqIF.Cells
