import Verif.Proofs.OutputFine
import Verif.Spec.Required
/-! What is written of a valid element is valid if it has what the schema requires. -/
set_option linter.unusedSimpArgs false
namespace ReqIF.Xsd
open Spec

/-! ## Attributes -/

/-- What is written of a valid attribute is valid; a required one is written. -/
def AttrFine (t : TypeName) (d : AttrDecl) : Prop := ∀ v, d.type.ok v = true →
  match writtenValue t d.name v with
  | none => d.required = false
  | some w => d.type.ok w = true

variable {t : TypeName} {d : AttrDecl}

theorem attr_same (h : ∀ v, writtenValue t d.name v = some v) : AttrFine t d := by
  intro v hv
  rw [h v]
  exact hv

theorem attr_none (h : ∀ v, writtenValue t d.name v = none) (hr : d.required = false) : AttrFine t d := by
  intro v hv
  rw [h v]
  exact hr

theorem attr_optional (h : ∀ v, writtenValue t d.name v = unlessEmpty v) (hr : d.required = false) : AttrFine t d := by
  intro v hv
  rw [h v]
  unfold unlessEmpty
  split
  · exact hr
  · rename_i w hw
    split at hw
    · cases hw
    · cases hw
      exact hv

theorem attr_full (h : ∀ v, writtenValue t d.name v = unlessEmpty v) (he : d.type.ok [] = false) : AttrFine t d := by
  intro v hv
  rw [h v]
  cases v with
  | nil => rw [he] at hv; cases hv
  | cons c v => exact hv

theorem flag_ok (v : Str) : Simple.ok .boolean (flagOut v) = true := by
  unfold flagOut
  split <;> decide

theorem attr_flag (h : ∀ v, writtenValue t d.name v = some (flagOut v)) (hb : d.type = .boolean) : AttrFine t d := by
  intro v hv
  rw [h v, hb]
  exact flag_ok v

theorem attr_fullFlag (h : ∀ v, writtenValue t d.name v = (unlessEmpty v).map flagOut) (hb : d.type = .boolean) : AttrFine t d := by
  intro v hv
  rw [h v, hb]
  cases v with
  | nil => rw [hb] at hv; cases hv
  | cons c v => exact flag_ok _

theorem digits_isInteger {d : Str} (hne : d ≠ []) (hd : ∀ c ∈ d, isDigit c = true) : isInteger d = true := by
  cases d with
  | nil => exact absurd rfl hne
  | cons c d =>
    have h1 := hd c (by simp)
    have hc1 : c ≠ '-' := by rintro rfl; revert h1; decide
    have hc2 : c ≠ '+' := by rintro rfl; revert h1; decide
    unfold isInteger
    split
    · rename_i e1; injection e1 with e1; exact absurd e1 hc1
    · rename_i e1; injection e1 with e1; exact absurd e1 hc2
    · rw [Bool.and_eq_true, List.all_eq_true]
      exact ⟨rfl, hd⟩

theorem short_ok {v : Str} (hd : ∀ c ∈ v, isDigit c = true) : Simple.ok .integer (shortDigits ['-'] v) = true ∧ Simple.ok .integer (shortDigits [] v) = true := by
  unfold shortDigits
  have hsub : ∀ c ∈ v.dropWhile (· == '0'), isDigit c = true := fun c hc => hd c ((List.dropWhile_sublist _).subset hc)
  generalize v.dropWhile (· == '0') = w at hsub
  cases w with
  | nil => exact ⟨by decide, by decide⟩
  | cons c w =>
    simp only []
    have h2 : ∀ x ∈ c :: w, isWs x = false := fun x hx => digit_not_ws (hsub x hx)
    refine ⟨?_, ?_⟩
    · show isInteger (trim ('-' :: c :: w)) = true
      rw [trim_same (by
        intro x hx
        rcases List.mem_cons.1 hx with rfl | hx
        · decide
        · exact h2 x hx)]
      show (!(c :: w).isEmpty && (c :: w).all isDigit) = true
      rw [Bool.and_eq_true, List.all_eq_true]
      exact ⟨rfl, hsub⟩
    · show isInteger (trim (c :: w)) = true
      rw [trim_same h2]
      exact digits_isInteger (by simp) hsub

theorem usual_ok {v : Str} (h : Simple.ok .integer v = true) : Simple.ok .integer (usualInteger v) = true := by
  have h' : isInteger (trim v) = true := h
  unfold usualInteger
  generalize trim v = w at h'
  unfold isInteger at h'
  split at h'
  · rename_i d
    rw [Bool.and_eq_true, List.all_eq_true] at h'
    exact (short_ok h'.2).1
  · rename_i d
    rw [Bool.and_eq_true, List.all_eq_true] at h'
    exact (short_ok h'.2).2
  · rename_i h1 h2
    rw [Bool.and_eq_true, List.all_eq_true] at h'
    split
    · rename_i d; exact absurd rfl (h1 d)
    · rename_i d; exact absurd rfl (h2 d)
    · exact (short_ok h'.2).2

theorem attr_integer (h : ∀ v, writtenValue t d.name v = some (usualInteger v)) (hb : d.type = .integer) : AttrFine t d := by
  intro v hv
  rw [h v, hb]
  rw [hb] at hv
  exact usual_ok hv

/-- One of the cases above. -/
macro "attr_case" : tactic => `(tactic| first
  | exact attr_same (fun v => rfl)
  | exact attr_full (fun v => rfl) rfl
  | exact attr_optional (fun v => rfl) rfl
  | exact attr_none (fun v => rfl) rfl
  | exact attr_flag (fun v => rfl) rfl
  | exact attr_fullFlag (fun v => rfl) rfl
  | exact attr_integer (fun v => rfl) rfl)

theorem attrs_fine (t : TypeName) : ∀ d ∈ (schema .xsd t).attrs, AttrFine t d := by
  cases t with
  | value b k =>
    cases b <;> cases k <;> simp only [schema, List.forall_mem_cons, List.not_mem_nil, false_implies, implies_true, and_true] <;>
      attr_case
  | definition s k =>
    cases s <;> cases k <;> simp only [schema, usual, if_pos, reduceCtorEq, if_false, List.cons_append, List.append_nil, List.nil_append, List.forall_mem_cons, List.not_mem_nil, false_implies, implies_true, and_true] <;>
      (repeat' (with_reducible refine And.intro ?_ ?_)) <;> attr_case
  | dataType k =>
    cases k <;> simp only [schema, usual, List.cons_append, List.append_nil, List.nil_append, List.forall_mem_cons, List.not_mem_nil, false_implies, implies_true, and_true] <;>
      (repeat' (with_reducible refine And.intro ?_ ?_)) <;> attr_case
  | specType s =>
    cases s <;> simp only [schema, usual, List.forall_mem_cons, List.not_mem_nil, false_implies, implies_true, and_true] <;>
      (repeat' (with_reducible refine And.intro ?_ ?_)) <;> attr_case
  | _ =>
    simp only [schema, usual, List.forall_mem_cons, List.not_mem_nil, false_implies, implies_true, and_true] <;>
      (repeat' (with_reducible refine And.intro ?_ ?_)) <;> attr_case

theorem attrs_once (t : TypeName) : noDup ((schema .xsd t).attrs.map (·.name)) = true := by
  cases t with
  | value b k => cases b <;> cases k <;> rfl
  | definition s k => cases s <;> cases k <;> rfl
  | dataType k => cases k <;> rfl
  | specType s => cases s <;> rfl
  | _ => rfl

theorem same_decl : ∀ {l : List AttrDecl}, (l.map (·.name)).Nodup → ∀ {a b : AttrDecl}, a ∈ l → b ∈ l → a.name = b.name → a = b
  | [], _, _, _, h, _, _ => by cases h
  | c :: l, hn, a, b, ha, hb, he => by
    rw [List.map_cons, List.nodup_cons] at hn
    rcases List.mem_cons.1 ha with e1 | m1 <;> rcases List.mem_cons.1 hb with e2 | m2
    · rw [e1, e2]
    · subst e1; exact absurd (he ▸ List.mem_map.2 ⟨b, m2, rfl⟩) hn.1
    · subst e2; exact absurd (he ▸ List.mem_map.2 ⟨a, m1, rfl⟩) hn.1
    · exact same_decl hn.2 m1 m2 he

theorem attrsOk_written {as : List Attr} (h : attrsOk (schema .xsd t).attrs as = true) : attrsOk (schema .xsd t).attrs (as.filterMap (writtenAttr t)) = true := by
  unfold attrsOk at h ⊢
  rw [Bool.and_eq_true, List.all_eq_true, List.all_eq_true] at h ⊢
  refine ⟨?_, ?_⟩
  · intro b hb
    rw [List.mem_filterMap] at hb
    obtain ⟨a, ha, he⟩ := hb
    have h1 := h.1 a ha
    rw [(writtenAttr_name he).1, (writtenAttr_name he).2]
    rw [Bool.or_eq_true, List.any_eq_true] at h1 ⊢
    refine h1.imp_right ?_
    rintro ⟨d, hd, h2⟩
    rw [Bool.and_eq_true, beq_iff_eq] at h2
    refine ⟨d, hd, ?_⟩
    rw [Bool.and_eq_true, beq_iff_eq]
    refine ⟨h2.1, ?_⟩
    have h3 := attrs_fine t d hd a.value h2.2
    unfold writtenAttr at he
    rw [Option.map_eq_some_iff] at he
    obtain ⟨v, hv, rfl⟩ := he
    rw [h2.1, hv] at h3
    exact h3
  · intro d hd
    have h1 := h.2 d hd
    cases hr : d.required with
    | false => rfl
    | true =>
      rw [hr, Bool.not_true, Bool.false_or, List.any_eq_true] at h1
      obtain ⟨a, ha, h2⟩ := h1
      rw [Bool.and_eq_true, beq_iff_eq] at h2
      rw [Bool.not_true, Bool.false_or, List.any_eq_true]
      have h3 := h.1 a ha
      have hns : a.ns.isSome = false := by have := h2.1; cases hn : a.ns <;> simp_all
      rw [hns, Bool.false_or, List.any_eq_true] at h3
      obtain ⟨d', hd', h4⟩ := h3
      rw [Bool.and_eq_true, beq_iff_eq] at h4
      have hsame : d'.required = true := by
        rw [same_decl (noDup_iff.1 (attrs_once t)) hd' hd (by rw [h4.1, h2.2])]
        exact hr
      have h5 := attrs_fine t d' hd' a.value h4.2
      cases hw : writtenValue t a.name a.value with
      | none => rw [h4.1, hw] at h5; rw [hsame] at h5; cases h5
      | some w =>
        refine ⟨{ a with value := w }, List.mem_filterMap.2 ⟨a, ha, by unfold writtenAttr; rw [hw]; rfl⟩, ?_⟩
        rw [Bool.and_eq_true, beq_iff_eq]
        exact h2

/-! ## Child elements -/

theorem seqOk_iff : ∀ {es : List Particle} {ns : List Str}, (es.map (·.name)).Nodup →
    (seqOk es ns = true ↔ ns.Sublist (es.map (·.name)) ∧ ∀ p ∈ es, p.required = true → p.name ∈ ns)
  | [], ns, _ => by
    rw [seqOk, List.isEmpty_iff]
    constructor
    · rintro rfl; exact ⟨.slnil, by simp⟩
    · intro h; exact List.sublist_nil.1 h.1
  | e :: es, [], hd => by
    rw [List.map_cons, List.nodup_cons] at hd
    rw [seqOk, Bool.and_eq_true, seqOk_iff hd.2]
    simp
  | e :: es, n :: ns, hd => by
    rw [List.map_cons, List.nodup_cons] at hd
    rw [seqOk]
    split
    · rename_i he
      rw [seqOk_iff hd.2]
      constructor
      · rintro ⟨h1, h2⟩
        rw [List.map_cons, ← he]
        refine ⟨h1.cons_cons _, ?_⟩
        intro p hp hr
        rcases List.mem_cons.1 hp with rfl | hm
        · rw [he]; simp
        · exact List.mem_cons_of_mem _ (h2 p hm hr)
      · rintro ⟨h1, h2⟩
        rw [List.map_cons, ← he] at h1
        have h3 : ns.Sublist (es.map (·.name)) := by
          cases h1 with
          | cons _ h => exact absurd (he ▸ h.subset (by simp)) hd.1
          | cons_cons _ h => exact h
        refine ⟨h3, ?_⟩
        intro p hp hr
        rcases List.mem_cons.1 (h2 p (List.mem_cons_of_mem _ hp) hr) with e1 | h4
        · exact absurd (List.mem_map.2 ⟨p, hp, e1.trans he⟩) hd.1
        · exact h4
    · rename_i he
      rw [Bool.and_eq_true, seqOk_iff hd.2]
      constructor
      · rintro ⟨h0, h1, h2⟩
        rw [List.map_cons]
        refine ⟨h1.cons _, ?_⟩
        intro p hp hr
        rcases List.mem_cons.1 hp with rfl | hm
        · rw [hr] at h0; cases h0
        · exact h2 p hm hr
      · rintro ⟨h1, h2⟩
        rw [List.map_cons] at h1
        have h3 : (n :: ns).Sublist (es.map (·.name)) := by
          cases h1 with
          | cons _ h => exact h
          | cons_cons _ h => exact absurd rfl he
        refine ⟨?_, h3, fun p hp hr => h2 p (List.mem_cons_of_mem _ hp) hr⟩
        cases hr : e.required with
        | false => rfl
        | true => exact absurd (h3.subset (h2 e (by simp) hr)) hd.1

/-- What is required is written. -/
def NoneLost (t : TypeName) (ks : List Node) : Prop :=
  ∀ i cs, .elem i cs ∈ ks → writesChild t i.name cs = false → (schema .xsd t).model.requires i.name = false

/-- Child elements are ones the unparser knows. -/
def Known (t : TypeName) (ks : List Node) : Prop := ∀ i cs, .elem i cs ∈ ks → ∃ t', (schema .lenient t).model.typeOf i.name = some t'

theorem Known.tail {k : Node} {ks : List Node} (h : Known t (k :: ks)) : Known t ks := fun i cs hm => h i cs (List.mem_cons_of_mem _ hm)

theorem names_written : ∀ {ks : List Node}, Known t ks → ∀ nm, nm ∈ childNames (writtenAll t ks) ↔ ∃ i cs, .elem i cs ∈ ks ∧ i.name = nm ∧ writesChild t i.name cs = true
  | [], _, nm => by rw [writtenAll]; simp [childNames]
  | .elem i cs :: r, hk, nm => by
    obtain ⟨t', ht⟩ := hk i cs (by simp)
    rw [writtenAll, ht]
    simp only []
    have ih := names_written hk.tail nm
    cases hw : writesChild t i.name cs with
    | false =>
      rw [if_neg (by simp), List.nil_append, ih]
      constructor
      · rintro ⟨j, ds, h1, h2⟩; exact ⟨j, ds, List.mem_cons_of_mem _ h1, h2⟩
      · rintro ⟨j, ds, h1, h2, h3⟩
        rcases List.mem_cons.1 h1 with e | h1
        · cases e; rw [hw] at h3; cases h3
        · exact ⟨j, ds, h1, h2, h3⟩
    | true =>
      rw [if_pos rfl, List.singleton_append, written, childNames, List.mem_cons, ih]
      constructor
      · rintro (rfl | ⟨j, ds, h1, h2⟩)
        · exact ⟨i, cs, by simp, rfl, hw⟩
        · exact ⟨j, ds, List.mem_cons_of_mem _ h1, h2⟩
      · rintro ⟨j, ds, h1, h2, h3⟩
        rcases List.mem_cons.1 h1 with e | h1
        · cases e; exact .inl h2.symm
        · exact .inr ⟨j, ds, h1, h2, h3⟩
  | .text s :: r, hk, nm => by
    rw [writtenAll]
    · rw [childNames, names_written hk.tail nm] <;> simp
    · simp
  | .comment s :: r, hk, nm => by
    rw [writtenAll]
    · rw [childNames, names_written hk.tail nm] <;> simp
    · simp
  | .pi a b :: r, hk, nm => by
    rw [writtenAll]
    · rw [childNames, names_written hk.tail nm] <;> simp
    · simp

theorem writtenAll_names : ∀ {ks : List Node}, Known t ks → (childNames (writtenAll t ks)).Sublist (childNames ks)
  | [], _ => by rw [writtenAll]; exact .slnil
  | .elem i cs :: r, hk => by
    obtain ⟨t', ht⟩ := hk i cs (by simp)
    rw [writtenAll, ht]
    simp only []
    split
    · rw [List.singleton_append, written, childNames, childNames]
      exact (writtenAll_names hk.tail).cons_cons _
    · rw [List.nil_append, childNames]
      exact (writtenAll_names hk.tail).cons _
  | .text s :: r, hk => by
    rw [writtenAll]
    · rw [childNames, childNames]; exact writtenAll_names hk.tail; all_goals simp
    · simp
  | .comment s :: r, hk => by
    rw [writtenAll]
    · rw [childNames, childNames]; exact writtenAll_names hk.tail; all_goals simp
    · simp
  | .pi a b :: r, hk => by
    rw [writtenAll]
    · rw [childNames, childNames]; exact writtenAll_names hk.tail; all_goals simp
    · simp

/-- Required particles among those written. -/
theorem required_written {ks : List Node} (hk : Known t ks) (hd : (childNames ks).Nodup) {es : List Particle}
    (hm : ∀ nm, (schema .xsd t).model.requires nm = es.any (fun p => p.name == nm && p.required))
    (h : ∀ p ∈ es, p.required = true → p.name ∈ childNames ks) :
    (∀ p ∈ es, p.required = true → p.name ∈ childNames (writtenAll t ks)) ↔ NoneLost t ks := by
  constructor
  · intro hw i cs hmem hno
    rw [hm, Bool.eq_false_iff]
    intro ha
    rw [List.any_eq_true] at ha
    obtain ⟨p, hp, h1⟩ := ha
    rw [Bool.and_eq_true, beq_iff_eq] at h1
    obtain ⟨j, ds, h2, h3, h4⟩ := (names_written hk _).1 (hw p hp h1.2)
    have := same_named hd hmem h2 (by rw [h3, h1.1])
    cases this
    rw [hno] at h4
    cases h4
  · intro hn p hp hr
    obtain ⟨i, cs, h1, h2⟩ := childNames_mem (h p hp hr)
    rw [names_written hk]
    refine ⟨i, cs, h1, h2, ?_⟩
    cases hw : writesChild t i.name cs with
    | true => rfl
    | false =>
      have h3 := hn i cs h1 hw
      rw [hm, Bool.eq_false_iff] at h3
      exact absurd (List.any_eq_true.2 ⟨p, hp, by rw [hr, h2]; simp⟩) h3

/-- Choices of the schema: one element that has to be there, or none has. -/
theorem choice_form {a : Nat} {b : Option Nat} {es : List (Str × TypeName)} (h : (schema .xsd t).model = .choice a b es) : a = 0 ∨ (a = 1 ∧ b = some 1) := by
  cases t with
  | value b k => cases b <;> cases k <;> cases h
  | _ => first | (injection h with h1 h2 h3; subst h1 h2; first | exact .inl rfl | exact .inr ⟨rfl, rfl⟩) | cases h

theorem sequence_form {o : Bool} {es : List Particle} (h : (schema .xsd t).model = .sequence o es) : o = true ∧ (es.map (·.name)).Nodup := by
  rw [← noDup_iff]
  cases t with
  | value b k => cases b <;> cases k <;> cases h
  | reqIf => cases h; exact ⟨rfl, rfl⟩
  | header => cases h; exact ⟨rfl, rfl⟩
  | content => cases h; exact ⟨rfl, rfl⟩
  | _ => cases h

theorem length_written : ∀ {ks : List Node}, Known t ks → (∀ i cs, .elem i cs ∈ ks → writesChild t i.name cs = true) →
    (childNames (writtenAll t ks)).length = (childNames ks).length
  | [], _, _ => by rw [writtenAll]
  | .elem i cs :: r, hk, hw => by
    obtain ⟨t', ht⟩ := hk i cs (by simp)
    rw [writtenAll, ht]
    simp only []
    rw [if_pos (hw i cs (by simp)), List.singleton_append, written, childNames, childNames, List.length_cons, List.length_cons,
      length_written hk.tail (fun j ds hm => hw j ds (List.mem_cons_of_mem _ hm))]
  | .text s :: r, hk, hw => by
    rw [writtenAll]
    · exact length_written hk.tail (fun j ds hm => hw j ds (List.mem_cons_of_mem _ hm))
    · simp
  | .comment s :: r, hk, hw => by
    rw [writtenAll]
    · exact length_written hk.tail (fun j ds hm => hw j ds (List.mem_cons_of_mem _ hm))
    · simp
  | .pi a b :: r, hk, hw => by
    rw [writtenAll]
    · exact length_written hk.tail (fun j ds hm => hw j ds (List.mem_cons_of_mem _ hm))
    · simp

theorem no_emptyOrOne {es : List (Str × TypeName)} : (schema .xsd t).model ≠ .emptyOrOne es := by
  intro h
  cases t with
  | value b k => cases b <;> cases k <;> cases h
  | _ => cases h

/-- The right child elements are written if none that is required is lost. -/
theorem countOk_written {ks : List Node} (hm : (schema .xsd t).model.mixed = false) (hk : Known t ks) (ht : kidsBy (schema .xsd) (some reqifNs) (schema .xsd t).model ks = true)
    (h : (schema .xsd t).model.countOk ks = true) : (schema .xsd t).model.countOk (writtenAll t ks) = true ↔ NoneLost t ks := by
  cases hmod : (schema .xsd t).model with
  | all es =>
    rw [hmod] at h
    simp only [Model.countOk, Bool.and_eq_true, noDup_iff, List.all_eq_true, Bool.or_eq_true, Bool.not_eq_true', List.contains_iff_mem] at h ⊢
    have key : ∀ l : List Str, (∀ q ∈ es, q.required = false ∨ q.name ∈ l) ↔ ∀ q ∈ es, q.required = true → q.name ∈ l := by
      intro l
      constructor
      · intro h q hq hr
        rcases h q hq with e | e
        · rw [hr] at e; cases e
        · exact e
      · intro h q hq
        cases hr : q.required with
        | false => exact .inl rfl
        | true => exact .inr (h q hq hr)
    rw [key] at h ⊢
    rw [required_written hk h.1 (by rw [hmod]; intro nm; rfl) h.2]
    exact ⟨fun x => x.2, fun x => ⟨(writtenAll_names hk).nodup h.1, x⟩⟩
  | sequence o es =>
    obtain ⟨rfl, hd⟩ := sequence_form hmod
    rw [hmod] at h
    simp only [Model.countOk] at h ⊢
    rw [seqOk_iff hd] at h ⊢
    rw [required_written hk (h.1.nodup hd) (by rw [hmod]; intro nm; rfl) h.2]
    exact ⟨fun x => x.2, fun x => ⟨(writtenAll_names hk).trans h.1, x⟩⟩
  | choice a b es =>
    have hform := choice_form hmod
    have hsub := (writtenAll_names hk).length_le
    rw [hmod] at h
    simp only [Model.countOk, Bool.and_eq_true, decide_eq_true_eq] at h ⊢
    have hreq : ∀ nm, (schema .xsd t).model.requires nm = (a != 0 && es.any (fun p => p.1 == nm)) := by rw [hmod]; intro nm; rfl
    have hmax : (b.all fun m => decide ((childNames (writtenAll t ks)).length ≤ m)) = true := by
      cases b with
      | none => rfl
      | some m =>
        have h2 := h.2
        simp only [Option.all_some, decide_eq_true_eq] at h2 ⊢
        omega
    rcases hform with rfl | ⟨rfl, rfl⟩
    · constructor
      · intro _ i cs _ _
        rw [hreq]
        rfl
      · intro _
        exact ⟨Nat.zero_le _, hmax⟩
    · have h2 := h.2
      simp only [Option.all_some, decide_eq_true_eq] at h2
      constructor
      · intro hw i cs hmem hno
        exfalso
        have h3 : 0 < (childNames (writtenAll t ks)).length := hw.1
        cases hc : childNames (writtenAll t ks) with
        | nil => rw [hc] at h3; cases h3
        | cons nm l =>
          have h4 : nm ∈ childNames (writtenAll t ks) := by rw [hc]; simp
          obtain ⟨j, ds, g1, g2, g3⟩ := (names_written hk _).1 h4
          have hone : ∀ x ∈ childNames ks, ∀ y ∈ childNames ks, x = y := by
            intro x hx y hy
            cases hks : childNames ks with
            | nil => rw [hks] at hx; cases hx
            | cons z l =>
              rw [hks] at h2 hx hy
              have : l = [] := List.length_eq_zero_iff.1 (by simpa using h2)
              subst this
              simp at hx hy
              rw [hx, hy]
          have hnd : (childNames ks).Nodup := noDup_iff.1 (noDup_short h2)
          have := same_named hnd hmem g1 (hone _ (mem_childNames hmem) _ (mem_childNames g1))
          cases this
          rw [hno] at g3
          cases g3
      · intro hn
        refine ⟨?_, hmax⟩
        rw [length_written hk]
        · exact h.1
        · intro i cs hmem
          cases hw : writesChild t i.name cs with
          | true => rfl
          | false =>
            have h3 := hn i cs hmem hw
            rw [hreq] at h3
            obtain ⟨t', h4, -⟩ := kidsBy_mem (by rw [hmod]; rfl) ht hmem
            have h5 := typeOf_pair h4
            rw [hmod] at h5
            have h6 : (i.name, t') ∈ es := h5
            simp only [bne_iff_ne, ne_eq, Bool.and_eq_false_iff] at h3
            rcases h3 with h3 | h3
            · cases h3
            · rw [List.any_eq_false] at h3
              exact absurd (by simp) (h3 _ h6)
  | emptyOrOne es => exact absurd hmod no_emptyOrOne
  | text s => rw [hmod] at hm; cases hm
  | xhtml b => rw [hmod] at hm; cases hm
  | anything => rw [hmod] at hm; cases hm

/-! ## Elements -/

theorem keepRequired_iff : ∀ {ks : List Node}, keepRequired t ks = true ↔ NoneLost t ks ∧
    ∀ i cs, .elem i cs ∈ ks → writesChild t i.name cs = true → ∀ t', (schema .xsd t).model.typeOf i.name = some t' → keepsRequired t' (.elem i cs) = true
  | [] => by rw [keepRequired]; simp [NoneLost]
  | .elem i cs :: r => by
    rw [keepRequired, Bool.and_eq_true, keepRequired_iff]
    unfold NoneLost
    constructor
    · rintro ⟨h1, h2, h3⟩
      refine ⟨?_, ?_⟩
      · intro j ds hm hw
        rcases List.mem_cons.1 hm with e | hm
        · cases e
          rw [hw, if_neg (by simp)] at h1
          simpa using h1
        · exact h2 j ds hm hw
      · intro j ds hm hw t' ht
        rcases List.mem_cons.1 hm with e | hm
        · cases e
          rw [hw, if_pos rfl, ht] at h1
          exact h1
        · exact h3 j ds hm hw t' ht
    · rintro ⟨h1, h2⟩
      refine ⟨?_, fun j ds hm => h1 j ds (List.mem_cons_of_mem _ hm), fun j ds hm => h2 j ds (List.mem_cons_of_mem _ hm)⟩
      split
      · rename_i hw
        split
        · rename_i t' ht
          exact h2 i cs (by simp) hw t' ht
        · rfl
      · rename_i hw
        rw [h1 i cs (by simp) (by simpa using hw)]
        rfl
  | .text s :: r => by
    rw [keepRequired]
    · rw [keepRequired_iff]; simp [NoneLost]
    · simp
  | .comment s :: r => by
    rw [keepRequired]
    · rw [keepRequired_iff]; simp [NoneLost]
    · simp
  | .pi a b :: r => by
    rw [keepRequired]
    · rw [keepRequired_iff]; simp [NoneLost]
    · simp

/-- Types whose elements lose nothing that is required. -/
def losesNone : TypeName → Bool
  | .value false _ | .valueDefinition _ | .enumRefs _ | .text _ | .xhtmlContent _ => true
  | _ => false

theorem losesNone_kids (h : losesNone t = true) {nm : Str} {t' : TypeName} (ht : (schema .xsd t).model.typeOf nm = some t') : losesNone t' = true := by
  refine pairs_all (f := fun _ t' => losesNone t') ?_ ht
  cases t with
  | value b k => cases b <;> cases k <;> first | rfl | cases h
  | valueDefinition k => cases k <;> rfl
  | enumRefs b => rfl
  | text s => rfl
  | xhtmlContent b => rfl
  | _ => cases h

theorem losesNone_none (h : losesNone t = true) {nm : Str} {ks : List Node} (hw : writesChild t nm ks = false) : (schema .xsd t).model.requires nm = false := by
  rw [Bool.eq_false_iff]
  intro hr
  cases t with
  | value b k =>
    cases b
    · cases k <;> simp [schema, Model.requires, Dialect.strict] at hr <;>
        first | (subst hr; cases hw; done) | (rcases hr with hr | hr <;> subst hr <;> cases hw)
    · cases h
  | valueDefinition k =>
    cases k <;> simp [schema, Model.requires, one] at hr <;> subst hr <;> cases hw
  | enumRefs b => cases hr
  | text s => cases hr
  | xhtmlContent b => cases hr
  | _ => cases h

mutual
theorem losesNone_keeps : ∀ (n : Node) {t : TypeName}, losesNone t = true → keepsRequired t n = true
  | .elem i ks, t, h => by rw [keepsRequired]; exact losesNone_keepAll ks h
  | .text s, _, _ => by rw [keepsRequired]; simp
  | .comment s, _, _ => by rw [keepsRequired]; simp
  | .pi a b, _, _ => by rw [keepsRequired]; simp

theorem losesNone_keepAll : ∀ (ks : List Node) {t : TypeName}, losesNone t = true → keepRequired t ks = true
  | [], _, _ => by rw [keepRequired]
  | .elem i cs :: r, t, h => by
    rw [keepRequired, losesNone_keepAll r h, Bool.and_true]
    split
    · split
      · rename_i t' ht
        exact losesNone_keeps (.elem i cs) (losesNone_kids h ht)
      · rfl
    · rename_i hw
      rw [losesNone_none h (by simpa using hw)]
      rfl
  | .text s :: r, t, h => by rw [keepRequired, losesNone_keepAll r h]; simp
  | .comment s :: r, t, h => by rw [keepRequired, losesNone_keepAll r h]; simp
  | .pi a b :: r, t, h => by rw [keepRequired, losesNone_keepAll r h]; simp
end

theorem kidsBy_sublist {decl : TypeName → Complex} {ns : Option Str} {m : Model} {ks ls : List Node} (hs : ks.Sublist ls)
    (h : kidsBy decl ns m ls = true) : kidsBy decl ns m ks = true := by
  induction hs with
  | slnil => exact h
  | cons a _ ih =>
    refine ih ?_
    cases a with
    | elem i cs => rw [kidsBy, Bool.and_eq_true] at h; exact h.2
    | text s => rw [kidsBy, Bool.and_eq_true] at h; exact h.2
    | comment s => rw [kidsBy] at h; exact h; all_goals simp
    | pi a b => rw [kidsBy] at h; exact h; all_goals simp
  | cons_cons a _ ih =>
    cases a with
    | elem i cs => rw [kidsBy, Bool.and_eq_true] at h ⊢; exact ⟨h.1, ih h.2⟩
    | text s => rw [kidsBy, Bool.and_eq_true] at h ⊢; exact ⟨h.1, ih h.2⟩
    | comment s => rw [kidsBy] at h ⊢; exact ih h; all_goals simp
    | pi a b => rw [kidsBy] at h ⊢; exact ih h; all_goals simp

/-- Lists of which only the first element is written have no required elements. -/
theorem onlyFirst_list (h : onlyFirst t = true) : (∃ es, (schema .xsd t).model = .choice 0 none es) ∧
    ∀ nm t', (schema .xsd t).model.typeOf nm = some t' → losesNone t' = true := by
  refine ⟨?_, fun nm t' ht => pairs_all (f := fun _ t' => losesNone t') ?_ ht⟩
  · cases t <;> first | exact ⟨_, rfl⟩ | cases h
  · cases t <;> first | rfl | cases h

mutual
/-- **What is written of a valid element is valid if and only if no required element gets lost.** -/
theorem written_valid : ∀ (n : Node) {t : TypeName}, valid .xsd t n = true → valid .lenient t n = true → valid .xsd t (written t n) = keepsRequired t n
  | .elem i ks, t, hx, hl => by
    unfold valid at hx hl ⊢
    rw [validBy, Bool.and_eq_true, Bool.and_eq_true] at hx hl
    rw [written, validBy, keepsRequired, attrsOk_written hx.1.1, Bool.true_and]
    cases ho : (schema .xsd t).model.isOpen with
    | true =>
      have hl' : (schema .lenient t).model.isOpen = true := by rw [open_agree]; exact ho
      have hf : onlyFirst t = false := by
        cases hf : onlyFirst t with
        | false => rfl
        | true =>
          obtain ⟨⟨es, he⟩, -⟩ := onlyFirst_list hf
          rw [he] at ho
          cases ho
      rw [hf, writtenAll_open (.inl hl')]
      simp only [Bool.false_eq_true, if_false]
      rw [hx.1.2, hx.2, Bool.true_and]
      symm
      rw [keepRequired_iff]
      refine ⟨?_, ?_⟩
      · intro j ds _ _
        cases hmod : (schema .xsd t).model <;> first | rfl | (rw [hmod] at ho; cases ho)
      · intro j ds _ _ t' ht
        rw [open_noType ho] at ht
        cases ht
    | false =>
      have hk : Known t ks := by
        intro j ds hm
        obtain ⟨t2, b1, -⟩ := kidsBy_mem (by rw [open_agree]; exact ho) hl.2 hm
        exact ⟨t2, b1⟩
      cases hmix : (schema .xsd t).model.mixed with
      | true =>
        cases hmod : (schema .xsd t).model with
        | text s =>
          obtain ⟨s', rfl⟩ := model_text hmod
          rw [writtenAll_open (.inr ⟨s', rfl⟩), ← hmod]
          have hk2 : keepRequired (.text s') ks = true := losesNone_keepAll ks rfl
          rw [hk2]
          show (_ && _) = true
          rw [Bool.and_eq_true]
          exact ⟨hx.1.2, hx.2⟩
        | _ => rw [hmod] at hmix ho; first | (cases hmix; done) | (cases ho; done)
      | false =>
        have hkids := writtenKids_valid ks ho hx.2 hl.2
        cases hf : onlyFirst t with
        | true =>
          obtain ⟨⟨es, he⟩, hnone⟩ := onlyFirst_list hf
          rw [if_pos rfl]
          have h1 : keepRequired t ks = true := by
            rw [keepRequired_iff]
            refine ⟨?_, fun j ds _ _ t' ht => losesNone_keeps _ (hnone _ _ ht)⟩
            intro j ds _ _
            rw [he]
            rfl
          rw [h1, kidsBy_sublist (firstOnly_sublist _) (hkids.2 fun j ds _ _ t' ht => losesNone_keeps _ (hnone _ _ ht)), he]
          simp [Model.countOk]
        | false =>
          simp only [Bool.false_eq_true, if_false]
          rw [Bool.eq_iff_iff, Bool.and_eq_true, keepRequired_iff, hkids, countOk_written hmix hk hx.2 hx.1.2]
  | .text s, _, h, _ => by unfold valid at h; rw [validBy] at h; cases h; simp
  | .comment s, _, h, _ => by unfold valid at h; rw [validBy] at h; cases h; simp
  | .pi a b, _, h, _ => by unfold valid at h; rw [validBy] at h; cases h; simp

theorem writtenKids_valid : ∀ (ks : List Node) {t : TypeName}, (schema .xsd t).model.isOpen = false →
    kidsBy (schema .xsd) (some reqifNs) (schema .xsd t).model ks = true → kidsBy (schema .lenient) (some reqifNs) (schema .lenient t).model ks = true →
    (kidsBy (schema .xsd) (some reqifNs) (schema .xsd t).model (writtenAll t ks) = true ↔
      ∀ i cs, .elem i cs ∈ ks → writesChild t i.name cs = true → ∀ t', (schema .xsd t).model.typeOf i.name = some t' → keepsRequired t' (.elem i cs) = true)
  | [], t, _, _, _ => by rw [writtenAll, kidsBy]; simp
  | .elem i cs :: r, t, ho, hx, hl => by
    obtain ⟨t1, a1, a2⟩ := kidsBy_mem ho hx (i := i) (cs := cs) (by simp)
    obtain ⟨t2, b1, b2⟩ := kidsBy_mem (by rw [open_agree]; exact ho) hl (i := i) (cs := cs) (by simp)
    have e := typeOf_agree a1 b1
    subst e
    rw [kidsBy, ho, Bool.false_or, Bool.and_eq_true, Bool.and_eq_true, beq_iff_eq] at hx
    rw [kidsBy, Bool.and_eq_true] at hl
    have ih := writtenKids_valid r ho hx.2 hl.2
    have hv : valid .xsd t1 (written t1 (.elem i cs)) = keepsRequired t1 (.elem i cs) := written_valid (.elem i cs) a2 b2
    rw [writtenAll, b1]
    simp only []
    cases hw : writesChild t i.name cs with
    | false =>
      rw [if_neg (by simp), List.nil_append, ih]
      constructor
      · intro h j ds hm hw' t' ht
        rcases List.mem_cons.1 hm with e | hm
        · cases e; rw [hw] at hw'; cases hw'
        · exact h j ds hm hw' t' ht
      · intro h j ds hm
        exact h j ds (List.mem_cons_of_mem _ hm)
    | true =>
      rw [if_pos rfl, List.singleton_append]
      have hstep : kidsBy (schema .xsd) (some reqifNs) (schema .xsd t).model (written t1 (.elem i cs) :: writtenAll t r) =
          (valid .xsd t1 (written t1 (.elem i cs)) && kidsBy (schema .xsd) (some reqifNs) (schema .xsd t).model (writtenAll t r)) := by
        rw [written, kidsBy, ho, Bool.false_or]
        simp only []
        rw [hx.1.1, a1]
        simp [valid]
      rw [hstep, hv, Bool.and_eq_true, ih]
      constructor
      · rintro ⟨h1, h2⟩ j ds hm hw' t' ht
        rcases List.mem_cons.1 hm with e | hm
        · cases e; rw [a1] at ht; cases ht; exact h1
        · exact h2 j ds hm hw' t' ht
      · intro h
        exact ⟨h i cs (by simp) hw t1 a1, fun j ds hm => h j ds (List.mem_cons_of_mem _ hm)⟩
  | .text s :: r, t, ho, hx, hl => by
    rw [kidsBy, Bool.and_eq_true] at hx
    rw [kidsBy, Bool.and_eq_true] at hl
    rw [writtenAll]
    · rw [kidsBy, hx.1, Bool.true_and, writtenKids_valid r ho hx.2 hl.2]
      simp
    · simp
  | .comment s :: r, t, ho, hx, hl => by
    rw [kidsBy] at hx hl
    · rw [writtenAll]
      · rw [kidsBy]
        · rw [writtenKids_valid r ho hx hl]; simp
        all_goals simp
      · simp
    all_goals simp
  | .pi a b :: r, t, ho, hx, hl => by
    rw [kidsBy] at hx hl
    · rw [writtenAll]
      · rw [kidsBy]
        · rw [writtenKids_valid r ho hx hl]; simp
        all_goals simp
      · simp
    all_goals simp
end

end ReqIF.Xsd
