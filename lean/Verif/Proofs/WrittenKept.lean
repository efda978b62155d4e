import Verif.Proofs.WrittenRound
/-! An element without content that gets lost is written as it is. -/
set_option linter.unusedSimpArgs false
namespace ReqIF.Xsd
open Spec

variable {t : TypeName} {ns : Option Str}

theorem keptAll_mem : ∀ {ks : List Node}, keptAll t ks = true → ∀ {i : Info} {cs : List Node}, .elem i cs ∈ ks →
    keepsChild t i.name = true ∧ ∀ t', (schema .lenient t).model.typeOf i.name = some t' → kept t' (.elem i cs) = true
  | [], _, i, cs, hm => by cases hm
  | .elem j ds :: r, h, i, cs, hm => by
    rw [keptAll, Bool.and_eq_true, Bool.and_eq_true] at h
    rcases List.mem_cons.1 hm with e | hr
    · cases e
      refine ⟨h.1.1, ?_⟩
      intro t' ht
      have h2 := h.1.2
      rw [ht] at h2
      exact h2
    · exact keptAll_mem h.2 hr
  | .text s :: r, h, i, cs, hm => by
    rw [keptAll] at h
    · exact keptAll_mem h (by simpa using hm)
    · simp
  | .comment s :: r, h, i, cs, hm => by
    rw [keptAll] at h
    · exact keptAll_mem h (by simpa using hm)
    · simp
  | .pi s c :: r, h, i, cs, hm => by
    rw [keptAll] at h
    · exact keptAll_mem h (by simpa using hm)
    · simp

theorem kidsBy_mem {decl : TypeName → Complex} {m : Model} (ho : m.isOpen = false) :
    ∀ {ks : List Node}, kidsBy decl ns m ks = true → ∀ {i : Info} {cs : List Node}, .elem i cs ∈ ks →
    ∃ t', m.typeOf i.name = some t' ∧ validBy decl ns t' (.elem i cs) = true
  | [], _, i, cs, hm => by cases hm
  | .elem j ds :: r, h, i, cs, hm => by
    rw [kidsBy, Bool.and_eq_true, ho, Bool.false_or, Bool.and_eq_true] at h
    rcases List.mem_cons.1 hm with e | hr
    · cases e
      have h2 := h.1.2
      cases ht : m.typeOf j.name with
      | none => rw [ht] at h2; cases h2
      | some t' => rw [ht] at h2; exact ⟨t', rfl, h2⟩
    · exact kidsBy_mem ho h.2 hr
  | .text s :: r, h, i, cs, hm => by
    rw [kidsBy, Bool.and_eq_true] at h
    exact kidsBy_mem ho h.2 (by simpa using hm)
  | .comment s :: r, h, i, cs, hm => by
    rw [kidsBy] at h
    · exact kidsBy_mem ho h (by simpa using hm)
    all_goals simp
  | .pi s c :: r, h, i, cs, hm => by
    rw [kidsBy] at h
    · exact kidsBy_mem ho h (by simpa using hm)
    all_goals simp

theorem childNames_mem : ∀ {ks : List Node} {nm : Str}, nm ∈ childNames ks → ∃ i cs, .elem i cs ∈ ks ∧ i.name = nm
  | [], nm, h => by cases h
  | .elem i cs :: r, nm, h => by
    rw [childNames] at h
    rcases List.mem_cons.1 h with e | h
    · exact ⟨i, cs, by simp, e.symm⟩
    · obtain ⟨j, ds, h1, h2⟩ := childNames_mem h
      exact ⟨j, ds, List.mem_cons_of_mem _ h1, h2⟩
  | .text s :: r, nm, h => by
    obtain ⟨j, ds, h1, h2⟩ := childNames_mem (ks := r) h
    exact ⟨j, ds, List.mem_cons_of_mem _ h1, h2⟩
  | .comment s :: r, nm, h => by
    obtain ⟨j, ds, h1, h2⟩ := childNames_mem (ks := r) h
    exact ⟨j, ds, List.mem_cons_of_mem _ h1, h2⟩
  | .pi s c :: r, nm, h => by
    obtain ⟨j, ds, h1, h2⟩ := childNames_mem (ks := r) h
    exact ⟨j, ds, List.mem_cons_of_mem _ h1, h2⟩

/-- Elements of one name that may occur once are the same. -/
theorem same_named : ∀ {ks : List Node}, (childNames ks).Nodup → ∀ {i j : Info} {cs ds : List Node}, .elem i cs ∈ ks → .elem j ds ∈ ks →
    i.name = j.name → Node.elem i cs = .elem j ds
  | [], _, i, j, cs, ds, h, _, _ => by cases h
  | .elem l es :: r, hn, i, j, cs, ds, h1, h2, he => by
    rw [childNames, List.nodup_cons] at hn
    rcases List.mem_cons.1 h1 with e1 | m1 <;> rcases List.mem_cons.1 h2 with e2 | m2
    · rw [e1, e2]
    · cases e1
      exact absurd (he ▸ mem_childNames m2) hn.1
    · cases e2
      exact absurd (he ▸ mem_childNames m1) hn.1
    · exact same_named hn.2 m1 m2 he
  | .text s :: r, hn, i, j, cs, ds, h1, h2, he => same_named (ks := r) hn (by simpa using h1) (by simpa using h2) he
  | .comment s :: r, hn, i, j, cs, ds, h1, h2, he => same_named (ks := r) hn (by simpa using h1) (by simpa using h2) he
  | .pi s c :: r, hn, i, j, cs, ds, h1, h2, he => same_named (ks := r) hn (by simpa using h1) (by simpa using h2) he

theorem open_noType {m : Model} (h : m.isOpen = true) (nm : Str) : m.typeOf nm = none := by
  cases m <;> first | rfl | cases h

/-- The child elements a model speaks of. -/
def modelPairs : Model → List (Str × TypeName)
  | .all es => es.map fun p => (p.name, p.type)
  | .sequence _ es => es.map fun p => (p.name, p.type)
  | .choice _ _ es => es
  | .emptyOrOne es => es
  | _ => []

theorem typeOf_pair {m : Model} {nm : Str} {t' : TypeName} (h : m.typeOf nm = some t') : (nm, t') ∈ modelPairs m := by
  cases m with
  | all es =>
    simp only [Model.typeOf, Option.map_eq_some_iff] at h
    obtain ⟨q, hq, rfl⟩ := h
    have e : q.name = nm := by simpa using List.find?_some hq
    exact List.mem_map.2 ⟨q, List.mem_of_find?_eq_some hq, by rw [e]⟩
  | sequence b es =>
    simp only [Model.typeOf, Option.map_eq_some_iff] at h
    obtain ⟨q, hq, rfl⟩ := h
    have e : q.name = nm := by simpa using List.find?_some hq
    exact List.mem_map.2 ⟨q, List.mem_of_find?_eq_some hq, by rw [e]⟩
  | choice a b es =>
    simp only [Model.typeOf, Option.map_eq_some_iff] at h
    obtain ⟨q, hq, rfl⟩ := h
    have e : q.1 = nm := by simpa using List.find?_some hq
    rw [← e]
    exact List.mem_of_find?_eq_some hq
  | emptyOrOne es =>
    simp only [Model.typeOf, Option.map_eq_some_iff] at h
    obtain ⟨q, hq, rfl⟩ := h
    have e : q.1 = nm := by simpa using List.find?_some hq
    rw [← e]
    exact List.mem_of_find?_eq_some hq
  | _ => cases h

theorem enumRefs_parent {nm : Str} (h : (schema .lenient t).model.typeOf nm = some (.enumRefs true)) :
    t = .value true .enumeration ∧ nm = c!"VALUES" := by
  have hp := typeOf_pair h
  cases t with
  | value b k => cases b <;> cases k <;> simp [schema, modelPairs] at hp ⊢; exact hp
  | definition b k => cases k <;> simp [schema, modelPairs, Dialect.prints] at hp
  | specType s => cases s <;> simp [schema, modelPairs, Kind.all, alternative, Dialect.prints] at hp
  | defaultValue k => cases k <;> simp [schema, modelPairs] at hp
  | dataType k => cases k <;> simp [schema, modelPairs, Kind.all, alternative, Dialect.prints] at hp
  | _ => simp [schema, modelPairs, one, Kind.all, alternative, Dialect.prints] at hp

/-! ## Attributes -/

theorem dropWhile_digit {c : Char} {d : Str} (h : c ≠ '0') : (c :: d).dropWhile (· == '0') = c :: d := by
  rw [List.dropWhile_cons, if_neg (by simp [h])]

theorem digit_not_ws {c : Char} (h : isDigit c = true) : isWs c = false := by
  cases hw : isWs c with
  | false => rfl
  | true =>
    exfalso
    simp only [isWs, isDigit, Bool.or_eq_true, beq_iff_eq, Bool.and_eq_true, decide_eq_true_eq] at hw h
    rcases hw with ((rfl | rfl) | rfl) | rfl <;> revert h <;> decide

theorem trim_same {v : Str} (h : ∀ c ∈ v, isWs c = false) : trim v = v := by
  have key : ∀ l : Str, (∀ c ∈ l, isWs c = false) → l.dropWhile isWs = l := by
    intro l hl
    cases l with
    | nil => rfl
    | cons c l => rw [List.dropWhile_cons, if_neg (by rw [hl c (by simp)]; decide)]
  unfold trim
  rw [key v h, key v.reverse (fun c hc => h c (List.mem_reverse.1 hc)), List.reverse_reverse]

theorem usual_same {v : Str} (h : isUsualInteger v = true) : usualInteger v = v := by
  unfold isUsualInteger at h
  rw [Bool.or_eq_true] at h
  rcases h with h | h
  · rw [beq_iff_eq.1 h]
    decide
  · split at h
    · rename_i c d
      rw [Bool.and_eq_true, Bool.and_eq_true] at h
      obtain ⟨⟨h1, h2⟩, h3⟩ := h
      have ht : trim ('-' :: c :: d) = '-' :: c :: d := trim_same (by
        intro x hx
        rcases List.mem_cons.1 hx with rfl | hx
        · decide
        · rcases List.mem_cons.1 hx with rfl | hx
          · exact digit_not_ws h1
          · exact digit_not_ws (List.all_eq_true.1 h3 x hx))
      unfold usualInteger
      rw [ht]
      show shortDigits ['-'] (c :: d) = _
      unfold shortDigits
      rw [dropWhile_digit (by simpa using h2)]
      rfl
    · rename_i c d hne
      rw [Bool.and_eq_true, Bool.and_eq_true] at h
      obtain ⟨⟨h1, h2⟩, h3⟩ := h
      have ht : trim (c :: d) = c :: d := trim_same (by
        intro x hx
        rcases List.mem_cons.1 hx with rfl | hx
        · exact digit_not_ws h1
        · exact digit_not_ws (List.all_eq_true.1 h3 x hx))
      have hc1 : c ≠ '-' := by rintro rfl; revert h1; decide
      have hc2 : c ≠ '+' := by rintro rfl; revert h1; decide
      unfold usualInteger
      rw [ht]
      have e : shortDigits [] (c :: d) = c :: d := by
        unfold shortDigits
        rw [dropWhile_digit (by simpa using h2)]
        rfl
      split
      · rename_i e1; injection e1 with e1; exact absurd e1 hc1
      · rename_i e1; injection e1 with e1; exact absurd e1 hc2
      · exact e
    · cases h

theorem unlessEmpty_same {v : Str} (h : (!v.isEmpty) = true) : unlessEmpty v = some v := by
  unfold unlessEmpty
  cases v with
  | nil => cases h
  | cons c v => rfl

theorem flag_same {v : Str} (h : isFlag v = true) : flagOut v = v ∧ unlessEmpty v = some v := by
  simp only [isFlag, Bool.or_eq_true, beq_iff_eq] at h
  rcases h with rfl | rfl <;> exact ⟨by decide, by decide⟩

theorem writtenValue_kept {name v : Str} (h : keepsAttr t name v = true) : writtenValue t name v = some v := by
  unfold keepsAttr at h
  unfold writtenValue
  split at h
  · rename_i k
    dsimp only
    by_cases h1 : name = c!"LAST-CHANGE"
    · rw [if_pos h1] at h ⊢
      by_cases hk : k = .real
      · rw [if_pos hk]
      · rw [if_neg hk]
        rw [Bool.or_eq_true] at h
        rcases h with h | h
        · exact absurd (by simpa using h) hk
        · exact unlessEmpty_same h
    · rw [if_neg h1] at h ⊢
      by_cases h2 : name = c!"LONG-NAME"
      · rw [if_pos h2] at h ⊢
        by_cases hk : k = .integer ∨ k = .date
        · rw [if_pos hk]
          rw [Bool.or_eq_true] at h
          rcases h with h | h
          · exfalso
            rcases hk with rfl | rfl <;> cases h
          · exact unlessEmpty_same h
        · rw [if_neg hk]
      · rw [if_neg h2] at h ⊢
        by_cases h3 : name = c!"MAX-LENGTH"
        · rw [if_pos h3] at h ⊢
          exact unlessEmpty_same h
        · rw [if_neg h3] at h ⊢
          by_cases h4 : name = c!"ACCURACY"
          · rw [if_pos h4] at h ⊢
            rw [usual_same h]
          · rw [if_neg h4]
  · dsimp only
    by_cases h1 : name = c!"LAST-CHANGE"
    · rw [if_pos h1] at h ⊢
      exact unlessEmpty_same h
    · rw [if_neg h1] at h ⊢
      by_cases h2 : name = c!"IS-EDITABLE"
      · rw [if_pos (.inl h2)] at h
        rw [if_pos h2, (flag_same h).1]
      · rw [if_neg h2]
        by_cases h3 : name = c!"MULTI-VALUED"
        · rw [if_pos (.inr h3)] at h
          rw [if_pos h3, (flag_same h).2, Option.map_some, (flag_same h).1]
        · rw [if_neg h3]
  · dsimp only
    split
    · rename_i h1
      rw [if_pos h1] at h
      exact unlessEmpty_same h
    · rfl
  · dsimp only
    by_cases h1 : name = c!"LAST-CHANGE" ∨ name = c!"LONG-NAME"
    · rw [if_pos h1] at h ⊢
      exact unlessEmpty_same h
    · rw [if_neg h1] at h ⊢
      by_cases h2 : name = c!"IS-EDITABLE" ∨ name = c!"IS-TABLE-INTERNAL"
      · rw [if_pos h2] at h ⊢
        rw [(flag_same h).1]
      · rw [if_neg h2] at h ⊢
        rw [if_neg (by simpa using h)]
  · dsimp only
    split
    · rename_i h1
      rw [if_pos h1] at h
      exact unlessEmpty_same h
    · rfl
  · dsimp only
    rw [if_neg (by simpa using h)]
  · rename_i h1 h2 h3 h4 h5 h6
    split <;> simp_all

theorem writtenAttrs_kept : ∀ {as : List Attr}, as.all (fun a => keepsAttr t a.name a.value) = true → as.filterMap (writtenAttr t) = as
  | [], _ => rfl
  | a :: as, h => by
    rw [List.all_cons, Bool.and_eq_true] at h
    rw [List.filterMap_cons]
    unfold writtenAttr
    rw [writtenValue_kept h.1]
    dsimp only [Option.map_some]
    exact congrArg (a :: ·) (writtenAttrs_kept h.2)

/-! ## Children -/

theorem keepsOne {cs : List Node} {i : Info} (h : kept .relationValues (.elem i cs) = true) : (childNames cs).length = 1 := by
  rw [kept, Bool.and_eq_true, Bool.and_eq_true] at h
  exact beq_iff_eq.1 h.1.2

theorem kept_writes {ks : List Node} (hv : kidsBy (schema .lenient) ns (schema .lenient t).model ks = true)
    (hk : keepsKids t ks = true) (ha : keptAll t ks = true) {i : Info} {cs : List Node} (hm : .elem i cs ∈ ks) :
    writesChild t i.name cs = true := by
  obtain ⟨h1, h2⟩ := keptAll_mem ha hm
  unfold writesChild
  rw [h1, Bool.true_and]
  cases t with
  | header =>
    have := List.all_eq_true.1 (show ks.all _ = true from hk) _ hm
    exact this
  | relationGroup =>
    dsimp only
    rw [Bool.or_eq_true, Bool.not_eq_true', ← Bool.not_eq_true, Bool.or_eq_true, beq_iff_eq, beq_iff_eq]
    by_cases hn : i.name = c!"SOURCE-SPECIFICATION" ∨ i.name = c!"TARGET-SPECIFICATION"
    · right
      obtain ⟨t', e1, e2⟩ := kidsBy_mem rfl hv hm
      have e3 : t' = .groupSpecification := by
        rcases hn with hn | hn <;> rw [hn] at e1 <;> exact (Option.some.inj e1).symm
      subst e3
      have e4 := h2 _ e1
      rw [kept, Bool.and_eq_true, Bool.and_eq_true] at e4
      rw [validBy, Bool.and_eq_true, Bool.and_eq_true] at e2
      have e5 : (decide (1 ≤ (childNames cs).length) && _) = true := e2.1.2
      rw [Bool.and_eq_true] at e5
      obtain ⟨nm, hnm⟩ : ∃ nm, nm ∈ childNames cs := by
        cases hc : childNames cs with
        | nil => rw [hc] at e5; cases e5.1
        | cons a l => exact ⟨a, by simp⟩
      obtain ⟨j, ds, hj, hjn⟩ := childNames_mem hnm
      obtain ⟨t'', f1, -⟩ := kidsBy_mem rfl e2.2 hj
      have f2 := typeOf_choice (a := 1) (b := some 1) f1
      simp only [List.mem_singleton, Prod.mk.injEq] at f2
      have f3 := List.all_eq_true.1 (show cs.all _ = true from e4.1.2) _ hj
      dsimp only at f3
      rw [f2.1] at f3
      unfold someFull
      rw [List.any_eq_true]
      refine ⟨_, hj, ?_⟩
      dsimp only
      rw [Bool.or_eq_true] at f3
      rcases f3 with f3 | f3
      · exact absurd f3 (by decide)
      · exact f3
    · exact .inl hn
  | specRelation =>
    dsimp only
    by_cases hn : i.name = c!"VALUES"
    · obtain ⟨t', e1, e2⟩ := kidsBy_mem rfl hv hm
      rw [hn] at e1
      have e3 : t' = .relationValues := (Option.some.inj e1).symm
      subst e3
      have e4 := keepsOne (h2 _ (by rw [hn]; exact e1))
      rw [Bool.or_eq_true]
      right
      cases hc : childNames cs with
      | nil => rw [hc] at e4; cases e4
      | cons a l => rfl
    · simp [hn]
  | definition b k =>
    cases k with
    | enumeration =>
      dsimp only
      by_cases hn : i.name = c!"DEFAULT-VALUE"
      · obtain ⟨t', e1, e2⟩ := kidsBy_mem rfl hv hm
        have e3 : t' = .defaultValue .enumeration := by
          rw [hn] at e1
          exact (Option.some.inj e1).symm
        subst e3
        have e4 := h2 _ e1
        rw [kept, Bool.and_eq_true, Bool.and_eq_true] at e4
        rw [validBy, Bool.and_eq_true, Bool.and_eq_true] at e2
        have e5 : (cs.isEmpty || (childNames cs).length == 1) = true := e2.1.2
        rw [Bool.or_eq_true] at e5
        rw [Bool.or_eq_true, Bool.or_eq_true]
        rcases e5 with e5 | e5
        · exact .inl (.inr e5)
        · right
          obtain ⟨nm, hnm⟩ : ∃ nm, nm ∈ childNames cs := by
            cases hc : childNames cs with
            | nil => rw [hc] at e5; simp at e5
            | cons a l => exact ⟨a, by simp⟩
          obtain ⟨j, ds, hj, hjn⟩ := childNames_mem hnm
          obtain ⟨t'', f1, -⟩ := kidsBy_mem rfl e2.2 hj
          have f3 : t'' = .value true .enumeration := by
            have := f1
            simp [schema, Model.typeOf] at this
            exact this.2.symm
          subst f3
          have f4 := (keptAll_mem e4.2 hj).2 _ f1
          rw [kept, Bool.and_eq_true, Bool.and_eq_true] at f4
          have f5 := f4.1.2
          unfold keepsKids at f5
          dsimp only at f5
          rw [List.any_eq_true] at f5
          obtain ⟨x, hx, hx2⟩ := f5
          unfold namesDefault
          rw [List.any_eq_true]
          refine ⟨_, hj, ?_⟩
          dsimp only
          rw [List.any_eq_true]
          refine ⟨x, hx, ?_⟩
          cases x with
          | elem l es =>
            dsimp only at hx2 ⊢
            rw [Bool.and_eq_true] at hx2 ⊢
            refine ⟨hx2.1, ?_⟩
            rw [beq_iff_eq.1 hx2.2]
            rfl
          | _ => cases hx2
      · simp [hn]
    | _ => rfl
  | _ => rfl

theorem kept_single {ks : List Node} (hc : (schema .lenient t).model.countOk ks = true)
    (hk : keepsKids t ks = true) (ha : keptAll t ks = true) {i : Info} {cs : List Node} (hm : .elem i cs ∈ ks) {t' : TypeName}
    (ht : (schema .lenient t).model.typeOf i.name = some t') (ho : onlyFirst t' = true) : (childNames cs).length ≤ 1 := by
  obtain ⟨-, h2⟩ := keptAll_mem ha hm
  have h2 := h2 _ ht
  cases t' with
  | relationValues => exact Nat.le_of_eq (keepsOne h2)
  | enumRefs b =>
    cases b with
    | false => cases ho
    | true =>
      obtain ⟨rfl, hn⟩ := enumRefs_parent ht
      unfold keepsKids at hk
      dsimp only at hk
      rw [List.any_eq_true] at hk
      obtain ⟨x, hx, hx2⟩ := hk
      cases x with
      | elem l es =>
        dsimp only at hx2
        rw [Bool.and_eq_true] at hx2
        have hd : noDup (childNames ks) = true := by
          have hc : (noDup (childNames ks) && _) = true := hc
          rw [Bool.and_eq_true] at hc
          exact hc.1
        have := same_named (noDup_iff.1 hd) hm hx (by rw [hn, beq_iff_eq.1 hx2.1])
        cases this
        rw [beq_iff_eq.1 hx2.2]
        decide
      | _ => cases hx2
  | _ => cases ho

theorem firstOnly_same : ∀ {ks : List Node}, noSpecialsAll ks = true → (childNames ks).length ≤ 1 → firstOnly ks = ks
  | [], _, _ => rfl
  | .elem i cs :: r, hs, hl => by
    rw [noSpecialsAll, Bool.and_eq_true] at hs
    rw [childNames, List.length_cons] at hl
    have hr : childNames r = [] := List.length_eq_zero_iff.1 (by omega)
    rw [firstOnly]
    congr 1
    rw [List.filter_eq_self]
    intro c hc
    cases c with
    | elem j ds => have := mem_childNames hc; rw [hr] at this; cases this
    | text s => rfl
    | comment s => have := noSpecialsAll_iff.1 hs.2 _ hc; cases this
    | pi s c => have := noSpecialsAll_iff.1 hs.2 _ hc; cases this
  | .text s :: r, hs, hl => by
    rw [noSpecialsAll, Bool.and_eq_true] at hs
    rw [firstOnly, firstOnly_same hs.2 hl]
    simp
  | .comment s :: r, hs, hl => by
    rw [noSpecialsAll, Bool.and_eq_true] at hs
    cases hs.1
  | .pi s c :: r, hs, hl => by
    rw [noSpecialsAll, Bool.and_eq_true] at hs
    cases hs.1

mutual
/-- An element without content that gets lost is written as it is. -/
theorem written_kept : ∀ (t : TypeName) (n : Node), validBy (schema .lenient) ns t n = true → noSpecials n = true → kept t n = true →
    (onlyFirst t = true → (childNames n.kids).length ≤ 1) → written t n = n
  | t, .elem i ks, hv, hs, hk, ho => by
    rw [validBy, Bool.and_eq_true, Bool.and_eq_true] at hv
    rw [noSpecials] at hs
    rw [kept, Bool.and_eq_true, Bool.and_eq_true] at hk
    have hw : writtenAll t ks = ks := writtenAll_kept t ks hv.2 hs hk.2 (fun hm => kept_writes hv.2 hk.1.2 hk.2 hm)
      (fun hm ht ho => kept_single hv.1.2 hk.1.2 hk.2 hm ht ho)
    rw [written, hw, writtenAttrs_kept hk.1.1]
    split
    · rename_i h1
      rw [firstOnly_same hs (ho h1)]
    · rfl
  | t, .text s, hv, _, _, _ => by rw [written]; simp
  | t, .comment s, hv, _, _, _ => by rw [written]; simp
  | t, .pi s c, hv, _, _, _ => by rw [written]; simp

theorem writtenAll_kept : ∀ (t : TypeName) (ks : List Node), kidsBy (schema .lenient) ns (schema .lenient t).model ks = true →
    noSpecialsAll ks = true → keptAll t ks = true → (∀ {i cs}, .elem i cs ∈ ks → writesChild t i.name cs = true) →
    (∀ {i cs t'}, .elem i cs ∈ ks → (schema .lenient t).model.typeOf i.name = some t' → onlyFirst t' = true → (childNames cs).length ≤ 1) →
    writtenAll t ks = ks
  | t, [], _, _, _, _, _ => by rw [writtenAll]
  | t, .elem i cs :: r, hv, hs, hk, hw, hf => by
    rw [kidsBy, Bool.and_eq_true] at hv
    rw [noSpecialsAll, Bool.and_eq_true] at hs
    rw [keptAll, Bool.and_eq_true, Bool.and_eq_true] at hk
    rw [writtenAll, writtenAll_kept t r hv.2 hs.2 hk.2 (fun hm => hw (List.mem_cons_of_mem _ hm))
      (fun hm => hf (List.mem_cons_of_mem _ hm))]
    cases ht : (schema .lenient t).model.typeOf i.name with
    | none => rfl
    | some t' =>
      dsimp only
      rw [hw (List.mem_cons_self ..), if_pos rfl]
      have h1 := hv.1
      have h2 := hk.1.2
      rw [ht] at h1 h2
      rw [Bool.or_eq_true] at h1
      rcases h1 with h1 | h1
      · rw [open_noType h1 i.name] at ht
        cases ht
      · rw [Bool.and_eq_true] at h1
        rw [written_kept t' (.elem i cs) h1.2 hs.1 h2 (hf (List.mem_cons_self ..) ht)]
        rfl
  | t, .text s :: r, hv, hs, hk, hw, hf => by
    rw [kidsBy, Bool.and_eq_true] at hv
    rw [noSpecialsAll, Bool.and_eq_true] at hs
    rw [keptAll] at hk
    · rw [writtenAll, writtenAll_kept t r hv.2 hs.2 hk (fun hm => hw (List.mem_cons_of_mem _ hm))
        (fun hm => hf (List.mem_cons_of_mem _ hm))]
      simp
    · simp
  | t, .comment s :: r, hv, hs, hk, hw, hf => by
    rw [noSpecialsAll, Bool.and_eq_true] at hs
    cases hs.1
  | t, .pi s c :: r, hv, hs, hk, hw, hf => by
    rw [noSpecialsAll, Bool.and_eq_true] at hs
    cases hs.1
end

/-- So is a document. -/
theorem writtenRoot_kept {root : Node} (hv : validRoot .lenient root = true) (hs : noSpecials root = true) (hk : keptDocument root = true) :
    writtenRoot root = root := by
  cases root with
  | elem i ks =>
    unfold validRoot at hv
    simp only [Bool.and_eq_true] at hv
    refine written_kept .reqIf _ hv.2 hs ?_ (fun h => by cases h)
    rw [kept, Bool.and_eq_true, Bool.and_eq_true]
    exact ⟨⟨List.all_eq_true.2 (fun a _ => rfl), rfl⟩, hk⟩
  | _ => cases hv

end ReqIF.Xsd
