import Verif.Proofs.OutputFine
import Verif.Proofs.SaidItems
import Verif.Spec.Complete
/-!
# Validity of what is said

An element with the layout of ReqIF is valid if what it says is right.  For each form of
saying, what that means.
-/
set_option linter.unusedSimpArgs false
namespace ReqIF.Xsd
open Spec

/-- Every element that says this is valid. -/
def Right (t : TypeName) (s : Said) : Prop := ∀ i ks, Fine (.elem i ks) → said (.elem i ks) = s → valid .xsd t (.elem i ks) = true

/-- Some element says this. -/
def Real (s : Said) : Prop := ∃ i ks, Fine (.elem i ks) ∧ said (.elem i ks) = s

/-! ## Attributes -/

/-- An attribute that may have to be there. -/
def Suffices (t : Simple) (required : Bool) : Option Str → Prop
  | some v => t.ok v = true
  | none => required = false

/-- The attributes are declared, of the right form, and the required ones are there. -/
def AttrsRight (ds : List AttrDecl) (f : Str → Option Str) : Prop :=
  (∀ d ∈ ds, Suffices d.type d.required (f d.name)) ∧ ∀ k, (f k).isSome → k ∈ ds.map (·.name)

theorem attrsRight_iff {ds : List AttrDecl} {i : Info} {ks : List Node} (hd : (ds.map (·.name)).Nodup) (hn : ∀ a ∈ i.attrs, a.ns = none)
    (ha : (i.attrs.map Attr.name).Nodup) : attrsOk ds i.attrs = true ↔ AttrsRight ds (Node.elem i ks).attr? := by
  have huniq : ∀ {a b : AttrDecl}, a ∈ ds → b ∈ ds → a.name = b.name → a = b := by
    intro a b h1 h2 e
    induction ds with
    | nil => cases h1
    | cons c ds ih =>
      rw [List.map_cons, List.nodup_cons] at hd
      rcases List.mem_cons.1 h1 with rfl | h3 <;> rcases List.mem_cons.1 h2 with rfl | h4
      · rfl
      · exact absurd (List.mem_map.2 ⟨b, h4, e.symm⟩) hd.1
      · exact absurd (List.mem_map.2 ⟨a, h3, e⟩) hd.1
      · exact ih hd.2 h3 h4
  unfold attrsOk AttrsRight
  rw [Bool.and_eq_true, List.all_eq_true, List.all_eq_true]
  constructor
  · rintro ⟨h1, h2⟩
    have hkey : ∀ {k v}, (Node.elem i ks).attr? k = some v → ∃ d ∈ ds, d.name = k ∧ d.type.ok v = true := by
      intro k v hk
      obtain ⟨a, hm, e1, e2⟩ := mem_look hn hk
      have := h1 a hm
      rw [hn a hm, Option.isSome_none, Bool.false_or, List.any_eq_true] at this
      obtain ⟨d, hdm, hd'⟩ := this
      rw [Bool.and_eq_true, beq_iff_eq] at hd'
      exact ⟨d, hdm, hd'.1.trans e1, e2 ▸ hd'.2⟩
    refine ⟨?_, ?_⟩
    · intro d hdm
      cases hk : (Node.elem i ks).attr? d.name with
      | some v =>
        obtain ⟨d', h3, h4, h5⟩ := hkey hk
        rw [huniq h3 hdm h4] at h5
        exact h5
      | none =>
        cases hr : d.required with
        | false => rfl
        | true =>
          have := h2 d hdm
          rw [hr, Bool.not_true, Bool.false_or, List.any_eq_true] at this
          obtain ⟨a, ham, h3⟩ := this
          rw [Bool.and_eq_true, beq_iff_eq] at h3
          have h4 := look_mem hn ha ham
          rw [h3.2] at h4
          have : (Node.elem i ks).attr? d.name = some a.value := h4
          rw [hk] at this
          cases this
    · intro k hk
      obtain ⟨v, hv⟩ := Option.isSome_iff_exists.1 hk
      obtain ⟨d, h3, h4, -⟩ := hkey hv
      exact List.mem_map.2 ⟨d, h3, h4⟩
  · rintro ⟨h1, h2⟩
    refine ⟨?_, ?_⟩
    · intro a ham
      have h3 : (Node.elem i ks).attr? a.name = some a.value := look_mem hn ha ham
      obtain ⟨d, hdm, e⟩ := List.mem_map.1 (h2 a.name (by rw [h3]; rfl))
      have h4 := h1 d hdm
      rw [e, h3] at h4
      rw [hn a ham, Option.isSome_none, Bool.false_or, List.any_eq_true]
      exact ⟨d, hdm, by rw [Bool.and_eq_true, beq_iff_eq]; exact ⟨e, h4⟩⟩
    · intro d hdm
      cases hr : d.required with
      | false => rfl
      | true =>
        have h3 := h1 d hdm
        cases hk : (Node.elem i ks).attr? d.name with
        | none => rw [hk] at h3; rw [hr] at h3; cases h3
        | some v =>
          obtain ⟨a, ham, e1, -⟩ := mem_look hn hk
          rw [Bool.not_true, Bool.false_or, List.any_eq_true]
          exact ⟨a, ham, by rw [hn a ham, e1]; simp⟩

/-- No attribute is declared twice. -/
theorem attrs_nodup (t : TypeName) : ((schema .xsd t).attrs.map (·.name)).Nodup := by
  rw [← noDup_iff]
  cases t with
  | value b k => cases k <;> rfl
  | definition s k => cases k <;> rfl
  | specType s => cases s <;> rfl
  | dataType k => cases k <;> rfl
  | _ => rfl

/-! ## Child elements -/

/-- The child elements with these names are all there have to be, and not more, if they are in order. -/
def Model.namesRight : Model → List Str → Prop
  | .all es, ns => ns.Nodup ∧ ∀ p ∈ es, p.required = true → p.name ∈ ns
  | .sequence _ es, ns => ns.Nodup ∧ (∀ p ∈ es, p.required = true → p.name ∈ ns) ∧ ∀ n ∈ ns, n ∈ es.map (·.name)
  | .choice min max _, ns => min ≤ ns.length ∧ ∀ m, max = some m → ns.length ≤ m
  | _, _ => False

theorem seqOk_of {es : List Particle} {ns : List Str} (hd : (es.map (·.name)).Nodup) (hs : ns.Sublist (es.map (·.name)))
    (hr : ∀ p ∈ es, p.required = true → p.name ∈ ns) : seqOk es ns = true := by
  induction es generalizing ns with
  | nil => rw [List.map_nil, List.sublist_nil] at hs; rw [hs]; rfl
  | cons p es ih =>
    rw [List.map_cons, List.nodup_cons] at hd
    rw [List.map_cons] at hs
    cases ns with
    | nil =>
      rw [seqOk, ih hd.2 (List.nil_sublist _) (fun q hq h => hr q (List.mem_cons_of_mem _ hq) h), Bool.and_true]
      cases h : p.required with
      | false => rfl
      | true => cases hr p (by simp) h
    | cons n ns =>
      rw [seqOk]
      cases hs with
      | cons _ hs' =>
        have hn : ¬ n = p.name := fun e => hd.1 (e ▸ hs'.subset (by simp))
        have hp : p.name ∉ n :: ns := fun hm => hd.1 (hs'.subset hm)
        rw [if_neg hn, ih hd.2 hs' (fun q hq h => hr q (List.mem_cons_of_mem _ hq) h), Bool.and_true]
        cases h : p.required with
        | false => rfl
        | true => exact absurd (hr p (by simp) h) hp
      | cons_cons _ hs' =>
        rw [if_pos rfl]
        refine ih hd.2 hs' (fun q hq h => ?_)
        rcases List.mem_cons.1 (hr q (List.mem_cons_of_mem _ hq) h) with e | hm
        · exact absurd (e ▸ List.mem_map.2 ⟨q, hq, rfl⟩) hd.1
        · exact hm

theorem seqOk_required : ∀ {es : List Particle} {ns : List Str}, seqOk es ns = true → ∀ p ∈ es, p.required = true → p.name ∈ ns
  | [], _, _, p, hp, _ => by cases hp
  | q :: es, [], h, p, hp, hr => by
    rw [seqOk, Bool.and_eq_true] at h
    rcases List.mem_cons.1 hp with rfl | hm
    · rw [hr] at h; cases h.1
    · exact seqOk_required h.2 p hm hr
  | q :: es, n :: ns, h, p, hp, hr => by
    rw [seqOk] at h
    split at h
    · rename_i e
      rcases List.mem_cons.1 hp with rfl | hm
      · rw [e]; simp
      · exact List.mem_cons_of_mem _ (seqOk_required h p hm hr)
    · rw [Bool.and_eq_true] at h
      rcases List.mem_cons.1 hp with rfl | hm
      · rw [hr] at h; cases h.1
      · exact seqOk_required h.2 p hm hr

theorem countOk_iff {nm : Str} {m : Model} {ks : List Node} {ns : List Str} (hm : suits nm m = true) (hx : xhtmlNames.contains nm = false)
    (ht : holdsText nm = false) (hno : m ≠ .anything) (hp : (childNames ks).Perm ns)
    (hk : ∀ l, orderOf nm = some l → (childNames ks).Sublist l) : m.countOk ks = true ↔ m.namesRight ns := by
  cases m with
  | all es =>
    simp only [Model.countOk, Model.namesRight, Bool.and_eq_true, noDup_iff, List.all_eq_true, hp.nodup_iff, Bool.or_eq_true, Bool.not_eq_true',
      List.contains_iff_mem, hp.mem_iff]
    refine and_congr_right fun _ => forall_congr' fun p => imp_congr_right fun _ => ?_
    cases p.required <;> simp
  | sequence o es =>
    simp only [suits, Bool.and_eq_true, beq_iff_eq, noDup_iff] at hm
    obtain ⟨⟨⟨-, rfl⟩, ho⟩, hd⟩ := hm
    have hs := hk _ ho
    simp only [Model.countOk, Model.namesRight]
    constructor
    · intro h
      refine ⟨hp.nodup_iff.1 (hs.nodup hd), fun p h1 h2 => hp.mem_iff.1 (seqOk_required h p h1 h2), fun n hn => hs.subset (hp.mem_iff.2 hn)⟩
    · rintro ⟨-, h, -⟩
      exact seqOk_of hd hs (fun p h1 h2 => hp.mem_iff.2 (h p h1 h2))
  | choice a b es =>
    simp only [Model.countOk, Model.namesRight, Bool.and_eq_true, decide_eq_true_eq, hp.length_eq]
    refine and_congr_right fun _ => ?_
    cases b <;> simp
  | emptyOrOne es => cases hm
  | text s => exact absurd rfl ((suits_record hm hx ht).1 s)
  | xhtml o => exact absurd rfl ((suits_record hm hx ht).2.1 o)
  | anything => exact absurd rfl hno

theorem byName_perm {a b : List Said} (h : byName a = byName b) : (a.map Said.name).Perm (b.map Said.name) := by
  rw [List.perm_iff_count]
  intro nm
  rw [count_byName, count_byName, h]

theorem byName_mem {a b : List Said} (h : byName a = byName b) {s : Said} (hs : s ∈ a) : s ∈ b := by
  have : s ∈ byName a s.name := List.mem_filter.2 ⟨hs, by simp⟩
  rw [h] at this
  exact (List.mem_filter.1 this).1

theorem said_amongst {ks : List Node} {i : Info} {cs : List Node} (h : .elem i cs ∈ ks) : said (.elem i cs) ∈ saidAll ks := by
  rw [saidAll_eq]
  exact List.mem_map.2 ⟨_, List.mem_filter.2 ⟨h, rfl⟩, rfl⟩

theorem amongst_said {ks : List Node} (hw : ks.all elemOrWs = true) {s : Said} (h : s ∈ saidAll ks) : ∃ i cs, .elem i cs ∈ ks ∧ said (.elem i cs) = s := by
  rw [saidAll_eq, List.mem_map] at h
  obtain ⟨c, hc, he⟩ := h
  rw [List.mem_filter] at hc
  have := List.all_eq_true.1 hw c hc.1
  cases c with
  | elem j ds => exact ⟨j, ds, hc.1, he⟩
  | text s => cases hc.2
  | comment s => cases this
  | pi a b => cases this

theorem kidsBy_of {decl : TypeName → Complex} {ns : Option Str} {m : Model} : ∀ {ks : List Node}, ks.all elemOrWs = true →
    (∀ i cs, .elem i cs ∈ ks → i.ns = ns ∧ ∃ t, m.typeOf i.name = some t ∧ validBy decl ns t (.elem i cs) = true) → kidsBy decl ns m ks = true
  | [], _, _ => by rw [kidsBy]
  | .elem i cs :: ks, hw, h => by
    rw [List.all_cons, Bool.and_eq_true] at hw
    obtain ⟨h1, t, h2, h3⟩ := h i cs (by simp)
    rw [kidsBy_ns h1 h2 h3]
    exact kidsBy_of hw.2 (fun i cs hm => h i cs (List.mem_cons_of_mem _ hm))
  | .text s :: ks, hw, h => by
    rw [List.all_cons, Bool.and_eq_true] at hw
    have h1 : s.all isWs = true := hw.1
    rw [kidsBy, h1, Bool.or_true, Bool.true_and]
    exact kidsBy_of hw.2 (fun i cs hm => h i cs (List.mem_cons_of_mem _ hm))
  | .comment s :: ks, hw, _ => by rw [List.all_cons] at hw; cases hw
  | .pi a b :: ks, hw, _ => by rw [List.all_cons] at hw; cases hw

/-- The elements inside of one that says something: these things are said. -/
structure SaysKids (i : Info) (ks : List Node) (cs : List Said) : Prop where
  notXhtml : xhtmlNames.contains i.name = false
  notText : holdsText i.name = false
  ws : ks.all elemOrWs = true
  order : ∀ l, orderOf i.name = some l → (childNames ks).Sublist l
  fine : FineAll ks
  same : byName (saidAll ks) = byName cs

/-- The kids of an element are right. -/
def KidsRight (m : Model) (cs : List Said) : Prop := m.namesRight (cs.map Said.name) ∧ ∀ c ∈ cs, ∃ t, m.typeOf c.name = some t ∧ Right t c

theorem valid_kids {t : TypeName} {i : Info} {ks : List Node} {cs : List Said} (h : SaysKids i ks cs) (hc : suits i.name (schema .xsd t).model = true)
    (hno : (schema .xsd t).model ≠ .anything) :
    (schema .xsd t).model.countOk ks = true ∧ kidsBy (schema .xsd) (some reqifNs) (schema .xsd t).model ks = true ↔
      KidsRight (schema .xsd t).model cs := by
  have hp : (childNames ks).Perm (cs.map Said.name) := by rw [names_said h.ws]; exact byName_perm h.same
  unfold KidsRight
  rw [countOk_iff hc h.notXhtml h.notText hno hp h.order]
  refine and_congr_right fun _ => ?_
  have ho : (schema .xsd t).model.isOpen = false := by
    cases hm : (schema .xsd t).model with
    | xhtml o => exact absurd hm ((suits_record hc h.notXhtml h.notText).2.1 o)
    | anything => exact absurd hm hno
    | _ => rfl
  constructor
  · intro hv c hcm
    obtain ⟨j, ds, h1, h2⟩ := amongst_said h.ws (byName_mem h.same.symm hcm)
    obtain ⟨t', h3, h4⟩ := kidsBy_mem ho hv h1
    have hn : c.name = j.name := by rw [← h2, said_name]
    refine ⟨t', by rw [hn]; exact h3, fun a as hf hs => ?_⟩
    have hn' : a.name = j.name := by rw [← said_name (ks := as), hs, hn]
    exact valid_same _ rfl rfl hf (fineAll_iff.1 h.fine _ h1) (hs.trans h2.symm) (by rw [hn']; exact suits_typeOf h3) h4
  · intro hr
    refine kidsBy_of h.ws (fun j ds hm => ?_)
    have hf := fineAll_iff.1 h.fine _ hm
    obtain ⟨t', h3, h4⟩ := hr _ (byName_mem h.same (said_amongst hm))
    rw [said_name] at h3
    have hf' := hf
    rw [Fine] at hf'
    exact ⟨hf'.1, t', h3, h4 j ds hf rfl⟩

/-! ## Records and lists -/

theorem says_record {i : Info} {ks : List Node} {nm : Str} {vs : List (Str × Str)} {cs : List Said} (hf : Fine (.elem i ks))
    (h : said (.elem i ks) = recordOf nm vs cs) : i.name = nm ∧ (Node.elem i ks).attr? = look vs ∧ SaysKids i ks cs := by
  have hn : i.name = nm := by rw [← said_name (ks := ks), h]; rfl
  refine ⟨hn, ?_⟩
  rw [Fine] at hf
  obtain ⟨-, -, -, f4⟩ := hf
  unfold recordOf at h
  rw [said] at h
  cases h1 : xhtmlNames.contains i.name with
  | true => rw [h1, if_pos rfl] at h; cases h
  | false =>
    rw [h1] at h f4
    simp only [Bool.false_eq_true, if_false] at h f4
    cases h2 : holdsText i.name with
    | true => rw [h2, if_pos rfl] at h; cases h
    | false =>
      rw [h2] at h f4
      simp only [Bool.false_eq_true, if_false] at h f4
      split at h
      · cases h
      · injection h with _ h3 h4
        exact ⟨h3, h1, h2, f4.1, f4.2.1, f4.2.2, h4⟩

theorem says_list {i : Info} {ks : List Node} {nm : Str} {cs : List Said} (hf : Fine (.elem i ks))
    (h : said (.elem i ks) = listOf nm cs) : i.name = nm ∧ (Node.elem i ks).attr? = look [] ∧ SaysKids i ks cs := by
  have hn : i.name = nm := by rw [← said_name (ks := ks), h]; rfl
  refine ⟨hn, ?_⟩
  rw [Fine] at hf
  obtain ⟨-, -, -, f4⟩ := hf
  unfold listOf at h
  rw [said] at h
  cases h1 : xhtmlNames.contains i.name with
  | true => rw [h1, if_pos rfl] at h; cases h
  | false =>
    rw [h1] at h f4
    simp only [Bool.false_eq_true, if_false] at h f4
    cases h2 : holdsText i.name with
    | true => rw [h2, if_pos rfl] at h; cases h
    | false =>
      rw [h2] at h f4
      simp only [Bool.false_eq_true, if_false] at h f4
      split at h
      · injection h with _ h3 h4
        exact ⟨h3, h1, h2, f4.1, f4.2.1, f4.2.2, by rw [h4]⟩
      · cases h

theorem valid_says {t : TypeName} {i : Info} {ks : List Node} {vs : List (Str × Str)} {cs : List Said} (hf : Fine (.elem i ks))
    (ha : (Node.elem i ks).attr? = look vs) (h : SaysKids i ks cs) (hc : suits i.name (schema .xsd t).model = true)
    (hno : (schema .xsd t).model ≠ .anything) :
    valid .xsd t (.elem i ks) = true ↔ AttrsRight (schema .xsd t).attrs (look vs) ∧ KidsRight (schema .xsd t).model cs := by
  rw [Fine] at hf
  unfold valid
  rw [validBy, Bool.and_eq_true, Bool.and_eq_true, attrsRight_iff (attrs_nodup t) hf.2.1 hf.2.2.1 (ks := ks), ha, and_assoc, valid_kids h hc hno]

/-- A record is right if its attributes and its kids are. -/
theorem right_record {t : TypeName} {nm : Str} {vs : List (Str × Str)} {cs : List Said} (hr : Real (recordOf nm vs cs))
    (hc : suits nm (schema .xsd t).model = true) (hno : (schema .xsd t).model ≠ .anything) :
    Right t (recordOf nm vs cs) ↔ AttrsRight (schema .xsd t).attrs (look vs) ∧ KidsRight (schema .xsd t).model cs := by
  constructor
  · intro h
    obtain ⟨i, ks, hf, hs⟩ := hr
    obtain ⟨e, ha, hk⟩ := says_record hf hs
    exact (valid_says hf ha hk (by rw [e]; exact hc) hno).1 (h i ks hf hs)
  · intro h i ks hf hs
    obtain ⟨e, ha, hk⟩ := says_record hf hs
    exact (valid_says hf ha hk (by rw [e]; exact hc) hno).2 h

theorem right_list {t : TypeName} {nm : Str} {cs : List Said} (hr : Real (listOf nm cs)) (hc : suits nm (schema .xsd t).model = true)
    (hno : (schema .xsd t).model ≠ .anything) :
    Right t (listOf nm cs) ↔ AttrsRight (schema .xsd t).attrs (look []) ∧ KidsRight (schema .xsd t).model cs := by
  constructor
  · intro h
    obtain ⟨i, ks, hf, hs⟩ := hr
    obtain ⟨e, ha, hk⟩ := says_list hf hs
    exact (valid_says hf ha hk (by rw [e]; exact hc) hno).1 (h i ks hf hs)
  · intro h i ks hf hs
    obtain ⟨e, ha, hk⟩ := says_list hf hs
    exact (valid_says hf ha hk (by rw [e]; exact hc) hno).2 h

theorem SaysKids.real {i : Info} {ks : List Node} {cs : List Said} (h : SaysKids i ks cs) : ∀ c ∈ cs, Real c := by
  intro c hc
  obtain ⟨j, ds, h1, h2⟩ := amongst_said h.ws (byName_mem h.same.symm hc)
  exact ⟨j, ds, fineAll_iff.1 h.fine _ h1, h2⟩

theorem real_record {nm : Str} {vs : List (Str × Str)} {cs : List Said} (h : Real (recordOf nm vs cs)) : ∀ c ∈ cs, Real c := by
  obtain ⟨i, ks, hf, hs⟩ := h
  exact (says_record hf hs).2.2.real

theorem real_list {nm : Str} {cs : List Said} (h : Real (listOf nm cs)) : ∀ c ∈ cs, Real c := by
  obtain ⟨i, ks, hf, hs⟩ := h
  exact (says_list hf hs).2.2.real

/-! ## Texts and XHTML -/

/-- A text is right if it has the form. -/
theorem right_text {s : Simple} {nm : Str} {o : Option Str} (hr : Real (textSaid nm o)) : Right (.text s) (textSaid nm o) ↔ s.ok (o.getD []) = true := by
  have key : ∀ {i ks}, Fine (.elem i ks) → said (.elem i ks) = textSaid nm o → (valid .xsd (.text s) (.elem i ks) = true ↔ s.ok (o.getD []) = true) := by
    intro i ks hf h
    rw [Fine] at hf
    obtain ⟨-, f2, f3, f4⟩ := hf
    unfold textSaid at h
    rw [said] at h
    cases h1 : xhtmlNames.contains i.name with
    | true => rw [h1, if_pos rfl] at h; cases h
    | false =>
      rw [h1] at h f4
      simp only [Bool.false_eq_true, if_false] at h f4
      cases h2 : holdsText i.name with
      | false =>
        rw [h2] at h
        simp only [Bool.false_eq_true, if_false] at h
        split at h <;> cases h
      | true =>
        rw [h2, if_pos rfl] at h f4
        injection h with _ h3 h4
        unfold valid
        rw [validBy, Bool.and_eq_true, Bool.and_eq_true, attrsRight_iff (attrs_nodup _) f2 f3 (ks := ks), h3]
        have ha : AttrsRight (schema .xsd (.text s)).attrs (fun _ => none) :=
          ⟨fun d hd => absurd hd (by simp [schema]), fun k hk => absurd hk (by simp)⟩
        rcases f4 with rfl | ⟨v, rfl⟩
        · have ho : o = none := by rw [← h4]; rfl
          subst ho
          simp [schema, Model.countOk, kidsBy, Dialect.form, childNames, textOf]
          exact fun _ => ha
        · have ho : o = some v := by rw [← h4]; rfl
          subst ho
          simp [schema, Model.countOk, kidsBy, Dialect.form, childNames, textOf, Model.mixed]
          exact fun _ => ha
  constructor
  · intro h
    obtain ⟨i, ks, hf, hs⟩ := hr
    exact (key hf hs).1 (h i ks hf hs)
  · intro h i ks hf hs
    exact (key hf hs).2 h

theorem right_xhtml {nm p v : Str} {b : Bool} : Right (.xhtmlContent b) (xhtmlSaid nm p v) := by
  intro i ks hf h
  rw [Fine] at hf
  obtain ⟨-, f2, f3, f4⟩ := hf
  unfold xhtmlSaid at h
  rw [said] at h
  cases h1 : xhtmlNames.contains i.name with
  | false =>
    rw [h1] at h
    simp only [Bool.false_eq_true, if_false] at h
    split at h
    · cases h
    · split at h <;> cases h
  | true =>
    rw [h1, if_pos rfl] at h f4
    injection h with _ h3 h4
    unfold valid
    rw [validBy, Bool.and_eq_true, Bool.and_eq_true, attrsRight_iff (attrs_nodup _) f2 f3 (ks := ks), h3]
    refine ⟨⟨⟨fun d hd => absurd hd (by simp [schema]), fun k hk => absurd hk (by simp)⟩, ?_⟩, kidsBy_open (by rfl) ks⟩
    simp [schema, Model.countOk, f4]

/-! ## Layout of the output -/

mutual
/-- A printed element has the layout of ReqIF. -/
theorem laid_layout {M : NsMap} {p : Str} (hd : defaultNs M = some reqifNs) (hg : NsMap.get? M (some p) = some xhtmlUri) : ∀ (m : Node) {i : Info} {ks : List Node},
    m = .elem i ks → i.pfx = none → Laid M p m → Fine m
  | .elem i ks, i', ks', e, hp, hl => by
    cases e
    rw [Laid] at hl
    rw [Fine]
    obtain ⟨h1, h2, h3, h4, h5, h6⟩ := hl
    rw [hp] at h1
    refine ⟨by rw [h1, ← hd], fun a ha => (h3 a ha).1, h4, ?_⟩
    unfold NodeFits at h5
    rw [hp, Option.isSome_none, Bool.false_or] at h5
    cases c1 : xhtmlNames.contains i.name with
    | true =>
      rw [c1, if_pos rfl] at h5
      rw [if_pos rfl]
      exact laidAll_xhtml hg ks h6 h5
    | false =>
      rw [c1] at h5
      simp only [Bool.false_eq_true, if_false] at h5 ⊢
      cases c2 : holdsText i.name with
      | true =>
        rw [c2, if_pos rfl] at h5
        rw [if_pos rfl]
        exact h5
      | false =>
        rw [c2] at h5
        simp only [Bool.false_eq_true, if_false] at h5 ⊢
        refine ⟨?_, h5.2, laidAll_layout hd hg ks h6 h5.1⟩
        rw [List.all_eq_true] at h5 ⊢
        intro k hk
        have := h5.1 k hk
        cases k with
        | elem a b => rfl
        | text s => exact this
        | _ => cases this
  | .text s, _, _, e, _, _ => by cases e
  | .comment s, _, _, e, _, _ => by cases e
  | .pi a b, _, _, e, _, _ => by cases e

theorem laidAll_layout {M : NsMap} {p : Str} (hd : defaultNs M = some reqifNs) (hg : NsMap.get? M (some p) = some xhtmlUri) : ∀ (ks : List Node),
    LaidAll M p ks → ks.all Node.inReqif = true → FineAll ks
  | [], _, _ => by rw [FineAll]; trivial
  | .elem i cs :: ks, hl, hp => by
    rw [LaidAll] at hl
    rw [List.all_cons, Bool.and_eq_true] at hp
    rw [FineAll]
    refine ⟨laid_layout hd hg (.elem i cs) rfl ?_ hl.1, laidAll_layout hd hg ks hl.2 hp.2⟩
    have : i.pfx.isNone = true := hp.1
    simpa using this
  | .text s :: ks, hl, hp => by
    rw [LaidAll] at hl
    rw [List.all_cons, Bool.and_eq_true] at hp
    rw [FineAll, Fine]
    · exact ⟨trivial, laidAll_layout hd hg ks hl.2 hp.2⟩
    · simp
  | .comment s :: ks, _, hp => by rw [List.all_cons] at hp; cases hp
  | .pi a b :: ks, _, hp => by rw [List.all_cons] at hp; cases hp
end

end ReqIF.Xsd
