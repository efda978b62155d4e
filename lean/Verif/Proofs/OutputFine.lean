import Verif.Proofs.OutputValid
/-! The document printed and what is written of the document read have the layout of ReqIF. -/
set_option linter.unusedSimpArgs false
namespace ReqIF.Xsd
open Spec

/-! ## Printed elements -/

theorem laidAll_mem {M : NsMap} {p : Str} : ∀ {ks : List Node}, LaidAll M p ks → ∀ k ∈ ks, Laid M p k
  | [], _, k, h => by cases h
  | n :: ns, h, k, hk => by
    rw [LaidAll] at h
    rcases List.mem_cons.1 hk with rfl | hm
    · exact h.1
    · exact laidAll_mem h.2 k hm

mutual
/-- Printed elements with a prefix are XHTML. -/
theorem laid_xhtml {M : NsMap} {p : Str} (hg : NsMap.get? M (some p) = some xhtmlUri) : ∀ n : Node, Laid M p n → n.inXhtml = true → isXhtml n = true
  | .elem i ks, hl, hx => by
    rw [Laid] at hl
    have hp : i.pfx.isSome = true := hx
    obtain ⟨h1, -, -, -, h5, h6⟩ := hl
    unfold NodeFits at h5
    rw [if_pos (by rw [hp]; rfl)] at h5
    cases hpf : i.pfx with
    | none => rw [hpf] at hp; cases hp
    | some q =>
      rw [hpf] at h1
      simp only [] at h1
      rw [isXhtml, h1, hg, laidAll_xhtml hg ks h6 h5]
      simp
  | .text s, _, _ => by rw [isXhtml]; simp
  | .comment s, _, _ => by rw [isXhtml]; simp
  | .pi a b, _, _ => by rw [isXhtml]; simp

theorem laidAll_xhtml {M : NsMap} {p : Str} (hg : NsMap.get? M (some p) = some xhtmlUri) : ∀ ks : List Node, LaidAll M p ks → ks.all Node.inXhtml = true → areXhtml ks = true
  | [], _, _ => by rw [areXhtml]
  | n :: ns, hl, hx => by
    rw [LaidAll] at hl
    rw [List.all_cons, Bool.and_eq_true] at hx
    rw [areXhtml, laid_xhtml hg n hl.1 hx.1, laidAll_xhtml hg ns hl.2 hx.2]
    rfl
end

/-- XHTML without elements of XHTML has no elements. -/
theorem noXhtml_texts : ∀ {ks ls : List Node}, areXhtml ls = true → haveXhtml ls = false → treesOf ks = treesOf ls → areXhtml ks = true
  | [], _, _, _, _ => by rw [areXhtml]
  | k :: ks, [], _, _, e => by rw [treesOf, treesOf] at e; cases e
  | k :: ks, l :: ls, h1, h2, e => by
    rw [treesOf, treesOf] at e
    injection e with e1 e2
    rw [areXhtml, Bool.and_eq_true] at h1
    rw [haveXhtml, Bool.or_eq_false_iff] at h2
    rw [areXhtml, noXhtml_texts h1.2 h2.2 e2, Bool.and_true]
    cases k with
    | elem i cs =>
      cases l with
      | elem j ds =>
        have h3 := h1.1
        have h4 := h2.1
        rw [isXhtml, Bool.and_eq_true, beq_iff_eq] at h3
        rw [hasXhtml, Bool.or_eq_false_iff, h3.1] at h4
        have h5 := h4.1
        unfold Info.tag at h5
        rw [h3.1, containsStr_clark (by decide) (by decide) (by decide)] at h5
        have h6 : containsStr xhtmlNs xhtmlUri = true := by decide
        rw [h6] at h5
        cases h5
      | _ => simp [treeOf] at e1
    | _ => rw [isXhtml]; simp

theorem haveXhtml_none : ∀ {ns : List Node} {n : Node}, haveXhtml ns = false → n ∈ ns → hasXhtml n = false := by
  intro ns n h hn
  cases hx : hasXhtml n with
  | false => rfl
  | true => rw [haveXhtml_mem hn hx] at h; cases h

mutual
/-- A printed element has the layout of ReqIF if it says what an element with that layout says. -/
theorem laid_fine {M : NsMap} {p : Str} (hd : defaultNs M = some reqifNs) : ∀ (m : Node) {i : Info} {ks : List Node} {j : Info} {ls : List Node},
    m = .elem i ks → i.pfx = none → Laid M p m → Fine (.elem j ls) → (hasXhtml (.elem j ls) = true → NsMap.get? M (some p) = some xhtmlUri) →
    said m = said (.elem j ls) → Fine m
  | .elem i ks, i', ks', j, ls, e, hp, hl, hf, hx, hs => by
    cases e
    rw [Laid] at hl
    rw [Fine] at hf ⊢
    obtain ⟨h1, h2, h3, h4, h5, h6⟩ := hl
    obtain ⟨s1, s2, s3, s4, s5⟩ := said_inj hs
    have f4 := hf.2.2.2
    rw [hp] at h1
    refine ⟨by rw [h1, ← hd], fun a ha => (h3 a ha).1, h4, ?_⟩
    unfold NodeFits at h5
    rw [hp, Option.isSome_none, Bool.false_or] at h5
    rw [← s1] at f4
    cases c1 : xhtmlNames.contains i.name with
    | true =>
      rw [c1, if_pos rfl] at h5 f4
      rw [if_pos rfl]
      cases hh : haveXhtml ls with
      | true =>
        have : hasXhtml (.elem j ls) = true := hasXhtml_kids (n := .elem j ls) hh
        exact laidAll_xhtml (hx this) ks h6 h5
      | false => exact noXhtml_texts f4 hh (s3 c1)
    | false =>
      rw [c1] at h5 f4
      simp only [Bool.false_eq_true, if_false] at h5 f4 ⊢
      cases c2 : holdsText i.name with
      | true =>
        rw [c2, if_pos rfl] at h5
        rw [if_pos rfl]
        exact h5
      | false =>
        rw [c2] at h5 f4
        simp only [Bool.false_eq_true, if_false] at h5 f4 ⊢
        refine ⟨?_, h5.2, ?_⟩
        · rw [List.all_eq_true] at h5 ⊢
          intro k hk
          have := h5.1 k hk
          cases k with
          | elem a b => rfl
          | text s => exact this
          | _ => cases this
        · exact laidAll_fine hd ks h6 h5.1 f4.2.2 (fun hh => hx (hasXhtml_kids (n := .elem j ls) hh)) (fun a cs hm => said_partner f4.1 (s5 c1 c2) hm)
  | .text s, _, _, _, _, e, _, _, _, _, _ => by cases e
  | .comment s, _, _, _, _, e, _, _, _, _, _ => by cases e
  | .pi a b, _, _, _, _, e, _, _, _, _, _ => by cases e

theorem laidAll_fine {M : NsMap} {p : Str} (hd : defaultNs M = some reqifNs) : ∀ (ks : List Node) {ls : List Node}, LaidAll M p ks → ks.all Node.inReqif = true →
    FineAll ls → (haveXhtml ls = true → NsMap.get? M (some p) = some xhtmlUri) →
    (∀ i cs, .elem i cs ∈ ks → ∃ j ds, .elem j ds ∈ ls ∧ said (.elem i cs) = said (.elem j ds)) → FineAll ks
  | [], _, _, _, _, _, _ => by rw [FineAll]; trivial
  | .elem i cs :: ks, ls, hl, hp, hf, hx, he => by
    rw [LaidAll] at hl
    rw [List.all_cons, Bool.and_eq_true] at hp
    rw [FineAll]
    obtain ⟨j, ds, h1, h2⟩ := he i cs (by simp)
    refine ⟨laid_fine hd (.elem i cs) rfl ?_ hl.1 (fineAll_iff.1 hf _ h1) (fun hh => hx (haveXhtml_mem h1 hh)) h2,
      laidAll_fine hd ks hl.2 hp.2 hf hx (fun i cs hm => he i cs (List.mem_cons_of_mem _ hm))⟩
    have : i.pfx.isNone = true := hp.1
    simpa using this
  | .text s :: ks, ls, hl, hp, hf, hx, he => by
    rw [LaidAll] at hl
    rw [List.all_cons, Bool.and_eq_true] at hp
    rw [FineAll, Fine]
    · exact ⟨trivial, laidAll_fine hd ks hl.2 hp.2 hf hx (fun i cs hm => he i cs (List.mem_cons_of_mem _ hm))⟩
    · simp
  | .comment s :: ks, _, _, hp, _, _, _ => by rw [List.all_cons] at hp; cases hp
  | .pi a b :: ks, _, _, hp, _, _, _ => by rw [List.all_cons] at hp; cases hp
end

theorem haveXhtml_sub {ks ls : List Node} (h : ks.Sublist ls) (hx : haveXhtml ks = true) : haveXhtml ls = true := by
  induction h with
  | slnil => exact hx
  | cons a _ ih => rw [haveXhtml, ih hx, Bool.or_true]
  | cons_cons a _ ih =>
    rw [haveXhtml, Bool.or_eq_true] at hx ⊢
    exact hx.imp_right ih

/-! ## What is written -/

/-- No tool extension is written. -/
theorem no_toolExtension {t : TypeName} {nm : Str} (h : (schema .xsd t).model.typeOf nm = some .toolExtension) (ks : List Node) :
    writesChild t nm ks = false := by
  have h1 : (fun (nm : Str) (t' : TypeName) => match t' with | .toolExtension => nm == c!"REQ-IF-TOOL-EXTENSION" | _ => true) nm .toolExtension = true := by
    refine pairs_all (f := fun nm t' => match t' with | .toolExtension => nm == c!"REQ-IF-TOOL-EXTENSION" | _ => true) ?_ h
    cases t with
    | value b k => cases b <;> cases k <;> rfl
    | definition s k => cases s <;> cases k <;> rfl
    | specType s => cases s <;> rfl
    | specAttributes s => cases s <;> rfl
    | defaultValue k => cases k <;> rfl
    | definitionType k => cases k <;> rfl
    | valueDefinition k => cases k <;> rfl
    | dataType k => cases k <;> rfl
    | _ => rfl
  have h2 : nm = c!"REQ-IF-TOOL-EXTENSION" := by simpa using h1
  rw [h2]
  rfl

deriving instance DecidableEq for TypeName

/-- Schema and the dialect of parser and unparser have the same types for elements both know. -/
theorem typeOf_agree {t t1 t2 : TypeName} {nm : Str} (h1 : (schema .xsd t).model.typeOf nm = some t1)
    (h2 : (schema .lenient t).model.typeOf nm = some t2) : t1 = t2 := by
  have h : (fun nm t' => decide ((schema .lenient t).model.typeOf nm = some t' ∨ (schema .lenient t).model.typeOf nm = none)) nm t1 = true := by
    refine pairs_all (f := fun nm t' => decide ((schema .lenient t).model.typeOf nm = some t' ∨ (schema .lenient t).model.typeOf nm = none)) ?_ h1
    cases t with
    | value b k => cases b <;> cases k <;> rfl
    | definition s k => cases s <;> cases k <;> rfl
    | specType s => cases s <;> rfl
    | specAttributes s => cases s <;> rfl
    | defaultValue k => cases k <;> rfl
    | definitionType k => cases k <;> rfl
    | valueDefinition k => cases k <;> rfl
    | dataType k => cases k <;> rfl
    | _ => rfl
  have h' := of_decide_eq_true h
  rw [h2] at h'
  rcases h' with e | e
  · injection e with e; exact e.symm
  · cases e

theorem open_agree (t : TypeName) : (schema .lenient t).model.isOpen = (schema .xsd t).model.isOpen := by
  cases t with
  | value b k => cases b <;> cases k <;> rfl
  | defaultValue k => cases k <;> rfl
  | _ => rfl

theorem model_text {t : TypeName} {s : Simple} (h : (schema .xsd t).model = .text s) : ∃ s', t = .text s' := by
  cases t with
  | text s => exact ⟨s, rfl⟩
  | value b k => cases b <;> cases k <;> cases h
  | _ => cases h

theorem model_xhtml {t : TypeName} {b : Bool} (h : (schema .xsd t).model = .xhtml b) : ∃ b', t = .xhtmlContent b' := by
  cases t with
  | xhtmlContent b => exact ⟨b, rfl⟩
  | value b k => cases b <;> cases k <;> cases h
  | _ => cases h

theorem model_anything {t : TypeName} (h : (schema .xsd t).model = .anything) : t = .toolExtension := by
  cases t with
  | toolExtension => rfl
  | value b k => cases b <;> cases k <;> cases h
  | _ => cases h

theorem sequence_all {t : TypeName} {o : Bool} {es : List Particle} (h : (schema .xsd t).model = .sequence o es) : onlyFirst t = false := by
  cases t with
  | value b k => cases b <;> cases k <;> cases h
  | relationValues => cases h
  | enumRefs b => cases h
  | _ => rfl

theorem firstOnly_sublist : ∀ ks : List Node, (firstOnly ks).Sublist ks
  | [] => by rw [firstOnly]; exact .slnil
  | .elem i cs :: r => by rw [firstOnly]; exact (List.filter_sublist).cons_cons _
  | .text s :: r => by rw [firstOnly]; exact (firstOnly_sublist r).cons_cons _; simp
  | .comment s :: r => by rw [firstOnly]; exact (firstOnly_sublist r).cons_cons _; simp
  | .pi a b :: r => by rw [firstOnly]; exact (firstOnly_sublist r).cons_cons _; simp

theorem writtenAttr_name {t : TypeName} {a b : Attr} (h : writtenAttr t a = some b) : b.name = a.name ∧ b.ns = a.ns := by
  unfold writtenAttr at h
  rw [Option.map_eq_some_iff] at h
  obtain ⟨v, -, rfl⟩ := h
  exact ⟨rfl, rfl⟩

theorem writtenAttrs_names (t : TypeName) : ∀ as : List Attr, ((as.filterMap (writtenAttr t)).map Attr.name).Sublist (as.map Attr.name)
  | [] => .slnil
  | a :: as => by
    cases h : writtenAttr t a with
    | none => rw [List.filterMap_cons_none h]; exact (writtenAttrs_names t as).cons _
    | some b =>
      rw [List.filterMap_cons_some h, List.map_cons, List.map_cons, (writtenAttr_name h).1]
      exact (writtenAttrs_names t as).cons_cons _

theorem sane_names {i : Info} (h : i.Sane) (hn : ∀ a ∈ i.attrs, a.ns = none) : (i.attrs.map Attr.name).Nodup := by
  have h1 := h.nodup
  have e : i.attrs.map (fun a => (a.ns, a.name)) = (i.attrs.map Attr.name).map (fun n => ((none : Option Str), n)) := by
    rw [List.map_map]
    exact List.map_congr_left fun a ha => by rw [hn a ha]; rfl
  rw [e] at h1
  exact List.Pairwise.of_map _ (fun a b hab e => hab (by rw [e])) h1

/-- Without elements and with no text twice, there is one text or nothing. -/
theorem only_text : ∀ {ks : List Node}, noSpecialsAll ks = true → noTextTwice ks = true → childNames ks = [] → ks = [] ∨ ∃ v, ks = [.text v]
  | [], _, _, _ => .inl rfl
  | .elem i cs :: r, _, _, h => by rw [childNames] at h; cases h
  | .comment s :: r, h, _, _ => by rw [noSpecialsAll, noSpecials] at h; cases h; all_goals simp
  | .pi a b :: r, h, _, _ => by rw [noSpecialsAll, noSpecials] at h; cases h; all_goals simp
  | [.text s], _, _, _ => .inr ⟨s, rfl⟩
  | .text s :: .elem i cs :: r, _, _, h => by simp [childNames] at h
  | .text s :: .text v :: r, _, h, _ => by rw [noTextTwice] at h; cases h
  | .text s :: .comment v :: r, h, _, _ => by simp [noSpecialsAll, noSpecials] at h
  | .text s :: .pi a b :: r, h, _, _ => by simp [noSpecialsAll, noSpecials] at h

mutual
/-- What is written of an element has the layout of ReqIF. -/
theorem written_fine {p : Str} : ∀ (n : Node) {t : TypeName} {i : Info} {ks : List Node}, n = .elem i ks → t ≠ .toolExtension → i.ns = some reqifNs →
    suits i.name (schema .xsd t).model = true → valid .xsd t n = true → valid .lenient t n = true → tidy p n = true → n.Sane → noSpecials n = true →
    Fine (written t n)
  | .elem i ks, t, i', ks', e, htool, hns, hc, hx, hl, ht, hs, hsp => by
    cases e
    rw [written, Fine]
    unfold valid at hx hl
    rw [validBy, Bool.and_eq_true, Bool.and_eq_true] at hx hl
    rw [tidy] at ht
    simp only [Bool.and_eq_true] at ht
    obtain ⟨⟨⟨-, t1⟩, -⟩, t2⟩ := ht
    have hnone : ∀ a ∈ i.attrs, a.ns = none := fun a ha => by simpa using List.all_eq_true.1 t1 a ha
    rw [Node.Sane] at hs
    rw [noSpecials] at hsp
    refine ⟨hns, ?_, ((writtenAttrs_names t i.attrs).nodup (sane_names hs.1 hnone)), ?_⟩
    · intro a ha
      rw [List.mem_filterMap] at ha
      obtain ⟨b, h1, h2⟩ := ha
      rw [(writtenAttr_name h2).2]
      exact hnone b h1
    · show if xhtmlNames.contains i.name = true then _ else _
      cases c1 : xhtmlNames.contains i.name with
      | true =>
        have hm := suits_xhtml hc c1
        obtain ⟨b, rfl⟩ := model_xhtml hm
        rw [if_pos rfl, writtenAll_open (.inl rfl)]
        have h1 := hx.1.2
        rw [hm] at h1
        simp only [Model.countOk, Bool.and_eq_true] at h1
        exact h1.1
      | false =>
        simp only [Bool.false_eq_true, if_false]
        cases c2 : holdsText i.name with
        | true =>
          rw [if_pos rfl]
          cases hm : (schema .xsd t).model with
          | text s =>
            obtain ⟨s', rfl⟩ := model_text hm
            rw [writtenAll_open (.inr ⟨s', rfl⟩)]
            have h1 := hx.1.2
            rw [hm] at h1
            simp only [Model.countOk, Bool.and_eq_true, List.isEmpty_iff] at h1
            exact only_text hsp hs.2.1 h1.1
          | _ => rw [hm] at hc; unfold suits at hc; rw [c1, c2] at hc; cases hc
        | false =>
          simp only [Bool.false_eq_true, if_false]
          obtain ⟨d1, d2, -⟩ := suits_record hc c1 c2
          have d3 : (schema .xsd t).model ≠ .anything := fun e => htool (model_anything e)
          have hmix : (schema .xsd t).model.mixed = false := by
            cases hm : (schema .xsd t).model with
            | text s => exact absurd hm (d1 s)
            | xhtml b => exact absurd hm (d2 b)
            | anything => exact absurd hm d3
            | _ => rfl
          obtain ⟨w1, w2, w3⟩ := writtenAll_fine ks hmix hx.2 hl.2 t2 hs.2.2 hsp
          refine ⟨?_, ?_, ?_⟩
          · split
            · rw [List.all_eq_true] at w1 ⊢
              exact fun k hk => w1 k ((firstOnly_sublist _).subset hk)
            · exact w1
          · intro l hlo
            cases hm : (schema .xsd t).model with
            | sequence o es =>
              rw [sequence_all hm]
              rw [hm] at hc
              simp only [suits, Bool.and_eq_true, beq_iff_eq] at hc
              obtain ⟨⟨⟨-, rfl⟩, ho⟩, -⟩ := hc
              have h1 := hx.1.2
              rw [hm] at h1
              have h2 := seqOk_sublist h1
              rw [ho] at hlo
              cases hlo
              simp only [Bool.false_eq_true, if_false]
              exact w3.trans h2
            | _ =>
              rw [hm] at hc
              unfold suits at hc
              rw [c1, c2, hlo] at hc
              simp at hc
          · split
            · rw [fineAll_iff] at w2 ⊢
              exact fun k hk => w2 k ((firstOnly_sublist _).subset hk)
            · exact w2
  | .text s, _, _, _, e, _, _, _, _, _, _, _, _ => by cases e
  | .comment s, _, _, _, e, _, _, _, _, _, _, _, _ => by cases e
  | .pi a b, _, _, _, e, _, _, _, _, _, _, _, _ => by cases e

theorem writtenAll_fine {p : Str} : ∀ (ks : List Node) {t : TypeName}, (schema .xsd t).model.mixed = false →
    kidsBy (schema .xsd) (some reqifNs) (schema .xsd t).model ks = true → kidsBy (schema .lenient) (some reqifNs) (schema .lenient t).model ks = true →
    tidyAll p ks = true → SaneNodes ks → noSpecialsAll ks = true →
    (writtenAll t ks).all elemOrWs = true ∧ FineAll (writtenAll t ks) ∧ (childNames (writtenAll t ks)).Sublist (childNames ks)
  | [], t, _, _, _, _, _, _ => by rw [writtenAll, FineAll]; exact ⟨rfl, trivial, .slnil⟩
  | .elem i cs :: r, t, hm, hx, hl, ht, hs, hsp => by
    have ho : (schema .xsd t).model.isOpen = false := by
      cases hmod : (schema .xsd t).model <;> first | rfl | (rw [hmod] at hm; cases hm)
    obtain ⟨t1, a1, a2⟩ := kidsBy_mem ho hx (i := i) (cs := cs) (by simp)
    obtain ⟨t2, b1, b2⟩ := kidsBy_mem (by rw [open_agree]; exact ho) hl (i := i) (cs := cs) (by simp)
    have e := typeOf_agree a1 b1
    subst e
    rw [kidsBy, ho, Bool.false_or, Bool.and_eq_true, Bool.and_eq_true, beq_iff_eq] at hx
    rw [kidsBy, Bool.and_eq_true] at hl
    rw [tidyAll, Bool.and_eq_true] at ht
    rw [SaneNodes] at hs
    rw [noSpecialsAll, Bool.and_eq_true] at hsp
    obtain ⟨w1, w2, w3⟩ := writtenAll_fine r hm hx.2 hl.2 ht.2 hs.2 hsp.2
    rw [writtenAll, b1]
    simp only []
    cases hw : writesChild t i.name cs with
    | false =>
      rw [if_neg (by simp), List.nil_append, childNames]
      exact ⟨w1, w2, w3.cons _⟩
    | true =>
      rw [if_pos rfl, List.singleton_append, FineAll, List.all_cons]
      have h1 : Fine (written t1 (.elem i cs)) := by
        refine written_fine (.elem i cs) rfl ?_ hx.1.1 (suits_typeOf a1) a2 b2 ht.1 hs.1 hsp.1
        rintro rfl
        rw [no_toolExtension a1] at hw
        cases hw
      refine ⟨by rw [w1, written]; rfl, ⟨h1, w2⟩, ?_⟩
      rw [written, childNames, childNames]
      exact w3.cons_cons _
  | .text s :: r, t, hm, hx, hl, ht, hs, hsp => by
    rw [kidsBy, Bool.and_eq_true, hm, Bool.false_or] at hx
    rw [kidsBy, Bool.and_eq_true] at hl
    rw [tidyAll, Bool.and_eq_true] at ht
    rw [SaneNodes] at hs
    rw [noSpecialsAll, Bool.and_eq_true] at hsp
    obtain ⟨w1, w2, w3⟩ := writtenAll_fine r hm hx.2 hl.2 ht.2 hs.2 hsp.2
    rw [writtenAll]
    · rw [FineAll, Fine, List.all_cons, w1, Bool.and_true]
      · exact ⟨hx.1, ⟨trivial, w2⟩, w3⟩
      · simp
    · simp
  | .comment s :: r, t, _, _, _, _, _, h => by simp [noSpecialsAll, noSpecials] at h
  | .pi a b :: r, t, _, _, _, _, _, h => by simp [noSpecialsAll, noSpecials] at h
end

mutual
/-- What is written of an element without XHTML has none. -/
theorem written_xhtml : ∀ (n : Node) {t : TypeName}, hasXhtml n = false → hasXhtml (written t n) = false
  | .elem i ks, t, h => by
    rw [hasXhtml, Bool.or_eq_false_iff] at h
    rw [written, hasXhtml, Bool.or_eq_false_iff]
    refine ⟨h.1, ?_⟩
    have := writtenAll_xhtml ks (t := t) h.2
    split
    · cases hh : haveXhtml (firstOnly (writtenAll t ks)) with
      | false => rfl
      | true => rw [haveXhtml_sub (firstOnly_sublist _) hh] at this; exact this
    · exact this
  | .text s, _, _ => by rw [written, hasXhtml]; all_goals simp
  | .comment s, _, _ => by rw [written, hasXhtml]; all_goals simp
  | .pi a b, _, _ => by rw [written, hasXhtml]; all_goals simp

theorem writtenAll_xhtml : ∀ (ks : List Node) {t : TypeName}, haveXhtml ks = false → haveXhtml (writtenAll t ks) = false
  | [], t, _ => by rw [writtenAll, haveXhtml]
  | .elem i cs :: r, t, h => by
    rw [haveXhtml, Bool.or_eq_false_iff] at h
    have ih := writtenAll_xhtml r (t := t) h.2
    rw [writtenAll]
    split
    · rename_i t' _
      split
      · rw [List.singleton_append, haveXhtml, ih, written_xhtml (.elem i cs) (t := t') h.1]; rfl
      · exact ih
    · rw [List.singleton_append, haveXhtml, ih, h.1]; rfl
  | .text s :: r, t, h => by
    rw [haveXhtml, Bool.or_eq_false_iff] at h
    rw [writtenAll, haveXhtml, writtenAll_xhtml r h.2, h.1]; rfl; all_goals simp
  | .comment s :: r, t, h => by
    rw [haveXhtml, Bool.or_eq_false_iff] at h
    rw [writtenAll, haveXhtml, writtenAll_xhtml r h.2, h.1]; rfl; all_goals simp
  | .pi a b :: r, t, h => by
    rw [haveXhtml, Bool.or_eq_false_iff] at h
    rw [writtenAll, haveXhtml, writtenAll_xhtml r h.2, h.1]; rfl; all_goals simp
end

end ReqIF.Xsd
