import Verif.Proofs.WrittenKept
import Verif.Proofs.XsdDialect
/-!
Validity depends on what an element says: of two elements with the layout of ReqIF that say
the same, both are valid or none.
-/
set_option linter.unusedSimpArgs false
namespace ReqIF.Xsd
open Spec

/-- An element, or white space. -/
def elemOrWs : Node → Bool
  | .elem _ _ => true
  | .text s => s.all isWs
  | _ => false

mutual
/-- The layout of ReqIF: elements in its namespace, attributes in none and each once, and
content that goes with the name. -/
def Fine : Node → Prop
  | .elem i ks => i.ns = some reqifNs ∧ (∀ a ∈ i.attrs, a.ns = none) ∧ (i.attrs.map Attr.name).Nodup ∧
      (if xhtmlNames.contains i.name then areXhtml ks = true
       else if holdsText i.name then ks = [] ∨ ∃ v, ks = [.text v]
       else ks.all elemOrWs = true ∧ (∀ l, orderOf i.name = some l → (childNames ks).Sublist l) ∧ FineAll ks)
  | _ => True

def FineAll : List Node → Prop
  | [] => True
  | n :: ns => Fine n ∧ FineAll ns
end

theorem fineAll_iff : ∀ {ks : List Node}, FineAll ks ↔ ∀ k ∈ ks, Fine k
  | [] => by simp [FineAll]
  | k :: ks => by rw [FineAll, fineAll_iff]; simp

/-- The names elements of a model have. -/
def suits (nm : Str) : Model → Bool
  | .text _ => !xhtmlNames.contains nm && holdsText nm
  | .xhtml outer => xhtmlNames.contains nm && !outer
  | .sequence o es => !xhtmlNames.contains nm && !holdsText nm && o && orderOf nm == some (es.map (·.name)) && noDup (es.map (·.name))
  | .emptyOrOne _ => false
  | _ => !xhtmlNames.contains nm && !holdsText nm && orderOf nm == none

theorem suits_xhtml {nm : Str} {m : Model} (h : suits nm m = true) (hx : xhtmlNames.contains nm = true) : m = .xhtml false := by
  unfold suits at h
  rw [hx] at h
  cases m with
  | xhtml b => cases b; rfl; cases h
  | _ => cases h

theorem suits_record {nm : Str} {m : Model} (h : suits nm m = true) (hx : xhtmlNames.contains nm = false) (ht : holdsText nm = false) :
    (∀ s, m ≠ .text s) ∧ (∀ b, m ≠ .xhtml b) ∧ ∀ es, m ≠ .emptyOrOne es := by
  unfold suits at h
  rw [hx, ht] at h
  cases m <;> first | cases h | exact ⟨fun _ e => by (cases e), fun _ e => by (cases e), fun _ e => by (cases e)⟩

/-- A fact about all pairs of the schema. -/
theorem pairs_all {f : Str → TypeName → Bool} {d : Dialect} {t : TypeName}
    (h : ((modelPairs (schema d t).model).all fun q => f q.1 q.2) = true) {nm : Str} {t' : TypeName}
    (ht : (schema d t).model.typeOf nm = some t') : f nm t' = true :=
  List.all_eq_true.1 h _ (typeOf_pair ht)

theorem suits_typeOf {t t' : TypeName} {nm : Str} (h : (schema .xsd t).model.typeOf nm = some t') : suits nm (schema .xsd t').model = true := by
  refine pairs_all (f := fun nm t' => suits nm (schema .xsd t').model) ?_ h
  cases t with
  | value b k => cases b <;> cases k <;> rfl
  | definition s k => cases s <;> cases k <;> rfl
  | specType s => cases s <;> rfl
  | specAttributes s => cases s <;> rfl
  | defaultValue k => cases k <;> rfl
  | definitionType k => cases k <;> rfl
  | valueDefinition k => cases k <;> rfl
  | dataType k => cases k <;> rfl
  | _ => rfl

/-! ## Attributes -/

theorem look_mem {as : List Attr} (hn : ∀ a ∈ as, a.ns = none) (hd : (as.map Attr.name).Nodup) {a : Attr} (ha : a ∈ as) :
    (as.find? (fun b => b.key == a.name)).map Attr.value = some a.value := by
  induction as with
  | nil => cases ha
  | cons b as ih =>
    have hb : b.key = b.name := by rw [Attr.key, hn b (by simp)]; rfl
    rw [List.map_cons, List.nodup_cons] at hd
    rcases List.mem_cons.1 ha with rfl | hm
    · rw [List.find?_cons_of_pos (by simp [hb])]; rfl
    · rw [List.find?_cons_of_neg, ih (fun c hc => hn c (List.mem_cons_of_mem _ hc)) hd.2 hm]
      intro e
      rw [hb, beq_iff_eq] at e
      exact hd.1 (e ▸ List.mem_map.2 ⟨a, hm, rfl⟩)

theorem mem_look {as : List Attr} (hn : ∀ a ∈ as, a.ns = none) {k v : Str}
    (h : (as.find? (fun b => b.key == k)).map Attr.value = some v) : ∃ a ∈ as, a.name = k ∧ a.value = v := by
  rw [Option.map_eq_some_iff] at h
  obtain ⟨a, h1, h2⟩ := h
  have hm := List.mem_of_find?_eq_some h1
  have e : a.key = k := by simpa using List.find?_some h1
  refine ⟨a, hm, ?_, h2⟩
  rw [← e, Attr.key, hn a hm]; rfl

theorem attrsOk_same {ds : List AttrDecl} {as bs : List Attr} (ha : ∀ a ∈ as, a.ns = none) (had : (as.map Attr.name).Nodup)
    (hb : ∀ a ∈ bs, a.ns = none) (hbd : (bs.map Attr.name).Nodup)
    (he : ∀ k, (as.find? (fun b => b.key == k)).map Attr.value = (bs.find? (fun b => b.key == k)).map Attr.value)
    (h : attrsOk ds bs = true) : attrsOk ds as = true := by
  unfold attrsOk at h ⊢
  rw [Bool.and_eq_true, List.all_eq_true, List.all_eq_true] at h ⊢
  refine ⟨?_, ?_⟩
  · intro a hm
    have := look_mem ha had hm
    rw [he] at this
    obtain ⟨b, h1, h2, h3⟩ := mem_look hb this
    have h4 := h.1 b h1
    rw [hb b h1] at h4
    rw [ha a hm, ← h2, ← h3]
    exact h4
  · intro d hm
    have h1 := h.2 d hm
    cases hr : d.required with
    | false => rfl
    | true =>
      rw [hr, Bool.not_true, Bool.false_or, List.any_eq_true] at h1
      obtain ⟨b, hbm, h2⟩ := h1
      rw [Bool.and_eq_true, beq_iff_eq] at h2
      have h3 := look_mem hb hbd hbm
      rw [← he] at h3
      obtain ⟨a, ham, h4, h5⟩ := mem_look ha h3
      rw [Bool.not_true, Bool.false_or, List.any_eq_true]
      exact ⟨a, ham, by rw [ha a ham, h4, h2.2]; simp⟩

/-! ## Names of child elements -/

theorem names_said : ∀ {ks : List Node}, ks.all elemOrWs = true → childNames ks = (saidAll ks).map Said.name
  | [], _ => by rw [saidAll]; rfl
  | .elem i cs :: ks, h => by
    rw [List.all_cons, Bool.and_eq_true] at h
    rw [childNames, saidAll, List.map_cons, said_name, names_said h.2]
    all_goals simp
  | .text s :: ks, h => by
    rw [List.all_cons, Bool.and_eq_true] at h
    rw [childNames, saidAll, names_said h.2]
    all_goals simp
  | .comment s :: ks, h => by rw [List.all_cons] at h; cases h
  | .pi a b :: ks, h => by rw [List.all_cons] at h; cases h

theorem count_byName (l : List Said) (nm : Str) : (l.map Said.name).count nm = (byName l nm).length := by
  unfold byName
  rw [List.count, List.countP_map, List.countP_eq_length_filter]
  rfl

theorem names_perm {ks ls : List Node} (hk : ks.all elemOrWs = true) (hl : ls.all elemOrWs = true)
    (h : byName (saidAll ks) = byName (saidAll ls)) : (childNames ks).Perm (childNames ls) := by
  rw [names_said hk, names_said hl, List.perm_iff_count]
  intro nm
  rw [count_byName, count_byName, h]

/-- Each element has one that says the same. -/
theorem said_partner {ks ls : List Node} (hl : ls.all elemOrWs = true) (h : byName (saidAll ks) = byName (saidAll ls)) {i : Info} {cs : List Node}
    (hm : .elem i cs ∈ ks) : ∃ j ds, .elem j ds ∈ ls ∧ said (.elem i cs) = said (.elem j ds) := by
  have h1 : said (.elem i cs) ∈ byName (saidAll ks) i.name := by
    unfold byName
    rw [List.mem_filter, said_name, saidAll_eq]
    exact ⟨List.mem_map.2 ⟨_, List.mem_filter.2 ⟨hm, rfl⟩, rfl⟩, by simp⟩
  rw [h] at h1
  unfold byName at h1
  rw [List.mem_filter, saidAll_eq, List.mem_map] at h1
  obtain ⟨⟨c, hc, he⟩, -⟩ := h1
  rw [List.mem_filter] at hc
  have := List.all_eq_true.1 hl c hc.1
  cases c with
  | elem j ds => exact ⟨j, ds, hc.1, he.symm⟩
  | text s => cases hc.2
  | comment s => cases this
  | pi a b => cases this

/-! ## Sequences -/

theorem sublist_perm_eq : ∀ {l a b : List Str}, l.Nodup → a.Sublist l → b.Sublist l → (∀ x, x ∈ a ↔ x ∈ b) → a = b
  | [], a, b, _, ha, hb, _ => by rw [List.sublist_nil.1 ha, List.sublist_nil.1 hb]
  | x :: l, a, b, hn, ha, hb, he => by
    rw [List.nodup_cons] at hn
    cases ha with
    | cons _ ha' =>
      cases hb with
      | cons _ hb' => exact sublist_perm_eq hn.2 ha' hb' he
      | cons_cons _ hb' => exact absurd (ha'.subset ((he x).2 (by simp))) hn.1
    | cons_cons _ ha' =>
      cases hb with
      | cons _ hb' => exact absurd (hb'.subset ((he x).1 (by simp))) hn.1
      | cons_cons _ hb' =>
        rw [sublist_perm_eq hn.2 ha' hb']
        intro y
        constructor
        · intro hy
          rcases List.mem_cons.1 ((he y).1 (List.mem_cons_of_mem _ hy)) with e | h
          · exact absurd (e ▸ ha'.subset hy) hn.1
          · exact h
        · intro hy
          rcases List.mem_cons.1 ((he y).2 (List.mem_cons_of_mem _ hy)) with e | h
          · exact absurd (e ▸ hb'.subset hy) hn.1
          · exact h

/-! ## Elements -/

theorem said_inj {i j : Info} {ks ls : List Node} (h : said (.elem i ks) = said (.elem j ls)) :
    i.name = j.name ∧ (Node.elem i ks).attr? = (Node.elem j ls).attr? ∧
      (xhtmlNames.contains i.name = true → treesOf ks = treesOf ls) ∧
      (xhtmlNames.contains i.name = false → holdsText i.name = true → (Node.elem i ks).text? = (Node.elem j ls).text?) ∧
      (xhtmlNames.contains i.name = false → holdsText i.name = false → byName (saidAll ks) = byName (saidAll ls)) := by
  have hn : i.name = j.name := by rw [← said_name (ks := ks), h, said_name]
  rw [said, said, ← hn] at h
  refine ⟨hn, ?_⟩
  cases h1 : xhtmlNames.contains i.name with
  | true =>
    rw [h1, if_pos rfl, if_pos rfl] at h
    injection h with _ h2 h3
    exact ⟨h2, fun _ => h3, fun e => by (cases e), fun e => by (cases e)⟩
  | false =>
    rw [h1] at h
    simp only [Bool.false_eq_true, if_false] at h
    cases h4 : holdsText i.name with
    | true =>
      rw [h4, if_pos rfl, if_pos rfl] at h
      injection h with _ h2 h3
      exact ⟨h2, fun e => by (cases e), fun _ _ => h3, fun _ e => by (cases e)⟩
    | false =>
      rw [h4] at h
      simp only [Bool.false_eq_true, if_false] at h
      split at h
      · injection h with _ h2 h3
        exact ⟨h2, fun e => by (cases e), fun _ e => by (cases e), fun _ _ => by rw [h3]⟩
      · injection h with _ h2 h3
        exact ⟨h2, fun e => by (cases e), fun _ e => by (cases e), fun _ _ => h3⟩

theorem kidsBy_open {decl : TypeName → Complex} {ns : Option Str} {m : Model} (ho : m.isOpen = true) : ∀ ks : List Node, kidsBy decl ns m ks = true
  | [] => by rw [kidsBy]
  | .elem i cs :: ks => by rw [kidsBy, ho, kidsBy_open ho ks]; rfl
  | .text s :: ks => by
    rw [kidsBy, kidsBy_open ho ks]
    cases m <;> first | rfl | cases ho
  | .comment s :: ks => by rw [kidsBy, kidsBy_open ho ks]; all_goals simp
  | .pi a b :: ks => by rw [kidsBy, kidsBy_open ho ks]; all_goals simp

/-- The right child elements, if another element with child elements of the same names has them. -/
theorem countOk_same {nm : Str} {m : Model} {ks ls : List Node} (hm : suits nm m = true) (hx : xhtmlNames.contains nm = false)
    (ht : holdsText nm = false) (hp : (childNames ks).Perm (childNames ls)) (hk : ∀ l, orderOf nm = some l → (childNames ks).Sublist l)
    (h : m.countOk ls = true) : m.countOk ks = true := by
  cases m with
  | all es =>
    simp only [Model.countOk, Bool.and_eq_true, noDup_iff, List.all_eq_true] at h ⊢
    refine ⟨hp.nodup_iff.2 h.1, fun q hq => ?_⟩
    have := h.2 q hq
    simp only [Bool.or_eq_true, List.contains_iff_mem] at this ⊢
    exact this.imp_right hp.mem_iff.2
  | sequence o es =>
    simp only [suits, Bool.and_eq_true, beq_iff_eq, noDup_iff] at hm
    obtain ⟨⟨⟨-, rfl⟩, ho⟩, hd⟩ := hm
    simp only [Model.countOk] at h ⊢
    rw [sublist_perm_eq hd (hk _ ho) (seqOk_sublist h) (fun _ => hp.mem_iff)]
    exact h
  | choice a b es =>
    simp only [Model.countOk] at h ⊢
    rw [hp.length_eq]
    exact h
  | emptyOrOne es => cases hm
  | text s => exact absurd rfl ((suits_record hm hx ht).1 s)
  | xhtml o => exact absurd rfl ((suits_record hm hx ht).2.1 o)
  | anything => rfl

theorem kidsBy_ns {decl : TypeName → Complex} {ns : Option Str} {m : Model} {i : Info} {cs : List Node} {t' : TypeName} {ks : List Node}
    (hi : i.ns = ns) (ht : m.typeOf i.name = some t') (hv : validBy decl ns t' (.elem i cs) = true) :
    kidsBy decl ns m (.elem i cs :: ks) = kidsBy decl ns m ks := by
  rw [kidsBy, ht]
  simp [hi, hv]

mutual
/-- **Transfer.** -/
theorem valid_same : ∀ (m : Node) {n : Node} {t : TypeName} {i : Info} {ks : List Node} {j : Info} {ls : List Node}, m = .elem i ks → n = .elem j ls →
    Fine m → Fine n → said m = said n → suits i.name (schema .xsd t).model = true → valid .xsd t n = true → valid .xsd t m = true
  | .elem i ks, n, t, i', ks', j, ls, e, e', hm, hn, hs, hc, hv => by
    cases e
    subst e'
    obtain ⟨h1, h2, h3, h4, h5⟩ := said_inj hs
    rw [Fine] at hm hn
    obtain ⟨m1, m2, m3, m4⟩ := hm
    obtain ⟨n1, n2, n3, n4⟩ := hn
    unfold valid at hv ⊢
    rw [validBy, Bool.and_eq_true, Bool.and_eq_true] at hv ⊢
    rw [← h1] at n4
    obtain ⟨⟨v1, v2⟩, v3⟩ := hv
    refine ⟨⟨attrsOk_same m2 m3 n2 n3 (fun k => congrFun h2 k) v1, ?_⟩, ?_⟩
    · cases hx : xhtmlNames.contains i.name with
      | true =>
        rw [hx, if_pos rfl] at m4
        rw [suits_xhtml hc hx]
        simp only [Model.countOk, m4, Bool.true_and, Bool.not_false, Bool.true_or]
      | false =>
        rw [hx] at m4 n4
        simp only [Bool.false_eq_true, if_false] at m4 n4
        cases ht : holdsText i.name with
        | true =>
          rw [ht, if_pos rfl] at m4 n4
          have h6 := h4 hx ht
          have : ks = ls := by
            rcases m4 with rfl | ⟨v, rfl⟩ <;> rcases n4 with rfl | ⟨w, rfl⟩
            · rfl
            · cases h6
            · cases h6
            · injection h6 with h6; rw [h6]
          rw [this]; exact v2
        | false =>
          rw [ht] at m4 n4
          simp only [Bool.false_eq_true, if_false] at m4 n4
          exact countOk_same hc hx ht (names_perm m4.1 n4.1 (h5 hx ht)) m4.2.1 v2
    · cases ho : (schema .xsd t).model.isOpen with
      | true => exact kidsBy_open ho ks
      | false =>
        cases hx : xhtmlNames.contains i.name with
        | true => rw [suits_xhtml hc hx] at ho; cases ho
        | false =>
          rw [hx] at m4 n4
          simp only [Bool.false_eq_true, if_false] at m4 n4
          cases ht : holdsText i.name with
          | true =>
            rw [ht, if_pos rfl] at m4 n4
            have h6 := h4 hx ht
            have : ks = ls := by
              rcases m4 with rfl | ⟨v, rfl⟩ <;> rcases n4 with rfl | ⟨w, rfl⟩
              · rfl
              · cases h6
              · cases h6
              · injection h6 with h6; rw [h6]
            rw [this]; exact v3
          | false =>
            rw [ht] at m4 n4
            simp only [Bool.false_eq_true, if_false] at m4 n4
            exact validKids_same ks ho m4.1 m4.2.2 n4.2.2 (fun i cs hi => said_partner n4.1 (h5 hx ht) hi) v3
  | .text s, _, _, _, _, _, _, e, _, _, _, _, _, _ => by cases e
  | .comment s, _, _, _, _, _, _, e, _, _, _, _, _, _ => by cases e
  | .pi a b, _, _, _, _, _, _, e, _, _, _, _, _, _ => by cases e

theorem validKids_same : ∀ (ks : List Node) {ls : List Node} {t : TypeName}, (schema .xsd t).model.isOpen = false → ks.all elemOrWs = true → FineAll ks → FineAll ls →
    (∀ i cs, .elem i cs ∈ ks → ∃ j ds, .elem j ds ∈ ls ∧ said (.elem i cs) = said (.elem j ds)) →
    kidsBy (schema .xsd) (some reqifNs) (schema .xsd t).model ls = true → kidsBy (schema .xsd) (some reqifNs) (schema .xsd t).model ks = true
  | [], _, _, _, _, _, _, _, _ => by rw [kidsBy]
  | .elem i cs :: ks, ls, t, ho, hw, hk, hl, he, hv => by
    rw [FineAll] at hk
    rw [List.all_cons, Bool.and_eq_true] at hw
    obtain ⟨j, ds, h1, h2⟩ := he i cs (by simp)
    obtain ⟨t', h3, h4⟩ := kidsBy_mem ho hv h1
    have h5 := fineAll_iff.1 hl _ h1
    have hn : i.name = j.name := (said_inj h2).1
    have h6 : valid .xsd t' (.elem i cs) = true := valid_same (.elem i cs) rfl rfl hk.1 h5 h2 (by rw [hn]; exact suits_typeOf h3) h4
    have h7 : i.ns = some reqifNs := by have := hk.1; rw [Fine] at this; exact this.1
    rw [kidsBy_ns h7 (by rw [hn]; exact h3) h6]
    exact validKids_same ks ho hw.2 hk.2 hl (fun i cs hm => he i cs (List.mem_cons_of_mem _ hm)) hv
  | .text s :: ks, ls, t, ho, hw, hk, hl, he, hv => by
    rw [FineAll] at hk
    rw [List.all_cons, Bool.and_eq_true] at hw
    rw [kidsBy, Bool.and_eq_true]
    have h1 : s.all isWs = true := hw.1
    exact ⟨by rw [h1, Bool.or_true], validKids_same ks ho hw.2 hk.2 hl (fun i cs hm => he i cs (List.mem_cons_of_mem _ hm)) hv⟩
  | .comment s :: ks, _, _, _, hw, _, _, _, _ => by rw [List.all_cons] at hw; cases hw
  | .pi a b :: ks, _, _, _, hw, _, _, _, _ => by rw [List.all_cons] at hw; cases hw
end

end ReqIF.Xsd
