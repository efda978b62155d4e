import Verif.Proofs.WrittenItems
import Verif.Proofs.PlainRound

/-! What is written for a plain document and what the bundle parsed from it says. -/

namespace ReqIF.Xsd
open Spec

variable {X : Prop} {K : NsMap} {p : Str} {x : Node}

/-- A container of the content. -/
theorem container_said {α : Type} {tag : Str} {t' : TypeName} {f : List Node → Py (List α)} {F : α → Said} {o : Option (List α)}
    (h : PSeen X K p .content x) (ht : (schema .lenient .content).model.typeOf tag = some t') (hl : isListName tag = true)
    (ho : (schema .lenient t').attrs = []) (hof : onlyFirst t' = false) (hwc : ∀ ks, writesChild .content tag ks = true)
    (hv : parsedItems x tag f = .ok o)
    (hf : ∀ c l, PSeen X K p t' c → f c.children = .ok l → (c.children.filterMap (kidOut t')).map said = l.map F) :
    outs .content x tag = containerSaid tag F o := by
  unfold parsedItems at hv
  unfold containerSaid
  rcases h.opt rfl ht with hn | ⟨c, hc, hc1, hc2⟩
  · rw [hn] at hv
    cases hv
    exact outs_missing hn
  · rw [hc] at hv
    dsimp only at hv
    cases hr : f c.children with
    | error e => rw [hr] at hv; cases hv
    | ok l =>
      rw [hr] at hv
      cases hv
      rw [h.out hc hc2 ht (hwc _), hc1.saysList hc2 hl ho hof, hf c l hc1 hr]
      rfl

theorem byName_container {α : Type} {tag k : Str} {F : α → Said} {o : Option (List α)} :
    byName (containerSaid tag F o) k = if tag = k then containerSaid tag F o else [] := by
  unfold containerSaid
  cases o with
  | none => simp [byName]
  | some l => by_cases hh : tag = k <;> simp [byName, listOf, Said.name, hh]

theorem goodRelations_ok : ∀ (rs : List SpecRelation), goodRelations (rs.map Except.ok) = rs
  | [] => rfl
  | r :: rs => congrArg (r :: ·) (goodRelations_ok rs)

theorem relations_said : ∀ {cs : List Node} {rs : List (Except MissingTag SpecRelation)}, mapPy relationItem cs = .ok rs →
    (∀ c ∈ cs, ∀ o, parseSpecRelation c = .ok o → ∃ r, o = .ok r ∧ (kidOut .specRelations c).map said = some (relationSaid p r)) →
    (cs.filterMap (kidOut .specRelations)).map said = (goodRelations rs).map (relationSaid p)
  | [], rs, h, _ => by cases h; rfl
  | c :: cs, rs, h, hF => by
    rw [mapPy] at h
    cases hc : relationItem c with
    | error e => rw [hc] at h; cases h
    | ok x =>
      rw [hc] at h
      dsimp only at h
      cases hcs : mapPy relationItem cs with
      | error e => rw [hcs] at h; cases h
      | ok xs =>
        rw [hcs] at h
        cases h
        have ih := relations_said hcs (fun c hc => hF c (by simp [hc]))
        unfold relationItem at hc
        cases ho : parseSpecRelation c with
        | error e => rw [ho] at hc; cases hc
        | ok o =>
          obtain ⟨r, rfl, hr⟩ := hF c (by simp) o ho
          rw [ho] at hc
          cases hc
          rw [Option.map_eq_some_iff] at hr
          obtain ⟨y, hy, hr⟩ := hr
          rw [List.filterMap_cons, hy]
          show said y :: (cs.filterMap (kidOut .specRelations)).map said = relationSaid p r :: (goodRelations xs).map (relationSaid p)
          rw [hr, ih]

theorem content_said (hE : Env K p) (h : PSeen X K p .content x) (hn : Named c!"REQ-IF-CONTENT" x) {c : Content} {l : Lookup}
    {errs : List MissingTag} (hc : (parseContent (none : Option (Callback Unit)) x ()).1 = .ok (c, l, errs)) :
    said (written .content x) = contentSaid p c := by
  obtain ⟨rels, h1, h2, h3, h4, h5, h6, h7, -⟩ := parseContent_inv hc
  have t1 := container_said (F := dataTypeSaid) h (t' := .datatypes) rfl (by decide) rfl rfl (fun _ => rfl) h1 (by
    intro n l hn hm
    refine mapPy_said hm ?_
    intro k hk a hp
    obtain ⟨nm, t', e1, e2, e3⟩ := hn.child rfl hk
    obtain ⟨kd, -, hkd⟩ := kind_choice e2
    simp only [Prod.mk.injEq] at hkd
    rw [← hkd.2] at e3 e2
    rw [← hkd.1] at e1 e2
    rw [kidOut_some e1 e2 (by cases kd <;> rfl), Option.map_some, dataType_said e3 e1 hp])
  have t2 := container_said (F := specTypeSaid p) h (t' := .specTypes) rfl (by decide) rfl rfl (fun _ => rfl) h2 (by
    intro n l hn hm
    refine filterMapPy_said hm ?_
    intro k hk a hp
    obtain ⟨nm, t', e1, e2, e3⟩ := hn.child rfl hk
    have hs : ∃ s, t' = .specType s ∧ nm = specTag s := by
      have := typeOf_choice e2
      simp only [List.mem_cons, Prod.mk.injEq, List.not_mem_nil, or_false] at this
      rcases this with ⟨a, b⟩ | ⟨a, b⟩ | ⟨a, b⟩ | ⟨a, b⟩
      · exact ⟨_, b, a⟩
      · exact ⟨_, b, a⟩
      · exact ⟨_, b, a⟩
      · exact ⟨_, b, a⟩
    obtain ⟨s, rfl, rfl⟩ := hs
    obtain ⟨t, rfl, ht⟩ := specType_said hE e3 e1 hp
    exact ⟨t, rfl, by rw [kidOut_some e1 e2 (by cases s <;> rfl), Option.map_some, ht]⟩)
  have t3 := container_said (F := specificationSaid p) h (t' := .specifications) rfl (by decide) rfl rfl (fun _ => rfl) h3 (by
    intro n l hn hm
    refine mapPy_said hm ?_
    intro k hk a hp
    obtain ⟨nm, t', e1, e2, e3⟩ := hn.child rfl hk
    have := typeOf_choice e2
    simp only [List.mem_singleton, Prod.mk.injEq] at this
    rw [this.2] at e3
    rw [this.1] at e1
    rw [kidOut_some (t' := .specification) e1 rfl rfl, Option.map_some, specification_said hE e3 e1 hp])
  have t5 := container_said (F := objectSaid p) h (t' := .specObjects) rfl (by decide) rfl rfl (fun _ => rfl) h5 (by
    intro n l hn hm
    refine filterMapPy_said hm ?_
    intro k hk o hp
    obtain ⟨nm, t', e1, e2, e3⟩ := hn.child rfl hk
    have := typeOf_choice e2
    simp only [List.mem_singleton, Prod.mk.injEq] at this
    rw [this.2] at e3
    rw [this.1] at e1
    unfold objectItem someItem at hp
    split at hp
    · rename_i hcm
      obtain ⟨i, ks, rfl, -⟩ := e1
      cases hcm
    · cases ho : parseSpecObject k with
      | error e => rw [ho] at hp; cases hp
      | ok o => rw [ho] at hp; cases hp; exact ⟨o, rfl, by rw [kidOut_some (t' := .specObject) e1 rfl rfl, Option.map_some, specObject_said hE e3 e1 ho]⟩)
  have t6 := container_said (F := groupSaid) h (t' := .relationGroups) rfl (by decide) rfl rfl (fun _ => rfl) h6 (by
    intro n l hn hm
    refine mapPy_said hm ?_
    intro k hk a hp
    obtain ⟨nm, t', e1, e2, e3⟩ := hn.child rfl hk
    have := typeOf_choice e2
    simp only [List.mem_singleton, Prod.mk.injEq] at this
    rw [this.2] at e3
    rw [this.1] at e1
    rw [kidOut_some (t' := .relationGroup) e1 rfl rfl, Option.map_some, relationGroup_said e3 e1 hp])
  have t4 : outs .content x c!"SPEC-RELATIONS" = containerSaid c!"SPEC-RELATIONS" (relationSaid p) c.specRelations := by
    rw [h7]
    unfold parsedItems at h4
    rcases h.opt (nm := c!"SPEC-RELATIONS") (t' := .specRelations) rfl rfl with hf | ⟨n, hf, hn1, hn2⟩
    · rw [hf] at h4
      cases h4
      exact outs_missing hf
    · rw [hf] at h4
      dsimp only at h4
      cases hr : mapPy relationItem n.children with
      | error e => rw [hr] at h4; cases h4
      | ok rs =>
        rw [hr] at h4
        cases h4
        rw [h.out hf hn2 rfl rfl, hn1.saysList hn2 (by decide) rfl rfl, relations_said (p := p) hr]
        · rfl
        · intro k hk o hp
          obtain ⟨nm, t', e1, e2, e3⟩ := hn1.child rfl hk
          have := typeOf_choice e2
          simp only [List.mem_singleton, Prod.mk.injEq] at this
          rw [this.2] at e3
          rw [this.1] at e1
          obtain ⟨r, rfl, hr⟩ := specRelation_said hE e3 e1 hp
          exact ⟨r, rfl, by rw [kidOut_some (t' := .specRelation) e1 rfl rfl, Option.map_some, hr]⟩
  unfold contentSaid
  refine h.says hn (by decide) rfl (names := [])
    (cnames := [c!"DATATYPES", c!"SPEC-TYPES", c!"SPEC-OBJECTS", c!"SPEC-RELATIONS", c!"SPECIFICATIONS", c!"SPEC-RELATION-GROUPS"])
    rfl rfl (by simp) (fun _ _ => rfl) ?_ ?_
  · intro k hk
    rw [byName_append, byName_append, byName_append, byName_append, byName_append, byName_container, byName_container, byName_container,
      byName_container, byName_container, byName_container]
    simp only [List.mem_cons, List.not_mem_nil, or_false] at hk
    rcases hk with rfl | rfl | rfl | rfl | rfl | rfl
    · rw [t1]; simp
    · rw [t2]; simp
    · rw [t5]; simp
    · rw [t4]; simp
    · rw [t3]; simp
    · rw [t6]; simp
  · intro k hk
    rw [byName_append, byName_append, byName_append, byName_append, byName_append, byName_container, byName_container, byName_container,
      byName_container, byName_container, byName_container]
    simp only [List.mem_cons, List.not_mem_nil, or_false, forall_eq_or_imp, forall_eq] at hk
    simp [hk]

theorem core_said (hE : Env K p) (h : PSeen X K p .coreContent x) (hn : Named c!"CORE-CONTENT" x) {o : Option Content}
    (ho : (x.find c!"REQ-IF-CONTENT" = none ∧ o = none) ∨ ∃ xn c l, x.find c!"REQ-IF-CONTENT" = some xn ∧
      (parseContent (none : Option (Callback Unit)) xn ()).1 = .ok (c, l, []) ∧ o = some c) : [said (written .coreContent x)] = coreSaid p (some o) := by
  rcases ho with ⟨hf, rfl⟩ | ⟨xn, c, l, hf, hc, rfl⟩
  · refine congrArg (fun s => [s]) ?_
    refine h.says hn (by decide) rfl (names := []) (cnames := [c!"REQ-IF-CONTENT"]) rfl rfl (by simp) (fun _ _ => rfl) ?_ (fun _ _ => rfl)
    intro k hk
    rw [List.mem_singleton] at hk
    rw [hk, outs_missing hf]
    rfl
  · refine congrArg (fun s => [s]) ?_
    obtain ⟨e1, e2⟩ := h.find (t' := .content) rfl rfl hf
    have e3 := content_said hE e1 e2 hc
    have hname : (contentSaid p c).name = c!"REQ-IF-CONTENT" := rfl
    refine h.says hn (by decide) rfl (names := []) (cnames := [c!"REQ-IF-CONTENT"]) rfl rfl (by simp) (fun _ _ => rfl) ?_ ?_
    · intro k hk
      rw [List.mem_singleton] at hk
      rw [hk, h.out hf e2 rfl rfl, byName_cons, hname, if_pos rfl, e3]
      rfl
    · intro k hk
      rw [byName_cons, hname, if_neg (hk _ (by simp))]
      rfl

/-- What is written for a plain document is what its bundle says. -/
theorem bundle_said {doc : Doc} {b : Bundle} {r : Node} (h : PlainParts p doc b X K r) (hs : noSpecials doc.root = true) :
    saidInside (writtenRoot doc.root) = byName (bundleSaid p b) := by
  obtain ⟨m, hkids⟩ := h.kids
  have hdk : noSpecialsAll doc.root.kids = true := by
    cases hd : doc.root with
    | elem i ks => rw [hd, noSpecials] at hs; exact hs
    | _ => rfl
  have hin : saidInside (writtenRoot doc.root) = byName (saidAll (writtenAll .reqIf r.kids)) := by
    rw [hkids, (writtenAll_seen m .reqIf _ hdk).saidAll]
    unfold saidInside writtenRoot
    cases doc.root with
    | elem i ks => rw [written]; rfl
    | _ => rw [written]; rfl; all_goals simp
  rw [hin, saidAll_eq, writtenAll_children]
  have kidK : ∀ {c : Node} {nm : Str} {t' : TypeName}, r.find nm = some c → (schema .lenient .reqIf).model.typeOf nm = some t' →
      PSeen X K p t' c ∧ Named nm c := by
    intro c nm t' hf ht
    obtain ⟨h1, h2⟩ := find_children hf
    obtain ⟨nm', t'', e1, e2, e3⟩ := h.kid h1
    have e := e1.tag
    rw [h2] at e
    have e : nm = nm' := by injection e
    subst e
    rw [ht] at e2
    cases e2
    exact ⟨e3, e1⟩
  have key : ∀ k, byName (((r.kids.filter (fun k => !k.isText)).filterMap (kidOut .reqIf)).map said) k = outs .reqIf r k := by
    intro k
    refine kids_single h.seen.kidsPlain ?_ (h.seen.nodup rfl) k
    intro c hc ht
    obtain ⟨nm, -, e1, -⟩ := h.kid (c := c) (List.mem_filter.2 ⟨hc, by rw [ht]; rfl⟩)
    exact ⟨nm, e1⟩
  have t1 : outs .reqIf r c!"THE-HEADER" = (b.header.map headerSaid).toList := by
    rcases h.header with ⟨e1, e2⟩ | ⟨hn, v, e1, e2, e3⟩
    · rw [outs_missing e1, e2]; rfl
    · obtain ⟨k1, k2⟩ := kidK (t' := .theHeader) e1 rfl
      rw [outs_some (t' := .theHeader) e1 k2 rfl rfl, e3, Option.map_some, header_said k1 k2 e2]
      rfl
  have t2 : outs .reqIf r c!"CORE-CONTENT" = coreSaid p b.coreContent := by
    have hcore := h.core
    generalize b.coreContent = o at hcore
    generalize b.lookup = lk at hcore
    cases hcore with
    | none e => rw [outs_missing e]; rfl
    | empty e1 e2 =>
      obtain ⟨k1, k2⟩ := kidK (t' := .coreContent) e1 rfl
      rw [outs_some (t' := .coreContent) e1 k2 rfl rfl]
      exact core_said h.env k1 k2 (.inl ⟨e2, rfl⟩)
    | some e1 e2 e3 =>
      obtain ⟨k1, k2⟩ := kidK (t' := .coreContent) e1 rfl
      rw [outs_some (t' := .coreContent) e1 k2 rfl rfl]
      exact core_said h.env k1 k2 (.inr ⟨_, _, _, e2, e3, rfl⟩)
  have t3 : outs .reqIf r c!"TOOL-EXTENSIONS" = toolSaid b.toolExtensionsTagExists := by
    rw [h.tool]
    cases hf : r.find c!"TOOL-EXTENSIONS" with
    | none => rw [outs_missing hf]; rfl
    | some c =>
      obtain ⟨k1, k2⟩ := kidK (t' := .toolExtensions) hf rfl
      have : c.children.filterMap (kidOut .toolExtensions) = [] := by
        rw [List.filterMap_eq_nil_iff]
        intro d hd
        obtain ⟨nm, t', e1, e2, -⟩ := k1.child rfl hd
        have := typeOf_choice e2
        simp only [List.mem_singleton, Prod.mk.injEq] at this
        exact kidOut_none e1 e2 (by rw [this.1]; rfl)
      rw [outs_some (t' := .toolExtensions) hf k2 rfl rfl, k1.saysList k2 (by decide) rfl rfl, this]
      rfl
  have n1 : ∀ k, byName (b.header.map headerSaid).toList k = if c!"THE-HEADER" = k then (b.header.map headerSaid).toList else [] := by
    intro k
    cases b.header with
    | none => simp [byName]
    | some v => by_cases hh : c!"THE-HEADER" = k <;> simp [byName, headerSaid, recordOf, Said.name, hh]
  have n2 : ∀ k, byName (coreSaid p b.coreContent) k = if c!"CORE-CONTENT" = k then coreSaid p b.coreContent else [] := by
    intro k
    rcases b.coreContent with _ | _ | c
    · simp [byName, coreSaid]
    · by_cases hh : c!"CORE-CONTENT" = k <;> simp [byName, coreSaid, recordOf, Said.name, hh]
    · by_cases hh : c!"CORE-CONTENT" = k <;> simp [byName, coreSaid, recordOf, Said.name, hh]
  have n3 : ∀ k, byName (toolSaid b.toolExtensionsTagExists) k = if c!"TOOL-EXTENSIONS" = k then toolSaid b.toolExtensionsTagExists else [] := by
    intro k
    cases b.toolExtensionsTagExists with
    | false => simp [byName, toolSaid]
    | true => by_cases hh : c!"TOOL-EXTENSIONS" = k <;> simp [byName, toolSaid, listOf, Said.name, hh]
  funext k
  rw [key]
  unfold bundleSaid
  rw [byName_append, byName_append, n1, n2, n3]
  by_cases h1 : c!"THE-HEADER" = k
  · subst h1; rw [t1]; simp
  by_cases h2 : c!"CORE-CONTENT" = k
  · subst h2; rw [t2]; simp
  by_cases h3 : c!"TOOL-EXTENSIONS" = k
  · subst h3; rw [t3]; simp
  rw [if_neg h1, if_neg h2, if_neg h3]
  cases hf : r.find k with
  | none => rw [outs_missing hf]; rfl
  | some c =>
    exfalso
    obtain ⟨e1, e2⟩ := find_children hf
    obtain ⟨nm, t', e3, e4, -⟩ := h.kid e1
    have e := e3.tag
    rw [e2] at e
    have e : k = nm := by injection e
    subst e
    have := typeOf_mem e4
    simp [modelNames, schema] at this
    rcases this with rfl | rfl | rfl
    · exact h1 rfl
    · exact h2 rfl
    · exact h3 rfl

end ReqIF.Xsd
