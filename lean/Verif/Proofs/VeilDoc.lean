import Verif.Proofs.VeilTree
/-! What is read from a document and from the anonymized document is the same up to the covered strings. -/
set_option linter.unusedSimpArgs false
namespace ReqIF
open Spec

variable {f : Str → Str}

theorem Same.items_ {β γ : Type} {g h : β → γ} (x : Node) (tag : Str) (ht : plainTag tag = true) (k : List Node → Py β) (q : Zone)
    (ho : (Zone.content.inner tag).isOpen = true) (hq : ∀ s, (Zone.content.inner tag).inner s = q)
    (hk : ∀ xs, Same g h (k xs) (k (xs.map (veil f q)))) :
    Same (Option.map g) (Option.map h) (parsedItems x tag k) (parsedItems (veil f .content x) tag k) := by
  unfold parsedItems
  rw [veil_find rfl _ _ ht]
  cases x.find tag with
  | none => exact Same.ok_ rfl
  | some c =>
    simp only [Option.map_some, veil_children ho, hq]
    intro z hz
    cases hc : k c.children with
    | error e => rw [hc] at hz; cases hz
    | ok a =>
      rw [hc] at hz
      cases hz
      obtain ⟨b, hb, e⟩ := hk _ a hc
      exact ⟨some b, by rw [hb], by simp [e]⟩

theorem goodRelations_hidden (rs : List (Except MissingTag SpecRelation)) :
    (goodRelations rs).map (hiddenRelation f) = goodRelations (rs.map (hiddenResult f)) := by
  unfold goodRelations
  rw [List.filterMap_map, List.map_filterMap]
  congr 1
  funext r
  cases r <;> rfl

theorem relationErrors_hidden (rs : List (Except MissingTag SpecRelation)) :
    (relationErrors rs).map (fun e => { e with node := .text [] }) = relationErrors (rs.map (hiddenResult f)) := by
  unfold relationErrors
  rw [List.filterMap_map, List.map_filterMap]
  congr 1
  funext r
  cases r <;> rfl

theorem parents_hidden (rs : List SpecRelation) (d : Dict (Option Str) (List (Option Str))) :
    (rs.map (hiddenRelation f)).foldl (fun d r => appendParent d r.source r.target) d =
      rs.foldl (fun d r => appendParent d r.source r.target) d := by
  rw [List.foldl_map]
  rfl

/-- The results of `parseContent`, hidden. -/
def hiddenParts (f : Str → Str) (r : Content × Lookup × List MissingTag) : Content × Lookup × List MissingTag :=
  (hiddenContent f r.1,
    { r.2.1 with
      specTypes := r.2.1.specTypes.map fun e => (e.1, hiddenType f e.2),
      specObjects := r.2.1.specObjects.map fun e => (e.1, hiddenObject f e.2) },
    r.2.2.map fun e => { e with node := .text [] })

theorem hiddenType_identifier (t : SpecType) : (hiddenType f t).identifier = t.identifier := by
  cases t <;> rfl

theorem getD_lists {α : Type} (g : α → α) (o : Option (List α)) : (o.getD []).map g = (o.map (List.map g)).getD [] := by
  cases o <;> rfl

/-- The hidden results, from the hidden items. -/
theorem hiddenParts_eq (dts : Option (List DataType)) (sts : Option (List SpecType)) (sps : Option (List Specification))
    (rels : Option (List (Except MissingTag SpecRelation))) (objs : Option (List SpecObject)) (groups : Option (List RelationGroup)) :
    hiddenParts f (⟨dts, sts, objs, rels.map goodRelations, sps, groups⟩,
        ⟨indexBy DataType.identifier (dts.getD []), indexBy SpecType.identifier (sts.getD []),
          indexBy SpecObject.identifier (objs.getD []),
          (goodRelations (rels.getD [])).foldl (fun d r => appendParent d r.source r.target) [], true⟩,
        relationErrors (rels.getD [])) =
      (⟨dts, sts.map (List.map (hiddenType f)), objs.map (List.map (hiddenObject f)),
          (rels.map (List.map (hiddenResult f))).map goodRelations, sps.map (List.map (hiddenSpecification f)), groups⟩,
        ⟨indexBy DataType.identifier (dts.getD []), indexBy SpecType.identifier ((sts.map (List.map (hiddenType f))).getD []),
          indexBy SpecObject.identifier ((objs.map (List.map (hiddenObject f))).getD []),
          (goodRelations ((rels.map (List.map (hiddenResult f))).getD [])).foldl (fun d r => appendParent d r.source r.target) [], true⟩,
        relationErrors ((rels.map (List.map (hiddenResult f))).getD [])) := by
  simp only [hiddenParts, hiddenContent, indexBy_map _ _ hiddenType_identifier,
    indexBy_map SpecObject.identifier (hiddenObject f) (fun _ => rfl), getD_lists, ← goodRelations_hidden, ← relationErrors_hidden,
    parents_hidden, Option.map_map]
  cases rels with
  | none => rfl
  | some rs => simp only [Option.map_some, Function.comp, Option.getD_some, ← goodRelations_hidden, ← relationErrors_hidden, parents_hidden]

theorem same_content (x : Node) : Same (hiddenParts f) (hiddenParts id) (parseContent (none : Option (Callback Unit)) x ()).1
    (parseContent (none : Option (Callback Unit)) (veil f .content x) ()).1 := by
  rw [parseContent_assembled, parseContent_assembled]
  unfold assembled
  refine Same.bind_ (Same.items_ (g := id) (h := id) x c!"DATATYPES" (by decide) _ .datatype rfl (fun _ => rfl)
    (fun xs => Same.eq_ (by simp only [mapPy_maps, veil_dataType]))) (fun dts dts' e1 => ?_)
  refine Same.bind_ (Same.items_ x c!"SPEC-TYPES" (by decide) _ .type rfl (fun _ => rfl)
    (fun xs => by simp only [filterMapPy_maps]; exact Same.filterMapPy_ xs (fun x _ => same_type x))) (fun sts sts' e2 => ?_)
  refine Same.bind_ (Same.items_ x c!"SPECIFICATIONS" (by decide) _ .specification rfl (fun _ => rfl)
    (fun xs => by simp only [mapPy_maps]; exact Same.mapPy_ xs (fun x _ => same_specification x))) (fun sps sps' e3 => ?_)
  refine Same.bind_ (Same.items_ x c!"SPEC-RELATIONS" (by decide) _ .relation rfl (fun _ => rfl)
    (fun xs => by simp only [mapPy_maps]; exact Same.mapPy_ xs (fun x _ => same_relationItem x))) (fun rels rels' e4 => ?_)
  refine Same.bind_ (Same.items_ x c!"SPEC-OBJECTS" (by decide) _ .object rfl (fun _ => rfl)
    (fun xs => by simp only [filterMapPy_maps]; exact Same.filterMapPy_ xs (fun x _ => same_objectItem x))) (fun objs objs' e5 => ?_)
  refine Same.bind_ (Same.items_ (g := id) (h := id) x c!"SPEC-RELATION-GROUPS" (by decide) _ .group rfl (fun _ => rfl)
    (fun xs => Same.eq_ (by simp only [mapPy_maps, veil_group]))) (fun groups groups' e6 => Same.pure_ ?_)
  simp only [Option.map_id_fun, id_eq] at e1 e6
  rw [hiddenParts_eq, hiddenParts_eq, e1, e2, e3, e4, e5, e6]

/-- The results of `parseCore`, hidden. -/
def hiddenCore (f : Str → Str) (r : Option (Option Content) × Lookup × List MissingTag) : Option (Option Content) × Lookup × List MissingTag :=
  (r.1.map (Option.map (hiddenContent f)),
    { r.2.1 with
      specTypes := r.2.1.specTypes.map fun e => (e.1, hiddenType f e.2),
      specObjects := r.2.1.specObjects.map fun e => (e.1, hiddenObject f e.2) },
    r.2.2.map fun e => { e with node := .text [] })

theorem same_core (x : Node) : Same (hiddenCore f) (hiddenCore id) (parseCore (none : Option (Callback Unit)) x ()).1
    (parseCore (none : Option (Callback Unit)) (veil f .root x) ()).1 := by
  unfold parseCore
  rw [veil_find rfl _ _ (by decide), zo2]
  cases x.find c!"CORE-CONTENT" with
  | none => exact Same.ok_ rfl
  | some c =>
    simp only [Option.map_some]
    rw [veil_find rfl _ _ (by decide), zo4]
    cases c.find c!"REQ-IF-CONTENT" with
    | none => exact Same.ok_ rfl
    | some y =>
      have e := same_content (f := f) y
      simp only [Option.map_some, M.bind, M.pure]
      revert e
      generalize parseContent (none : Option (Callback Unit)) (veil f .content y) () = a
      generalize parseContent (none : Option (Callback Unit)) y () = b
      intro e
      obtain ⟨a, _⟩ := a
      obtain ⟨b, _⟩ := b
      dsimp only at e
      intro r hr
      cases b with
      | error x => cases hr
      | ok b =>
        cases hr
        obtain ⟨a', ha, e'⟩ := e b rfl
        rw [ha]
        refine ⟨_, rfl, ?_⟩
        simp only [hiddenParts, Prod.mk.injEq] at e'
        simp only [hiddenCore, Option.map_some, e'.1, e'.2.1, e'.2.2]

/-- Everything but the namespace information. -/
def rootParts (r : Node) : Py (Option Header × Option (Option Content) × Lookup × List MissingTag) := do
  let h ← optPy parseHeader (r.find c!"THE-HEADER")
  let c ← (parseCore (none : Option (Callback Unit)) r ()).1
  return (h, c)

/-- The same, hidden. -/
def hiddenRoot (f : Str → Str) (r : Option Header × Option (Option Content) × Lookup × List MissingTag) :
    Option Header × Option (Option Content) × Lookup × List MissingTag := (r.1.map (hiddenHeader f), hiddenCore f r.2)

theorem same_root (x : Node) : Same (hiddenRoot f) (hiddenRoot id) (rootParts x) (rootParts (veil f .root x)) := by
  unfold rootParts
  refine Same.bind_ (g := Option.map (hiddenHeader f)) (h := Option.map (hiddenHeader id)) ?_
    (fun a b e => Same.bind_ (same_core x) (fun c d e' => Same.pure_ (by simp [hiddenRoot, e, e'])))
  rw [veil_find rfl _ _ (by decide), zo1]
  cases x.find c!"THE-HEADER" with
  | none => exact Same.ok_ rfl
  | some h =>
    simp only [Option.map_some, optPy]
    intro z hz
    cases hp : parseHeader h with
    | error e => rw [hp] at hz; cases hz
    | ok a =>
      obtain ⟨b, hb, e⟩ := same_header (f := f) h a hp
      rw [hp] at hz
      cases hz
      rw [hb]
      exact ⟨_, rfl, by simp [e]⟩

theorem parseReqif_parts {d : Doc} {s : Node} {b : Bundle} (hs : strippedRoot d.root = .ok s)
    (h : (parseReqif (none : Option (Callback Unit)) d ()).1 = .ok b) :
    s.tag = .name c!"REQ-IF" ∧ ((s.len = 0 ∧
      b = Bundle.createEmpty (d.root.nsmap.get? none) (d.root.nsmap.get? (some c!"configuration"))) ∨
    (s.len ≠ 0 ∧ ∃ r, rootParts s = .ok r ∧
      b = ⟨namespaceInfoOf d s, r.1, r.2.1, (s.find c!"TOOL-EXTENSIONS").isSome, r.2.2.1, r.2.2.2⟩)) := by
  unfold parseReqif at h
  simp only [M.bind, M.lift, hs] at h
  by_cases ht : s.tag = .name c!"REQ-IF"
  · refine ⟨ht, ?_⟩
    rw [if_pos ht] at h
    by_cases hl : s.len = 0
    · rw [if_pos hl] at h
      cases h
      exact .inl ⟨hl, rfl⟩
    · rw [if_neg hl] at h
      right
      refine ⟨hl, ?_⟩
      unfold rootParts
      cases hh : optPy parseHeader (s.find c!"THE-HEADER") with
      | error e => rw [hh] at h; cases h
      | ok hd =>
        simp only [hh, M.bind, M.pure] at h
        rw [parseCore_state s] at h
        cases hc : (parseCore (none : Option (Callback Unit)) s ()).1 with
        | error e => rw [hc] at h; cases h
        | ok c =>
          rw [hc] at h
          cases h
          exact ⟨_, rfl, rfl⟩
  · rw [if_neg ht] at h
    cases h

/-- Two documents that are the same tree up to the covered strings. -/
theorem hidden_documents {d d' : Doc} {s s' : Node} {b b' : Bundle} (hs : strippedRoot d.root = .ok s) (hs' : strippedRoot d'.root = .ok s')
    (hn : d'.root.nsmap = d.root.nsmap) (ht : tagDumpOf d'.root = tagDumpOf d.root) (hv : veil f .root s = veil id .root s')
    (hb : (parseReqif (none : Option (Callback Unit)) d ()).1 = .ok b)
    (hb' : (parseReqif (none : Option (Callback Unit)) d' ()).1 = .ok b') : hiddenBundle id b' = hiddenBundle f b := by
  have hl : s'.len = s.len := by rw [← veil_len (f := f) (z := .root) rfl s, hv, veil_len rfl]
  obtain ⟨-, h⟩ := parseReqif_parts hs hb
  obtain ⟨-, h'⟩ := parseReqif_parts hs' hb'
  rcases h with ⟨h0, e⟩ | ⟨h0, r, hr, e⟩
  · rcases h' with ⟨h0', e'⟩ | ⟨h0', -⟩
    · rw [e, e', hn]
      rfl
    · exact absurd (hl.trans h0) h0'
  · rcases h' with ⟨h0', -⟩ | ⟨h0', r', hr', e'⟩
    · exact absurd (hl.symm.trans h0') h0
    · obtain ⟨y, hy, ey⟩ := same_root (f := f) s r hr
      obtain ⟨y', hy', ey'⟩ := same_root (f := id) s' r' hr'
      rw [hv, hy'] at hy
      cases hy
      have he : hiddenRoot id r' = hiddenRoot f r := ey'.symm.trans ey
      simp only [hiddenRoot, hiddenCore, Prod.mk.injEq] at he
      have ha : ∀ k, s'.attr? k = s.attr? k := fun k => by
        rw [← veil_attr (f := f) (z := .root) rfl s, hv, veil_attr rfl]
      have hte : (s'.find c!"TOOL-EXTENSIONS").isSome = (s.find c!"TOOL-EXTENSIONS").isSome := by
        have e1 := congrArg Option.isSome (veil_find (f := f) (z := .root) rfl s c!"TOOL-EXTENSIONS" (by decide))
        have e2 := congrArg Option.isSome (veil_find (f := id) (z := .root) rfl s' c!"TOOL-EXTENSIONS" (by decide))
        rw [Option.isSome_map] at e1 e2
        rw [← e1, ← e2, hv]
      rw [e, e']
      simp only [hiddenBundle, namespaceInfoOf, hn, ht, ha, hte, he.1, he.2.1, he.2.2.1, he.2.2.2]

/-! ## The anonymized document -/

theorem strippedRoot_veil {n s : Node} (h : strippedRoot n = .ok s) (hn : (n.nsmap.get? none).isSome = true) (z : Zone) :
    veil f z s = veil f z (Xsd.stripN n) := by
  unfold strippedRoot at h
  cases hm : n.nsmap.get? none with
  | none => rw [hm] at hn; cases hn
  | some u =>
    rw [hm] at h
    dsimp only [stripNamespace] at h
    cases ht : stripTags false n with
    | error e => rw [ht] at h; cases h
    | ok r =>
      rw [ht] at h
      cases h
      rw [veil_cleanup, stripTags_ok ht]

/-- What is read from two documents, one being the other disguised. -/
theorem hidden_disguised {u : Str} {d d' : Doc} {b b' : Bundle} (hd : Disguised u f none d.root d'.root)
    (hu : d.root.nsmap.get? none = some u) (hf : befits u .root d.root = true)
    (hb : (parseReqif (none : Option (Callback Unit)) d ()).1 = .ok b)
    (hb' : (parseReqif (none : Option (Callback Unit)) d' ()).1 = .ok b') : hiddenBundle id b' = hiddenBundle f b := by
  have hst : Standing u none .root d.root := by
    generalize d.root = n at *
    cases n with
    | elem i ks => exact ⟨(fun h => by cases h), (fun h => by cases h), (fun h => by cases h)⟩
    | _ => trivial
  have hv := veil_disguised none .root _ _ hd hf hst
  have hm : d'.root.nsmap = d.root.nsmap ∧ tagDumpOf d'.root = tagDumpOf d.root := by
    generalize d.root = n at *
    generalize d'.root = r at *
    cases hd with
    | value ks s h => cases h
    | header h hk => cases h
    | @elem _ i ks ls hx hh hk =>
      refine ⟨rfl, ?_⟩
      have hne : ∀ a, coveredAttr u i a = false := by
        intro a
        simp only [befits, Bool.or_eq_true, Bool.and_eq_true, beq_iff_eq] at hf
        have hf := (hf.resolve_left (by decide)).1.2
        simp only [Zone.fit, Bool.and_eq_true, beq_iff_eq] at hf
        have h1 : i.name ≠ c!"SPECIFICATION" := by
          intro e; have := hf.1.1.1; rw [e] at this; exact absurd this (by decide)
        have h2 : i.name ≠ c!"ATTRIBUTE-VALUE-STRING" := by
          intro e; have := hf.1.1.2; rw [e] at this; exact absurd this (by decide)
        have e1' : (i.name = c!"SPECIFICATION") = False := eq_false h1
        have e2' : (i.name = c!"ATTRIBUTE-VALUE-STRING") = False := eq_false h2
        simp [coveredAttr, isA, e1', e2']
      have : mapCovered u f i = i := by
        unfold mapCovered
        simp [hne]
      rw [this]
      rfl
    | _ => exact ⟨rfl, rfl⟩
  have hsome : (d.root.nsmap.get? none).isSome = true := by rw [hu]; rfl
  have hsome' : (d'.root.nsmap.get? none).isSome = true := by rw [hm.1, hu]; rfl
  cases hs : strippedRoot d.root with
  | error e =>
    unfold parseReqif at hb
    simp only [M.bind, M.lift, hs] at hb
    cases hb
  | ok s =>
    cases hs' : strippedRoot d'.root with
    | error e =>
      unfold parseReqif at hb'
      simp only [M.bind, M.lift, hs'] at hb'
      cases hb'
    | ok s' =>
      exact hidden_documents hs hs' hm.1 hm.2
        (by rw [strippedRoot_veil hs hsome, strippedRoot_veil hs' hsome', hv]) hb hb'

end ReqIF
