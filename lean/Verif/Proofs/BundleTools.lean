import Verif.Spec.Bundle
import Verif.Proofs.RootInfo
import Verif.Props.C32
import Verif.Props.C35
import Verif.Props.C36
import Verif.Props.C37
import Verif.Props.C38_39
import Verif.Props.C40_41
/-!
# Containers and contents survive
-/
namespace ReqIF
open Spec

theorem unparseDataType_read (d : DataType) : unparseDataType (readDataType d) = unparseDataType d := by
  obtain ⟨⟨i, desc, lc, ln, sc⟩, kind⟩ := d
  cases kind with
  | enumeration vs =>
    simp only [readDataType, unparseDataType, attrTruthy_dropEmpty]
    rfl
  | _ => simp only [readDataType, unparseDataType, attrTruthy_dropEmpty]

theorem foldPy_print {α : Type} (f : α → Py Str) (out : Str) (xs : List α) {t : Str} (h : concatPy f xs = .ok t) :
    foldPy (printStep f) out xs = .ok (out ++ t) := by
  induction xs generalizing out t with
  | nil => cases h; simp [foldPy]
  | cons x xs ih =>
    unfold concatPy at h
    cases hx : f x with
    | error e => rw [hx] at h; cases h
    | ok y =>
      rw [hx] at h
      dsimp only at h
      cases hr : concatPy f xs with
      | error e => rw [hr] at h; cases h
      | ok ys =>
        rw [hr] at h
        cases h
        have e : printStep f out x = .ok (out ++ y) := by unfold printStep; rw [hx]
        unfold foldPy
        rw [e]
        dsimp only
        rw [ih (out ++ y) hr, List.append_assoc]

theorem unparseContainer_some {α : Type} {σ : Type} (tag : Str) (f : α → Py Str) (xs : List α) {t : Str} (h : concatPy f xs = .ok t) (s : σ) :
    unparseContainer none tag f (some xs) s = (.ok (lineOpen 6 tag ++ t ++ lineClose 6 tag), s) := by
  unfold unparseContainer
  dsimp only [M.bind, M.pure]
  have : trackedLoop none tag (printStep f) [] xs s = (.ok t, s) := by
    show trackedGo _ _ _ _ _ _ _ _ = _
    rw [trackedGo_none, foldPy_print f [] xs h]
    rfl
  rw [this]

/-- What a container read with `f` gives. -/
def readItems {β : Type} (o : Option Node) (f : List Node → Py β) : Py (Option β) :=
  match o with
  | none => .ok none
  | some c =>
    match f c.children with
    | .error e => .error e
    | .ok b => .ok (some b)

theorem parsedItems_eq {β : Type} (x : Node) (tag : Str) (f : List Node → Py β) : parsedItems x tag f = readItems (x.find tag) f := by
  unfold parsedItems readItems
  cases x.find tag <;> rfl

/-- A container survives if its items do. -/
theorem container_survives {α γ : Type} {Γ : Ctx} {use : α → Bool} {Q : Node → Prop} {print : α → Py Str} {parse : Node → Py α}
    {f g : α → γ} {F : α → Xsd.Said} {tag : Str} (ht : blockTag tag = true) (hl : Xsd.isListName tag = true) (items : Option (List α))
    (h : All (fun x => Survives Γ (use x) (fun n => Q n ∧ Xsd.said n = F x) print parse f g x) items) :
    ∃ t o items', (∀ s : Unit, unparseContainer none tag print items s = (.ok t, s)) ∧ Shows Γ ((items.getD []).any use) t o.toList ∧
      (∀ n ∈ o.toList, n.tag = .name tag) ∧ (∀ n, o = some n → ∀ k ∈ n.children, Q k) ∧
      readItems o (mapPy parse) = .ok items' ∧ items'.map (·.map f) = items.map (·.map g) ∧
      (∀ s : Unit, unparseContainer none tag print items' s = (.ok t, s)) ∧ o.toList.map Xsd.said = Xsd.containerSaid tag F items := by
  cases items with
  | none => exact ⟨[], none, none, fun _ => rfl, Shows.nil Γ, by simp, by simp, rfl, rfl, fun _ => rfl, rfl⟩
  | some xs =>
    obtain ⟨t, ns, xs', h1, h2, h3, h4, h5, h6, h7⟩ := survive_list xs (h xs rfl)
    obtain ⟨n, n1, -, n2⟩ := Shows.block 6 ht h2
    refine ⟨lineOpen 6 tag ++ t ++ lineClose 6 tag, some n, some xs', unparseContainer_some _ _ _ h1, n2, ?_, ?_, ?_, ?_,
      unparseContainer_some _ _ _ h6, (by
        show [Xsd.said n] = [Xsd.listOf tag (xs.map F)]
        rw [n1.saysList hl, h7])⟩
    · intro m hm
      have : m = n := by simpa using hm
      rw [this]
      exact n1.tag
    · rintro m ⟨⟩ k hk
      rw [n1.children] at hk
      exact h3 k hk
    · unfold readItems
      dsimp only
      rw [n1.children, h4]
    · simp [h5]

theorem Survives.mono {α γ : Type} {Γ : Ctx} {u : Bool} {Q Q' : Node → Prop} {print : α → Py Str} {parse : Node → Py α}
    {f g : α → γ} {x : α} (h : Survives Γ u Q print parse f g x) (hq : ∀ n, Q n → Q' n) : Survives Γ u Q' print parse f g x := by
  obtain ⟨t, n, x', h1, h2, h3, h4⟩ := h
  exact ⟨t, n, x', h1, h2, hq n h3, h4⟩

theorem filterMap_types {ns : List Node} {ts : List SpecType} (h : mapPy parseType ns = .ok ts) :
    filterMapPy parseSpecType ns = .ok ts := by
  induction ns generalizing ts with
  | nil => cases h; rfl
  | cons n ns ih =>
    unfold mapPy at h
    cases hn : parseType n with
    | error e => rw [hn] at h; cases h
    | ok t =>
      rw [hn] at h
      dsimp only at h
      cases hr : mapPy parseType ns with
      | error e => rw [hr] at h; cases h
      | ok ys =>
        rw [hr] at h
        cases h
        unfold filterMapPy
        rw [parseType_ok.1 hn, ih hr]
        rfl

theorem filterMap_objects {ns : List Node} {os : List SpecObject} (hc : ∀ n ∈ ns, isCommentNode n = false)
    (h : mapPy parseSpecObject ns = .ok os) : filterMapPy objectItem ns = .ok os := by
  rw [← filterMapPy_some] at h
  rw [← h]
  clear h
  induction ns with
  | nil => rfl
  | cons n ns ih =>
    unfold filterMapPy
    have : objectItem n = someItem parseSpecObject n := by
      unfold objectItem
      rw [if_neg (by simp [hc n (by simp)])]
    rw [this, ih (fun m hm => hc m (by simp [hm]))]

theorem map_relations {ns : List Node} {rs : List SpecRelation} (h : mapPy parseRelation ns = .ok rs) :
    mapPy relationItem ns = .ok (rs.map .ok) := by
  induction ns generalizing rs with
  | nil => cases h; rfl
  | cons n ns ih =>
    unfold mapPy at h
    cases hn : parseRelation n with
    | error e => rw [hn] at h; cases h
    | ok t =>
      rw [hn] at h
      dsimp only at h
      cases hr : mapPy parseRelation ns with
      | error e => rw [hr] at h; cases h
      | ok ys =>
        rw [hr] at h
        cases h
        have : relationItem n = .ok (.ok t) := by unfold relationItem; rw [parseRelation_ok.1 hn]
        unfold mapPy
        rw [this, ih hr]
        rfl

theorem readItems_map {β γ : Type} {o : Option Node} {f : List Node → Py β} {f' : List Node → Py γ} {g : β → γ} {r : Option β}
    (h : readItems o f = .ok r) (hf : ∀ n, o = some n → ∀ b, f n.children = .ok b → f' n.children = .ok (g b)) :
    readItems o f' = .ok (r.map g) := by
  unfold readItems at h ⊢
  cases o with
  | none => cases h; rfl
  | some n =>
    dsimp only at h ⊢
    cases hn : f n.children with
    | error e => rw [hn] at h; cases h
    | ok b =>
      rw [hn] at h
      cases h
      rw [hf n rfl b hn]
      rfl

theorem M.bind_ok {σ α β : Type} {m : M σ α} {f : α → M σ β} {s s' : σ} {a : α} (h : m s = (.ok a, s')) :
    M.bind m f s = f a s' := by
  unfold M.bind
  rw [h]

/-- Parsing the content, forwards. -/
theorem parseContent_reads {x : Node} {c : Content} {rels : Option (List (Except MissingTag SpecRelation))}
    (h1 : parsedItems x c!"DATATYPES" (mapPy parseDataType) = .ok c.dataTypes)
    (h2 : parsedItems x c!"SPEC-TYPES" (filterMapPy parseSpecType) = .ok c.specTypes)
    (h3 : parsedItems x c!"SPECIFICATIONS" (mapPy parseSpecification) = .ok c.specifications)
    (h4 : parsedItems x c!"SPEC-RELATIONS" (mapPy relationItem) = .ok rels)
    (h5 : parsedItems x c!"SPEC-OBJECTS" (filterMapPy objectItem) = .ok c.specObjects)
    (h6 : parsedItems x c!"SPEC-RELATION-GROUPS" (mapPy parseRelationGroup) = .ok c.specRelationGroups)
    (h7 : c.specRelations = rels.map goodRelations) :
    parseContent (none : Option (Callback Unit)) x () =
      (.ok (c, lookupFor (some (some c)), relationErrors (rels.getD [])), ()) := by
  obtain ⟨c1, c2, c3, c4, c5, c6⟩ := c
  dsimp only at h1 h2 h3 h4 h5 h6 h7
  have step : ∀ {α : Type} {body : α → Node → Py α} {tag : Str} {init r}, containerResult x tag body init = .ok r →
      parseContainer (none : Option (Callback Unit)) x tag body init () = (.ok r, ()) := by
    intro α body tag init r h
    rw [parseContainer_none, h]
  have g1 := containerResult_eq (content := x) (tag := c!"DATATYPES") dataTypes_fold
  have g2 := containerResult_eq (content := x) (tag := c!"SPEC-TYPES") specTypes_fold
  have g3 := containerResult_eq (content := x) (tag := c!"SPECIFICATIONS") (f := mapPy parseSpecification) (g := id)
      (fun xs => by rw [specifications_fold]; cases mapPy parseSpecification xs <;> rfl)
  have g4 := containerResult_eq (content := x) (tag := c!"SPEC-RELATIONS") (fun xs => relations_fold xs ⟨[], [], []⟩)
  have g5 := containerResult_eq (content := x) (tag := c!"SPEC-OBJECTS") specObjects_fold
  have g6 := containerResult_eq (content := x) (tag := c!"SPEC-RELATION-GROUPS") (f := mapPy parseRelationGroup) (g := id)
      (fun xs => by rw [groups_fold]; cases mapPy parseRelationGroup xs <;> rfl)
  rw [h1] at g1
  rw [h2] at g2
  rw [h3] at g3
  rw [h4] at g4
  rw [h5] at g5
  rw [h6] at g6
  unfold parseContent
  refine (M.bind_ok (step g1)).trans ?_
  refine (M.bind_ok (step g2)).trans ?_
  refine (M.bind_ok (step g3)).trans ?_
  refine (M.bind_ok (step g4)).trans ?_
  refine (M.bind_ok (step g5)).trans ?_
  refine (M.bind_ok (step g6)).trans ?_
  subst h7
  cases c1 <;> cases c2 <;> cases c3 <;> cases c5 <;> cases c6 <;> cases rels <;> rfl

theorem dataType_survives (Γ : Ctx) {d : DataType} (h : SafeDataType d) :
    Survives Γ false (fun n => True ∧ Xsd.said n = Xsd.dataTypeSaid d) (fun d => .ok (unparseDataType d)) parseDataType id readDataType d := by
  obtain ⟨n, h1, h2, h3⟩ := dataType_shows Γ h
  exact ⟨_, n, readDataType d, rfl, h1, ⟨trivial, h3⟩, h2, rfl, congrArg Except.ok (unparseDataType_read d)⟩

theorem group_survives (Γ : Ctx) {g : RelationGroup} (h : SafeGroup g) :
    Survives Γ false (fun n => True ∧ Xsd.said n = Xsd.groupSaid g) (fun g => .ok (unparseRelationGroup g)) parseRelationGroup id readGroup g := by
  obtain ⟨n, h1, -, h2, h3⟩ := group_shows Γ h
  exact ⟨_, n, readGroup g, rfl, h1, ⟨trivial, h3⟩, h2, rfl, congrArg Except.ok (unparseGroup_read g)⟩

theorem relationUses_eq : relationUses = relationHasXhtml := by
  funext r
  unfold relationUses relationHasXhtml
  cases r.valuesAttribute <;> rfl

theorem good_map (rs : List SpecRelation) : goodRelations (rs.map .ok) = rs := by
  unfold goodRelations
  induction rs with
  | nil => rfl
  | cons r rs ih => simpa using ih

theorem errors_map (rs : List SpecRelation) : relationErrors (rs.map .ok) = [] := by
  unfold relationErrors
  induction rs with
  | nil => rfl
  | cons r rs ih => simpa using ih

/-- The first node with a tag among optional nodes of given tags. -/
theorem find_toList {o : Option Node} {t u : Str} (h : ∀ n ∈ o.toList, n.tag = .name t) :
    o.toList.find? (fun k => k.tag == .name u) = if t = u then o else none := by
  split
  · rename_i e
    subst e
    rw [find_tagged h]
    cases o <;> rfl
  · rename_i e
    exact find_other h e

theorem content_survives {Γ : Ctx} (hc : Γ.Clean) {c : Content} (h : SafeContent Γ c) :
    ∃ t x c', unparseContent (none : Option (Callback Unit)) c () = (.ok t, ()) ∧ Shows Γ (contentUses c) t [x] ∧
      x.tag = .name c!"REQ-IF-CONTENT" ∧
      parseContent (none : Option (Callback Unit)) x () = (.ok (c', lookupFor (some (some c')), []), ()) ∧
      bareContent c' = readContent c ∧ unparseContent (none : Option (Callback Unit)) c' () = (.ok t, ()) ∧
      Xsd.said x = Xsd.contentSaid Γ.pfx c := by
  obtain ⟨t1, o1, c1, a1, a2, a3, -, a5, a6, a7, a8⟩ := container_survives (tag := c!"DATATYPES") (by decide) (by decide) c.dataTypes
    (fun xs hx d hd => dataType_survives Γ (h.dataTypes xs hx d hd))
  obtain ⟨t2, o2, c2, b1, b2, b3, -, b5, b6, b7, b8⟩ := container_survives (tag := c!"SPEC-TYPES") (by decide) (by decide) c.specTypes
    (fun xs hx d hd => (specType_survives hc (h.specTypes xs hx d hd)).mono (Q' := fun n => True ∧ Xsd.said n = Xsd.specTypeSaid Γ.pfx d) (fun _ hn => ⟨trivial, hn.2⟩))
  obtain ⟨t3, o3, c3, d1, d2, d3, d4, d5, d6, d7, d8⟩ := container_survives (tag := c!"SPEC-OBJECTS") (by decide) (by decide) c.specObjects
    (fun xs hx d hd => (object_survives hc (h.specObjects xs hx d hd)).mono
      (Q' := fun n => n.tag = .name c!"SPEC-OBJECT" ∧ Xsd.said n = Xsd.objectSaid Γ.pfx d) (fun _ hn => ⟨hn.1.1, hn.2⟩))
  obtain ⟨t4, o4, c4, e1, e2, e3, -, e5, e6, e7, e8⟩ := container_survives (tag := c!"SPEC-RELATIONS") (by decide) (by decide) c.specRelations
    (fun xs hx d hd => (relation_survives hc (h.specRelations xs hx d hd)).mono (Q' := fun n => True ∧ Xsd.said n = Xsd.relationSaid Γ.pfx d) (fun _ hn => ⟨trivial, hn.2⟩))
  obtain ⟨t5, o5, c5, f1, f2, f3, -, f5, f6, f7, f8⟩ := container_survives (tag := c!"SPECIFICATIONS") (by decide) (by decide) c.specifications
    (fun xs hx d hd => (specification_survives hc (h.specifications xs hx d hd)).mono (Q' := fun n => True ∧ Xsd.said n = Xsd.specificationSaid Γ.pfx d) (fun _ hn => ⟨trivial, hn.2⟩))
  obtain ⟨t6, o6, c6, g1, g2, g3, -, g5, g6, g7, g8⟩ := container_survives (tag := c!"SPEC-RELATION-GROUPS") (by decide) (by decide) c.specRelationGroups
    (fun xs hx d hd => group_survives Γ (h.specRelationGroups xs hx d hd))
  have hs := ((((a2.append b2).append d2).append e2).append f2).append g2
  obtain ⟨x, x1, -, x2⟩ := Shows.nestBlock 4 (tag := c!"REQ-IF-CONTENT") (by decide) hs (by
    intro l hl
    cases (show some [c!"DATATYPES", c!"SPEC-TYPES", c!"SPEC-OBJECTS", c!"SPEC-RELATIONS", c!"SPECIFICATIONS",
      c!"SPEC-RELATION-GROUPS"] = some l from hl)
    simp only [Xsd.childNames_append]
    exact (((((Xsd.names_sub a3 a8 (Xsd.containerSaid_names _ _ _) (by decide)).append
      (Xsd.names_sub b3 b8 (Xsd.containerSaid_names _ _ _) (by decide))).append
      (Xsd.names_sub d3 d8 (Xsd.containerSaid_names _ _ _) (by decide))).append
      (Xsd.names_sub e3 e8 (Xsd.containerSaid_names _ _ _) (by decide))).append
      (Xsd.names_sub f3 f8 (Xsd.containerSaid_names _ _ _) (by decide))).append
      (Xsd.names_sub g3 g8 (Xsd.containerSaid_names _ _ _) (by decide)))
  have hfind : ∀ t, x.find t = (o1.toList ++ o2.toList ++ o3.toList ++ o4.toList ++ o5.toList ++ o6.toList).find? (fun k => k.tag == .name t) := by
    intro t
    rw [find_eq, x1.children]
  have hfind : ∀ t, x.find t = ((((((if c!"DATATYPES" = t then o1 else none).or (if c!"SPEC-TYPES" = t then o2 else none)).or
      (if c!"SPEC-OBJECTS" = t then o3 else none)).or (if c!"SPEC-RELATIONS" = t then o4 else none)).or
      (if c!"SPECIFICATIONS" = t then o5 else none)).or (if c!"SPEC-RELATION-GROUPS" = t then o6 else none)) := by
    intro t
    rw [hfind, List.find?_append, List.find?_append, List.find?_append, List.find?_append, List.find?_append,
      find_toList a3, find_toList b3, find_toList d3, find_toList e3, find_toList f3, find_toList g3]
  have q1 : x.find c!"DATATYPES" = o1 := by rw [hfind]; simp
  have q2 : x.find c!"SPEC-TYPES" = o2 := by rw [hfind]; simp
  have q3 : x.find c!"SPEC-OBJECTS" = o3 := by rw [hfind]; simp
  have q4 : x.find c!"SPEC-RELATIONS" = o4 := by rw [hfind]; simp
  have q5 : x.find c!"SPECIFICATIONS" = o5 := by rw [hfind]; simp
  have q6 : x.find c!"SPEC-RELATION-GROUPS" = o6 := by rw [hfind]; simp
  have print : ∀ {k1 k2 k3 k4 k5 k6},
      unparseContainer (none : Option (Callback Unit)) c!"DATATYPES" (fun d => .ok (unparseDataType d)) k1 () = (.ok t1, ()) →
      unparseContainer (none : Option (Callback Unit)) c!"SPEC-TYPES" unparseSpecType k2 () = (.ok t2, ()) →
      unparseContainer (none : Option (Callback Unit)) c!"SPEC-OBJECTS" unparseSpecObject k3 () = (.ok t3, ()) →
      unparseContainer (none : Option (Callback Unit)) c!"SPEC-RELATIONS" unparseSpecRelation k4 () = (.ok t4, ()) →
      unparseContainer (none : Option (Callback Unit)) c!"SPECIFICATIONS" unparseSpecification k5 () = (.ok t5, ()) →
      unparseContainer (none : Option (Callback Unit)) c!"SPEC-RELATION-GROUPS" (fun g => .ok (unparseRelationGroup g)) k6 () = (.ok t6, ()) →
      unparseContent (none : Option (Callback Unit)) ⟨k1, k2, k3, k4, k5, k6⟩ () =
        (.ok (lineOpen 4 c!"REQ-IF-CONTENT" ++ (t1 ++ t2 ++ t3 ++ t4 ++ t5 ++ t6) ++ lineClose 4 c!"REQ-IF-CONTENT"), ()) := by
    intro k1 k2 k3 k4 k5 k6 p1 p2 p3 p4 p5 p6
    unfold unparseContent
    refine (M.bind_ok p1).trans ?_
    refine (M.bind_ok p2).trans ?_
    refine (M.bind_ok p3).trans ?_
    refine (M.bind_ok p4).trans ?_
    refine (M.bind_ok p5).trans ?_
    refine (M.bind_ok p6).trans ?_
    unfold M.pure
    simp only [List.append_assoc]
  refine ⟨_, x, ⟨c1, c2, c3, c4, c5, c6⟩, print (a1 ()) (b1 ()) (d1 ()) (e1 ()) (f1 ()) (g1 ()), ?_, x1.tag, ?_, ?_,
    print (a7 ()) (b7 ()) (d7 ()) (e7 ()) (f7 ()) (g7 ()), (by
      rw [x1.saysRecord (by decide)]
      simp only [List.map_append, a8, b8, d8, e8, f8, g8]
      rfl)⟩
  · have : contentUses c = (((((((c.dataTypes.getD []).any (fun _ => false)) || (c.specTypes.getD []).any specTypeUses) ||
        (c.specObjects.getD []).any (fun o => o.attributes.any usesXhtml)) || (c.specRelations.getD []).any relationUses) ||
        (c.specifications.getD []).any (fun s => (s.values.getD []).any usesXhtml)) ||
        (c.specRelationGroups.getD []).any (fun _ => false)) := by
      have e : ∀ {α : Type} (l : List α), l.any (fun _ => false) = false := by
        intro α l
        induction l with
        | nil => rfl
        | cons a l ih => simpa using ih
      rw [e, e, relationUses_eq]
      simp [contentUses]
    rw [this]
    exact x2
  · have r1 : parsedItems x c!"DATATYPES" (mapPy parseDataType) = .ok c1 := by rw [parsedItems_eq, q1]; exact a5
    have r2 : parsedItems x c!"SPEC-TYPES" (filterMapPy parseSpecType) = .ok c2 := by
      rw [parsedItems_eq, q2]
      have := readItems_map (g := id) (f' := filterMapPy parseSpecType) b5 (fun n _ b hb => filterMap_types hb)
      simpa using this
    have r3 : parsedItems x c!"SPECIFICATIONS" (mapPy parseSpecification) = .ok c5 := by rw [parsedItems_eq, q5]; exact f5
    have r4 : parsedItems x c!"SPEC-RELATIONS" (mapPy relationItem) = .ok (c4.map (·.map .ok)) := by
      rw [parsedItems_eq, q4]
      exact readItems_map e5 (fun n _ b hb => map_relations hb)
    have r5 : parsedItems x c!"SPEC-OBJECTS" (filterMapPy objectItem) = .ok c3 := by
      rw [parsedItems_eq, q3]
      have := readItems_map (g := id) (f' := filterMapPy objectItem) d5
        (fun n hn b hb => filterMap_objects (fun k hk => isElem_notComment (d4 n hn k hk)) hb)
      simpa using this
    have r6 : parsedItems x c!"SPEC-RELATION-GROUPS" (mapPy parseRelationGroup) = .ok c6 := by rw [parsedItems_eq, q6]; exact g5
    have := parseContent_reads (c := ⟨c1, c2, c3, c4, c5, c6⟩) r1 r2 r3 r4 r5 r6 (by
      cases c4 with
      | none => rfl
      | some rs => simp [good_map])
    rw [this]
    have e : relationErrors ((c4.map (·.map .ok)).getD []) = [] := by
      cases c4 with
      | none => rfl
      | some rs => simp [errors_map]
    rw [e]
  · unfold bareContent readContent
    have e : ∀ {α : Type} (o : Option (List α)), o.map (·.map id) = o := by
      intro α o
      cases o <;> simp
    rw [e] at a6 g6
    dsimp only
    rw [a6, b6, d6, e6, f6, g6]

end ReqIF
