import Verif.Proofs.ProgressDocs
import Verif.Model.Bundle
/-! What a successful parse tells about the document. -/
namespace ReqIF
open Spec

variable {α β : Type}

theorem py_bind_ok {a : α} {f : α → Py β} : ((Except.ok a : Py α) >>= f) = f a := rfl
theorem py_bind_error {e : PyErr} {f : α → Py β} : ((Except.error e : Py α) >>= f) = .error e := rfl
theorem py_pure (a : α) : (pure a : Py α) = .ok a := rfl

theorem py_bind_inv {m : Py α} {f : α → Py β} {b : β} (h : (m >>= f) = .ok b) :
    ∃ a, m = .ok a ∧ f a = .ok b := by
  cases m with
  | error e => cases h
  | ok a => exact ⟨a, rfl, h⟩

/-- Apply a function to a result. -/
def pyMap (g : α → β) : Py α → Py β
  | .error e => .error e
  | .ok a => .ok (g a)

theorem mapPy_length {f : α → Py β} {xs : List α} {ys : List β} (h : mapPy f xs = .ok ys) :
    ys.length = xs.length := by
  induction xs generalizing ys with
  | nil => cases h; rfl
  | cons x xs ih =>
    simp only [mapPy] at h
    split at h
    · cases h
    · split at h
      · cases h
      · rename_i h2; cases h; simp [ih h2]

theorem mapPy_mem {f : α → Py β} {xs : List α} {ys : List β} (h : mapPy f xs = .ok ys) {y : β} (hy : y ∈ ys) :
    ∃ x ∈ xs, f x = .ok y := by
  induction xs generalizing ys with
  | nil => cases h; cases hy
  | cons x xs ih =>
    simp only [mapPy] at h
    split at h
    · cases h
    · rename_i y' hf
      split at h
      · cases h
      · rename_i ys' h2
        cases h
        rcases List.mem_cons.mp hy with rfl | hy
        · exact ⟨x, by simp, hf⟩
        · obtain ⟨x', hx', hf'⟩ := ih h2 hy
          exact ⟨x', by simp [hx'], hf'⟩

/-- `mapPy` with results that may be absent. -/
def filterMapPy (f : α → Py (Option β)) : List α → Py (List β)
  | [] => .ok []
  | x :: xs =>
    match f x with
    | .error e => .error e
    | .ok o =>
      match filterMapPy f xs with
      | .error e => .error e
      | .ok ys => .ok (o.toList ++ ys)

theorem filterMapPy_mem {f : α → Py (Option β)} {xs : List α} {ys : List β} (h : filterMapPy f xs = .ok ys)
    {y : β} (hy : y ∈ ys) : ∃ x ∈ xs, f x = .ok (some y) := by
  induction xs generalizing ys with
  | nil => cases h; cases hy
  | cons x xs ih =>
    simp only [filterMapPy] at h
    split at h
    · cases h
    · rename_i o hf
      split at h
      · cases h
      · rename_i ys' h2
        cases h
        rcases List.mem_append.mp hy with hy | hy
        · rw [Option.mem_toList] at hy
          obtain rfl : o = some y := by cases o <;> simp_all
          exact ⟨x, by simp, hf⟩
        · obtain ⟨x', hx', hf'⟩ := ih h2 hy
          exact ⟨x', by simp [hx'], hf'⟩

/-- A loop that collects items in a list and in a dictionary. -/
theorem foldPy_collect {γ : Type} (f : α → Py (Option β)) (add : γ → β → γ)
    (step : List β × γ → α → Py (List β × γ))
    (hstep : ∀ acc x, step acc x = match f x with
      | .error e => .error e
      | .ok none => .ok acc
      | .ok (some y) => .ok (acc.1 ++ [y], add acc.2 y))
    (xs : List α) (l : List β) (d : γ) :
    foldPy step (l, d) xs = match filterMapPy f xs with
      | .error e => .error e
      | .ok ys => .ok (l ++ ys, ys.foldl add d) := by
  induction xs generalizing l d with
  | nil => simp [foldPy, filterMapPy]
  | cons x xs ih =>
    simp only [foldPy, filterMapPy, hstep]
    cases f x with
    | error e => rfl
    | ok o =>
      cases o with
      | none =>
        dsimp only
        rw [ih]
        cases filterMapPy f xs <;> simp
      | some y =>
        dsimp only
        rw [ih]
        cases filterMapPy f xs <;> simp

/-- The item a container child gives; `none` for one that is skipped. -/
def someItem (f : α → Py β) (x : α) : Py (Option β) :=
  match f x with
  | .error e => .error e
  | .ok y => .ok (some y)

theorem filterMapPy_some (f : α → Py β) (xs : List α) : filterMapPy (someItem f) xs = mapPy f xs := by
  induction xs with
  | nil => rfl
  | cons x xs ih =>
    simp only [filterMapPy, mapPy, someItem, ih]
    cases f x <;> rfl

/-- The dictionary built by `d[x.identifier] = x` over a list. -/
def indexBy {γ : Type} (key : β → γ) [DecidableEq γ] (l : List β) : Dict γ β :=
  l.foldl (fun d x => d.set (key x) x) []

theorem dataTypes_fold (xs : List Node) : foldPy dataTypeStep ([], []) xs =
    pyMap (fun ys => (ys, indexBy DataType.identifier ys)) (mapPy parseDataType xs) := by
  rw [foldPy_collect (someItem parseDataType) (fun (d : Dict Str DataType) t => d.set t.identifier t), filterMapPy_some]
  · cases mapPy parseDataType xs <;> rfl
  · intro acc x
    simp only [dataTypeStep, someItem]
    cases parseDataType x <;> rfl

theorem specTypes_fold (xs : List Node) : foldPy specTypeStep ([], []) xs =
    pyMap (fun ys => (ys, indexBy SpecType.identifier ys)) (filterMapPy parseSpecType xs) := by
  rw [foldPy_collect parseSpecType (fun (d : Dict Str SpecType) t => d.set t.identifier t)]
  · cases filterMapPy parseSpecType xs <;> rfl
  · intro acc x
    simp only [specTypeStep]
    cases parseSpecType x with
    | error e => rfl
    | ok o => cases o <;> rfl

/-- A spec-object child: comments are skipped. -/
def objectItem (x : Node) : Py (Option SpecObject) :=
  if isCommentNode x then .ok none else someItem parseSpecObject x

theorem specObjects_fold (xs : List Node) : foldPy specObjectStep ([], []) xs =
    pyMap (fun ys => (ys, indexBy SpecObject.identifier ys)) (filterMapPy objectItem xs) := by
  rw [foldPy_collect objectItem (fun (d : Dict Str SpecObject) t => d.set t.identifier t)]
  · cases filterMapPy objectItem xs <;> rfl
  · intro acc x
    simp only [specObjectStep, objectItem, someItem]
    cases isCommentNode x with
    | true => rfl
    | false =>
      simp only [Bool.false_eq_true, if_false]
      cases parseSpecObject x <;> rfl

theorem mapPy_fold (f : α → Py β) (step : List β → α → Py (List β))
    (hstep : ∀ acc x, step acc x = match f x with
      | .error e => .error e
      | .ok y => .ok (acc ++ [y])) (xs : List α) (l : List β) :
    foldPy step l xs = match mapPy f xs with
      | .error e => .error e
      | .ok ys => .ok (l ++ ys) := by
  induction xs generalizing l with
  | nil => simp [foldPy, mapPy]
  | cons x xs ih =>
    simp only [foldPy, mapPy, hstep]
    cases f x with
    | error e => rfl
    | ok y =>
      dsimp only
      rw [ih]
      cases mapPy f xs <;> simp

theorem specifications_fold (xs : List Node) : foldPy specificationStep [] xs = mapPy parseSpecification xs := by
  rw [mapPy_fold parseSpecification]
  · cases mapPy parseSpecification xs <;> rfl
  · intro acc x
    simp only [specificationStep]
    cases parseSpecification x <;> rfl

theorem groups_fold (xs : List Node) : foldPy relationGroupStep [] xs = mapPy parseRelationGroup xs := by
  rw [mapPy_fold parseRelationGroup]
  · cases mapPy parseRelationGroup xs <;> rfl
  · intro acc x
    simp only [relationGroupStep]
    cases parseRelationGroup x <;> rfl

/-- A relation child: the relation or the missing-tag error. -/
def relationItem (x : Node) : Py (Except MissingTag SpecRelation) :=
  match parseSpecRelation x with
  | .error e => .error e
  | .ok (.ok r) => .ok (.ok r)
  | .ok (.error m) =>
    match stringifyNode false m.node with
    | .error e => .error e
    | .ok _ => .ok (.error m)

/-- The relations among the results. -/
def goodRelations (rs : List (Except MissingTag SpecRelation)) : List SpecRelation :=
  rs.filterMap (fun r => match r with | .ok a => some a | .error _ => none)

/-- The errors among the results. -/
def relationErrors (rs : List (Except MissingTag SpecRelation)) : List MissingTag :=
  rs.filterMap (fun r => match r with | .ok _ => none | .error m => some m)

theorem relations_fold (xs : List Node) (acc : RelationAcc) : foldPy relationStep acc xs =
    pyMap (fun rs => ⟨acc.relations ++ goodRelations rs,
        (goodRelations rs).foldl (fun d r => appendParent d r.source r.target) acc.parents,
        acc.errors ++ relationErrors rs⟩) (mapPy relationItem xs) := by
  induction xs generalizing acc with
  | nil => simp [foldPy, mapPy, pyMap, goodRelations, relationErrors]
  | cons x xs ih =>
    simp only [foldPy, mapPy, relationStep, relationItem]
    cases parseSpecRelation x with
    | error e => rfl
    | ok o =>
      cases o with
      | ok r =>
        simp only [py_bind_ok, py_pure]
        rw [ih]
        cases mapPy relationItem xs <;> simp [pyMap, goodRelations, relationErrors]
      | error m =>
        simp only [py_bind_ok]
        cases stringifyNode false m.node with
        | error e => rfl
        | ok s =>
          simp only [py_bind_ok, py_pure]
          rw [ih]
          cases mapPy relationItem xs <;> simp [pyMap, goodRelations, relationErrors]

/-- Parsing one container: `none` if absent. -/
def parsedItems (content : Node) (tag : Str) (f : List Node → Py β) : Py (Option β) :=
  match content.find tag with
  | none => .ok none
  | some c =>
    match f c.children with
    | .error e => .error e
    | .ok b => .ok (some b)

theorem containerResult_eq {γ : Type} {content : Node} {tag : Str} {body : γ → Node → Py γ} {init : γ}
    {f : List Node → Py β} {g : β → γ}
    (h : ∀ xs, foldPy body init xs = pyMap g (f xs)) :
    containerResult content tag body init = pyMap (Option.map g) (parsedItems content tag f) := by
  unfold containerResult parsedItems
  cases content.find tag with
  | none => rfl
  | some c =>
    dsimp only
    rw [h]
    cases f c.children <;> rfl

theorem py_map_inv {γ : Type} {r : Py β} {g : β → γ} {y : γ}
    (h : pyMap g r = .ok y) :
    ∃ o, r = .ok o ∧ y = g o := by
  cases r with
  | error e => cases h
  | ok o => cases h; exact ⟨o, rfl, rfl⟩

theorem parseContainer_none {body : β → Node → Py β} {tag : Str} {σ : Type} (content : Node) (init : β) (s : σ) :
    parseContainer none content tag body init s = (containerResult content tag body init, s) := by
  unfold parseContainer containerResult
  cases content.find tag with
  | none => rfl
  | some x =>
    simp only [M.bind, trackedLoop, trackedGo_none]
    cases foldPy body init x.children <;> rfl

/-- What a successful parse of the content found. -/
theorem parseContent_inv {x : Node} {c : Content} {l : Lookup} {errs : List MissingTag}
    (h : (parseContent (none : Option (Callback Unit)) x ()).1 = .ok (c, l, errs)) :
    ∃ rels, parsedItems x c!"DATATYPES" (mapPy parseDataType) = .ok c.dataTypes ∧
      parsedItems x c!"SPEC-TYPES" (filterMapPy parseSpecType) = .ok c.specTypes ∧
      parsedItems x c!"SPECIFICATIONS" (mapPy parseSpecification) = .ok c.specifications ∧
      parsedItems x c!"SPEC-RELATIONS" (mapPy relationItem) = .ok rels ∧
      parsedItems x c!"SPEC-OBJECTS" (filterMapPy objectItem) = .ok c.specObjects ∧
      parsedItems x c!"SPEC-RELATION-GROUPS" (mapPy parseRelationGroup) = .ok c.specRelationGroups ∧
      c.specRelations = rels.map goodRelations ∧
      errs = relationErrors (rels.getD []) ∧
      l = { dataTypes := indexBy DataType.identifier (c.dataTypes.getD []),
            specTypes := indexBy SpecType.identifier (c.specTypes.getD []),
            specObjects := indexBy SpecObject.identifier (c.specObjects.getD []),
            parents := (c.specRelations.getD []).foldl (fun d r => appendParent d r.source r.target) [],
            parentsDefault := true } := by
  have h : ∃ s, parseContent (none : Option (Callback Unit)) x () = (.ok (c, l, errs), s) :=
    ⟨_, by rw [← h]⟩
  obtain ⟨s, h⟩ := h
  unfold parseContent at h
  obtain ⟨dts, s1, h1, h⟩ := M.bind_inv h
  obtain ⟨sts, s2, h2, h⟩ := M.bind_inv h
  obtain ⟨sps, s3, h3, h⟩ := M.bind_inv h
  obtain ⟨rels, s4, h4, h⟩ := M.bind_inv h
  obtain ⟨objs, s5, h5, h⟩ := M.bind_inv h
  obtain ⟨groups, s6, h6, h⟩ := M.bind_inv h
  rw [parseContainer_none, Prod.mk.injEq] at h1 h2 h3 h4 h5 h6
  replace h1 := h1.1; replace h2 := h2.1; replace h3 := h3.1
  replace h4 := h4.1; replace h5 := h5.1; replace h6 := h6.1
  rw [containerResult_eq dataTypes_fold] at h1
  rw [containerResult_eq specTypes_fold] at h2
  rw [containerResult_eq (f := mapPy parseSpecification) (g := id)
    (fun xs => by rw [specifications_fold]; cases mapPy parseSpecification xs <;> rfl)] at h3
  rw [containerResult_eq (fun xs => relations_fold xs _)] at h4
  rw [containerResult_eq specObjects_fold] at h5
  rw [containerResult_eq (f := mapPy parseRelationGroup) (g := id)
    (fun xs => by rw [groups_fold]; cases mapPy parseRelationGroup xs <;> rfl)] at h6
  obtain ⟨o1, g1, rfl⟩ := py_map_inv h1
  obtain ⟨o2, g2, rfl⟩ := py_map_inv h2
  obtain ⟨o3, g3, rfl⟩ := py_map_inv h3
  obtain ⟨o4, g4, rfl⟩ := py_map_inv h4
  obtain ⟨o5, g5, rfl⟩ := py_map_inv h5
  obtain ⟨o6, g6, rfl⟩ := py_map_inv h6
  simp only [M.pure, Prod.mk.injEq, Except.ok.injEq] at h
  obtain ⟨⟨rfl, rfl, rfl⟩, -⟩ := h
  refine ⟨o4, ?_, ?_, ?_, g4, ?_, ?_, ?_, ?_, ?_⟩
  · rw [g1]; cases o1 <;> rfl
  · rw [g2]; cases o2 <;> rfl
  · rw [g3]; cases o3 <;> rfl
  · rw [g5]; cases o5 <;> rfl
  · rw [g6]; cases o6 <;> rfl
  · cases o4 <;> simp
  · cases o4 <;> simp [relationErrors]
  · cases o1 <;> cases o2 <;> cases o4 <;> cases o5 <;> simp [indexBy]

/-- The content element of a text: read, checked and stripped. -/
def contentNode (text : Str) : Option Node :=
  match readDoc text with
  | none => none
  | some d =>
    match strippedRoot d.root with
    | .error _ => none
    | .ok root => contentOf root

/-- What a successful parse found: either no content, or the parsed content of the
document's content element. -/
theorem parseString_inv {text : Str} {b : Bundle} (h : parseString text = .ok b) :
    (contentNode text = none ∧ (∀ c, b.coreContent ≠ some (some c)) ∧ b.lookup = Lookup.empty ∧ b.exceptions = []) ∨
    ∃ x c, contentNode text = some x ∧ b.coreContent = some (some c) ∧
      (parseContent (none : Option (Callback Unit)) x ()).1 = .ok (c, b.lookup, b.exceptions) := by
  unfold parseString at h
  have h : ∃ s, parseFromString (none : Option (Callback Unit)) text () = (.ok b, s) := ⟨_, by rw [← h]⟩
  obtain ⟨s, h⟩ := h
  unfold parseFromString at h
  unfold contentNode
  split at h
  · simp [M.lift] at h
  · cases hd : readDoc text with
    | none => rw [hd] at h; simp [M.lift] at h
    | some d =>
      rw [hd] at h
      dsimp only at h ⊢
      obtain ⟨root, s1, h1, h2⟩ := M.bind_inv h
      simp only [M.lift, Prod.mk.injEq] at h1
      obtain ⟨hr, -⟩ := h1
      rw [hr]
      dsimp only
      split at h2
      · split at h2
        · rename_i hl
          simp only [M.pure, Prod.mk.injEq, Except.ok.injEq] at h2
          left
          refine ⟨?_, ?_, ?_, ?_⟩
          · have hc : root.children = [] := List.length_eq_zero_iff.mp hl
            have : root.find c!"CORE-CONTENT" = none := by
              unfold Node.find
              rw [List.find?_eq_none]
              intro x hx hb
              simp only [Bool.and_eq_true] at hb
              have : x ∈ root.children := List.mem_filter.mpr ⟨hx, hb.1⟩
              rw [hc] at this
              cases this
            rw [contentOf, this]; rfl
          · rw [← h2.1]; intro c hc; cases hc
          · rw [← h2.1]; rfl
          · rw [← h2.1]; rfl
        · obtain ⟨hdr, s2, h3, h4⟩ := M.bind_inv h2
          obtain ⟨r, s3, h5, h6⟩ := M.bind_inv h4
          simp only [M.pure, Prod.mk.injEq, Except.ok.injEq] at h6
          rw [← h6.1]
          dsimp only
          unfold parseCore at h5
          unfold contentOf
          cases hcc : root.find c!"CORE-CONTENT" with
          | none =>
            rw [hcc] at h5
            simp only [M.pure, Prod.mk.injEq, Except.ok.injEq] at h5
            left
            rw [← h5.1]
            exact ⟨rfl, (by intro c hc; cases hc), rfl, rfl⟩
          | some core =>
            rw [hcc] at h5
            dsimp only at h5
            simp only [Option.bind_some]
            cases hx : core.find c!"REQ-IF-CONTENT" with
            | none =>
              rw [hx] at h5
              simp only [M.pure, Prod.mk.injEq, Except.ok.injEq] at h5
              left
              rw [← h5.1]
              exact ⟨rfl, (by intro c hc; cases hc), rfl, rfl⟩
            | some x =>
              rw [hx] at h5
              dsimp only at h5
              obtain ⟨r', s4, h7, h8⟩ := M.bind_inv h5
              simp only [M.pure, Prod.mk.injEq, Except.ok.injEq] at h8
              right
              refine ⟨x, r'.1, rfl, ?_, ?_⟩
              · rw [← h8.1]
              · rw [← h8.1]
                have : s2 = () := rfl
                rw [this] at h7
                rw [h7]
      · simp [M.lift] at h2

end ReqIF
