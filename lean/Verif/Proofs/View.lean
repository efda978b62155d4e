import Verif.Spec.View
import Verif.Props.C18_23
import Verif.Proofs.Hierarchy
import Verif.Spec.Bundle
import Verif.Spec.Sources
/-!
# Bundles with the same view
-/
set_option linter.unusedSimpArgs false
namespace ReqIF
open Spec

theorem lastWith_shown {α β κ : Type} [DecidableEq κ] (f : α → β) (key : β → κ) (k : κ) (l : List α) :
    lastWith key k (l.map f) = (lastWith (fun a => key (f a)) k l).map f := by
  unfold lastWith
  rw [List.filter_map, List.getLast?_map]
  rfl

/-- The objects found under a reference look the same. -/
theorem object_found {text : Str} {b : Bundle} (h : parseString text = .ok b) (ref : Option Str) :
    pyMap objectView (Dump.objectOf b.lookup ref) =
      match ref with
      | none => .error .keyError
      | some r => orKeyError (lastWith ObjectView.identifier r ((specObjectsOf b).map objectView)) := by
  cases ref with
  | none => rfl
  | some r =>
    obtain ⟨-, -, hl, -⟩ := parsed_lookup h
    show pyMap objectView (b.lookup.specObjectByRef r) = orKeyError (lastWith ObjectView.identifier r ((specObjectsOf b).map objectView))
    unfold Lookup.specObjectByRef
    rw [getItem_eq, hl, indexBy_get?, lastWith_shown]
    show _ = orKeyError ((lastWith SpecObject.identifier r (specObjectsOf b)).map objectView)
    cases lastWith SpecObject.identifier r (specObjectsOf b) <;> rfl

theorem valueRows_view (repr : Str → Str) (as as' : List SpecObjectAttribute)
    (h : as.map (fun a => (a.definitionRef, a.value)) = as'.map (fun a => (a.definitionRef, a.value))) :
    Dump.valueRows repr as = Dump.valueRows repr as' := by
  induction as generalizing as' with
  | nil => cases as' with
    | nil => rfl
    | cons a as' => cases h
  | cons a as ih =>
    cases as' with
    | nil => cases h
    | cons a' as' =>
      simp only [List.map_cons, List.cons.injEq, Prod.mk.injEq] at h
      simp only [Dump.valueRows, h.1.1, h.1.2, ih as' h.2]

theorem objectTable_view (repr : Str → Str) (o o' : SpecObject) (h : objectView o = objectView o') :
    Dump.objectTable repr o = Dump.objectTable repr o' := by
  unfold objectView at h
  injection h with h1 h2 h3
  unfold Dump.objectTable
  rw [h1, h2, valueRows_view repr _ _ h3]

theorem nodeTables_view (repr : Str → Str) (l l' : Lookup)
    (hl : ∀ r, pyMap objectView (Dump.objectOf l r) = pyMap objectView (Dump.objectOf l' r)) (hs hs' : List Hierarchy)
    (h : hs.map (fun h => h.info.specObject) = hs'.map (fun h => h.info.specObject)) :
    Dump.nodeTables repr l hs = Dump.nodeTables repr l' hs' := by
  induction hs generalizing hs' with
  | nil => cases hs' with
    | nil => rfl
    | cons a as' => cases h
  | cons a as ih =>
    cases hs' with
    | nil => cases h
    | cons a' as' =>
      simp only [List.map_cons, List.cons.injEq] at h
      simp only [Dump.nodeTables, ih as' h.2]
      have := hl a'.info.specObject
      rw [h.1]
      revert this
      generalize Dump.objectOf l a'.info.specObject = x
      generalize Dump.objectOf l' a'.info.specObject = y
      intro this
      cases x with
      | error e => cases y with
        | error e' => cases this; rfl
        | ok o => cases this
      | ok o => cases y with
        | error e' => cases this
        | ok o' =>
          have e : objectView o = objectView o' := by
            have : Except.ok (ε := PyErr) (objectView o) = .ok (objectView o') := this
            injection this
          dsimp only
          rw [objectTable_view repr o o' e]

theorem iterate_eq {b : Bundle} {ss : List Specification} (hb : b.specifications? = some ss) (i : Nat) (s : Specification)
    (hi : ss[i]? = some s) : b.iterate i = .ok (preorderList (s.children.getD [])) := by
  unfold Bundle.iterate
  rw [hb]
  dsimp only
  rw [hi]
  dsimp only
  cases s.children with
  | none => rfl
  | some hs => simp only [iterLoop_eq, Option.getD_some]

theorem specificationParts_view (repr : Str → Str) (b b' : Bundle) (ss ss' : List Specification)
    (hb : b.specifications? = some ss) (hb' : b'.specifications? = some ss')
    (hl : ∀ r, pyMap objectView (Dump.objectOf b.lookup r) = pyMap objectView (Dump.objectOf b'.lookup r)) :
    ∀ (i : Nat) (ts ts' : List Specification), ss.drop i = ts → ss'.drop i = ts' → ts.map specificationView = ts'.map specificationView →
      Dump.specificationParts repr b i ts = Dump.specificationParts repr b' i ts' := by
  intro i ts
  induction ts generalizing i with
  | nil =>
    intro ts' _ _ h
    cases ts' with
    | nil => rfl
    | cons a as' => cases h
  | cons a as ih =>
    intro ts' h1 h2 h
    cases ts' with
    | nil => cases h
    | cons a' as' =>
      simp only [List.map_cons, List.cons.injEq] at h
      have g1 : ss[i]? = some a := by rw [← List.head?_drop, h1]; rfl
      have g2 : ss'[i]? = some a' := by rw [← List.head?_drop, h2]; rfl
      have d1 : ss.drop (i + 1) = as := by rw [← List.tail_drop, h1]; rfl
      have d2 : ss'.drop (i + 1) = as' := by rw [← List.tail_drop, h2]; rfl
      have e := h.1
      unfold specificationView at e
      injection e with e1 e2
      simp only [Dump.specificationParts]
      rw [iterate_eq hb i a g1, iterate_eq hb' i a' g2]
      dsimp only
      rw [nodeTables_view repr _ _ hl _ _ e2, ih (i + 1) as' d1 d2 h.2, e1]

theorem rows_view {α β : Type} (xs xs' : Option (List α)) (f : α → β) (body : List α → Str)
    (hbody : ∀ l l' : List α, l.map f = l'.map f → body l = body l') (h : xs.map (List.map f) = xs'.map (List.map f)) :
    Dump.loopOver xs body = Dump.loopOver xs' body := by
  cases xs with
  | none => cases xs' with
    | none => rfl
    | some l => cases h
  | some l => cases xs' with
    | none => cases h
    | some l' =>
      simp only [Option.map_some, Option.some.injEq] at h
      simp only [Dump.loopOver, hbody l l' h]

theorem dataTypeRows_view (l l' : List DataType) (h : l.map (fun d => d.identifier) = l'.map (fun d => d.identifier)) :
    Dump.dataTypeRows l = Dump.dataTypeRows l' := by
  induction l generalizing l' with
  | nil => cases l' with
    | nil => rfl
    | cons a as' => cases h
  | cons a as ih =>
    cases l' with
    | nil => cases h
    | cons a' as' =>
      simp only [List.map_cons, List.cons.injEq] at h
      simp only [Dump.dataTypeRows, h.1, ih as' h.2]

theorem specTypeRows_view (l l' : List SpecType) (h : l.map (fun d => d.identifier) = l'.map (fun d => d.identifier)) :
    Dump.specTypeRows l = Dump.specTypeRows l' := by
  induction l generalizing l' with
  | nil => cases l' with
    | nil => rfl
    | cons a as' => cases h
  | cons a as ih =>
    cases l' with
    | nil => cases h
    | cons a' as' =>
      simp only [List.map_cons, List.cons.injEq] at h
      simp only [Dump.specTypeRows, h.1, ih as' h.2]

theorem objects_view {b b' : Bundle} (h : view b = view b') :
    (specObjectsOf b).map objectView = (specObjectsOf b').map objectView := by
  unfold view at h
  injection h with _ h2
  unfold specObjectsOf
  revert h2
  match b.coreContent, b'.coreContent with
  | none, none => intro _; rfl
  | none, some none => intro _; rfl
  | some none, none => intro _; rfl
  | some none, some none => intro _; rfl
  | none, some (some c) => intro h; cases h
  | some none, some (some c) => intro h; cases h
  | some (some c), none => intro h; cases h
  | some (some c), some none => intro h; cases h
  | some (some c), some (some c') =>
    intro h
    simp only [Option.map_some, Option.some.injEq] at h
    unfold contentView at h
    injection h

theorem page_view (repr : Str → Str) {s s' : Str} {b b' : Bundle} (hb : parseString s = .ok b) (hb' : parseString s' = .ok b')
    (h : view b = view b') : Dump.dumpText repr b = Dump.dumpText repr b' := by
  have hl : ∀ r, pyMap objectView (Dump.objectOf b.lookup r) = pyMap objectView (Dump.objectOf b'.lookup r) := by
    intro r
    rw [object_found hb, object_found hb', objects_view h]
  unfold view at h
  injection h with h1 h2
  have hh : Dump.headerPart b.header = Dump.headerPart b'.header := by
    revert h1
    cases b.header <;> cases b'.header <;> intro h <;> try cases h
    · rfl
    · simp only [Option.map_some, Option.some.injEq, Prod.mk.injEq] at h
      simp only [Dump.headerPart, h.1, h.2]
  unfold Dump.dumpText
  rw [hh]
  unfold Dump.specificationsPart
  match hc : b.coreContent, hc' : b'.coreContent with
  | none, none => rfl
  | none, some x => rw [hc, hc'] at h2; cases h2
  | some x, none => rw [hc, hc'] at h2; cases h2
  | some none, some none => rfl
  | some none, some (some c) => rw [hc, hc'] at h2; cases h2
  | some (some c), some none => rw [hc, hc'] at h2; cases h2
  | some (some c), some (some c') =>
    rw [hc, hc'] at h2
    simp only [Option.map_some, Option.some.injEq] at h2
    unfold contentView at h2
    injection h2 with e1 e2 e3 e4 e5
    simp only [Dump.dataTypesPart, Dump.specTypesPart, rows_view c.dataTypes c'.dataTypes _ _ dataTypeRows_view e1,
      rows_view c.specTypes c'.specTypes _ _ specTypeRows_view e2]
    have : ∀ ss, c.specifications = some ss → ∀ ss', c'.specifications = some ss' →
        Dump.specificationParts repr b 0 ss = Dump.specificationParts repr b' 0 ss' := by
      intro ss hss ss' hss'
      rw [hss, hss'] at e5
      simp only [Option.map_some, Option.some.injEq] at e5
      refine specificationParts_view repr b b' ss ss' ?_ ?_ hl 0 ss ss' rfl rfl e5
      · unfold Bundle.specifications?; rw [hc]; exact hss
      · unfold Bundle.specifications?; rw [hc']; exact hss'
    cases hs : c.specifications with
    | none => cases hs' : c'.specifications with
      | none => rfl
      | some ss' => rw [hs, hs'] at e5; cases e5
    | some ss => cases hs' : c'.specifications with
      | none => rw [hs, hs'] at e5; cases e5
      | some ss' => simp only [this ss hs ss' hs']

/-! ## The issues -/

theorem dangling_view (os : List SpecObject) (ref : Option Str) :
    dangling os ref = match ref with
      | none => true
      | some r => !(os.map objectView).any (fun o => o.identifier == r) := by
  cases ref with
  | none => rfl
  | some r => simp only [dangling, List.any_map]; rfl

theorem dangling_same {os os' : List SpecObject} (h : os.map objectView = os'.map objectView) (ref : Option Str) :
    dangling os ref = dangling os' ref := by rw [dangling_view, dangling_view, h]

theorem ends_view {os os' : List SpecObject} (h : os.map objectView = os'.map objectView) (rs rs' : List SpecRelation)
    (hr : rs.map (fun r => (r.source, r.target)) = rs'.map (fun r => (r.source, r.target))) :
    (rs.flatMap (relationEnds os)).map unquoted = (rs'.flatMap (relationEnds os')).map unquoted := by
  induction rs generalizing rs' with
  | nil => cases rs' with
    | nil => rfl
    | cons a as' => cases hr
  | cons a as ih =>
    cases rs' with
    | nil => cases hr
    | cons a' as' =>
      simp only [List.map_cons, List.cons.injEq, Prod.mk.injEq] at hr
      simp only [List.flatMap_cons, List.map_append, ih as' hr.2, relationEnds, hr.1.1, hr.1.2, dangling_same h]
      cases dangling os' a'.source <;> cases dangling os' a'.target <;> rfl

theorem refs_eq (os : List SpecObject) (s : Specification) : (hierarchyRefs os s).map unquoted =
    ((specificationView s).refs.filter (dangling os)).map (SemanticIssue.hierarchyRef none) := by
  unfold hierarchyRefs specificationView
  dsimp only
  rw [List.filter_map, List.map_map, List.map_map]
  rfl

theorem refs_view {os os' : List SpecObject} (h : os.map objectView = os'.map objectView) (ss ss' : List Specification)
    (hr : ss.map specificationView = ss'.map specificationView) :
    (ss.flatMap (hierarchyRefs os)).map unquoted = (ss'.flatMap (hierarchyRefs os')).map unquoted := by
  have e : dangling os = dangling os' := funext (dangling_same h)
  induction ss generalizing ss' with
  | nil => cases ss' with
    | nil => rfl
    | cons a as' => cases hr
  | cons a as ih =>
    cases ss' with
    | nil => cases hr
    | cons a' as' =>
      simp only [List.map_cons, List.cons.injEq] at hr
      simp only [List.flatMap_cons, List.map_append, ih as' hr.2, refs_eq, hr.1, e]

theorem found_view {b b' : Bundle} (h : view b = view b') (he : b.exceptions.map unquotedTag = b'.exceptions.map unquotedTag) :
    foundIn b = foundIn b' := by
  have ho := objects_view h
  unfold view at h
  injection h with _ h2
  unfold foundIn
  rw [he, List.map_append, List.map_append]
  have hr : (specRelationsOf b).map (fun r => (r.source, r.target)) = (specRelationsOf b').map (fun r => (r.source, r.target)) ∧
      (specificationsOf b).map specificationView = (specificationsOf b').map specificationView := by
    unfold specRelationsOf specificationsOf
    revert h2
    match b.coreContent, b'.coreContent with
    | none, none => intro _; exact ⟨rfl, rfl⟩
    | none, some none => intro _; exact ⟨rfl, rfl⟩
    | some none, none => intro _; exact ⟨rfl, rfl⟩
    | some none, some none => intro _; exact ⟨rfl, rfl⟩
    | none, some (some c) => intro h; cases h
    | some none, some (some c) => intro h; cases h
    | some (some c), none => intro h; cases h
    | some (some c), some none => intro h; cases h
    | some (some c), some (some c') =>
      intro h
      simp only [Option.map_some, Option.some.injEq] at h
      unfold contentView at h
      injection h with e1 e2 e3 e4 e5
      refine ⟨e4, ?_⟩
      show (c.specifications.getD []).map specificationView = (c'.specifications.getD []).map specificationView
      have g : ∀ o : Option (List Specification), (o.getD []).map specificationView = (o.map (List.map specificationView)).getD [] := by
        intro o
        cases o <;> rfl
      rw [g, g, e5]
  rw [ends_view ho _ _ hr.1, refs_view ho _ _ hr.2]

/-! ## Bundles with the same view -/

mutual
theorem preorder_by (f : Part → Node → Node) (h : Hierarchy) :
    (preorder (hierarchyBy f h)).map (fun h => h.info.specObject) = (preorder h).map (fun h => h.info.specObject) :=
  match h with
  | .leaf i => rfl
  | .node i cs => by
    simp only [hierarchyBy, preorder, List.map_cons, preorderList_by f cs]
    rfl

theorem preorderList_by (f : Part → Node → Node) (hs : List Hierarchy) :
    (preorderList (hierarchiesBy f hs)).map (fun h => h.info.specObject) = (preorderList hs).map (fun h => h.info.specObject) :=
  match hs with
  | [] => rfl
  | h :: hs => by
    simp only [hierarchiesBy, preorderList, List.map_append, preorder_by f h, preorderList_by f hs]
end

theorem typeBy_identifier (f : Part → Node → Node) (t : SpecType) : (typeBy f t).identifier = t.identifier := by
  cases t <;> rfl

theorem objectView_by (f : Part → Node → Node) (o : SpecObject) : objectView (objectBy f o) = objectView o := by
  unfold objectView objectBy
  simp only [List.map_map]
  rfl

theorem specificationView_by (f : Part → Node → Node) (s : Specification) :
    specificationView (specificationBy f s) = specificationView s := by
  unfold specificationView specificationBy
  dsimp only
  cases s.children with
  | none => rfl
  | some hs => simp only [Option.map_some, Option.getD_some, preorderList_by]

theorem contentView_by (f : Part → Node → Node) (c : Content) : contentView (contentBy f c) = contentView c := by
  unfold contentView contentBy
  dsimp only
  have e1 : (c.specTypes.map (List.map (typeBy f))).map (List.map fun t => t.identifier) = c.specTypes.map (List.map fun t => t.identifier) := by
    cases c.specTypes with
    | none => rfl
    | some l => simp [typeBy_identifier]
  have e2 : ((c.specObjects.map (List.map (objectBy f))).getD []).map objectView = (c.specObjects.getD []).map objectView := by
    cases c.specObjects with
    | none => rfl
    | some l => simp [objectView_by]
  have e3 : ((c.specRelations.map (List.map (relationBy f))).getD []).map (fun r => (r.source, r.target)) =
      (c.specRelations.getD []).map (fun r => (r.source, r.target)) := by
    cases c.specRelations with
    | none => rfl
    | some l => simp [relationBy]
  have e4 : (c.specifications.map (List.map (specificationBy f))).map (List.map specificationView) =
      c.specifications.map (List.map specificationView) := by
    cases c.specifications with
    | none => rfl
    | some l => simp [specificationView_by]
  rw [e1, e2, e3, e4]

theorem view_by (f : Part → Node → Node) (b : Bundle) : view (bundleBy f b) = view b ∧
    (bundleBy f b).exceptions.map unquotedTag = b.exceptions.map unquotedTag := by
  constructor
  · unfold view bundleBy
    dsimp only
    match b.coreContent with
    | none => rfl
    | some none => rfl
    | some (some c) => simp only [Option.map_some, contentView_by]
  · unfold bundleBy
    simp only [List.map_map]
    rfl

/-! What passthrough keeps. -/

mutual
theorem preorder_read (h : Hierarchy) :
    (preorder (readHierarchy h)).map (fun h => h.info.specObject) = (preorder h).map (fun h => h.info.specObject) :=
  match h with
  | .leaf i => rfl
  | .node i cs => by
    simp only [readHierarchy, preorder, List.map_cons, preorderList_read cs]
    rfl

theorem preorderList_read (hs : List Hierarchy) :
    (preorderList (readHierarchies hs)).map (fun h => h.info.specObject) = (preorderList hs).map (fun h => h.info.specObject) :=
  match hs with
  | [] => rfl
  | h :: hs => by
    simp only [readHierarchies, preorderList, List.map_append, preorder_read h, preorderList_read hs]
end

mutual
theorem preorder_bare (h : Hierarchy) :
    (preorder (bareHierarchy h)).map (fun h => h.info.specObject) = (preorder h).map (fun h => h.info.specObject) :=
  match h with
  | .leaf i => rfl
  | .node i cs => by
    simp only [bareHierarchy, preorder, List.map_cons, preorderList_bare cs]
    rfl

theorem preorderList_bare (hs : List Hierarchy) :
    (preorderList (bareHierarchies hs)).map (fun h => h.info.specObject) = (preorderList hs).map (fun h => h.info.specObject) :=
  match hs with
  | [] => rfl
  | h :: hs => by
    simp only [bareHierarchies, preorderList, List.map_append, preorder_bare h, preorderList_bare hs]
end

theorem readDataType_identifier (d : DataType) : (readDataType d).identifier = d.identifier := by
  rcases d with ⟨b, k⟩
  cases k <;> rfl

theorem readSpecType_identifier (t : SpecType) : (readSpecType t).identifier = t.identifier := by cases t <;> rfl

theorem bareSpecType_identifier (t : SpecType) : (bareSpecType t).identifier = t.identifier := by cases t <;> rfl

theorem objectView_bare (o : SpecObject) : objectView (bareObject o) = objectView o := by
  unfold objectView bareObject
  simp only [List.map_map]
  rfl

theorem objectView_read (o : SpecObject) : objectView (readObject o) = objectView o := objectView_bare o

theorem specificationView_bare (s : Specification) : specificationView (bareSpecification s) = specificationView s := by
  unfold specificationView bareSpecification
  dsimp only
  cases s.children with
  | none => rfl
  | some hs => simp only [Option.map_some, Option.getD_some, preorderList_bare]

theorem specificationView_read (s : Specification) : specificationView (readSpecification s) = specificationView s := by
  unfold specificationView readSpecification bareSpecification
  dsimp only
  cases s.children with
  | none => rfl
  | some hs => simp only [Option.map_some, Option.getD_some, preorderList_read]

theorem contentView_bare (c : Content) : contentView (bareContent c) = contentView c := by
  unfold contentView bareContent
  dsimp only
  have e1 : (c.specTypes.map (List.map bareSpecType)).map (List.map fun t => t.identifier) = c.specTypes.map (List.map fun t => t.identifier) := by
    cases c.specTypes with
    | none => rfl
    | some l => simp [bareSpecType_identifier]
  have e2 : ((c.specObjects.map (List.map bareObject)).getD []).map objectView = (c.specObjects.getD []).map objectView := by
    cases c.specObjects with
    | none => rfl
    | some l => simp [objectView_bare]
  have e3 : ((c.specRelations.map (List.map bareRelation)).getD []).map (fun r => (r.source, r.target)) =
      (c.specRelations.getD []).map (fun r => (r.source, r.target)) := by
    cases c.specRelations with
    | none => rfl
    | some l => simp [bareRelation]
  have e4 : (c.specifications.map (List.map bareSpecification)).map (List.map specificationView) =
      c.specifications.map (List.map specificationView) := by
    cases c.specifications with
    | none => rfl
    | some l => simp [specificationView_bare]
  rw [e1, e2, e3, e4]

theorem contentView_read (c : Content) : contentView (readContent c) = contentView c := by
  unfold contentView readContent
  dsimp only
  have e0 : (c.dataTypes.map (List.map readDataType)).map (List.map fun t => t.identifier) = c.dataTypes.map (List.map fun t => t.identifier) := by
    cases c.dataTypes with
    | none => rfl
    | some l => simp [readDataType_identifier]
  have e1 : (c.specTypes.map (List.map readSpecType)).map (List.map fun t => t.identifier) = c.specTypes.map (List.map fun t => t.identifier) := by
    cases c.specTypes with
    | none => rfl
    | some l => simp [readSpecType_identifier]
  have e2 : ((c.specObjects.map (List.map readObject)).getD []).map objectView = (c.specObjects.getD []).map objectView := by
    cases c.specObjects with
    | none => rfl
    | some l => simp [objectView_read]
  have e3 : ((c.specRelations.map (List.map bareRelation)).getD []).map (fun r => (r.source, r.target)) =
      (c.specRelations.getD []).map (fun r => (r.source, r.target)) := by
    cases c.specRelations with
    | none => rfl
    | some l => simp [bareRelation]
  have e4 : (c.specifications.map (List.map readSpecification)).map (List.map specificationView) =
      c.specifications.map (List.map specificationView) := by
    cases c.specifications with
    | none => rfl
    | some l => simp [specificationView_read]
  rw [e0, e1, e2, e3, e4]

theorem view_read {b b' : Bundle} (hh : b'.header = b.header)
    (hc : b'.coreContent.map (·.map bareContent) = b.coreContent.map (·.map readContent)) : view b' = view b := by
  have e1 : ∀ o : Option (Option Content), o.map (Option.map contentView) = (o.map (·.map bareContent)).map (Option.map contentView) := by
    intro o
    match o with
    | none => rfl
    | some none => rfl
    | some (some c) => simp [contentView_bare]
  have e2 : ∀ o : Option (Option Content), o.map (Option.map contentView) = (o.map (·.map readContent)).map (Option.map contentView) := by
    intro o
    match o with
    | none => rfl
    | some none => rfl
    | some (some c) => simp [contentView_read]
  unfold view
  rw [hh, e1 b'.coreContent, hc, ← e2]

end ReqIF
