import Verif.Proofs.DumpPage
/-!
# The parts of the dump page
-/
namespace ReqIF.Dump
open Spec

set_option maxRecDepth 20000

theorem Emits.of {s s' : Str} {l l' : List (Str × Str)} (h : Emits s l) (e : s' = s) (e' : l' = l) :
    Emits s' l' := e ▸ e' ▸ h

theorem emits_head : Emits pageHead [heading c!"&lt;REQ-IF&gt;"] := by
  refine Emits.of (((emits_quiet (s := c!"<!DOCTYPE html>\n<html lang=\"en\">\n\n<head>\n  <meta charset=\"UTF-8\"/>\n  \n  \n  \n  <title>...</title>\n\n  <style>\n    table {\n      margin: 10px;\n      border-collapse: collapse;\n    }\n    td {\n      border: 1px #bbb solid;\n    }\n    .level-2 {\n      margin-left: 20px;\n    }\n    .level-3 {\n      margin-left: 40px;\n    }\n    .level-4 {\n      margin-left: 60px;\n    }\n    .level-5 {\n      margin-left: 80px;\n    }\n  </style>\n</head>\n\n<body class=\"\">\n\n") (by decide +kernel)).append
    (emits_h1 (v := c!"&lt;REQ-IF&gt;") (by decide))).append
    (emits_quiet (s := c!"\n  <h2 class=\"level-2\">&lt;THE-HEADER&gt;</h2>\n  ") (by decide +kernel))) ?_ ?_
  · decide +kernel
  · rfl

theorem emits_header {h : Option Header}
    (hs : ∀ x, h = some x → CellSafe (fmtOpt x.title) ∧ CellSafe (fmtOpt x.creationTime)) :
    Emits (headerPart h) (headerCells h) := by
  cases h with
  | none => exact Emits.nil
  | some x =>
    obtain ⟨h1, h2⟩ := hs x rfl
    refine Emits.of
      ((emits_quiet (s := c!"\n    <h3 class=\"level-3\">&lt;REQ-IF-HEADER&gt;</h3>\n    <table class=\"level-4\">\n      <tr>\n        ") (by decide +kernel)).append
      ((emits_td (v := c!"TITLE:") (by decide +kernel)).append
      ((emits_quiet (s := c!"\n        ") (by decide)).append
      ((emits_td h1).append
      ((emits_quiet (s := c!"\n      </tr>\n      <tr>\n        ") (by decide +kernel)).append
      ((emits_td (v := c!"CREATION-TIME:") (by decide +kernel)).append
      ((emits_quiet (s := c!"\n        ") (by decide)).append
      ((emits_td h2).append
      (emits_quiet (s := c!"\n      </tr>\n    </table>\n  ") (by decide +kernel)))))))))) ?_ rfl
    simp only [headerPart, headerStart, headerMiddle, headerEnd, List.append_assoc]
    rfl

theorem emits_dataTypes : ∀ {ds : List DataType}, (∀ d ∈ ds, CellSafe d.identifier) →
    Emits (dataTypeRows ds) (ds.flatMap fun d => identifierCells d.identifier)
  | [], _ => Emits.nil
  | d :: ds, h => by
    refine Emits.of
      ((emits_quiet (s := c!"\n  <table class=\"level-5\">\n    <tr>\n      ") (by decide +kernel)).append
      ((emits_td (v := c!"TITLE:") (by decide +kernel)).append
      ((emits_quiet (s := c!"\n      ") (by decide)).append
      ((emits_td (h d List.mem_cons_self)).append
      ((emits_quiet (s := c!"\n    </tr>\n  </table>\n  ") (by decide +kernel)).append
      (emits_dataTypes (ds := ds) fun x hx => h x (List.mem_cons_of_mem _ hx))))))) ?_ rfl
    simp only [dataTypeRows, dataTypeStart, dataTypeEnd, List.append_assoc]
    rfl

theorem emits_specTypes : ∀ {ts : List SpecType}, (∀ t ∈ ts, CellSafe t.identifier) →
    Emits (specTypeRows ts) (ts.flatMap fun t => identifierCells t.identifier)
  | [], _ => Emits.nil
  | t :: ts, h => by
    refine Emits.of
      ((emits_quiet (s := c!"\n    <table class=\"level-5\">\n      <tr>\n        ") (by decide +kernel)).append
      ((emits_td (v := c!"TITLE:") (by decide +kernel)).append
      ((emits_quiet (s := c!"\n        ") (by decide)).append
      ((emits_td (h t List.mem_cons_self)).append
      ((emits_quiet (s := c!"\n      </tr>\n    </table>\n  ") (by decide +kernel)).append
      (emits_specTypes (ts := ts) fun x hx => h x (List.mem_cons_of_mem _ hx))))))) ?_ rfl
    simp only [specTypeRows, specTypeStart, specTypeEnd, List.append_assoc]
    rfl

theorem showValue_eq (repr : Str → Str) (v : AttrValue) : showValue repr v = shownValue repr v := by
  cases v with
  | str s => rfl
  | list l =>
    have e : showValue repr (.list l) = c!"[" ++ List.intercalate c!", " (l.map (listItem repr)) ++ c!"]" := by
      unfold showValue
      refine congrArg (fun f => c!"[" ++ List.intercalate c!", " (List.map f l) ++ c!"]") ?_
      funext o
      cases o <;> rfl
    have more : ∀ l : List (Option Str), ∀ x, List.intercalate c!", " ((x :: l).map (listItem repr)) = listItem repr x ++ moreItems repr l := by
      intro l
      induction l with
      | nil => intro x; simp [List.intercalate, moreItems]
      | cons y l ih =>
        intro x
        have := ih y
        rw [moreItems, List.append_assoc, ← this]
        simp [List.intercalate]
    rw [e]
    cases l with
    | nil => rfl
    | cons x l =>
      rw [more, shownValue]
      simp only [List.append_assoc]

theorem emits_values {repr : Str → Str} : ∀ {as : List SpecObjectAttribute},
    (∀ a ∈ as, CellSafe (fmtOpt a.definitionRef) ∧ CellSafe (shownValue repr a.value)) →
    Emits (valueRows repr as) (as.flatMap fun a =>
      [cell (fmtOpt a.definitionRef), cell (shownValue repr a.value)])
  | [], _ => Emits.nil
  | a :: as, h => by
    refine Emits.of
      ((emits_quiet (s := c!"\n      <tr>\n        ") (by decide +kernel)).append
      ((emits_td (h a List.mem_cons_self).1).append
      ((emits_quiet (s := c!"\n        ") (by decide)).append
      ((emits_td (h a List.mem_cons_self).2).append
      ((emits_quiet (s := c!"\n      </tr>\n    ") (by decide +kernel)).append
      (emits_values (as := as) fun x hx => h x (List.mem_cons_of_mem _ hx))))))) ?_ rfl
    simp only [valueRows, showValue_eq, valueStart, valueMiddle, valueEnd, List.append_assoc]
    rfl

theorem emits_object {repr : Str → Str} {o : SpecObject}
    (h1 : CellSafe (fmtOpt o.specObjectType)) (h2 : CellSafe o.identifier)
    (h3 : ∀ a ∈ o.attributes, CellSafe (fmtOpt a.definitionRef) ∧
      CellSafe (shownValue repr a.value)) :
    Emits (objectTable repr o) (objectCells repr o) := by
  have center : ∀ v, CellSafe v → Emits (c!"<td style=\"text-align: center;\" colspan=\"2\">" ++
      (c!"\n          " ++ v ++ c!"\n        ") ++ c!"</td>") [cell v] := fun v hv =>
    emits_cell (a := c!" style=\"text-align: center;\" colspan=\"2\"") (by decide +kernel)
      (by decide) (by decide) (by intro y ys e; cases e; decide) hv
  have plain : ∀ v, CellSafe v → Emits (c!"<td>" ++
      (c!"\n          " ++ v ++ c!"\n        ") ++ c!"</td>") [cell v] := fun v hv =>
    emits_cell (a := []) (by decide +kernel)
      (by decide) (by decide) (by intro y ys e; cases e; decide) hv
  refine Emits.of
      ((emits_quiet (s := c!"\n\n    <table>\n      <tr>\n        ") (by decide +kernel)).append
      ((center c!"&lt;SPEC-OBJECT&gt;" (by decide +kernel)).append
      ((emits_quiet (s := c!"\n      </tr>\n      <tr>\n        ") (by decide +kernel)).append
      ((plain c!"&lt;SPEC-OBJECT-TYPE&gt;" (by decide +kernel)).append
      ((emits_quiet (s := c!"\n        ") (by decide)).append
      ((plain _ h1).append
      ((emits_quiet (s := c!"\n      </tr>\n      <tr>\n        ") (by decide +kernel)).append
      ((plain c!"IDENTIFIER" (by decide +kernel)).append
      ((emits_quiet (s := c!"\n        ") (by decide)).append
      ((plain _ h2).append
      ((emits_quiet (s := c!"\n      </tr>\n      <tr>\n        ") (by decide +kernel)).append
      ((center c!"&lt;VALUES&gt;" (by decide +kernel)).append
      ((emits_quiet (s := c!"\n      </tr>\n    ") (by decide +kernel)).append
      ((emits_values h3).append
      (emits_quiet (s := c!"\n    </table>\n  ") (by decide +kernel)))))))))))))))) ?_ ?_
  · simp only [objectTable, objectStart, objectMiddle, objectEnd, tableEnd, List.append_assoc]
    rfl
  · simp [objectCells]

theorem emits_nodes {repr : Str → Str} {l : Lookup} : ∀ {hs : List Hierarchy} {t : Str},
    nodeTables repr l hs = .ok t →
    (∀ o ∈ hs.filterMap fun h => h.info.specObject.bind l.specObjects.get?,
      CellSafe (fmtOpt o.specObjectType) ∧ CellSafe o.identifier ∧
      ∀ a ∈ o.attributes, CellSafe (fmtOpt a.definitionRef) ∧
        CellSafe (shownValue repr a.value)) →
    Emits t ((hs.filterMap fun h => h.info.specObject.bind l.specObjects.get?).flatMap
      (objectCells repr))
  | [], t, h, _ => by
    cases h
    exact Emits.nil
  | n :: hs, t, h, hsafe => by
    unfold nodeTables at h
    cases hr : n.info.specObject with
    | none =>
      rw [hr] at h
      cases h
    | some r =>
      rw [hr] at h
      cases ho : l.specObjects.get? r with
      | none =>
        have e : objectOf l (some r) = .error .keyError := by
          simp [objectOf, Lookup.specObjectByRef, Dict.getItem, ho, orKey]
        rw [e] at h
        cases h
      | some o =>
        have e : objectOf l (some r) = .ok o := by
          simp [objectOf, Lookup.specObjectByRef, Dict.getItem, ho, orKey]
        rw [e] at h
        dsimp only at h
        cases hn : nodeTables repr l hs with
        | error x => rw [hn] at h; cases h
        | ok rest =>
          rw [hn] at h
          cases h
          have ef : (n :: hs).filterMap (fun h => h.info.specObject.bind l.specObjects.get?) =
              o :: hs.filterMap (fun h => h.info.specObject.bind l.specObjects.get?) := by
            rw [List.filterMap_cons, hr]
            simp [ho]
          rw [ef] at hsafe ⊢
          obtain ⟨h1, h2, h3⟩ := hsafe o List.mem_cons_self
          refine Emits.of ((emits_quiet (s := c!"\n\n    ") (by decide)).append
            ((emits_object h1 h2 h3).append
            (emits_nodes hn fun x hx => hsafe x (List.mem_cons_of_mem _ hx)))) ?_ ?_
          · simp only [List.append_assoc]
          · rfl

theorem emits_specifications {repr : Str → Str} {b : Bundle} {all : List Specification}
    (hall : b.specifications? = some all) :
    ∀ {i : Nat} {ss : List Specification} {t : Str},
    (∀ k, ss[k]? = all[i + k]?) →
    specificationParts repr b i ss = .ok t →
    (∀ s ∈ ss, containsStr c!"</h1>" (fmtOpt s.longName) = false) →
    (∀ s ∈ ss, ∀ o ∈ referredObjects b.lookup (s.children.getD []),
      CellSafe (fmtOpt o.specObjectType) ∧ CellSafe o.identifier ∧
      ∀ a ∈ o.attributes, CellSafe (fmtOpt a.definitionRef) ∧
        CellSafe (shownValue repr a.value)) →
    Emits t (ss.flatMap (specificationCells repr b.lookup))
  | _, [], t, _, h, _, _ => by
    cases h
    exact Emits.nil
  | i, s :: ss, t, hi, h, h1, h2 => by
    unfold specificationParts at h
    have hs : all[i]? = some s := by
      have := hi 0
      simpa using this.symm
    have hit : b.iterate i = .ok (preorderList (s.children.getD [])) := by
      unfold Bundle.iterate
      rw [hall]
      dsimp only
      rw [hs]
      dsimp only
      cases s.children with
      | none => simp [preorderList]
      | some hs => simp [iterLoop_eq]
    rw [hit] at h
    dsimp only at h
    cases hn : nodeTables repr b.lookup (preorderList (s.children.getD [])) with
    | error x => rw [hn] at h; cases h
    | ok tables =>
      rw [hn] at h
      dsimp only at h
      cases hr : specificationParts repr b (i + 1) ss with
      | error x => rw [hr] at h; cases h
      | ok rest =>
        rw [hr] at h
        cases h
        refine Emits.of
          ((emits_quiet (s := c!"\n  ") (by decide)).append
          ((emits_h1 (h1 s List.mem_cons_self)).append
          ((emits_quiet (s := c!"\n\n  ") (by decide)).append
          ((emits_nodes hn (h2 s List.mem_cons_self)).append
          ((emits_quiet (s := c!"\n") (by decide)).append
          (emits_specifications hall (i := i + 1) (ss := ss) (t := rest) (by
              intro k
              have := hi (k + 1)
              rw [List.getElem?_cons_succ] at this
              rw [this]
              congr 1
              omega) hr
            (fun x hx => h1 x (List.mem_cons_of_mem _ hx))
            (fun x hx => h2 x (List.mem_cons_of_mem _ hx)))))))) ?_ ?_
        · simp only [titleStart, titleEnd, List.append_assoc]
          rfl
        · rfl

end ReqIF.Dump
