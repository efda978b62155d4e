import Verif.Proofs.PageTree
/-!
# The dump page as content
-/
namespace ReqIF.Page
open Grammar Spec Dump

/-- All strings can stand in the page. -/
def AllWell (l : List (Str × Str)) : Prop := ∀ x ∈ l, WellFormedContent x.2

theorem allWell_append {a b : List (Str × Str)} (h : AllWell (a ++ b)) : AllWell a ∧ AllWell b :=
  ⟨fun x hx => h x (List.mem_append_left _ hx), fun x hx => h x (List.mem_append_right _ hx)⟩

theorem adds_td {s : Str} (h : WellFormedContent s) : Adds (c!"<td>" ++ s ++ c!"</td>") [td s] := by
  refine Adds.of (Adds.cell (n := c!"td") (as := []) (a := []) (b := []) (by decide +kernel) (by decide) rfl rfl h) ?_ rfl
  simp [tagText, attrsText]

theorem adds_paddedTd {s : Str} (h : WellFormedContent s) : Adds (c!"<td>" ++ (c!"\n          " ++ s ++ c!"\n        ") ++ c!"</td>") [td s] := by
  refine Adds.of (Adds.cell (n := c!"td") (as := []) (a := c!"\n          ") (b := c!"\n        ") (by decide +kernel) (by decide) (by decide +kernel) (by decide +kernel) h) ?_ rfl
  simp [tagText, attrsText]

theorem adds_centerTd {s : Str} (h : WellFormedContent s) :
    Adds (c!"<td style=\"text-align: center;\" colspan=\"2\">" ++ (c!"\n          " ++ s ++ c!"\n        ") ++ c!"</td>") [td s] := by
  refine Adds.of (Adds.cell (n := c!"td") (as := [(c!"style", c!"text-align: center;"), (c!"colspan", c!"2")]) (a := c!"\n          ") (b := c!"\n        ") (by decide +kernel) (by decide)
    (by decide +kernel) (by decide +kernel) h) ?_ rfl
  simp [tagText, attrsText]

theorem adds_h1 {s : Str} (h : WellFormedContent s) : Adds (c!"<h1>" ++ s ++ c!"</h1>") [(c!"h1", s)] := by
  refine Adds.of (Adds.cell (n := c!"h1") (as := []) (a := []) (b := []) (by decide +kernel) (by decide) rfl rfl h) ?_ rfl
  simp [tagText, attrsText]

theorem adds_tr {t : Str} {l : List (Str × Str)} (h : Adds t l) : Adds (c!"<tr>" ++ t ++ c!"</tr>") l := by
  refine Adds.of (Adds.elem (n := c!"tr") (as := []) (by decide +kernel) (by decide) h) ?_ rfl
  simp [tagText, attrsText]

theorem adds_table {t : Str} {l : List (Str × Str)} (h : Adds t l) : Adds (c!"<table>" ++ t ++ c!"</table>") l := by
  refine Adds.of (Adds.elem (n := c!"table") (as := []) (by decide +kernel) (by decide) h) ?_ rfl
  simp [tagText, attrsText]

theorem adds_table4 {t : Str} {l : List (Str × Str)} (h : Adds t l) : Adds (c!"<table class=\"level-4\">" ++ t ++ c!"</table>") l := by
  refine Adds.of (Adds.elem (n := c!"table") (as := [(c!"class", c!"level-4")]) (by decide +kernel) (by decide) h) ?_ rfl
  simp [tagText, attrsText]

theorem adds_table5 {t : Str} {l : List (Str × Str)} (h : Adds t l) : Adds (c!"<table class=\"level-5\">" ++ t ++ c!"</table>") l := by
  refine Adds.of (Adds.elem (n := c!"table") (as := [(c!"class", c!"level-5")]) (by decide +kernel) (by decide) h) ?_ rfl
  simp [tagText, attrsText]

theorem adds_h2 {t : Str} (h : fixedText t = true) : Adds (c!"<h2 class=\"level-2\">" ++ t ++ c!"</h2>") [] := by
  refine Adds.of (Adds.fixed (n := c!"h2") (as := [(c!"class", c!"level-2")]) (by decide +kernel) (by decide) h) ?_ rfl
  simp [tagText, attrsText]

theorem adds_h3 {t : Str} (h : fixedText t = true) : Adds (c!"<h3 class=\"level-3\">" ++ t ++ c!"</h3>") [] := by
  refine Adds.of (Adds.fixed (n := c!"h3") (as := [(c!"class", c!"level-3")]) (by decide +kernel) (by decide) h) ?_ rfl
  simp [tagText, attrsText]

theorem adds_h4 {t : Str} (h : fixedText t = true) : Adds (c!"<h4 class=\"level-4\">" ++ t ++ c!"</h4>") [] := by
  refine Adds.of (Adds.fixed (n := c!"h4") (as := [(c!"class", c!"level-4")]) (by decide +kernel) (by decide) h) ?_ rfl
  simp [tagText, attrsText]

set_option maxRecDepth 20000 in
theorem adds_header {o : Option Header} (h : AllWell (headerStrings o)) : Adds (headerPart o) (headerStrings o) := by
  cases o with
  | none => exact Adds.nil
  | some x =>
    have h1 : WellFormedContent c!"TITLE:" := fixed_well (by decide +kernel)
    have h2 : WellFormedContent (fmtOpt x.title) := h (td (fmtOpt x.title)) (by simp [headerStrings])
    have h3 : WellFormedContent c!"CREATION-TIME:" := fixed_well (by decide +kernel)
    have h4 : WellFormedContent (fmtOpt x.creationTime) := h (td (fmtOpt x.creationTime)) (by simp [headerStrings])
    refine Adds.of
      ((Adds.space (w := c!"\n    ") (by decide +kernel)).append
      ((adds_h3 (t := c!"&lt;REQ-IF-HEADER&gt;") (by decide +kernel)).append
      ((Adds.space (w := c!"\n    ") (by decide +kernel)).append
      ((adds_table4
        ((Adds.space (w := c!"\n      ") (by decide +kernel)).append
        ((adds_tr ((Adds.space (w := c!"\n        ") (by decide +kernel)).append ((adds_td h1).append
          ((Adds.space (w := c!"\n        ") (by decide +kernel)).append ((adds_td h2).append (Adds.space (w := c!"\n      ") (by decide +kernel))))))).append
        ((Adds.space (w := c!"\n      ") (by decide +kernel)).append
        ((adds_tr ((Adds.space (w := c!"\n        ") (by decide +kernel)).append ((adds_td h3).append
          ((Adds.space (w := c!"\n        ") (by decide +kernel)).append ((adds_td h4).append (Adds.space (w := c!"\n      ") (by decide +kernel))))))).append
        (Adds.space (w := c!"\n    ") (by decide +kernel))))))).append
      (Adds.space (w := c!"\n  ") (by decide +kernel)))))) ?_ ?_
    · simp only [headerPart, headerStart, headerMiddle, headerEnd, List.append_assoc]
      rfl
    · rfl

set_option maxRecDepth 20000 in
theorem adds_dataTypes : ∀ {ds : List DataType}, AllWell (ds.flatMap fun d => [td c!"TITLE:", td d.identifier]) →
    Adds (dataTypeRows ds) (ds.flatMap fun d => [td c!"TITLE:", td d.identifier])
  | [], _ => Adds.nil
  | d :: ds, h => by
    have h1 : WellFormedContent c!"TITLE:" := fixed_well (by decide +kernel)
    have h2 : WellFormedContent d.identifier := h (td d.identifier) (by simp)
    rw [List.flatMap_cons] at h
    refine Adds.of
      ((Adds.space (w := c!"\n  ") (by decide +kernel)).append
      ((adds_table5
        ((Adds.space (w := c!"\n    ") (by decide +kernel)).append
        ((adds_tr ((Adds.space (w := c!"\n      ") (by decide +kernel)).append ((adds_td h1).append
          ((Adds.space (w := c!"\n      ") (by decide +kernel)).append ((adds_td h2).append (Adds.space (w := c!"\n    ") (by decide +kernel))))))).append
        (Adds.space (w := c!"\n  ") (by decide +kernel))))).append
      ((Adds.space (w := c!"\n  ") (by decide +kernel)).append
      (adds_dataTypes (allWell_append h).2)))) ?_ ?_
    · simp only [dataTypeRows, dataTypeStart, dataTypeEnd, List.append_assoc]
      rfl
    · rfl

set_option maxRecDepth 20000 in
theorem adds_specTypes : ∀ {ds : List SpecType}, AllWell (ds.flatMap fun d => [td c!"TITLE:", td d.identifier]) →
    Adds (specTypeRows ds) (ds.flatMap fun d => [td c!"TITLE:", td d.identifier])
  | [], _ => Adds.nil
  | d :: ds, h => by
    have h1 : WellFormedContent c!"TITLE:" := fixed_well (by decide +kernel)
    have h2 : WellFormedContent d.identifier := h (td d.identifier) (by simp)
    rw [List.flatMap_cons] at h
    refine Adds.of
      ((Adds.space (w := c!"\n    ") (by decide +kernel)).append
      ((adds_table5
        ((Adds.space (w := c!"\n      ") (by decide +kernel)).append
        ((adds_tr ((Adds.space (w := c!"\n        ") (by decide +kernel)).append ((adds_td h1).append
          ((Adds.space (w := c!"\n        ") (by decide +kernel)).append ((adds_td h2).append (Adds.space (w := c!"\n      ") (by decide +kernel))))))).append
        (Adds.space (w := c!"\n    ") (by decide +kernel))))).append
      ((Adds.space (w := c!"\n  ") (by decide +kernel)).append
      (adds_specTypes (allWell_append h).2)))) ?_ ?_
    · simp only [specTypeRows, specTypeStart, specTypeEnd, List.append_assoc]
      rfl
    · rfl

theorem adds_values {repr : Str → Str} : ∀ {as : List SpecObjectAttribute},
    AllWell (as.flatMap fun a => [td (fmtOpt a.definitionRef), td (shownValue repr a.value)]) →
    Adds (valueRows repr as) (as.flatMap fun a => [td (fmtOpt a.definitionRef), td (shownValue repr a.value)])
  | [], _ => Adds.nil
  | a :: as, h => by
    have h1 : WellFormedContent (fmtOpt a.definitionRef) := h (td (fmtOpt a.definitionRef)) (by simp)
    have h2 : WellFormedContent (shownValue repr a.value) := h (td (shownValue repr a.value)) (by simp)
    rw [List.flatMap_cons] at h
    refine Adds.of
      ((Adds.space (w := c!"\n      ") (by decide +kernel)).append
      ((adds_tr ((Adds.space (w := c!"\n        ") (by decide +kernel)).append ((adds_td h1).append
        ((Adds.space (w := c!"\n        ") (by decide +kernel)).append ((adds_td h2).append (Adds.space (w := c!"\n      ") (by decide +kernel))))))).append
      ((Adds.space (w := c!"\n    ") (by decide +kernel)).append
      (adds_values (allWell_append h).2)))) ?_ ?_
    · simp only [valueRows, showValue_eq, valueStart, valueMiddle, valueEnd, List.append_assoc]
      rfl
    · rfl

set_option maxRecDepth 20000 in
theorem adds_object {repr : Str → Str} {o : SpecObject} (h : AllWell (objectStrings repr o)) :
    Adds (objectTable repr o) (objectStrings repr o) := by
  have w1 : WellFormedContent c!"&lt;SPEC-OBJECT&gt;" := fixed_well (by decide +kernel)
  have w2 : WellFormedContent c!"&lt;SPEC-OBJECT-TYPE&gt;" := fixed_well (by decide +kernel)
  have w3 : WellFormedContent c!"IDENTIFIER" := fixed_well (by decide +kernel)
  have w4 : WellFormedContent c!"&lt;VALUES&gt;" := fixed_well (by decide +kernel)
  have h1 : WellFormedContent (fmtOpt o.specObjectType) := h (td (fmtOpt o.specObjectType)) (by simp [objectStrings])
  have h2 : WellFormedContent o.identifier := h (td o.identifier) (by simp [objectStrings])
  have h3 := (allWell_append h).2
  have s3 : Adds c!"\n      " [] := Adds.space (by decide +kernel)
  have s4 : Adds c!"\n        " [] := Adds.space (by decide +kernel)
  refine Adds.of
      ((Adds.space (w := c!"\n\n    ") (by decide +kernel)).append
      ((adds_table
        (s3.append ((adds_tr (s4.append ((adds_centerTd w1).append s3))).append
        (s3.append ((adds_tr (s4.append ((adds_paddedTd w2).append (s4.append ((adds_paddedTd h1).append s3))))).append
        (s3.append ((adds_tr (s4.append ((adds_paddedTd w3).append (s4.append ((adds_paddedTd h2).append s3))))).append
        (s3.append ((adds_tr (s4.append ((adds_centerTd w4).append s3))).append
        ((Adds.space (w := c!"\n    ") (by decide +kernel)).append ((adds_values h3).append
        (Adds.space (w := c!"\n    ") (by decide +kernel))))))))))))).append
      (Adds.space (w := c!"\n  ") (by decide +kernel)))) ?_ ?_
  · simp only [objectTable, objectStart, objectMiddle, objectEnd, tableEnd, List.append_assoc]
    rfl
  · simp [objectStrings]

theorem adds_nodes {repr : Str → Str} {l : Lookup} : ∀ {hs : List Hierarchy} {t : Str}, nodeTables repr l hs = .ok t →
    AllWell ((hs.filterMap fun h => h.info.specObject.bind l.specObjects.get?).flatMap (objectStrings repr)) →
    Adds t ((hs.filterMap fun h => h.info.specObject.bind l.specObjects.get?).flatMap (objectStrings repr))
  | [], t, h, _ => by
    cases h
    exact Adds.nil
  | n :: hs, t, h, hsafe => by
    unfold nodeTables at h
    cases hr : n.info.specObject with
    | none =>
      rw [hr] at h
      cases h
    | some r =>
      rw [hr] at h
      cases ho : l.specObjects.get? r with
      | none =>
        have e : objectOf l (some r) = .error .keyError := by
          simp [objectOf, Lookup.specObjectByRef, Dict.getItem, ho, orKey]
        rw [e] at h
        cases h
      | some o =>
        have e : objectOf l (some r) = .ok o := by
          simp [objectOf, Lookup.specObjectByRef, Dict.getItem, ho, orKey]
        rw [e] at h
        dsimp only at h
        cases hn : nodeTables repr l hs with
        | error x => rw [hn] at h; cases h
        | ok rest =>
          rw [hn] at h
          cases h
          have ef : (n :: hs).filterMap (fun h => h.info.specObject.bind l.specObjects.get?) =
              o :: hs.filterMap (fun h => h.info.specObject.bind l.specObjects.get?) := by
            rw [List.filterMap_cons, hr]
            simp [ho]
          rw [ef, List.flatMap_cons] at hsafe ⊢
          obtain ⟨h1, h2⟩ := allWell_append hsafe
          refine Adds.of ((Adds.space (w := c!"\n\n    ") (by decide +kernel)).append
            ((adds_object h1).append (adds_nodes hn h2))) ?_ ?_
          · simp only [List.append_assoc]
          · rfl

theorem adds_specifications {repr : Str → Str} {b : Bundle} {all : List Specification}
    (hall : b.specifications? = some all) :
    ∀ {i : Nat} {ss : List Specification} {t : Str}, (∀ k, ss[k]? = all[i + k]?) → specificationParts repr b i ss = .ok t →
    AllWell (ss.flatMap (specificationStrings repr b.lookup)) → Adds t (ss.flatMap (specificationStrings repr b.lookup))
  | _, [], t, _, h, _ => by
    cases h
    exact Adds.nil
  | i, s :: ss, t, hi, h, hw => by
    unfold specificationParts at h
    have hs : all[i]? = some s := by
      have := hi 0
      simpa using this.symm
    have hit : b.iterate i = .ok (preorderList (s.children.getD [])) := by
      unfold Bundle.iterate
      rw [hall]
      dsimp only
      rw [hs]
      dsimp only
      cases s.children with
      | none => simp [preorderList]
      | some hs => simp [iterLoop_eq]
    rw [hit] at h
    dsimp only at h
    rw [List.flatMap_cons] at hw ⊢
    obtain ⟨w1, w2⟩ := allWell_append hw
    cases hn : nodeTables repr b.lookup (preorderList (s.children.getD [])) with
    | error x => rw [hn] at h; cases h
    | ok tables =>
      rw [hn] at h
      dsimp only at h
      cases hr : specificationParts repr b (i + 1) ss with
      | error x => rw [hr] at h; cases h
      | ok rest =>
        rw [hr] at h
        cases h
        have a1 : WellFormedContent (fmtOpt s.longName) := w1 (c!"h1", fmtOpt s.longName) (by simp [specificationStrings])
        have a2 := adds_nodes hn (fun x hx => w1 x (List.mem_cons_of_mem _ hx))
        refine Adds.of
          ((Adds.space (w := c!"\n  ") (by decide +kernel)).append
          ((adds_h1 a1).append
          ((Adds.space (w := c!"\n\n  ") (by decide +kernel)).append
          (a2.append
          ((Adds.space (w := c!"\n") (by decide +kernel)).append
          (adds_specifications hall (i := i + 1) (ss := ss) (t := rest) (by
              intro k
              have := hi (k + 1)
              rw [List.getElem?_cons_succ] at this
              rw [this]
              congr 1
              omega) hr w2)))))) ?_ ?_
        · simp only [titleStart, titleEnd, List.append_assoc]
          rfl
        · simp [specificationStrings, referredObjects]

end ReqIF.Page
