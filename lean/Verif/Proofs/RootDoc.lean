import Verif.Proofs.Shows
/-!
# Reading a whole printed document
-/
namespace ReqIF
open Spec

/-- A start tag `<REQ-IF ...>`: printed attributes, their values, and the element. -/
structure RootTag (ras rvs : List (Str × Str)) (ri : Info) : Prop where
  lex : ras.all attrLexOk = true
  cr : '\r' ∉ attrsText ras
  dec : decodeAttrs ras = some rvs
  res : resolveInfo [] c!"REQ-IF" rvs = some ri
  ok : ∀ u, NsMap.get? ri.nsmap none = some u → containsStr xhtmlNs u = false

/-- What `resolveInfo` says about the root element. -/
theorem resolveInfo_root {rvs : List (Str × Str)} {ri : Info} (h : resolveInfo [] c!"REQ-IF" rvs = some ri) :
    ri.name = c!"REQ-IF" ∧ ri.pfx = none ∧ ri.nsmap = ri.nsdefs ∧
      (∀ u, ri.ns = some u → NsMap.get? ri.nsmap none = some u) := by
  unfold resolveInfo at h
  dsimp only at h
  split at h
  · have hp : ∀ m : NsMap, NsMap.push m [] = m := by intro m; simp [NsMap.push]
    rw [hp] at h
    generalize hm : storedDecls (declsOf rvs) = m at h
    have hn : ∃ ns, resolveElemName m c!"REQ-IF" = some (ns, none, c!"REQ-IF") ∧
        ∀ u, ns = some u → NsMap.get? m none = some u := by
      have e : resolveElemName m c!"REQ-IF" =
        match NsMap.get? m none with
        | none => some (none, none, c!"REQ-IF")
        | some u => if u.isEmpty then some (none, none, c!"REQ-IF") else some (some u, none, c!"REQ-IF") := rfl
      rw [e]
      cases hg : NsMap.get? m none with
      | none => exact ⟨none, rfl, by simp⟩
      | some u =>
        dsimp only
        split
        · exact ⟨none, rfl, by simp⟩
        · exact ⟨some u, rfl, fun v hv => hv⟩
    obtain ⟨ns, hn, hu⟩ := hn
    rw [hn] at h
    cases ha : resolveAttrs m (plainOf rvs) with
    | none => rw [ha] at h; cases h
    | some as =>
      rw [ha] at h
      dsimp only at h
      split at h
      · cases h; exact ⟨rfl, rfl, rfl, hu⟩
      · cases h
  · cases h

/-- The root element after stripping and cleanup. -/
def keptInfo (ri : Info) (p : Str) (u : Bool) : Info :=
  { ri with ns := none, pfx := none, nsdefs := keptDecls ri p u, nsmap := keptDecls ri p u }

theorem readDoc_tag {ras rvs : List (Str × Str)} {ri : Info} (hr : RootTag ras rvs ri) {p : Str} {u : Bool} {body : Str}
    {cs : List Node} (hb : Shows (rootCtx ri p u) u body cs) :
    ∃ ks0 ks, readDoc (declText ++ (c!"<REQ-IF" ++ attrsText ras ++ c!">") ++ c!"\n" ++ body ++ c!"</REQ-IF>\n") =
        some ⟨some ⟨some c!"UTF-8"⟩, [.elem ri ks0], .elem ri ks0⟩ ∧
      strippedRoot (.elem ri ks0) = .ok (.elem (keptInfo ri p u) ks) ∧ ks.filter (fun k => !k.isText) = cs ∧ SortedNodes ks0 ∧
      RootLaid p ri ks0 (Xsd.childNames cs) := by
  obtain ⟨srcs, es, rfl, hl, rfl, rfl⟩ := hb
  obtain ⟨hname, hpfx, hmap, hns⟩ := resolveInfo_root hr.res
  have hnl : IsLayout c!"\n" := by intro c hc; simp at hc; exact Or.inr hc
  have hl3 := Lay.text hnl hl
  obtain ⟨xs, hx, hf, hg, hp, hpl⟩ := hl3.evalKids
  generalize hu : es.any Xml.prefixed = u at *
  have hΓ : (rootCtx ri p u).Ok := fun v hv => hr.ok v hv
  have hgl := goodList_iff.2 hg
  have hlex : (Src.elem c!"REQ-IF" ras (.text c!"\n" :: srcs)).lexOk = true := by
    have hq : isQName c!"REQ-IF" = true := by decide
    simp only [Src.lexOk, hq, hr.lex, hl3.lex, Bool.and_true]
  have hcr : '\r' ∉ (Src.elem c!"REQ-IF" ras (.text c!"\n" :: srcs)).render := by
    have h1 := hr.cr
    have h2 := hl3.cr
    simp only [Src.render, List.mem_append, List.mem_cons, not_or]
    simp [h1, h2]
  have hread := readDoc_decl _ rfl hlex hcr
  have hev : (Src.elem c!"REQ-IF" ras (.text c!"\n" :: srcs)).eval = some (.elem c!"REQ-IF" rvs xs) := by
    simp only [Src.eval, hr.dec, hx]
  have hres : resolve [] (.elem c!"REQ-IF" rvs xs) = some (.elem ri (resolvedList (rootCtx ri p u) xs)) := by
    have := resolveList_good (Γ := rootCtx ri p u) xs hgl
    unfold resolve
    rw [hr.res]
    dsimp only
    have e : ri.nsmap = (rootCtx ri p u).scope := rfl
    rw [e, this]
  rw [hev] at hread
  dsimp only at hread
  rw [hres] at hread
  refine ⟨resolvedList (rootCtx ri p u) xs, finalList (rootCtx ri p u) xs, ?_, ?_, ?_, resolvedList_sorted xs hgl,
    ⟨resolvedList_laid (Γ := rootCtx ri p u) xs hgl, ?_, ?_⟩⟩
  · have e : declText ++ (c!"<REQ-IF" ++ attrsText ras ++ c!">") ++ c!"\n" ++ renderList srcs ++ c!"</REQ-IF>\n" =
        declText ++ (Src.elem c!"REQ-IF" ras (.text c!"\n" :: srcs)).render ++ c!"\n" := by
      simp only [Src.render, renderList]
      simp only [List.append_assoc]
      rfl
    rw [e, hread]
    rfl
  · unfold strippedRoot
    show (match NsMap.get? ri.nsmap none with
      | some _ => stripNamespace false (Node.elem ri (resolvedList (rootCtx ri p u) xs))
      | none => .ok (Node.elem ri (resolvedList (rootCtx ri p u) xs))) = _
    cases hd : NsMap.get? ri.nsmap none with
    | none =>
      dsimp only
      have hk : keptDecls ri p u = ri.nsmap := by unfold keptDecls; rw [hd]
      rw [resolvedList_final (Γ := rootCtx ri p u) hd hk]
      have : keptInfo ri p u = ri := by
        have hn : ri.ns = none := by
          cases h : ri.ns with
          | none => rfl
          | some v => rw [hns v h] at hd; cases hd
        unfold keptInfo
        rw [hk]
        cases ri
        simp_all
      rw [this]
    | some v =>
      dsimp only
      unfold stripNamespace stripTags
      rw [stripTagsList_good hΓ xs hgl]
      have ht : containsStr xhtmlNs ri.tag = false := by
        unfold Info.tag
        rw [hname]
        cases h : ri.ns with
        | none => decide
        | some w =>
          rw [containsStr_clark (by decide) (by decide) (by decide), hr.ok w (hns w h)]
          decide
      dsimp only
      rw [ht]
      simp only [Bool.and_false, Bool.false_eq_true, if_false]
      unfold cleanup
      dsimp only
      have hown : ri.nsdefs.filter (fun d => Node.usesPfx d.1 false
          (.elem { ri with ns := none, pfx := none } (strippedNList (rootCtx ri p u) xs))) = keptDecls ri p u := by
        unfold keptDecls
        rw [hd]
        dsimp only
        apply List.filter_congr
        intro d _
        unfold Node.usesPfx
        rw [stripped_usesList _ _ hgl, prefixedList_eq, hp]
        simp [Info.usesPfx, rootCtx]
      rw [hown]
      have hpush : NsMap.push (keptDecls ri p u) [] = keptDecls ri p u := by simp [NsMap.push]
      rw [hpush]
      have := cleanupList_stripped (rootCtx ri p u) xs
      have e : (rootCtx ri p u).keep = keptDecls ri p u := rfl
      rw [e] at this
      rw [this]
      rfl
  · rw [finalList_filter, hf]
  · rw [resolvedList_all (resolved_inReqif _)]; exact hpl
  · rw [childNames_resolved, childNames_final, ← xmlNames_filter, hf]

end ReqIF
