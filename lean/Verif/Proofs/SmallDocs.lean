import Verif.Proofs.Escape
/-! Reading one-element documents. -/
namespace ReqIF
open Spec

theorem ncname_noColon {n : Str} (h : isNCName n = true) : ':' ∉ n := by
  intro hm
  cases n with
  | nil => simp at hm
  | cons c s =>
    simp only [isNCName, Bool.and_eq_true, List.all_eq_true] at h
    rcases List.mem_cons.1 hm with hc | hs
    · subst hc; exact absurd h.1 (by decide)
    · exact absurd (h.2 _ hs) (by decide)

theorem splitQName_of_noColon {n : Str} (h : ':' ∉ n) : splitQName n = (none, n) := by
  rcases splitQName_eq n with h1 | ⟨p, l, _, h2⟩
  · exact h1
  · subst h2; simp at h

theorem splitQName_ncname {n : Str} (h : isNCName n = true) : splitQName n = (none, n) :=
  splitQName_of_noColon (ncname_noColon h)

theorem isQName_of_ncname {n : Str} (h : isNCName n = true) : isQName n = true := by
  unfold isQName; rw [splitQName_ncname h]; exact h

theorem normEol_idem (s : Str) : normEol (normEol s) = normEol s :=
  normEol_of_noCr (fun h => noCr_of_normEol_eq _ h rfl)

/-- Line-end normalisation comes first, so normalising beforehand changes nothing. -/
theorem readDoc_normEol (s : Str) : readDoc ('<' :: s) = readDoc (normEol ('<' :: s)) := by
  have h : readRaw ('<' :: s) = readRaw (normEol ('<' :: s)) := by
    unfold readRaw
    rw [normEol_cons_of_ne (by decide), dropBom, dropBom, if_neg (by decide), if_neg (by decide),
      ← normEol_cons_of_ne (c := '<') (by decide), normEol_idem]
  unfold readDoc
  rw [h]

theorem qname_noCr {n : Str} (h : isQName n = true) : '\r' ∉ n := by
  intro hm
  exact absurd ((isQName_qchars h).2 _ hm) (by decide)

/-- Reading `<tag attr="raw"/>`. -/
theorem readDoc_attrDoc (tag attr raw : Str) (ht : isNCName tag = true) (ha : isNCName attr = true)
    (hx : attr ≠ c!"xmlns") (hq : '"' ∉ raw) (hr : '\r' ∉ raw) :
    readDoc (attrDoc tag attr raw) =
      (decodeAttr raw).map (fun v =>
        let r := Node.elem ⟨none, none, tag, [], [], [⟨none, none, attr, v⟩]⟩ []
        ⟨none, [r], r⟩) := by
  have e : attrDoc tag attr raw = (Src.empty tag [(attr, raw)]).render := by
    simp [attrDoc, Src.render, attrsText, List.append_assoc]
  have hlex : (Src.empty tag [(attr, raw)]).lexOk = true := by
    simp [Src.lexOk, attrLexOk, isQName_of_ncname ht, isQName_of_ncname ha, hq]
  have hcr : '\r' ∉ (Src.empty tag [(attr, raw)]).render := by
    rw [← e]
    simp [attrDoc, qname_noCr (isQName_of_ncname ht), qname_noCr (isQName_of_ncname ha), hr]
  unfold readDoc
  rw [e, readRaw_src _ rfl hlex hcr]
  simp only [Src.eval, decodeAttrs]
  cases decodeAttr raw with
  | none => rfl
  | some v =>
    have hd : declaredPrefix attr = none := by
      unfold declaredPrefix
      rw [if_neg hx, splitQName_ncname ha]
    simp [resolveList, resolve, resolveInfo, declsOf, plainOf, hd, noDup, storedDecls, NsMap.push, resolveElemName,
      splitQName_ncname ht, NsMap.get?, resolveAttrs, resolveAttr, splitQName_ncname ha, firstElem]

/-- Reading `<tag>raw</tag>`. -/
theorem readDoc_textDoc (tag raw : Str) (ht : isNCName tag = true) (hq : '<' ∉ raw) (hr : '\r' ∉ raw) :
    readDoc (textDoc tag raw) =
      if raw = [] then
        some (let r := Node.elem ⟨none, none, tag, [], [], []⟩ []; ⟨none, [r], r⟩)
      else (decodeText raw).map (fun v =>
        let r := Node.elem ⟨none, none, tag, [], [], []⟩ [.text v]
        ⟨none, [r], r⟩) := by
  have e : textDoc tag raw = (Src.elem tag [] [.text raw]).render := by
    simp [textDoc, Src.render, renderList, attrsText, List.append_assoc]
  have hlex : (Src.elem tag [] [.text raw]).lexOk = true := by
    simp [Src.lexOk, lexOkList, isQName_of_ncname ht, hq]
  have hcr : '\r' ∉ (Src.elem tag [] [.text raw]).render := by
    rw [← e]
    simp [textDoc, qname_noCr (isQName_of_ncname ht), hr]
  unfold readDoc
  rw [e, readRaw_src _ rfl hlex hcr]
  have key : resolveInfo [] tag [] = some ⟨none, none, tag, [], [], []⟩ := by
    simp [resolveInfo, declsOf, plainOf, noDup, storedDecls, NsMap.push, resolveElemName,
      splitQName_ncname ht, NsMap.get?, resolveAttrs]
  simp only [Src.eval, decodeAttrs, evalKids, execList, Src.exec, List.append_nil]
  cases raw with
  | nil => simp [flushK, resolveList, resolve, key, firstElem]
  | cons c raw =>
    have hne : (c :: raw).reverse ≠ [] := by simp
    have hf : flushK (c :: raw).reverse [] = (decodeText (c :: raw)).map (fun t => addText t []) := by
      unfold flushK
      split
      · rename_i h; exact absurd h hne
      · rw [List.reverse_reverse]
    simp only [hf, reduceCtorEq, if_false]
    cases decodeText (c :: raw) with
    | none => rfl
    | some v => simp [addText, resolveList, resolve, key, firstElem]

end ReqIF
