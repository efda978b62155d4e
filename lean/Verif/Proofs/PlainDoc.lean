import Verif.Proofs.SmallDocs
import Verif.Proofs.ReadDoc
import Verif.Spec.Text
/-!
# Documents printed without escaping
-/
namespace ReqIF
open Spec

theorem decodeGo_plain {lit : Char → Option Char} {v : Str} (h : ∀ c ∈ v, c ≠ '&' ∧ lit c = some c) :
    decodeGo lit none v = some v := by
  induction v with
  | nil => rfl
  | cons c v ih =>
    obtain ⟨h1, h2⟩ := h c (by simp)
    have := decodeGo_lit lit c h1 v
    rw [h2] at this
    simp only [List.cons_append, List.nil_append] at this
    rw [this, ih (fun d hd => h d (by simp [hd]))]
    rfl

theorem decodeAttr_plain {v : Str} (h : PlainAttr v) : decodeAttr v = some v := by
  refine decodeGo_plain fun c hc => ?_
  obtain ⟨h1, h2, h3, -, h5, h6, h7⟩ := h c hc
  refine ⟨h3, ?_⟩
  unfold litAttr isWs
  by_cases h8 : c = ' '
  · subst h8; decide
  · simp [h1, h2, h5, h6, h7, h8]

theorem decodeText_plain {v : Str} (h : PlainText v) : decodeText v = some v := by
  unfold decodeText
  rw [h.2]
  refine decodeGo_plain fun c hc => ?_
  obtain ⟨h1, h2, h3, -⟩ := h.1 c hc
  exact ⟨h3, by simp [litText, h1, h2]⟩

theorem decodeAttrs_plain {as : List (Str × Str)} (h : ∀ a ∈ as, PlainAttr a.2) : decodeAttrs as = some as := by
  induction as with
  | nil => rfl
  | cons a as ih =>
    unfold decodeAttrs
    rw [decodeAttr_plain (h a (by simp)), ih (fun b hb => h b (by simp [hb]))]

/-- Reading a document as the unparser lays it out. -/
theorem readDoc_decl (x : Src) (h : x.isElem = true) (hx : x.lexOk = true) (hr : '\r' ∉ x.render) :
    readDoc (declText ++ x.render ++ c!"\n") =
      match x.eval with
      | none => none
      | some e =>
        match resolve [] e with
        | none => none
        | some r =>
          match firstElem [r] with
          | none => none
          | some r' => some ⟨some ⟨some c!"UTF-8"⟩, [r], r'⟩ := by
  unfold readDoc
  rw [readRaw_decl x h hx hr]
  cases x.eval with
  | none => rfl
  | some e =>
    simp only [Option.map_some, resolveList]
    cases resolve [] e with
    | none => rfl
    | some r => dsimp only; cases firstElem [r] <;> rfl

/-- Reading a root with plain attributes and a line feed inside. -/
theorem readDoc_plainRoot (name : Str) (hn : isQName name = true) (as : List (Str × Str))
    (ha : ∀ a ∈ as, isQName a.1 = true ∧ PlainAttr a.2) :
    readDoc (declText ++ (Src.elem name as [.text c!"\n"]).render ++ c!"\n") =
      (resolveInfo [] name as).map (fun i =>
        let r := Node.elem i [.text c!"\n"]; ⟨some ⟨some c!"UTF-8"⟩, [r], r⟩) := by
  have hlex : (Src.elem name as [.text c!"\n"]).lexOk = true := by
    simp only [Src.lexOk, hn, lexOkList, Bool.true_and, Bool.and_eq_true, List.all_eq_true]
    refine ⟨fun a h => ?_, by decide⟩
    simp only [attrLexOk, (ha a h).1, Bool.true_and, Bool.not_eq_true', List.contains_eq_mem, decide_eq_false_iff_not]
    intro hm
    exact ((ha a h).2 _ hm).2.2.2.1 rfl
  have hcr : '\r' ∉ (Src.elem name as [.text c!"\n"]).render := by
    have hnr := qname_noCr hn
    have hat : '\r' ∉ attrsText as := by
      intro hm
      simp only [attrsText, List.mem_flatMap] at hm
      obtain ⟨a, h, hm⟩ := hm
      simp only [List.mem_append, List.mem_cons] at hm
      have h1 := qname_noCr (ha a h).1
      have h2 : '\r' ∉ a.2 := fun hm => ((ha a h).2 _ hm).2.2.2.2.2.2 rfl
      simp_all
    simp [Src.render, renderList, hnr, hat]
  rw [readDoc_decl _ rfl hlex hcr]
  simp only [Src.eval, decodeAttrs_plain (fun a h => (ha a h).2), evalKids, execList, Src.exec]
  have : flushK (c!"\n".reverse ++ ([] : Str)) [] = some [.text c!"\n"] := rfl
  rw [this]
  simp only [Option.map_some, List.reverse_cons, List.reverse_nil, List.nil_append, resolve, resolveList]
  cases resolveInfo [] name as <;> rfl

theorem containsStr_iff {sub s : Str} : containsStr sub s = true ↔ ∃ a b, s = a ++ sub ++ b := by
  induction s with
  | nil =>
    simp only [containsStr, List.isEmpty_iff]
    constructor
    · rintro rfl; exact ⟨[], [], rfl⟩
    · rintro ⟨a, b, h⟩
      have := congrArg List.length h
      simp only [List.length_nil, List.length_append] at this
      exact List.length_eq_zero_iff.mp (by omega)
  | cons c s ih =>
    simp only [containsStr, Bool.or_eq_true, List.isPrefixOf_iff_prefix, ih]
    constructor
    · rintro (⟨b, h⟩ | ⟨a, b, rfl⟩)
      · exact ⟨[], b, by simp [← h]⟩
      · exact ⟨c :: a, b, by simp⟩
    · rintro ⟨a, b, h⟩
      cases a with
      | nil => exact Or.inl ⟨b, by simpa using h.symm⟩
      | cons d a =>
        simp only [List.cons_append, List.cons.injEq] at h
        exact Or.inr ⟨a, b, h.2⟩

/-- A pattern without `x` occurs in `a ++ x :: b` only inside `a` or inside `b`. -/
theorem containsStr_split {sub a b : Str} {x : Char} (hx : x ∉ sub) (hs : sub ≠ []) :
    containsStr sub (a ++ x :: b) = (containsStr sub a || containsStr sub b) := by
  induction a with
  | nil =>
    have : sub.isPrefixOf (x :: b) = false := by
      cases sub with
      | nil => exact absurd rfl hs
      | cons d sub =>
        simp only [List.mem_cons, not_or] at hx
        simp [List.isPrefixOf, Ne.symm hx.1]
    cases sub with
    | nil => exact absurd rfl hs
    | cons d sub => simp [containsStr, this]
  | cons c a ih =>
    simp only [List.cons_append, containsStr, ih, ← Bool.or_assoc]
    congr 2
    rw [Bool.eq_iff_iff, List.isPrefixOf_iff_prefix, List.isPrefixOf_iff_prefix]
    constructor
    · rintro ⟨t, h⟩
      rw [← List.cons_append] at h
      rcases List.append_eq_append_iff.mp h with ⟨w, h1, h2⟩ | ⟨w, h1, h2⟩
      · exact ⟨w, h1.symm⟩
      · cases w with
        | nil => exact ⟨[], by simp at h1; simp [h1]⟩
        | cons y w =>
          simp only [List.cons_append, List.cons.injEq] at h2
          rw [h1, ← h2.1] at hx
          simp at hx
    · rintro ⟨t, h⟩
      exact ⟨t ++ x :: b, by rw [← List.append_assoc, h]; rfl⟩

/-- A pattern without braces occurs in a qualified tag only in the URI or in the name. -/
theorem containsStr_clark {sub u n : Str} (h1 : '{' ∉ sub) (h2 : '}' ∉ sub) (h3 : sub ≠ []) :
    containsStr sub (clark (some u) n) = (containsStr sub u || containsStr sub n) := by
  have e : clark (some u) n = [] ++ '{' :: (u ++ '}' :: n) := by simp [clark]
  rw [e, containsStr_split h1 h3, containsStr_split h2 h3]
  cases sub with
  | nil => exact absurd rfl h3
  | cons c s => simp [containsStr]

end ReqIF
