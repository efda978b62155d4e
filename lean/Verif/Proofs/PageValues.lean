import Verif.Proofs.PageWhole
import Verif.Proofs.SaidTools
/-!
# Strings that can stand in the dump page
-/
namespace ReqIF.Page
open Grammar Spec Dump

theorem plain_letters' : ∀ {s : Str}, (∀ c ∈ s, isXmlChar c = true ∧ c ≠ '<' ∧ c ≠ '&' ∧ c ≠ '\r') → Letters TextChar s s
  | [], _ => .none
  | c :: s, h => by
    obtain ⟨h1, h2, h3, -⟩ := h c (by simp)
    exact .char h3 ⟨h1, h2, rfl⟩ (plain_letters' fun x hx => h x (by simp [hx]))

theorem plainText_well {s : Str} (h : PlainText s) : WellFormedContent s := by
  obtain ⟨h1, h2⟩ := h
  refine ⟨fun hm => (h1 _ hm).2.2.2 rfl, ?_⟩
  by_cases h0 : s = []
  · exact ⟨[], by rw [h0]; exact .marked .none⟩
  · refine ⟨_, Content.text (u := []) (ks := []) .none ⟨h0, fun hm => (h1 _ hm).2.1 rfl, ?_, plain_letters' h1⟩⟩
    rw [has_iff, h2]
    decide

theorem element_of_raw {t n : Str} {as : List (Str × Str)} {ks : List Xml} (h : readRaw t = some (none, [.elem n as ks])) (h1 : t.head? = some '<')
    (h2 : ∃ t', t = t' ++ c!">") (h3 : '\r' ∉ t) : Element t (.elem n as ks) := by
  obtain ⟨u, t', hu, hl, hd⟩ := file_iff.1 h
  have e : t = u := by
    rcases hu with ⟨hu, -⟩ | hu
    · exact hu
    · rw [hu] at h1
      simp at h1
  subst e
  have e : t' = t := by
    have := lines_iff.1 hl
    rw [normEol_of_noCr h3] at this
    exact this.symm
  subst e
  obtain ⟨hh, a, e, b, k₁, x, k₂, ht, hdecl, hm1, he, hm2, hk⟩ := hd
  have hh0 : hh = [] := by
    rcases hdecl with ⟨-, h⟩ | ⟨enc, h, -⟩
    · exact h
    · cases h
  subst hh0
  rw [List.nil_append] at ht
  have hk1 : k₁ = [] := by
    cases k₁ with
    | nil => rfl
    | cons y k₁ => simp at hk
  subst hk1
  rw [List.nil_append] at hk
  cases hk
  have ha : a = [] := by
    cases a with
    | nil => rfl
    | cons c a =>
      have := misc_nil hm1 rfl c (by simp)
      rw [ht] at h1
      simp at h1
      exact absurd h1 (ws_ne this).2.2.1
  have hb : b = [] := by
    rcases List.eq_nil_or_concat b with hb | ⟨b', c, rfl⟩
    · exact hb
    · have hw := misc_nil hm2 rfl c (by simp)
      obtain ⟨t', ht'⟩ := h2
      rw [List.concat_eq_append] at ht
      rw [ht, ← List.append_assoc] at ht'
      have := (List.append_inj' ht' rfl).2
      simp at this
      exact absurd this (ws_ne hw).2.1
  subst ha hb
  rw [ht]
  simpa using he

/-- The content of an element. -/
theorem content_of_element {s : Str} {ks : List Xml} (h : Element (c!"<a>" ++ s ++ c!"</a>") (.elem c!"a" [] ks)) : Grammar.Content s ks := by
  generalize ht : c!"<a>" ++ s ++ c!"</a>" = t at h
  cases h with
  | @empty _ r w _ hq ha hw =>
    have := attributes_none ha
    subst this
    cases w with
    | nil => simp at ht
    | cons c w =>
      simp at ht
      have := hw c (by simp)
      rw [← ht.1] at this
      exact absurd this (by decide)
  | @full _ r w u w' _ _ hq ha hw hu hw' =>
    have := attributes_none ha
    subst this
    have hw0 : w = [] := by
      cases w with
      | nil => rfl
      | cons c w =>
        simp at ht
        have := hw c (by simp)
        rw [← ht.1] at this
        exact absurd this (by decide)
    subst hw0
    have hw1 : w' = [] := by
      rcases List.eq_nil_or_concat w' with hb | ⟨b', c, rfl⟩
      · exact hb
      · have hc := hw' c (by simp)
        have e := congrArg List.reverse ht
        simp at e
        have := e.1
        rw [← this] at hc
        exact absurd hc (by decide)
    subst hw1
    have e : c!"<a>" ++ s ++ c!"</a>" = c!"<a>" ++ u ++ c!"</a>" := by
      rw [ht]; simp
    have := List.append_cancel_left (List.append_cancel_right e)
    rw [this]
    exact hu

theorem xhtml_well {p : Str} (hp : isNCName p = true) {ts : List XTree} (h1 : AllWF ts) (h2 : noAdjacentText ts = true) :
    WellFormedContent (printAll p ts) := by
  have e : (Src.elem c!"a" [] (srcAll p ts)).render = c!"<a>" ++ printAll p ts ++ c!"</a>" := by
    rw [Src.render, srcAll_render]
    simp [attrsText]
  have hcr : '\r' ∉ printAll p ts := by
    have := srcAll_cr hp ts h1
    rwa [srcAll_render] at this
  have hcr' : '\r' ∉ c!"<a>" ++ printAll p ts ++ c!"</a>" := by
    simp only [List.mem_append, not_or]
    exact ⟨⟨by decide, hcr⟩, by decide⟩
  have key : readRaw (c!"<a>" ++ printAll p ts ++ c!"</a>") = some (none, [.elem c!"a" [] (xmlAll p ts)]) := by
    rw [← e, readRaw_src]
    · rw [Src.eval, decodeAttrs, srcAll_eval ts h1 h2]
      rfl
    · rfl
    · rw [Src.lexOk, srcAll_lex hp ts h1]
      decide
    · rw [e]; exact hcr'
  refine ⟨hcr, _, content_of_element (element_of_raw key (by simp) ⟨c!"<a>" ++ printAll p ts ++ c!"</a", by simp⟩ hcr')⟩

end ReqIF.Page
