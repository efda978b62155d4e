import Verif.Props.C40_41
import Verif.Proofs.TextCount
/-!
# C03, C04: string values and the header title
-/
namespace ReqIF
open Spec

/-! ## C03 -/

/-- Reading `<tag attr="…"/>` where the value was escaped by `html.escape`. -/
theorem readDoc_htmlAttr (tag attr s : Str) (ht : isNCName tag = true) (ha : isNCName attr = true) (hx : attr ≠ c!"xmlns") :
    readDoc (attrDoc tag attr (htmlEscape s)) =
      (mapChars attrBackHtml (normEol s)).map (fun v =>
        let r := Node.elem ⟨none, none, tag, [], [], [⟨none, none, attr, v⟩]⟩ []
        ⟨none, [r], r⟩) := by
  have e : readDoc (attrDoc tag attr (htmlEscape s)) = readDoc (attrDoc tag attr (htmlEscape (normEol s))) := by
    have h := readDoc_normEol (tag ++ c!" " ++ attr ++ c!"=\"" ++ htmlEscape s ++ c!"\"/>")
    have h2 : normEol ('<' :: (tag ++ c!" " ++ attr ++ c!"=\"" ++ htmlEscape s ++ c!"\"/>")) =
        attrDoc tag attr (htmlEscape (normEol s)) := by
      rw [← List.cons_append, normEol_append _ (by decide), ← List.cons_append, normEol_append_left, normEol_htmlEscape]
      · simp [attrDoc, normEol]
      · simp [qname_noCr (isQName_of_ncname ht), qname_noCr (isQName_of_ncname ha)]
    rw [h2] at h
    rw [← h]; simp [attrDoc]
  have hcr : '\r' ∉ htmlEscape (normEol s) := by
    rw [htmlEscape_eq]
    intro hm
    simp only [List.mem_flatMap] at hm
    obtain ⟨c, hc, hm⟩ := hm
    have h1 : c ≠ '\r' := noCr_of_normEol_eq c hc
    by_cases h2 : c = '\n'
    · subst h2; revert hm; decide
    · exact (htmlEscChar_shape c h1 h2).1 hm
  rw [e, readDoc_attrDoc tag attr _ ht ha hx
      (by rw [htmlEscape_eq]; exact mem_flatMap_notMem (fun c => (htmlEscChar_notMem c).2.2) _) hcr, decodeAttr_htmlEscape]

/-- **C03.**  A string printed with `html.escape` in a double-quoted attribute is read
back as the same string exactly when it has only XML characters and no tab, line
feed or carriage return.  (`C33_roundtrip` has the whole attribute value in a whole
document.) -/
theorem C03_attr (tag attr s : Str) (ht : isNCName tag = true) (ha : isNCName attr = true) (hx : attr ≠ c!"xmlns") :
    ReadsAttr (attrDoc tag attr (htmlEscape s)) attr s ↔ ∀ c ∈ s, isXmlChar c = true ∧ c ≠ '\t' ∧ c ≠ '\n' ∧ c ≠ '\r' := by
  unfold ReadsAttr
  rw [readDoc_htmlAttr tag attr s ht ha hx]
  have e2 : (∃ d, (mapChars attrBackHtml (normEol s)).map (fun v =>
        (⟨none, [Node.elem ⟨none, none, tag, [], [], [⟨none, none, attr, v⟩]⟩ []],
          Node.elem ⟨none, none, tag, [], [], [⟨none, none, attr, v⟩]⟩ []⟩ : Doc)) = some d ∧ d.root.attr? attr = some s) ↔
      mapChars attrBackHtml (normEol s) = some s := by
    cases mapChars attrBackHtml (normEol s) with
    | none => simp
    | some v => simp [Node.attr?, Node.attrs, Attr.key, clark]
  refine e2.trans ⟨?_, ?_⟩
  · intro h
    have hno : ∀ c ∈ s, c ≠ '\t' ∧ c ≠ '\n' ∧ c ≠ '\r' := by
      intro c hc
      obtain ⟨d, _, hd⟩ := mapChars_mem h hc
      unfold attrBackHtml at hd
      split at hd
      · split at hd
        · simp at hd; subst hd; decide
        · rename_i h'; simp at hd; subst hd; simp at h'; exact ⟨h'.2.2, h'.1, h'.2.1⟩
      · simp at hd
    rw [normEol_of_noCr (fun hm => (hno _ hm).2.2 rfl)] at h
    intro c hc
    refine ⟨?_, hno c hc⟩
    have := mapChars_eq_self.1 h c hc
    unfold attrBackHtml at this
    split at this
    · assumption
    · simp at this
  · intro h
    rw [normEol_of_noCr (fun hm => (h _ hm).2.2.2 rfl)]
    apply mapChars_eq_self.2
    intro c hc
    obtain ⟨h1, h2, h3, h4⟩ := h c hc
    simp [attrBackHtml, h1, h2, h3, h4]

/-- **C03**, the rest: whatever XML characters a value has, it comes back with one space
for every tab and every line end. -/
theorem C03_spaces (tag attr s : Str) (ht : isNCName tag = true) (ha : isNCName attr = true) (hx : attr ≠ c!"xmlns")
    (hs : ∀ c ∈ s, isXmlChar c = true) : ReadsAttr (attrDoc tag attr (htmlEscape s)) attr (spaced s) := by
  unfold ReadsAttr
  rw [readDoc_htmlAttr tag attr s ht ha hx]
  have hm : mapChars attrBackHtml (normEol s) = some (spaced s) := by
    unfold spaced
    have hn : ∀ c ∈ normEol s, isXmlChar c = true := by
      intro c hc
      have : ∀ s : Str, ∀ c ∈ normEol s, c ∈ s ∨ c = '\n' := by
        intro s
        fun_induction normEol s with
        | case1 => simp
        | case2 s ih => intro c hc; simp at hc ⊢; rcases hc with rfl | hc; · simp
                        · rcases ih c hc with h | h <;> simp [h]
        | case3 d s _ ih =>
          intro c hc
          simp only [List.mem_cons] at hc ⊢
          rcases hc with rfl | hc
          · split
            · exact .inr rfl
            · exact .inl (.inl rfl)
          · rcases ih c hc with h | h
            · exact .inl (.inr h)
            · exact .inr h
      rcases this s c hc with h | h
      · exact hs c h
      · subst h; decide
    generalize hw : normEol s = w at hn
    have hcr : '\r' ∉ w := by rw [← hw]; exact fun h => noCr_of_normEol_eq _ h rfl
    clear hw hs
    induction w with
    | nil => rfl
    | cons c w ih =>
      simp only [List.mem_cons, not_or] at hcr
      have h1 := hn c (by simp)
      rw [mapChars, ih (fun d hd => hn d (by simp [hd])) hcr.2]
      have : attrBackHtml c = some (if c = '\t' ∨ c = '\n' then ' ' else c) := by
        unfold attrBackHtml
        rw [if_pos h1]
        have : c ≠ '\r' := fun e => hcr.1 e.symm
        by_cases h2 : c = '\t'
        · simp [h2, isWs]
        by_cases h3 : c = '\n'
        · simp [h3, isWs]
        simp [h2, h3, this]
      rw [this]
      rfl
  rw [hm]
  exact ⟨_, rfl, by simp [Node.attr?, Node.attrs, Attr.key, clark]⟩

/-- Non-vacuity: quotes, ampersands and angle brackets survive; tab and line ends do not. -/
example : (∀ c ∈ c!"<a & 'b' \"c\">", isXmlChar c = true ∧ c ≠ '\t' ∧ c ≠ '\n' ∧ c ≠ '\r') ∧
    spaced c!"a\tb\r\nc\nd\re" = c!"a b c d e" := by decide

/-! ## C04 -/

theorem normEol_title (s : Str) : normEol (lxmlEscapeTitle s) = lxmlEscapeTitle (normEol s) := by
  simp only [titleEscape_eq]
  refine normEol_flatMap (by decide) (by decide) ?_ s
  intro c h1 h2
  unfold titleChar
  split
  · decide
  · simp [Ne.symm h1, h2]

theorem ltCount_title (s : Str) : ltCount (lxmlEscapeTitle s) = ltCount s := by
  rw [titleEscape_eq]
  induction s with
  | nil => rfl
  | cons c s ih =>
    rw [List.flatMap_cons, ltCount_append, ih, ltCount_cons, Nat.add_comm]
    congr 1
    unfold titleChar
    by_cases h : c = '&'
    · subst h; rfl
    · rw [if_neg h, ltCount_cons]; simp

theorem ltCount_normEol (s : Str) : ltCount (normEol s) = ltCount s := by
  fun_induction normEol s with
  | case1 => rfl
  | case2 s ih => simp [ltCount_cons, ih]
  | case3 c s _ ih =>
    rw [ltCount_cons, ltCount_cons, ih]
    by_cases h : c = '\r'
    · subst h; rfl
    · rw [if_neg h]

theorem ampOk_title (s : Str) : AmpOk (lxmlEscapeTitle s) := by
  rw [titleEscape_eq]
  induction s with
  | nil => intro a b e; simp at e
  | cons c s ih =>
    rw [List.flatMap_cons]
    intro a b e
    by_cases hc : c = '&'
    · have et : titleChar c = '&' :: c!"amp;" := by simp [titleChar, hc]
      rw [et] at e
      cases a with
      | nil =>
        have e2 : c!"amp;" ++ s.flatMap titleChar = b := (List.cons.inj e).2
        exact ⟨_, e2⟩
      | cons a0 a =>
        have e2 : c!"amp;" ++ s.flatMap titleChar = a ++ '&' :: b := (List.cons.inj e).2
        rcases List.append_eq_append_iff.1 e2 with ⟨x, h1, h2⟩ | ⟨x, h1, h2⟩
        · exact ih x b h2
        · cases x with
          | nil => exact ih [] b (by simpa using h2.symm)
          | cons y x =>
            simp only [List.cons_append, List.cons.injEq] at h2
            exact absurd (show '&' ∈ c!"amp;" by rw [h1, ← h2.1]; simp) (by decide)
    · have et : titleChar c = [c] := by simp [titleChar, hc]
      rw [et] at e
      cases a with
      | nil => exact absurd (List.cons.inj e).1 hc
      | cons a0 a => exact ih a b (List.cons.inj e).2

/-- Line ends are normalised first. -/
theorem readDoc_title (tag s : Str) (ht : isNCName tag = true) :
    readDoc (textDoc tag (lxmlEscapeTitle s)) = readDoc (textDoc tag (lxmlEscapeTitle (normEol s))) := by
  have h := readDoc_normEol (tag ++ c!">" ++ lxmlEscapeTitle s ++ (c!"</" ++ tag ++ c!">"))
  have h2 : normEol ('<' :: (tag ++ c!">" ++ lxmlEscapeTitle s ++ (c!"</" ++ tag ++ c!">"))) =
      textDoc tag (lxmlEscapeTitle (normEol s)) := by
    rw [← List.cons_append, normEol_append _ (by simp), ← List.cons_append, normEol_append_left, normEol_title,
      normEol_of_noCr (s := c!"</" ++ tag ++ c!">")]
    · simp [textDoc]
    · simp [qname_noCr (isQName_of_ncname ht)]
    · simp [qname_noCr (isQName_of_ncname ht)]
  rw [h2] at h
  rw [← h]; simp [textDoc]

/-- **C04**, exactly: a title, escaped as the header parser does and placed in an element,
is read back unchanged exactly when it has only XML characters, no `<`, no carriage
return and no `]]>`.  In particular no title with `<` is. -/
theorem C04_text (tag s : Str) (ht : isNCName tag = true) : ReadsText (textDoc tag (lxmlEscapeTitle s)) s ↔ TitleText s := by
  have hcr : '\r' ∉ lxmlEscapeTitle (normEol s) := title_notMem (fun h => noCr_of_normEol_eq _ h rfl) (by decide)
  constructor
  · rintro ⟨d, h1, h2, h3⟩
    have hlt : '<' ∉ s := by
      by_cases hs : s = []
      · simp [hs]
      · rw [if_neg hs] at h3
        rw [readDoc_title tag s ht] at h1
        have := readDoc_ltText ht hcr (ampOk_title _) h1 h3
        rw [ltCount_title, ltCount_normEol] at this
        apply ltCount_eq_zero.1
        unfold Nat.sign1 at this
        split at this
        · assumption
        · omega
    have hlt' : '<' ∉ lxmlEscapeTitle (normEol s) :=
      title_notMem (ltCount_eq_zero.1 (by rw [ltCount_normEol, ltCount_eq_zero]; exact hlt)) (by decide)
    rw [readDoc_title tag s ht, readDoc_textDoc tag _ ht hlt' hcr] at h1
    by_cases hs : s = []
    · subst hs; decide
    have hne : normEol s ≠ [] := by
      cases s with
      | nil => exact absurd rfl hs
      | cons c s => rw [normEol.eq_def]; split <;> simp_all
    rw [if_neg (title_ne hne), decodeText_title] at h1
    rw [if_neg hs] at h3
    by_cases hc : containsStr c!"]]>" (normEol s) = true
    · rw [if_pos hc] at h1; simp at h1
    · rw [if_neg hc] at h1
      cases hm : mapChars (fun c => if c = '&' then some '&' else litText c) (normEol s) with
      | none => rw [hm] at h1; simp at h1
      | some v =>
        rw [hm] at h1
        simp only [Option.map_some, Option.some.injEq] at h1
        subst h1
        simp only [Node.text?, Option.some.injEq] at h3
        subst h3
        have hvv : ∀ c ∈ v, c ≠ '\r' := by
          intro c hcv
          obtain ⟨b, hb, hb2⟩ := mapChars_mem hm hcv
          split at hb2
          · cases hb2; decide
          · unfold litText at hb2
            split at hb2
            · cases hb2; exact noCr_of_normEol_eq _ hb
            · cases hb2
        have en : normEol v = v := normEol_of_noCr (fun h => hvv _ h rfl)
        rw [en] at hm hc
        refine ⟨?_, by simpa using hc⟩
        intro c hcv
        refine ⟨?_, fun e => hlt (e ▸ hcv), hvv c hcv⟩
        have := mapChars_eq_self.1 hm c hcv
        by_cases h' : c = '&'
        · subst h'; decide
        · rw [if_neg h'] at this
          unfold litText at this
          split at this
          · rename_i h''; simp at h''; exact h''.1
          · cases this
  · intro h
    have en : normEol s = s := normEol_of_noCr (fun hm => (h.1 _ hm).2.2 rfl)
    have hlt' : '<' ∉ lxmlEscapeTitle s := title_notMem (fun hm => (h.1 _ hm).2.1 rfl) (by decide)
    rw [en] at hcr
    unfold ReadsText
    rw [readDoc_textDoc tag _ ht hlt' hcr]
    by_cases hs : s = []
    · subst hs
      exact ⟨_, rfl, by simp [Node.children, Node.kids], by simp [Node.text?]⟩
    · rw [if_neg (title_ne hs), title_back h]
      exact ⟨_, rfl, by simp [Node.children, Node.kids, Node.isText], by simp [Node.text?, hs]⟩

/-- Non-vacuity, both ways. -/
example : TitleText c!"R & D > \"x\"" ∧ ¬ TitleText c!"a < b" ∧ ¬ TitleText c!"<![CDATA[x]]>" := by decide

end ReqIF
