import Verif.Proofs.SmallDocs
import Verif.Proofs.Indent
/-!
# C01-C02, C05-C06: escaping and indentation
-/
namespace ReqIF.Props
open Spec

/-! ## C01 -/

/-- C01 (attribute): a string escaped with `lxml_escape_for_html` and placed in
a double-quoted attribute is read back as the same string exactly when all its
characters are XML characters other than line feed and carriage return. -/
theorem C01_attr (tag attr s : Str) (ht : isNCName tag = true) (ha : isNCName attr = true) (hx : attr ≠ c!"xmlns") :
    ReadsAttr (attrDoc tag attr (lxmlEscapeForHtml s)) attr s ↔
      ∀ c ∈ s, isXmlChar c = true ∧ c ≠ '\n' ∧ c ≠ '\r' := by
  have e : readDoc (attrDoc tag attr (lxmlEscapeForHtml s)) = readDoc (attrDoc tag attr (escape (normEol s))) := by
    rw [lxmlEscape_eq]
    have h := readDoc_normEol (tag ++ c!" " ++ attr ++ c!"=\"" ++ escape s ++ c!"\"/>")
    have h2 : normEol ('<' :: (tag ++ c!" " ++ attr ++ c!"=\"" ++ escape s ++ c!"\"/>")) =
        attrDoc tag attr (escape (normEol s)) := by
      rw [← List.cons_append, normEol_append _ (by decide), ← List.cons_append, normEol_append_left, normEol_escape]
      · simp [attrDoc, normEol]
      · simp [qname_noCr (isQName_of_ncname ht), qname_noCr (isQName_of_ncname ha)]
    rw [h2] at h
    rw [← h]; simp [attrDoc]
  have hcr : '\r' ∉ escape (normEol s) := by
    intro hm
    simp only [escape, List.mem_flatMap] at hm
    obtain ⟨c, hc, hm⟩ := hm
    have h1 : c ≠ '\r' := noCr_of_normEol_eq c hc
    by_cases h2 : c = '\n'
    · subst h2; revert hm; decide
    · exact (escChar_shape c h1 h2).1 hm
  unfold ReadsAttr
  rw [e, readDoc_attrDoc tag attr (escape (normEol s)) ht ha hx (mem_flatMap_notMem (fun c => (escChar_notMem c).2.2.1) _) hcr,
    decodeAttr_escape]
  have e2 : (∃ d, (mapChars attrBack (normEol s)).map (fun v =>
        (⟨none, [Node.elem ⟨none, none, tag, [], [], [⟨none, none, attr, v⟩]⟩ []],
          Node.elem ⟨none, none, tag, [], [], [⟨none, none, attr, v⟩]⟩ []⟩ : Doc)) = some d ∧ d.root.attr? attr = some s) ↔
      mapChars attrBack (normEol s) = some s := by
    cases mapChars attrBack (normEol s) with
    | none => simp
    | some v => simp [Node.attr?, Node.attrs, Attr.key, clark]
  refine e2.trans ⟨?_, ?_⟩
  · intro h
    have hno : ∀ c ∈ s, c ≠ '\n' ∧ c ≠ '\r' := by
      intro c hc
      obtain ⟨d, _, hd⟩ := mapChars_mem h hc
      unfold attrBack at hd
      split at hd
      · split at hd
        · simp at hd; subst hd; decide
        · rename_i h'; simp at hd; subst hd; simpa using h'
      · simp at hd
    rw [normEol_of_noCr (fun hm => (hno _ hm).2 rfl)] at h
    intro c hc
    refine ⟨?_, hno c hc⟩
    have := mapChars_eq_self.1 h c hc
    unfold attrBack at this
    split at this
    · assumption
    · simp at this
  · intro h
    rw [normEol_of_noCr (fun hm => (h _ hm).2.2 rfl)]
    apply mapChars_eq_self.2
    intro c hc
    obtain ⟨h1, h2, h3⟩ := h c hc
    simp [attrBack, h1, h2, h3]

/-- C01 (text): placed in element text, the escaped string is read back as the
same string exactly when all its characters are XML characters other than
carriage return. -/
theorem C01_text (tag s : Str) (ht : isNCName tag = true) :
    ReadsText (textDoc tag (lxmlEscapeForHtml s)) s ↔ ∀ c ∈ s, isXmlChar c = true ∧ c ≠ '\r' := by
  have e : readDoc (textDoc tag (lxmlEscapeForHtml s)) = readDoc (textDoc tag (escape (normEol s))) := by
    rw [lxmlEscape_eq]
    have h := readDoc_normEol (tag ++ c!">" ++ escape s ++ (c!"</" ++ tag ++ c!">"))
    have h2 : normEol ('<' :: (tag ++ c!">" ++ escape s ++ (c!"</" ++ tag ++ c!">"))) =
        textDoc tag (escape (normEol s)) := by
      rw [← List.cons_append, normEol_append _ (by simp), ← List.cons_append, normEol_append_left, normEol_escape,
        normEol_of_noCr (s := c!"</" ++ tag ++ c!">")]
      · simp [textDoc]
      · simp [qname_noCr (isQName_of_ncname ht)]
      · simp [qname_noCr (isQName_of_ncname ht)]
    rw [h2] at h
    rw [← h]; simp [textDoc]
  have hcr : '\r' ∉ escape (normEol s) := by
    intro hm
    simp only [escape, List.mem_flatMap] at hm
    obtain ⟨c, hc, hm⟩ := hm
    have h1 : c ≠ '\r' := noCr_of_normEol_eq c hc
    by_cases h2 : c = '\n'
    · subst h2; revert hm; decide
    · exact (escChar_shape c h1 h2).1 hm
  have hnil : escape (normEol s) = [] ↔ normEol s = [] := by
    cases h : normEol s with
    | nil => simp [escape]
    | cons c t =>
      simp only [escape, List.flatMap_cons, List.append_eq_nil_iff, reduceCtorEq, iff_false, not_and]
      intro h'
      by_cases h1 : c = '\r'
      · subst h1; exact absurd h' (by decide)
      by_cases h2 : c = '\n'
      · subst h2; exact absurd h' (by decide)
      exact absurd h' (escChar_shape c h1 h2).2.2
  unfold ReadsText
  rw [e, readDoc_textDoc tag (escape (normEol s)) ht (mem_flatMap_notMem (fun c => (escChar_notMem c).1) _) hcr,
    decodeText_escape, mapChars_textBack]
  have fwd : normEol s = s → (∀ c ∈ s, c ≠ '\r') := fun h c hc => noCr_of_normEol_eq c (h ▸ hc)
  by_cases hz : normEol s = []
  · rw [if_pos (hnil.2 hz)]
    have hs : s = [] := by
      cases s with
      | nil => rfl
      | cons c s => rw [normEol.eq_def] at hz; split at hz <;> simp_all
    subst hs
    simp [Node.children, Node.kids, Node.text?]
  · rw [if_neg (fun h => hz (hnil.1 h))]
    constructor
    · rintro ⟨d, h1, h2, h3⟩
      split at h1
      · rename_i hall
        simp only [Option.map_some, Option.some.injEq] at h1
        subst h1
        simp only [Node.text?] at h3
        have hs : normEol s = s := by
          split at h3
          · simp at h3
          · simpa using h3
        intro c hc
        exact ⟨hall c (hs.symm ▸ hc), fwd hs c hc⟩
      · simp at h1
    · intro h
      have hs : normEol s = s := normEol_of_noCr (fun hm => (h _ hm).2 rfl)
      rw [hs] at hz ⊢
      rw [if_pos (fun c hc => (h c hc).1)]
      refine ⟨_, rfl, ?_, ?_⟩
      · simp [Node.children, Node.kids, Node.isText]
      · simp [Node.text?, hz]

/-- A string with every special character meets the condition of both parts. -/
example : ∀ c ∈ c!"a<b>&\"'\t é", isXmlChar c = true ∧ c ≠ '\n' ∧ c ≠ '\r' := by decide
example : isNCName c!"SPEC-OBJECT" = true ∧ isNCName c!"LONG-NAME" = true ∧ c!"LONG-NAME" ≠ c!"xmlns" := by decide

/-! ## C02 -/

/-- C02: no markup characters in the escaped text. -/
theorem C02_no_markup (s : Str) :
    ∀ c ∈ lxmlEscapeForHtml s, c ≠ '<' ∧ c ≠ '>' ∧ c ≠ '"' ∧ c ≠ '\'' ∧ c ≠ '\t' := by
  rw [lxmlEscape_eq]
  intro c hc
  simp only [escape, List.mem_flatMap] at hc
  obtain ⟨d, _, hm⟩ := hc
  have := escChar_notMem d
  refine ⟨?_, ?_, ?_, ?_, ?_⟩ <;> (intro h; subst h; simp_all)

/-- C02: every `&` in the escaped text starts a complete reference. -/
theorem C02_refs (s : Str) : RefsComplete (lxmlEscapeForHtml s) := by
  rw [lxmlEscape_eq]
  have one : ∀ c (u : Str), ∀ a b, escChar c ++ u = a ++ '&' :: b →
      (∃ a', u = a' ++ '&' :: b) ∨
      ∃ name rest, b = name ++ ';' :: rest ∧ '&' ∉ name ∧ ';' ∉ name ∧ (entityChar name).isSome = true := by
    intro c u a b h
    have lit : ∀ (d : Char) (nm : Str), escChar c = '&' :: nm ++ [';'] → '&' ∉ nm → ';' ∉ nm →
        entityChar nm = some d → 
        (∃ a', u = a' ++ '&' :: b) ∨
        ∃ name rest, b = name ++ ';' :: rest ∧ '&' ∉ name ∧ ';' ∉ name ∧ (entityChar name).isSome = true := by
      intro d nm he h1 h2 h3
      rw [he] at h
      cases a with
      | nil =>
        right
        simp at h
        exact ⟨nm, u, h.symm, h1, h2, by rw [h3]; rfl⟩
      | cons x a =>
        left
        simp only [List.cons_append, List.append_assoc, List.cons.injEq, List.nil_append] at h
        have h := h.2
        rw [List.append_eq_append_iff] at h
        rcases h with ⟨as, h4, h5⟩ | ⟨bs, h4, h5⟩
        · cases as with
          | nil => simp at h5
          | cons y as => simp at h5; exact ⟨as, h5.2⟩
        · cases bs with
          | nil => simp at h5
          | cons y bs => simp at h5; rw [h4, ← h5.1] at h1; simp at h1
    by_cases h1 : c = '&'; · subst h1; exact lit '&' c!"amp" rfl (by decide) (by decide) rfl
    by_cases h2 : c = '<'; · subst h2; exact lit '<' c!"lt" rfl (by decide) (by decide) rfl
    by_cases h3 : c = '>'; · subst h3; exact lit '>' c!"gt" rfl (by decide) (by decide) rfl
    by_cases h4 : c = '"'; · subst h4; exact lit '"' c!"quot" rfl (by decide) (by decide) rfl
    by_cases h5 : c = '\''; · subst h5; exact lit '\'' c!"#x27" rfl (by decide) (by decide) rfl
    by_cases h6 : c = Char.ofNat 0xA0; · subst h6; exact lit (Char.ofNat 0xA0) c!"#xA0" rfl (by decide) (by decide) rfl
    by_cases h7 : c = '\t'; · subst h7; exact lit '\t' c!"#9" rfl (by decide) (by decide) rfl
    left
    have he : escChar c = [c] := by simp [escChar, h1, h2, h3, h4, h5, h6, h7]
    rw [he] at h
    cases a with
    | nil => simp at h; exact absurd h.1 h1
    | cons x a => simp at h; exact ⟨a, h.2⟩
  induction s with
  | nil => intro a b h; simp [escape] at h
  | cons c s ih =>
    intro a b h
    rcases one c (escape s) a b h with ⟨a', h'⟩ | h'
    · exact ih a' b h'
    · exact h'

/-- C02: the chained replacements are one substitution, character by character;
in particular the `&` of an inserted reference is not escaped again. -/
theorem C02_charwise (s : Str) : lxmlEscapeForHtml s = escape s := lxmlEscape_eq s

example : lxmlEscapeForHtml c!"<a href=\"x\">&amp;</a>" =
    c!"&lt;a href=&quot;x&quot;&gt;&amp;amp;&lt;/a&gt;" := by decide

/-! ## C05, C06 -/

/-- C05: unindenting an indented string gives the stripped string back, exactly
when that has no run of sixteen spaces. -/
theorem C05_unindent_indent (s t : Str) (h : Stripped s t) :
    reqifUnindentXhtmlString (reqifIndentXhtmlString s) = t ↔ NoSpaceRun 16 t := by
  have hs := strip_of_stripped h
  subst hs
  obtain ⟨y, h1, h2, h3⟩ := unindent_indent s
  rw [h1]
  constructor
  · intro h
    refine Classical.byContradiction fun hn => ?_
    have := h3 hn
    have h4 := strip_length_le y
    rw [h] at h4
    omega
  · intro hn
    rw [h2 hn, strip_strip]

/-- Stripping is always possible and has one result. -/
theorem C05_stripped_exists_unique (s : Str) : ∃ t, Stripped s t ∧ ∀ t', Stripped s t' → t' = t :=
  ⟨strip s, stripped_strip s, fun _ h => (strip_of_stripped h).symm⟩

example : Stripped c!" <p>\n  x</p>\n" c!"<p>\n  x</p>" := stripped_strip _
example : NoSpaceRun 16 c!"<p>\n  x</p>" := by
  intro a b h
  have h1 := congrArg List.length h
  simp only [List.length_append, List.length_replicate, List.length_cons, List.length_nil] at h1
  omega
/-- With a run of sixteen spaces the text does change. -/
example : reqifUnindentXhtmlString (reqifIndentXhtmlString (c!"a" ++ spaces 16 ++ c!"b")) = c!"ab" := by decide

/-- C06: the shape of an indented string. -/
theorem C06_indent_shape (s t : Str) (h : Stripped s t) :
    reqifIndentXhtmlString s =
      c!"\n" ++ joinLines ((lines t).map (fun l => List.replicate 16 ' ' ++ l)) ++ c!"\n" ++ List.replicate 14 ' ' := by
  have hs := strip_of_stripped h
  subst hs
  have e := indent16_lines (strip s)
  simp only [spaces] at e
  rw [indent_eq, spaces, spaces, e]
  simp

/-- `lines` splits and `joinLines` joins. -/
theorem joinLines_lines (s : Str) : joinLines (lines s) = s ∧ ∀ l ∈ lines s, '\n' ∉ l := by
  have ne : ∀ s, lines s ≠ [] := by
    intro s; cases s with
    | nil => simp [lines]
    | cons c s => simp only [lines]; split; · simp
                  split <;> simp
  induction s with
  | nil => simp [lines, joinLines]
  | cons c s ih =>
    simp only [lines]
    by_cases hc : c = '\n'
    · subst hc
      simp only [if_true]
      cases hl : lines s with
      | nil => exact absurd hl (ne s)
      | cons l ls => rw [hl] at ih; simp only [joinLines]; exact ⟨by rw [ih.1]; rfl, by simpa using ih.2⟩
    · simp only [if_neg hc]
      cases hl : lines s with
      | nil => exact absurd hl (ne s)
      | cons l ls =>
        rw [hl] at ih
        constructor
        · cases ls <;> simp only [joinLines, List.cons_append] at ih ⊢ <;> rw [ih.1]
        · intro l' hl'
          rcases List.mem_cons.1 hl' with rfl | hl'
          · simp [Ne.symm hc, ih.2 l (by simp)]
          · exact ih.2 l' (by simp [hl'])

example : reqifIndentXhtmlString c!" <p>\nx " =
    c!"\n                <p>\n                x\n              " := by decide

end ReqIF.Props
