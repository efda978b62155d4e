import Verif.Spec.Page
import Verif.Proofs.GrammarComplete
import Verif.Proofs.DumpParts
/-!
# The parts of the dump page as content
-/
namespace ReqIF.Page
open Grammar Spec

/-! ## White space around content -/

theorem has_after {raw w : Str} (hw : OptSpace w) (h : ¬ Has c!"]]>" raw) : ¬ Has c!"]]>" (raw ++ w) := by
  induction w generalizing raw with
  | nil => rwa [List.append_nil]
  | cons c w ih =>
    have e : raw ++ c :: w = (raw ++ [c]) ++ w := by simp
    rw [e]
    have hc : isWs c = true := hw c (by simp)
    refine ih (fun x hx => hw x (by simp [hx])) ?_
    have := has_snoc_ne (p := c!"]]") (d := '>') (c := c) (s := raw) (by rintro rfl; exact absurd hc (by decide)) h
    exact this

theorem has_before {raw w : Str} (hw : OptSpace w) (h : ¬ Has c!"]]>" raw) : ¬ Has c!"]]>" (w ++ raw) := by
  induction w with
  | nil => exact h
  | cons c w ih =>
    have hc : isWs c = true := hw c (by simp)
    rintro ⟨a, b, e⟩
    cases a with
    | nil =>
      have : c = ']' := by simpa using congrArg List.head? e
      subst this
      exact absurd hc (by decide)
    | cons x a =>
      have e' : w ++ raw = a ++ c!"]]>" ++ b := by simpa using congrArg List.tail e
      exact ih (fun x hx => hw x (by simp [hx])) ⟨a, b, e'⟩

theorem letters_append {lit : Char → Char → Prop} {s t s' t' : Str} (h : Letters lit s t) (h' : Letters lit s' t') :
    Letters lit (s ++ s') (t ++ t') := by
  induction h with
  | none => exact h'
  | char h1 h2 _ ih => exact .char h1 h2 ih
  | ref h1 _ ih => rw [List.append_assoc]; exact .ref h1 ih

theorem ws_text {c : Char} (h : isWs c = true) : c ≠ '&' ∧ TextChar c c := by
  have h2 := ws_ne h
  refine ⟨h2.2.2.2.2.2.2, ?_, h2.2.2.1, rfl⟩
  revert h
  simp only [isWs, isXmlChar]
  simp
  rintro (((rfl | rfl) | rfl) | rfl) <;> decide

theorem letters_space {w : Str} (h : OptSpace w) : Letters TextChar w w := by
  induction w with
  | nil => exact .none
  | cons c w ih =>
    have hc := ws_text (h c (by simp))
    exact .char hc.1 hc.2 (ih fun x hx => h x (by simp [hx]))

theorem space_noLt {w : Str} (h : OptSpace w) : '<' ∉ w := fun hm => absurd (h _ hm) (by decide)

theorem text_after {raw t w : Str} (h : Text raw t) (hw : OptSpace w) : Text (raw ++ w) (t ++ w) := by
  obtain ⟨h1, h2, h3, h4⟩ := h
  refine ⟨by simp [h1], ?_, has_after hw h3, letters_append h4 (letters_space hw)⟩
  rw [List.mem_append]
  rintro (h | h)
  · exact h2 h
  · exact space_noLt hw h

theorem text_before {raw t w : Str} (h : Text raw t) (hw : OptSpace w) : Text (w ++ raw) (w ++ t) := by
  obtain ⟨h1, h2, h3, h4⟩ := h
  refine ⟨by simp [h1], ?_, has_before hw h3, letters_append (letters_space hw) h4⟩
  rw [List.mem_append]
  rintro (h | h)
  · exact space_noLt hw h
  · exact h2 h

theorem text_space {w : Str} (h : OptSpace w) (h0 : w ≠ []) : Text w w := by
  refine ⟨h0, space_noLt h, ?_, letters_space h⟩
  have := has_before h (raw := []) (by
    rintro ⟨a, b, e⟩
    simp at e)
  rwa [List.append_nil] at this

mutual
theorem marked_before {w u : Str} {ks : List Xml} (hw : OptSpace w) (h0 : w ≠ []) (h : Marked u ks) :
    (u = [] ∧ ks = []) ∨ ∃ ls, Marked (w ++ u) ls := by
  match h with
  | .none => exact .inl ⟨rfl, rfl⟩
  | .elem hu he =>
    obtain ⟨ls, h1⟩ := content_before hw h0 hu
    rw [← List.append_assoc]
    exact .inr ⟨_, .elem h1 he⟩
  | .comment hu he =>
    obtain ⟨ls, h1⟩ := content_before hw h0 hu
    rw [← List.append_assoc]
    exact .inr ⟨_, .comment h1 he⟩
  | .inst hu he =>
    obtain ⟨ls, h1⟩ := content_before hw h0 hu
    rw [← List.append_assoc]
    exact .inr ⟨_, .inst h1 he⟩
  | .cdata hu he =>
    obtain ⟨ls, h1⟩ := content_before hw h0 hu
    rw [← List.append_assoc]
    exact .inr ⟨_, .cdata h1 he⟩

theorem content_before {w u : Str} {ks : List Xml} (hw : OptSpace w) (h0 : w ≠ []) (h : Grammar.Content u ks) :
    ∃ ls, Grammar.Content (w ++ u) ls := by
  match h with
  | .marked hm =>
    rcases marked_before hw h0 hm with ⟨e, -⟩ | ⟨ls, h1⟩
    · rw [e, List.append_nil]
      have := Content.text (u := []) .none (text_space hw h0)
      exact ⟨_, this⟩
    · exact ⟨ls, .marked h1⟩
  | .text hm ht =>
    rcases marked_before hw h0 hm with ⟨e, -⟩ | ⟨ls, h1⟩
    · rw [e]
      have := Content.text (u := []) .none (text_before ht hw)
      exact ⟨_, this⟩
    · rw [← List.append_assoc]
      exact ⟨_, .text h1 ht⟩
end

theorem allShown_append : ∀ (a b : List Xml), allShownCells (a ++ b) = allShownCells a ++ allShownCells b
  | [], _ => rfl
  | x :: a, b => by
    rw [List.cons_append, allShownCells, allShownCells, allShown_append a b, List.append_assoc]

theorem allShown_addLast (t : Str) : ∀ (ks : List Xml), allShownCells (addLast t ks) = allShownCells ks
  | [] => rfl
  | [.text s] => rfl
  | [.elem n as ks] => by simp [addLast, allShownCells, shownCells]
  | [.comment s] => rfl
  | [.pi _ _] => rfl
  | a :: b :: l => by
    rw [addLast_two, allShownCells, allShown_addLast t (b :: l), ← allShownCells]

theorem content_after {u w : Str} {ks : List Xml} (hw : OptSpace w) (h : Grammar.Content u ks) :
    ∃ ls, Grammar.Content (u ++ w) ls ∧ allShownCells ls = allShownCells ks := by
  by_cases h0 : w = []
  · exact ⟨ks, by rwa [h0, List.append_nil], rfl⟩
  · match h with
    | .marked hm => exact ⟨_, .text hm (text_space hw h0), allShown_addLast _ _⟩
    | .text hm ht =>
      rw [List.append_assoc]
      exact ⟨_, .text hm (text_after ht hw), by rw [allShown_addLast, allShown_addLast]⟩

theorem nodesOf {a s b : Str} (ha : OptSpace a) (hb : OptSpace b) (h : WellFormedContent s) :
    ∃ ks, Grammar.Content (a ++ s ++ b) ks := by
  obtain ⟨-, ks, hk⟩ := h
  have : ∃ ls, Grammar.Content (a ++ s) ls := by
    by_cases h0 : a = []
    · exact ⟨ks, by rw [h0]; exact hk⟩
    · exact content_before ha h0 hk
  obtain ⟨ls, hl⟩ := this
  obtain ⟨ms, hm, -⟩ := content_after hb hl
  exact ⟨ms, hm⟩

/-! ## Attributes that are written as they are -/

def plainAttr (a : Str × Str) : Bool := isQName a.1 && !a.2.contains '"' && decodeAttr a.2 == some a.2

theorem attributes_text {s : Str} {as : List (Str × Str)} (h : Grammar.Attributes s as) : ∀ {bs : List (Str × Str)}, bs.all plainAttr = true →
    Grammar.Attributes (s ++ attrsText bs) (as ++ bs)
  | [], _ => by simpa [attrsText] using h
  | b :: bs, hb => by
    rw [List.all_cons, Bool.and_eq_true] at hb
    obtain ⟨h1, h2⟩ := hb
    unfold plainAttr at h1
    simp only [Bool.and_eq_true, Bool.not_eq_true', beq_iff_eq] at h1
    obtain ⟨⟨q1, q2⟩, q3⟩ := h1
    have q2' : '"' ∉ b.2 := by simpa using q2
    have := Grammar.Attributes.more (w := c!" ") (e₁ := []) (e₂ := []) (q := '"') h ⟨by simp, by intro c hc; simp at hc; subst hc; rfl⟩ q1
      (by intro c hc; cases hc) (by intro c hc; cases hc) (.inl rfl) q2' (decodeAttr_iff.1 q3)
    have r := attributes_text this h2
    have e1 : s ++ attrsText (b :: bs) = s ++ c!" " ++ b.1 ++ [] ++ c!"=" ++ [] ++ ['"'] ++ b.2 ++ ['"'] ++ attrsText bs := by
      simp [attrsText]
    have e2 : as ++ b :: bs = as ++ [(b.1, b.2)] ++ bs := by simp
    rw [e1, e2]
    exact r

theorem attributes_plain {bs : List (Str × Str)} (h : bs.all plainAttr = true) : Grammar.Attributes (attrsText bs) bs :=
  attributes_text .none h

/-! ## Texts that add cells -/

theorem cells_append {l l' : List (Str × Str)} {m m' : List (Str × List Xml)} (h : CellsShow l m) (h' : CellsShow l' m') :
    CellsShow (l ++ l') (m ++ m') := by
  induction h with
  | none => exact h'
  | more h1 _ ih => exact .more h1 ih

/-- After any content the text adds content with the given cells. -/
def Adds (t : Str) (l : List (Str × Str)) : Prop :=
  '\r' ∉ t ∧ ∀ u ks, Grammar.Content u ks → ∃ ks' m, Grammar.Content (u ++ t) ks' ∧ allShownCells ks' = allShownCells ks ++ m ∧ CellsShow l m

theorem Adds.nil : Adds [] [] := ⟨by simp, fun u ks h => ⟨ks, [], by rwa [List.append_nil], by simp, .none⟩⟩

theorem Adds.append {t t' : Str} {l l' : List (Str × Str)} (h : Adds t l) (h' : Adds t' l') : Adds (t ++ t') (l ++ l') := by
  refine ⟨by simp [h.1, h'.1], fun u ks hu => ?_⟩
  obtain ⟨k1, m1, a1, b1, c1⟩ := h.2 u ks hu
  obtain ⟨k2, m2, a2, b2, c2⟩ := h'.2 _ _ a1
  refine ⟨k2, m1 ++ m2, ?_, ?_, cells_append c1 c2⟩
  · rwa [← List.append_assoc]
  · rw [b2, b1, List.append_assoc]

theorem Adds.of {t t' : Str} {l l' : List (Str × Str)} (h : Adds t l) (e : t' = t) (e' : l' = l) : Adds t' l' := by
  subst e; subst e'; exact h

/-- Is the text white space without carriage return? -/
def blank (w : Str) : Bool := w.all fun c => isWs c && c != '\r'

theorem blank_iff {w : Str} (h : blank w = true) : OptSpace w ∧ '\r' ∉ w := by
  unfold blank at h
  simp only [List.all_eq_true, Bool.and_eq_true, bne_iff_ne] at h
  exact ⟨fun c hc => (h c hc).1, fun hm => (h _ hm).2 rfl⟩

theorem Adds.space {w : Str} (h : blank w = true) : Adds w [] := by
  obtain ⟨h1, h2⟩ := blank_iff h
  refine ⟨h2, fun u ks hu => ?_⟩
  obtain ⟨ls, a, b⟩ := content_after h1 hu
  exact ⟨ls, [], a, by rw [b, List.append_nil], .none⟩

/-- A start tag of the page. -/
def tagText (n : Str) (as : List (Str × Str)) : Str := c!"<" ++ n ++ attrsText as ++ c!">"

theorem Adds.element {e : Str} {x : Xml} {m : List (Str × List Xml)} {l : List (Str × Str)} (h0 : '\r' ∉ e) (h : Element e x)
    (hx : shownCells x = m) (hm : CellsShow l m) : Adds e l := by
  refine ⟨h0, fun u ks hu => ⟨_, m, .marked (.elem hu h), ?_, hm⟩⟩
  rw [allShown_append, allShownCells, hx, allShownCells, List.append_nil]

/-- The tag is one of the page. -/
def goodTag (n : Str) (as : List (Str × Str)) : Bool := isQName n && as.all plainAttr && (tagText n as).all (· != '\r')

theorem goodTag_iff {n : Str} {as : List (Str × Str)} (h : goodTag n as = true) :
    isQName n = true ∧ Grammar.Attributes (attrsText as) as ∧ '\r' ∉ tagText n as ∧ '\r' ∉ n := by
  unfold goodTag at h
  simp only [Bool.and_eq_true] at h
  obtain ⟨⟨h1, h2⟩, h3⟩ := h
  have h4 : '\r' ∉ tagText n as := by
    intro hm
    have := List.all_eq_true.1 h3 _ hm
    simp at this
  refine ⟨h1, attributes_plain h2, h4, fun hm => h4 ?_⟩
  unfold tagText
  simp [hm]

theorem element_of {n u : Str} {as : List (Str × Str)} {ks : List Xml} (hg : goodTag n as = true) (h : Grammar.Content u ks) :
    Element (tagText n as ++ u ++ (c!"</" ++ n ++ c!">")) (.elem n as ks) := by
  obtain ⟨h1, h2, -, -⟩ := goodTag_iff hg
  have := Element.full (w := []) (w' := []) h1 h2 optSpace_nil h optSpace_nil
  have e : tagText n as ++ u ++ (c!"</" ++ n ++ c!">") = c!"<" ++ n ++ attrsText as ++ [] ++ c!">" ++ u ++ c!"</" ++ n ++ [] ++ c!">" := by
    simp [tagText]
  rw [e]
  exact this

theorem Adds.elem {n t : Str} {as : List (Str × Str)} {l : List (Str × Str)} (hg : goodTag n as = true) (hn : n ∉ shownTags)
    (h : Adds t l) : Adds (tagText n as ++ t ++ (c!"</" ++ n ++ c!">")) l := by
  obtain ⟨h0, h⟩ := h
  obtain ⟨ks, m, h1, h2, h3⟩ := h [] [] (.marked .none)
  obtain ⟨-, -, g1, g2⟩ := goodTag_iff hg
  refine Adds.element ?_ (element_of hg h1) ?_ h3
  · simp [g1, g2, h0]
  · rw [shownCells, if_neg hn, h2]
    rfl

theorem Adds.empty {n : Str} {as : List (Str × Str)} (hg : goodTag n as = true) (hn : n ∉ shownTags) :
    Adds (c!"<" ++ n ++ attrsText as ++ c!"/>") [] := by
  obtain ⟨h1, h2, g1, -⟩ := goodTag_iff hg
  have := Element.empty (w := []) h1 h2 optSpace_nil
  rw [List.append_nil] at this
  refine Adds.element ?_ this ?_ .none
  · intro hm
    apply g1
    unfold tagText
    simp at hm ⊢
    exact hm
  · rw [shownCells, if_neg hn]
    rfl

theorem Adds.cell {n a s b : Str} {as : List (Str × Str)} (hg : goodTag n as = true) (hn : n ∈ shownTags) (ha : blank a = true)
    (hb : blank b = true) (hs : WellFormedContent s) :
    Adds (tagText n as ++ (a ++ s ++ b) ++ (c!"</" ++ n ++ c!">")) [(n, s)] := by
  obtain ⟨ha, a0⟩ := blank_iff ha
  obtain ⟨hb, b0⟩ := blank_iff hb
  obtain ⟨ks, hk⟩ := nodesOf ha hb hs
  obtain ⟨-, -, g1, g2⟩ := goodTag_iff hg
  refine Adds.element ?_ (element_of hg hk) (m := [(n, ks)]) ?_ (.more ⟨a, b, ha, hb, hk⟩ .none)
  · simp [g1, g2, a0, b0, hs.1]
  · rw [shownCells, if_pos hn]

/-- Text of the page itself. -/
def fixedText (t : Str) : Bool := (decodeText t).isSome && !t.contains '<' && !t.contains '\r' && !t.isEmpty

theorem content_fixed {t : Str} (h : fixedText t = true) : '\r' ∉ t ∧ ∃ v, Grammar.Content t [.text v] := by
  unfold fixedText at h
  simp only [Bool.and_eq_true, Bool.not_eq_true'] at h
  obtain ⟨⟨⟨h1, h2⟩, h3⟩, h4⟩ := h
  cases hd : decodeText t with
  | none => rw [hd] at h1; cases h1
  | some v =>
    have h2' : '<' ∉ t := by simpa using h2
    have h3' : '\r' ∉ t := by simpa using h3
    have h4' : t ≠ [] := by simpa using h4
    have := (decodeText_iff h4' h2').1 hd
    exact ⟨h3', v, Content.text (u := []) (ks := []) .none this⟩

theorem fixed_well {t : Str} (h : fixedText t = true) : WellFormedContent t := by
  obtain ⟨h1, v, h2⟩ := content_fixed h
  exact ⟨h1, _, h2⟩

theorem Adds.fixed {n t : Str} {as : List (Str × Str)} (hg : goodTag n as = true) (hn : n ∉ shownTags) (ht : fixedText t = true) :
    Adds (tagText n as ++ t ++ (c!"</" ++ n ++ c!">")) [] := by
  obtain ⟨h0, v, hv⟩ := content_fixed ht
  obtain ⟨-, -, g1, g2⟩ := goodTag_iff hg
  refine Adds.element ?_ (element_of hg hv) ?_ .none
  · simp [g1, g2, h0]
  · rw [shownCells, if_neg hn]
    rfl

end ReqIF.Page
