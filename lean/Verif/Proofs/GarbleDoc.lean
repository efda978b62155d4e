import Verif.Proofs.Garble
/-!
# Garbled documents

A garbled well-formed document with ASCII names is well-formed, and its tree is the garbled tree.
-/
set_option linter.unusedSimpArgs false
namespace ReqIF.Spec
open Grammar

/-! ## References, letters -/

theorem asciiRefs_append {a b : Str} (h : AsciiReferences (a ++ b)) : AsciiReferences a ∧ AsciiReferences b := by
  constructor
  · rintro r d hr ⟨x, y, rfl⟩
    exact h r d hr ⟨x, y ++ b, by simp⟩
  · rintro r d hr ⟨x, y, rfl⟩
    exact h r d hr ⟨a ++ x, y, by simp⟩

theorem digit_ascii {c : Char} {d : Nat} (h : Digit c d) : c.toNat < 128 := by
  have h2 : c.toNat ≤ '9'.toNat := h.2.1
  have : '9'.toNat = 57 := rfl
  omega

theorem hexDigit_ascii {c : Char} {d : Nat} (h : HexDigit c d) : c.toNat < 128 := by
  rcases h with h | ⟨_, h, _⟩ | ⟨_, h, _⟩
  · exact digit_ascii h
  · have h2 : c.toNat ≤ 'f'.toNat := h
    have : 'f'.toNat = 102 := rfl
    omega
  · have h2 : c.toNat ≤ 'F'.toNat := h
    have : 'F'.toNat = 70 := rfl
    omega

theorem ascii_append {a b : Str} : Ascii (a ++ b) ↔ Ascii a ∧ Ascii b := by
  constructor
  · exact fun h => ⟨fun c hc => h c (by simp [hc]), fun c hc => h c (by simp [hc])⟩
  · rintro ⟨h1, h2⟩ c hc
    rcases List.mem_append.1 hc with hc | hc
    · exact h1 c hc
    · exact h2 c hc

theorem ascii_cons {c : Char} {s : Str} : Ascii (c :: s) ↔ c.toNat < 128 ∧ Ascii s := by
  simp [Ascii]

instance (s : Str) : Decidable (Ascii s) := inferInstanceAs (Decidable (∀ c ∈ s, c.toNat < 128))

theorem reference_ascii {r : Str} {d : Char} (h : Reference r d) : Ascii r := by
  cases h with
  | amp => decide
  | lt => decide
  | gt => decide
  | quot => decide
  | apos => decide
  | dec hn _ =>
    rw [ascii_append, ascii_append]
    refine ⟨⟨by decide, fun c hc => ?_⟩, by decide⟩
    obtain ⟨e, he⟩ := numeral_chars hn c hc
    exact digit_ascii he
  | hex hn _ =>
    rw [ascii_append, ascii_append]
    refine ⟨⟨by decide, fun c hc => ?_⟩, by decide⟩
    obtain ⟨e, he⟩ := numeral_chars hn c hc
    exact hexDigit_ascii he

theorem letters_high {lit : Char → Char → Prop} : ∀ {l s t : Str}, (∀ c ∈ l, c ≠ '&' ∧ lit c c) → Letters lit s t → Letters lit (l ++ s) (l ++ t)
  | [], _, _, _, h => h
  | c :: l, _, _, hl, h => .char (hl c (by simp)).1 (hl c (by simp)).2 (letters_high (fun d hd => hl d (by simp [hd])) h)

theorem letters_garbled {lit : Char → Char → Prop} (h1 : ∀ c d, lit c d → c.toNat < 128 → d.toNat < 128)
    (h2 : ∀ c d, lit c d → 128 ≤ c.toNat → d = c) (h3 : ∀ c, 128 ≤ c.toNat → c.toNat < 256 → lit c c) {s t : Str} (h : Letters lit s t) :
    AsciiReferences s → Letters lit (garbled s) (garbled t) := by
  induction h with
  | none => intro; exact .none
  | @char c d s t hc hl _ ih =>
    intro hr
    have ih := ih (asciiRefs_append (a := [c]) hr).2
    by_cases hx : c.toNat < 128
    · rw [garbled_consAscii hx, garbled_consAscii (h1 c d hl hx)]
      exact .char hc hl ih
    · have hx := Nat.le_of_not_lt hx
      cases h2 c d hl hx
      rw [garbled_cons, garbled_cons]
      refine letters_high ?_ ih
      intro e he
      have hh := (garbledChar_high hx).1 e he
      refine ⟨?_, h3 e hh.1 hh.2⟩
      rintro rfl
      exact absurd hh.1 (by decide)
  | @ref r d s t hr _ ih =>
    intro ha
    have ih := ih (asciiRefs_append ha).2
    rw [garbled_append, garbled_ascii (reference_ascii hr), garbled_consAscii (ha r d hr ⟨[], s, rfl⟩)]
    exact .ref hr ih

theorem high_ne {c x : Char} (h : 128 ≤ c.toNat) (hx : x.toNat < 128) : c ≠ x := by
  rintro rfl; omega

theorem textLetters_garbled {s t : Str} (h : Letters TextChar s t) (hr : AsciiReferences s) : Letters TextChar (garbled s) (garbled t) := by
  refine letters_garbled ?_ ?_ ?_ h hr
  · rintro c d ⟨_, _, rfl⟩ h; exact h
  · rintro c d ⟨_, _, rfl⟩ _; rfl
  · intro c h1 h2; exact ⟨(high_char h1 h2).1, high_ne h1 (by decide), rfl⟩

theorem attrLetters_garbled {s t : Str} (h : Letters AttrChar s t) (hr : AsciiReferences s) : Letters AttrChar (garbled s) (garbled t) := by
  refine letters_garbled ?_ ?_ ?_ h hr
  · rintro c d ⟨_, _, rfl⟩ h
    split
    · decide
    · exact h
  · rintro c d ⟨_, _, rfl⟩ h
    rw [if_neg]
    intro hw
    have := isWs_ascii hw
    omega
  · intro c h1 h2
    refine ⟨(high_char h1 h2).1, high_ne h1 (by decide), ?_⟩
    rw [(high_char h1 h2).2]
    rfl

theorem garbled_ne_nil {s : Str} (h : s ≠ []) : garbled s ≠ [] := by
  intro e
  have := (garbled_length s).1
  rw [e] at this
  simp at this
  exact h this

theorem text_garbled {raw t : Str} (h : Text raw t) (hr : AsciiReferences raw) : Text (garbled raw) (garbled t) := by
  obtain ⟨h1, h2, h3, h4⟩ := h
  refine ⟨garbled_ne_nil h1, ?_, ?_, textLetters_garbled h4 hr⟩
  · rw [mem_garbled (by decide)]; exact h2
  · rw [has_garbled (by decide)]; exact h3

/-! ## Trees of the grammar -/

def garbledPairs (as : List (Str × Str)) : List (Str × Str) := as.map (fun a => (a.1, garbled a.2))

mutual
def garbledXml : Xml → Xml
  | .elem n as ks => .elem n (garbledPairs as) (garbledXmls ks)
  | .text s => .text (garbled s)
  | .comment s => .comment (garbled s)
  | .pi t d => .pi t (garbled d)
def garbledXmls : List Xml → List Xml
  | [] => []
  | x :: xs => garbledXml x :: garbledXmls xs
end

mutual
def xmlNames : Xml → List Str
  | .elem n as ks => n :: as.map (·.1) ++ xmlsNames ks
  | .pi t _ => [t]
  | _ => []
def xmlsNames : List Xml → List Str
  | [] => []
  | x :: xs => xmlNames x ++ xmlsNames xs
end

theorem garbledXmls_append : ∀ (a b : List Xml), garbledXmls (a ++ b) = garbledXmls a ++ garbledXmls b
  | [], _ => rfl
  | x :: a, b => by simp [garbledXmls, garbledXmls_append a b]

theorem xmlsNames_append : ∀ (a b : List Xml), xmlsNames (a ++ b) = xmlsNames a ++ xmlsNames b
  | [], _ => rfl
  | x :: a, b => by simp [xmlsNames, xmlsNames_append a b]

theorem garbledXmls_addLast (t : Str) : ∀ (ks : List Xml), garbledXmls (addLast t ks) = addLast (garbled t) (garbledXmls ks)
  | [] => rfl
  | [.text s] => by simp [addLast, garbledXmls, garbledXml, garbled_append]
  | [.elem n as l] => by simp [addLast, garbledXmls, garbledXml]
  | [.comment s] => by simp [addLast, garbledXmls, garbledXml]
  | [.pi s d] => by simp [addLast, garbledXmls, garbledXml]
  | x :: y :: ks => by
    have ih := garbledXmls_addLast t (y :: ks)
    simp only [addLast, garbledXmls] at ih ⊢
    rw [ih, addLast.eq_3 (garbled t) (garbledXml x) (garbledXml y :: garbledXmls ks) (by intro s _ h; cases h)]

theorem xmlsNames_addLast (t : Str) : ∀ (ks : List Xml), xmlsNames (addLast t ks) = xmlsNames ks
  | [] => rfl
  | [.text s] => by simp [addLast, xmlsNames, xmlNames]
  | [.elem n as l] => by simp [addLast, xmlsNames, xmlNames]
  | [.comment s] => by simp [addLast, xmlsNames, xmlNames]
  | [.pi s d] => by simp [addLast, xmlsNames, xmlNames]
  | x :: y :: ks => by
    have ih := xmlsNames_addLast t (y :: ks)
    simp only [addLast, xmlsNames] at ih ⊢
    rw [ih]

def AllAscii (l : List Str) : Prop := ∀ n ∈ l, Ascii n

theorem allAscii_append {a b : List Str} : AllAscii (a ++ b) ↔ AllAscii a ∧ AllAscii b := by
  constructor
  · exact fun h => ⟨fun c hc => h c (by simp [hc]), fun c hc => h c (by simp [hc])⟩
  · rintro ⟨h1, h2⟩ c hc
    rcases List.mem_append.1 hc with hc | hc
    · exact h1 c hc
    · exact h2 c hc

theorem quote_ascii {q : Char} (h : q = '"' ∨ q = '\'') : q.toNat < 128 := by
  rcases h with rfl | rfl <;> decide

theorem garbled_one {c : Char} (h : c.toNat < 128) : garbled [c] = [c] := garbled_ascii (by intro d hd; simp at hd; subst hd; exact h)

theorem attributes_garbled {s : Str} {as : List (Str × Str)} (h : Grammar.Attributes s as) : AllAscii (as.map (·.1)) → AsciiReferences s →
    Grammar.Attributes (garbled s) (garbledPairs as) := by
  induction h with
  | none => intro _ _; exact .none
  | @more s as w n e₁ e₂ raw v q _ hw hn he1 he2 hq hraw hl ih =>
    intro hnames hr
    rw [List.map_append, allAscii_append] at hnames
    have hn' : Ascii n := hnames.2 n (by simp)
    have r1 := (asciiRefs_append hr).1
    have r2 := (asciiRefs_append r1).2
    have r3 := (asciiRefs_append (asciiRefs_append (asciiRefs_append (asciiRefs_append (asciiRefs_append (asciiRefs_append (asciiRefs_append r1).1).1).1).1).1).1).1
    have ih := ih hnames.1 r3
    simp only [garbled_append, garbled_space hw.2, garbled_ascii hn', garbled_space he1, garbled_space he2, garbled_one (quote_ascii hq)]
    have e : garbledPairs (as ++ [(n, v)]) = garbledPairs as ++ [(n, garbled v)] := by simp [garbledPairs]
    rw [e, garbled_ascii (s := c!"=") (by decide)]
    exact .more ih hw hn he1 he2 hq (by rw [mem_garbled (quote_ascii hq)]; exact hraw) (attrLetters_garbled hl r2)

theorem comment_garbled {s b : Str} (h : Comment s b) : Comment (garbled s) (garbled b) := by
  obtain ⟨rfl, h1, h2⟩ := h
  refine ⟨by rw [garbled_append, garbled_append]; rfl, garbled_xmlChars h1, ?_⟩
  have e : garbled b ++ c!"-" = garbled (b ++ c!"-") := by rw [garbled_append]; rfl
  rw [e, has_garbled (by decide)]
  exact h2

theorem inst_garbled {s t d : Str} (h : Instruction s t d) (ht : Ascii t) : Instruction (garbled s) t (garbled d) := by
  obtain ⟨w, body, rfl, rfl, h1, h2, h3, h4, h5, h6, h7⟩ := h
  have e : garbled (t ++ w ++ d) = t ++ w ++ garbled d := by rw [garbled_append, garbled_append, garbled_ascii ht, garbled_space h1]
  refine ⟨w, t ++ w ++ garbled d, ?_, rfl, h1, ?_, ?_, h4, h5, garbled_xmlChars h6, ?_⟩
  · rw [garbled_append, garbled_append, e]; rfl
  · intro hw; rw [h2 hw]; rfl
  · intro c hc
    cases d with
    | nil => cases hc
    | cons x d =>
      have hx := h3 x rfl
      by_cases hxa : x.toNat < 128
      · rw [garbled_consAscii hxa] at hc
        cases hc
        exact hx
      · have hh := garbledChar_high (Nat.le_of_not_lt hxa)
        rw [garbled_cons] at hc
        cases hg : garbledChar x with
        | nil => rw [hg] at hh; simp at hh
        | cons y l =>
          rw [hg] at hc hh
          cases hc
          have := hh.1 c (by simp)
          exact (high_char this.1 this.2).2
  · rw [← e, has_garbled (by decide)]; exact h7

theorem cdata_garbled {s b : Str} (h : CData s b) : CData (garbled s) (garbled b) := by
  obtain ⟨rfl, h1, h2⟩ := h
  refine ⟨by rw [garbled_append, garbled_append]; rfl, garbled_xmlChars h1, ?_⟩
  rw [has_garbled (by decide)]
  exact h2

mutual
theorem element_garbled {s : Str} {x : Xml} (h : Element s x) (hn : AllAscii (xmlNames x)) (hr : AsciiReferences s) : Element (garbled s) (garbledXml x) := by
  match h with
  | .empty (n := n) (s := s) (w := w) (as := as) h1 h2 h3 =>
    simp only [xmlNames] at hn
    have hn0 : Ascii n := hn n (by simp)
    have hna : AllAscii (as.map (·.1)) := fun m hm => hn m (by simp only [List.mem_append, List.mem_cons]; exact .inl (.inr hm))
    have r1 := (asciiRefs_append (asciiRefs_append (asciiRefs_append hr).1).1).2
    have h2' := attributes_garbled h2 hna r1
    simp only [garbled_append, garbled_ascii hn0, garbled_space h3]
    rw [garbled_ascii (s := c!"<") (by decide), garbled_ascii (s := c!"/>") (by decide)]
    exact .empty h1 h2' h3
  | .full (n := n) (s := s) (w := w) (u := u) (w' := w') (as := as) (ks := ks) h1 h2 h3 h4 h5 =>
    simp only [xmlNames] at hn
    have hn0 : Ascii n := hn n (by simp)
    have hna : AllAscii (as.map (·.1)) := fun m hm => hn m (by simp only [List.mem_append, List.mem_cons]; exact .inl (.inr hm))
    have hnk : AllAscii (xmlsNames ks) := fun m hm => hn m (by simp [hm])
    have r1 := (asciiRefs_append (asciiRefs_append (asciiRefs_append (asciiRefs_append hr).1).1).1).1
    have ru := (asciiRefs_append r1).2
    have rs := (asciiRefs_append (asciiRefs_append (asciiRefs_append (asciiRefs_append r1).1).1).1).2
    have h2' := attributes_garbled h2 hna rs
    have h4' := content_garbled h4 hnk ru
    simp only [garbled_append, garbled_ascii hn0, garbled_space h3, garbled_space h5]
    rw [garbled_ascii (s := c!"<") (by decide), garbled_ascii (s := c!">") (by decide), garbled_ascii (s := c!"</") (by decide)]
    exact .full h1 h2' h3 h4' h5

theorem marked_garbled {s : Str} {ks : List Xml} (h : Marked s ks) (hn : AllAscii (xmlsNames ks)) (hr : AsciiReferences s) :
    Marked (garbled s) (garbledXmls ks) := by
  match h with
  | .none => exact .none
  | .elem (u := u) (ks := l) (x := x) h1 h2 =>
    rw [xmlsNames_append, allAscii_append] at hn
    obtain ⟨r1, r2⟩ := asciiRefs_append hr
    rw [garbled_append, garbledXmls_append]
    exact .elem (content_garbled h1 hn.1 r1) (element_garbled h2 (by simpa [xmlsNames] using hn.2) r2)
  | .comment h1 h2 =>
    rw [xmlsNames_append, allAscii_append] at hn
    obtain ⟨r1, r2⟩ := asciiRefs_append hr
    rw [garbled_append, garbledXmls_append]
    exact .comment (content_garbled h1 hn.1 r1) (comment_garbled h2)
  | .inst (t := t) h1 h2 =>
    rw [xmlsNames_append, allAscii_append] at hn
    obtain ⟨r1, r2⟩ := asciiRefs_append hr
    rw [garbled_append, garbledXmls_append]
    exact .inst (content_garbled h1 hn.1 r1) (inst_garbled h2 (hn.2 t (by simp [xmlsNames, xmlNames])))
  | .cdata h1 h2 =>
    rw [xmlsNames_addLast] at hn
    obtain ⟨r1, r2⟩ := asciiRefs_append hr
    rw [garbled_append, garbledXmls_addLast]
    exact .cdata (content_garbled h1 hn r1) (cdata_garbled h2)

theorem content_garbled {s : Str} {ks : List Xml} (h : Grammar.Content s ks) (hn : AllAscii (xmlsNames ks)) (hr : AsciiReferences s) :
    Grammar.Content (garbled s) (garbledXmls ks) := by
  match h with
  | .marked h1 => exact .marked (marked_garbled h1 hn hr)
  | .text h1 h2 =>
    rw [xmlsNames_addLast] at hn
    obtain ⟨r1, r2⟩ := asciiRefs_append hr
    rw [garbled_append, garbledXmls_addLast]
    exact .text (marked_garbled h1 hn r1) (text_garbled h2 r2)
end

theorem misc_garbled {s : Str} {ks : List Xml} (h : Misc s ks) : AllAscii (xmlsNames ks) → Misc (garbled s) (garbledXmls ks) := by
  induction h with
  | none => intro; exact .none
  | @space u ks c _ hc ih =>
    intro hn
    rw [garbled_append, garbled_one (isWs_ascii hc)]
    exact .space (ih hn) hc
  | comment _ hc ih =>
    intro hn
    rw [xmlsNames_append, allAscii_append] at hn
    rw [garbled_append, garbledXmls_append]
    exact .comment (ih hn.1) (comment_garbled hc)
  | @inst _ _ t _ _ _ hc ih =>
    intro hn
    rw [xmlsNames_append, allAscii_append] at hn
    rw [garbled_append, garbledXmls_append]
    exact .inst (ih hn.1) (inst_garbled hc (hn.2 t (by simp [xmlsNames, xmlNames])))

/-! ## Declarations, documents, files -/

theorem letter_ascii {c : Char} (h : Letter c) : c.toNat < 128 := by
  rcases h with ⟨_, h⟩ | ⟨_, h⟩
  · have h2 : c.toNat ≤ 'z'.toNat := h
    have : 'z'.toNat = 122 := rfl
    omega
  · have h2 : c.toNat ≤ 'Z'.toNat := h
    have : 'Z'.toNat = 90 := rfl
    omega

theorem digits_ascii {c : Char} (h : '0' ≤ c ∧ c ≤ '9') : c.toNat < 128 := by
  have h2 : c.toNat ≤ '9'.toNat := h.2
  have : '9'.toNat = 57 := rfl
  omega

theorem pseudo_ascii {s n v : Str} (h : Pseudo s n v) (hn : Ascii n) (hv : Ascii v) : Ascii s := by
  obtain ⟨w, e₁, e₂, q, rfl, hw, h1, h2, hq⟩ := h
  have hq' : Ascii [q] := by intro d hd; simp at hd; subst hd; exact quote_ascii hq
  simp only [ascii_append]
  exact ⟨⟨⟨⟨⟨⟨⟨space_ascii hw.2, hn⟩, space_ascii h1⟩, by decide⟩, space_ascii h2⟩, hq'⟩, hv⟩, hq'⟩

theorem encName_ascii {n : Str} (h : EncName n) : Ascii n := by
  obtain ⟨c, r, rfl, hc, hr⟩ := h
  rw [ascii_cons]
  refine ⟨letter_ascii hc, fun d hd => ?_⟩
  rcases hr d hd with h | h | rfl | rfl | rfl
  · exact letter_ascii h
  · exact digits_ascii h
  · decide
  · decide
  · decide

theorem declaration_ascii {s : Str} {enc : Option Str} (h : Declaration s enc) : Ascii s := by
  obtain ⟨v, e, a, w, version, rfl, hv, hver, he, ha, hw⟩ := h
  simp only [ascii_append]
  have hver' : Ascii version := by
    obtain ⟨d, rfl, _, hd⟩ := hver
    rw [ascii_append]
    exact ⟨by decide, fun c hc => digits_ascii (hd c hc)⟩
  have he' : Ascii e := by
    rcases he with ⟨_, rfl⟩ | ⟨n, _, hp, hn⟩
    · exact fun c hc => by cases hc
    · exact pseudo_ascii hp (by decide) (encName_ascii hn)
  have ha' : Ascii a := by
    rcases ha with rfl | hp | hp
    · exact fun c hc => by cases hc
    · exact pseudo_ascii hp (by decide) (by decide)
    · exact pseudo_ascii hp (by decide) (by decide)
  exact ⟨⟨⟨⟨⟨by decide, pseudo_ascii hv (by decide) hver'⟩, he'⟩, ha'⟩, space_ascii hw⟩, by decide⟩

theorem document_garbled {s : Str} {decl : Option (Option Str)} {ks : List Xml} (h : Document s decl ks) (hn : AllAscii (xmlsNames ks))
    (hr : AsciiReferences s) : Document (garbled s) decl (garbledXmls ks) := by
  obtain ⟨h0, a, e, b, k₁, x, k₂, rfl, hd, hm1, he, hm2, rfl⟩ := h
  rw [xmlsNames_append, allAscii_append] at hn
  have hn2 := hn.2
  simp only [xmlsNames] at hn2
  rw [allAscii_append] at hn2
  have r1 := (asciiRefs_append (asciiRefs_append hr).1).2
  have hg : garbled h0 = h0 := by
    rcases hd with ⟨_, rfl⟩ | ⟨enc, _, hd⟩
    · rfl
    · exact garbled_ascii (declaration_ascii hd)
  refine ⟨h0, garbled a, garbled e, garbled b, garbledXmls k₁, garbledXml x, garbledXmls k₂, ?_, hd, misc_garbled hm1 hn.1,
    element_garbled he hn2.1 r1, misc_garbled hm2 hn2.2, ?_⟩
  · simp only [garbled_append, hg]
  · rw [garbledXmls_append]; rfl

theorem lines_high : ∀ {l s t : Str}, (∀ c ∈ l, c ≠ '\r') → Lines s t → Lines (l ++ s) (l ++ t)
  | [], _, _, _, h => h
  | c :: l, _, _, hl, h => .other (hl c (by simp)) (lines_high (fun d hd => hl d (by simp [hd])) h)

theorem garbled_head {s : Str} {x : Char} (hx : x.toNat < 128) (h : s.head? ≠ some x) : (garbled s).head? ≠ some x := by
  intro e
  cases hs : garbled s with
  | nil => rw [hs] at e; cases e
  | cons y l =>
    rw [hs] at e
    cases e
    have hp : Ascii [x] := by intro d hd; simp at hd; subst hd; exact hx
    obtain ⟨s', rfl, _⟩ := garbled_prefix (p := [x]) (r := l) hp hs
    exact h rfl

theorem lines_garbled {s t : Str} (h : Lines s t) : Lines (garbled s) (garbled t) := by
  induction h with
  | none => exact .none
  | crlf _ ih =>
    rw [garbled_consAscii (by decide), garbled_consAscii (by decide), garbled_consAscii (by decide)]
    exact .crlf ih
  | cr hs _ ih =>
    rw [garbled_consAscii (by decide), garbled_consAscii (by decide)]
    exact .cr (garbled_head (by decide) hs) ih
  | @other c s t hc _ ih =>
    rw [garbled_cons, garbled_cons]
    refine lines_high ?_ ih
    intro d hd
    by_cases h : c.toNat < 128
    · rw [garbledChar_ascii h] at hd
      simp at hd; subst hd; exact hc
    · have := (garbledChar_high (Nat.le_of_not_lt h)).1 d hd
      exact high_ne this.1 (by decide)

theorem normEol_garbled (s : Str) : normEol (garbled s) = garbled (normEol s) :=
  lines_iff.1 (lines_garbled (lines_iff.2 rfl))

/-! ## Namespaces -/

theorem garbledDecls_mem {m : List (Option Str × Str)} {p : Option Str} {v : Str} : (p, v) ∈ garbledDecls m ↔ ∃ u, v = garbled u ∧ (p, u) ∈ m := by
  simp only [garbledDecls, List.mem_map, Prod.mk.injEq]
  constructor
  · rintro ⟨⟨q, u⟩, h, rfl, rfl⟩; exact ⟨u, rfl, h⟩
  · rintro ⟨u, rfl, h⟩; exact ⟨(p, u), h, rfl, rfl⟩

theorem sorted_garbled {attrs bs : List (Str × Str)} {ds : List (Option Str × Str)} (h : Sorted attrs ds bs) :
    Sorted (garbledPairs attrs) (garbledDecls ds) (garbledPairs bs) := by
  induction h with
  | none => exact .none
  | decl h _ ih => exact .decl h ih
  | other h _ ih => exact .other h ih

theorem garbled_fixed {u v : Str} (hv : Ascii v) : garbled u = v ↔ u = v := by
  constructor
  · intro h
    rw [← garbled_ascii hv] at h
    exact garbled_inj h
  · rintro rfl; exact garbled_ascii hv

theorem allowed_garbled {d : Option Str × Str} (h : Allowed d) : Allowed (d.1, garbled d.2) := by
  obtain ⟨h1, h2, h3, h4⟩ := h
  refine ⟨h1, ?_, ?_, ?_⟩
  · intro e; exact h2 ((garbled_fixed (by decide)).1 e)
  · show d.1 = _ ↔ garbled d.2 = xmlUri
    rw [garbled_fixed (by decide)]
    exact h3
  · intro e; exact h4 ((garbled_fixed (v := []) (by decide)).1 e)

theorem bound_garbled {m : List (Option Str × Str)} {p u : Str} (h : Bound m p u) : Bound (garbledDecls m) p (garbled u) := by
  rcases h with ⟨rfl, rfl⟩ | ⟨h1, h2⟩
  · exact .inl ⟨rfl, garbled_ascii (by decide)⟩
  · exact .inr ⟨h1, garbledDecls_mem.2 ⟨u, rfl, h2⟩⟩

theorem elemName_garbled {m : List (Option Str × Str)} {n l : Str} {ns pfx : Option Str} (h : ElemName m n ns pfx l) :
    ElemName (garbledDecls m) n (ns.map garbled) pfx l := by
  cases h with
  | free h1 h2 =>
    refine .free h1 ?_
    intro u hu
    obtain ⟨v, rfl, hv⟩ := garbledDecls_mem.1 hu
    rw [h2 v hv]; rfl
  | default h1 h2 h3 => exact .default h1 (garbledDecls_mem.2 ⟨_, rfl, h2⟩) (garbled_ne_nil h3)
  | prefixed h1 h2 => exact .prefixed h1 (bound_garbled h2)

theorem attrName_garbled {m : List (Option Str × Str)} {n l : Str} {ns pfx : Option Str} (h : AttrName m n ns pfx l) :
    AttrName (garbledDecls m) n (ns.map garbled) pfx l := by
  cases h with
  | free h1 => exact .free h1
  | prefixed h1 h2 => exact .prefixed h1 (bound_garbled h2)

theorem attrNames_garbled {m : List (Option Str × Str)} {as : List (Str × Str)} {xs : List Attr} (h : AttrNames m as xs) :
    AttrNames (garbledDecls m) (garbledPairs as) (xs.map garbledAttr) := by
  induction h with
  | none => exact .none
  | more h _ ih => exact .more (attrName_garbled h) ih

theorem inside_garbled (own m : List (Option Str × Str)) : inside (garbledDecls own) (garbledDecls m) = garbledDecls (inside own m) := by
  simp only [inside, garbledDecls, List.map_append, List.filter_map, List.map_map]
  congr 1

theorem filter_garbled (f : Option Str → Bool) (ds : List (Option Str × Str)) :
    (garbledDecls ds).filter (fun d => f d.1) = garbledDecls (ds.filter (fun d => f d.1)) := by
  simp only [garbledDecls, List.filter_map]
  rfl

theorem nodup_garbled {xs : List Attr} (h : (xs.map (fun a => (a.ns, a.name))).Nodup) : ((xs.map garbledAttr).map (fun a => (a.ns, a.name))).Nodup := by
  rw [List.map_map]
  have e : ((fun a : Attr => (a.ns, a.name)) ∘ garbledAttr) = (fun p : Option Str × Str => (p.1.map garbled, p.2)) ∘ (fun a : Attr => (a.ns, a.name)) := rfl
  rw [e, ← List.map_map]
  refine List.Pairwise.map _ ?_ h
  rintro ⟨a, n⟩ ⟨b, m⟩ hne e
  apply hne
  simp only [Prod.mk.injEq] at e ⊢
  refine ⟨?_, e.2⟩
  cases a <;> cases b <;> simp at e ⊢
  exact garbled_inj e.1

mutual
theorem named_garbled {m : List (Option Str × Str)} {x : Xml} {n : Node} (h : Named m x n) : Named (garbledDecls m) (garbledXml x) (garbledNode n) := by
  match h with
  | .elem (ds := ds) (attrs := attrs) h1 h2 h3 h4 h5 h6 h7 =>
    simp only [garbledXml, garbledNode, garbledInfo]
    have e := filter_garbled (fun p => p != some c!"xml") ds
    have ei := inside_garbled (ds.filter (fun d => d.1 != some c!"xml")) m
    rw [← e] at ei
    have k4 := elemName_garbled h4
    have k5 := attrNames_garbled h5
    have k7 := namedAll_garbled h7
    rw [← ei] at k4 k5 k7
    rw [← ei, ← e]
    refine .elem ?_ (sorted_garbled h2) ?_ k4 k5 (nodup_garbled h6) k7
    · rw [garbledPairs, List.map_map]; exact h1
    · intro d hd
      obtain ⟨d', hd', rfl⟩ := List.mem_map.1 hd
      exact allowed_garbled (h3 d' hd')
  | .text => exact .text
  | .comment => exact .comment
  | .inst => exact .inst
theorem namedAll_garbled {m : List (Option Str × Str)} {xs : List Xml} {ns : List Node} (h : NamedAll m xs ns) :
    NamedAll (garbledDecls m) (garbledXmls xs) (garbledNodes ns) := by
  match h with
  | .none => exact .none
  | .more h1 h2 => exact .more (named_garbled h1) (namedAll_garbled h2)
end

/-! ## The names of the text are those of the tree -/

theorem sorted_names {attrs bs : List (Str × Str)} {ds : List (Option Str × Str)} (h : Sorted attrs ds bs)
    (hd : AllAscii ((ds.filter (fun d => d.1 != some c!"xml")).filterMap (·.1))) (hb : AllAscii (bs.map (·.1))) : AllAscii (attrs.map (·.1)) := by
  induction h with
  | none => exact fun c hc => by cases hc
  | @decl n u p as bs ds hn _ ih =>
    have hd' : AllAscii ((ds.filter (fun d => d.1 != some c!"xml")).filterMap (·.1)) := by
      intro q hq
      apply hd
      rw [List.filter_cons]
      split
      · cases p <;> simp [hq] at hq ⊢ <;> (try exact .inr hq) <;> exact hq
      · exact hq
    intro q hq
    rcases List.mem_cons.1 hq with rfl | hq'
    · cases hn with
      | default => show Ascii c!"xmlns"; decide
      | @prefixed p =>
        show Ascii (c!"xmlns:" ++ p)
        rw [ascii_append]
        refine ⟨by decide, ?_⟩
        by_cases hx : p = c!"xml"
        · rw [hx]; decide
        · apply hd
          rw [List.filter_cons_of_pos (by simp [hx])]
          simp
    · exact ih hd' hb q hq'
  | other _ _ ih =>
    intro q hq
    rcases List.mem_cons.1 hq with rfl | hq'
    · exact hb _ (by simp)
    · exact ih hd (fun c hc => hb c (by simp only [List.map_cons, List.mem_cons]; exact .inr hc)) q hq'

theorem attrNames_names {m : List (Option Str × Str)} {as : List (Str × Str)} {xs : List Attr} (h : AttrNames m as xs)
    (hx : AllAscii (xs.flatMap (fun a => a.name :: a.pfx.toList))) : AllAscii (as.map (·.1)) := by
  induction h with
  | none => exact fun c hc => by cases hc
  | more h _ ih =>
    rw [List.flatMap_cons, allAscii_append] at hx
    intro q hq
    rcases List.mem_cons.1 hq with rfl | hq'
    · cases h with
      | free _ => exact hx.1 _ (by simp)
      | prefixed _ _ =>
        show Ascii (_ ++ c!":" ++ _)
        rw [ascii_append, ascii_append]
        exact ⟨⟨hx.1 _ (by simp), by decide⟩, hx.1 _ (by simp)⟩
    · exact ih hx.2 q hq'

mutual
theorem named_names {m : List (Option Str × Str)} {x : Xml} {n : Node} (h : Named m x n) (hn : AllAscii (nodeNames n)) : AllAscii (xmlNames x) := by
  match h with
  | .elem (ds := ds) (attrs := attrs) (name := name) h1 h2 h3 h4 h5 h6 h7 =>
    simp only [nodeNames, infoNames] at hn
    rw [allAscii_append, allAscii_append, allAscii_append] at hn
    obtain ⟨⟨⟨k1, k2⟩, k3⟩, k4⟩ := hn
    simp only [xmlNames]
    rw [allAscii_append]
    refine ⟨?_, namedAll_names h7 k4⟩
    intro q hq
    rcases List.mem_cons.1 hq with rfl | hq'
    · cases h4 with
      | free _ _ => exact k1 _ (by simp)
      | default _ _ _ => exact k1 _ (by simp)
      | prefixed _ _ =>
        rw [ascii_append, ascii_append]
        exact ⟨⟨k1 _ (by simp), by decide⟩, k1 _ (by simp)⟩
    · exact sorted_names h2 k3 (attrNames_names h5 k2) q hq'
  | .text => exact fun c hc => by cases hc
  | .comment => exact fun c hc => by cases hc
  | .inst => exact hn
theorem namedAll_names {m : List (Option Str × Str)} {xs : List Xml} {ns : List Node} (h : NamedAll m xs ns) (hn : AllAscii (nodesNames ns)) :
    AllAscii (xmlsNames xs) := by
  match h with
  | .none => exact fun c hc => by cases hc
  | .more h1 h2 =>
    simp only [nodesNames] at hn
    rw [allAscii_append] at hn
    simp only [xmlsNames]
    rw [allAscii_append]
    exact ⟨named_names h1 hn.1, namedAll_names h2 hn.2⟩
end

end ReqIF.Spec
