import Verif.Model.Escape
import Verif.Spec.Escape
import Verif.Proofs.ReadDoc
/-! Lemmas on escaping. -/
namespace ReqIF
open Spec

theorem lxmlEscape_eq (s : Str) : lxmlEscapeForHtml s = escape s := by
  simp only [lxmlEscapeForHtml, replaceChar_eq_flatMap, List.flatMap_assoc, escape]
  congr 1; funext c
  unfold escChar
  by_cases h1 : c = '&'; · subst h1; rfl
  by_cases h2 : c = '<'; · subst h2; rfl
  by_cases h3 : c = '>'; · subst h3; rfl
  by_cases h4 : c = '"'; · subst h4; rfl
  by_cases h5 : c = '\''; · subst h5; rfl
  by_cases h6 : c = Char.ofNat 0xA0; · subst h6; rfl
  by_cases h7 : c = '\t'; · subst h7; rfl
  simp [h1, h2, h3, h4, h5, h6, h7]

/-- The table of `html.escape`. -/
def htmlEscChar (c : Char) : Str :=
  if c = '&' then c!"&amp;"
  else if c = '<' then c!"&lt;"
  else if c = '>' then c!"&gt;"
  else if c = '"' then c!"&quot;"
  else if c = '\'' then c!"&#x27;"
  else [c]

theorem htmlEscape_eq (s : Str) : htmlEscape s = s.flatMap htmlEscChar := by
  simp only [htmlEscape, replaceChar_eq_flatMap, List.flatMap_assoc]
  congr 1; funext c
  unfold htmlEscChar
  by_cases h1 : c = '&'; · subst h1; rfl
  by_cases h2 : c = '<'; · subst h2; rfl
  by_cases h3 : c = '>'; · subst h3; rfl
  by_cases h4 : c = '"'; · subst h4; rfl
  by_cases h5 : c = '\''; · subst h5; rfl
  simp [h1, h2, h3, h4, h5]

/-- Replacing characters one by one, `none` if one is refused. -/
def mapChars (g : Char → Option Char) : Str → Option Str
  | [] => some []
  | c :: s =>
    match g c with
    | none => none
    | some d => (mapChars g s).map (d :: ·)

/-- Decoding undoes an encoding character by character. -/
theorem decodeGo_flatMap (lit : Char → Option Char) (e : Char → Str) (g : Char → Option Char)
    (h : ∀ c rest, decodeGo lit none (e c ++ rest) =
      match g c with
      | none => none
      | some d => (decodeGo lit none rest).map (d :: ·)) (s : Str) :
    decodeGo lit none (s.flatMap e) = mapChars g s := by
  induction s with
  | nil => rfl
  | cons c s ih => rw [List.flatMap_cons, h, mapChars, ih]

theorem decodeGo_lit (lit : Char → Option Char) (c : Char) (hc : c ≠ '&') (rest : Str) :
    decodeGo lit none ([c] ++ rest) =
      match lit c with
      | none => none
      | some d => (decodeGo lit none rest).map (d :: ·) := by
  simp only [List.cons_append, List.nil_append, decodeGo, if_neg hc]
  cases lit c <;> rfl

/-- What an XML reader makes of a character of escaped text. -/
def textBack (c : Char) : Option Char := if isXmlChar c then some c else none

/-- What an XML reader makes of a character of an attribute value escaped with `lxml_escape_for_html`. -/
def attrBack (c : Char) : Option Char :=
  if isXmlChar c then (if c = '\n' ∨ c = '\r' then some ' ' else some c) else none

/-- The same for `html.escape`. -/
def attrBackHtml (c : Char) : Option Char :=
  if isXmlChar c then (if c = '\n' ∨ c = '\r' ∨ c = '\t' then some ' ' else some c) else none

theorem decodeGo_escChar_text (c : Char) (rest : Str) :
    decodeGo litText none (escChar c ++ rest) =
      match textBack c with
      | none => none
      | some d => (decodeGo litText none rest).map (d :: ·) := by
  unfold escChar
  by_cases h1 : c = '&'; · subst h1; rfl
  by_cases h2 : c = '<'; · subst h2; rfl
  by_cases h3 : c = '>'; · subst h3; rfl
  by_cases h4 : c = '"'; · subst h4; rfl
  by_cases h5 : c = '\''; · subst h5; rfl
  by_cases h6 : c = Char.ofNat 0xA0; · subst h6; rfl
  by_cases h7 : c = '\t'; · subst h7; rfl
  simp only [h1, h2, h3, h4, h5, h6, h7, if_false]
  rw [decodeGo_lit _ _ h1]
  simp [litText, textBack, h2]

theorem decodeGo_escChar_attr (c : Char) (rest : Str) :
    decodeGo litAttr none (escChar c ++ rest) =
      match attrBack c with
      | none => none
      | some d => (decodeGo litAttr none rest).map (d :: ·) := by
  unfold escChar
  by_cases h1 : c = '&'; · subst h1; rfl
  by_cases h2 : c = '<'; · subst h2; rfl
  by_cases h3 : c = '>'; · subst h3; rfl
  by_cases h4 : c = '"'; · subst h4; rfl
  by_cases h5 : c = '\''; · subst h5; rfl
  by_cases h6 : c = Char.ofNat 0xA0; · subst h6; rfl
  by_cases h7 : c = '\t'; · subst h7; rfl
  simp only [h1, h2, h3, h4, h5, h6, h7, if_false]
  rw [decodeGo_lit _ _ h1]
  by_cases h8 : c = ' '; · subst h8; rfl
  simp [litAttr, attrBack, isWs, h2, h7, h8]

theorem decodeGo_htmlEscChar_attr (c : Char) (rest : Str) :
    decodeGo litAttr none (htmlEscChar c ++ rest) =
      match attrBackHtml c with
      | none => none
      | some d => (decodeGo litAttr none rest).map (d :: ·) := by
  unfold htmlEscChar
  by_cases h1 : c = '&'; · subst h1; rfl
  by_cases h2 : c = '<'; · subst h2; rfl
  by_cases h3 : c = '>'; · subst h3; rfl
  by_cases h4 : c = '"'; · subst h4; rfl
  by_cases h5 : c = '\''; · subst h5; rfl
  simp only [h1, h2, h3, h4, h5, if_false]
  rw [decodeGo_lit _ _ h1]
  by_cases h8 : c = ' '; · subst h8; rfl
  by_cases h9 : c = '\t'; · subst h9; rfl
  by_cases h10 : c = '\n'; · subst h10; rfl
  by_cases h11 : c = '\r'; · subst h11; rfl
  simp [litAttr, attrBackHtml, isWs, h2, h8, h9, h10, h11]

theorem decodeAttr_escape (s : Str) : decodeAttr (escape s) = mapChars attrBack s :=
  decodeGo_flatMap _ _ _ decodeGo_escChar_attr s

theorem decodeAttr_htmlEscape (s : Str) : decodeAttr (htmlEscape s) = mapChars attrBackHtml s := by
  rw [htmlEscape_eq]; exact decodeGo_flatMap _ _ _ decodeGo_htmlEscChar_attr s

theorem mem_flatMap_notMem {e : Char → Str} {x : Char} (h : ∀ c, x ∉ e c) (s : Str) : x ∉ s.flatMap e := by
  simp only [List.mem_flatMap, not_exists, not_and]
  intro c _; exact h c

theorem escChar_notMem (c : Char) : '<' ∉ escChar c ∧ '>' ∉ escChar c ∧ '"' ∉ escChar c ∧ '\'' ∉ escChar c ∧
    '\t' ∉ escChar c := by
  unfold escChar
  by_cases h1 : c = '&'; · subst h1; decide
  by_cases h2 : c = '<'; · subst h2; decide
  by_cases h3 : c = '>'; · subst h3; decide
  by_cases h4 : c = '"'; · subst h4; decide
  by_cases h5 : c = '\''; · subst h5; decide
  by_cases h6 : c = Char.ofNat 0xA0; · subst h6; decide
  by_cases h7 : c = '\t'; · subst h7; decide
  simp only [h1, h2, h3, h4, h5, h6, h7, if_false, List.mem_singleton]
  exact ⟨Ne.symm h2, Ne.symm h3, Ne.symm h4, Ne.symm h5, Ne.symm h7⟩

theorem htmlEscChar_notMem (c : Char) : '<' ∉ htmlEscChar c ∧ '>' ∉ htmlEscChar c ∧ '"' ∉ htmlEscChar c := by
  unfold htmlEscChar
  by_cases h1 : c = '&'; · subst h1; decide
  by_cases h2 : c = '<'; · subst h2; decide
  by_cases h3 : c = '>'; · subst h3; decide
  by_cases h4 : c = '"'; · subst h4; decide
  by_cases h5 : c = '\''; · subst h5; decide
  simp only [h1, h2, h3, h4, h5, if_false, List.mem_singleton]
  exact ⟨Ne.symm h2, Ne.symm h3, Ne.symm h4⟩

theorem containsStr_of_notMem {sub s : Str} {x : Char} (hx : x ∈ sub) (h : x ∉ s) : containsStr sub s = false := by
  induction s with
  | nil => cases sub <;> simp_all [containsStr]
  | cons c s ih =>
    simp only [List.mem_cons, not_or] at h
    simp only [containsStr, ih h.2, Bool.or_false]
    cases hp : sub.isPrefixOf (c :: s) with
    | false => rfl
    | true =>
      have := (List.isPrefixOf_iff_prefix.1 hp).subset hx
      simp only [List.mem_cons] at this
      rcases this with h' | h'
      · exact absurd h' h.1
      · exact absurd h' h.2

theorem decodeText_escape (s : Str) : decodeText (escape s) = mapChars textBack s := by
  have : containsStr c!"]]>" (escape s) = false :=
    containsStr_of_notMem (x := '>') (by decide) (mem_flatMap_notMem (fun c => (escChar_notMem c).2.1) s)
  unfold decodeText
  rw [this]
  exact decodeGo_flatMap _ _ _ decodeGo_escChar_text s

theorem mapChars_textBack (s : Str) :
    mapChars textBack s = if ∀ c ∈ s, isXmlChar c = true then some s else none := by
  induction s with
  | nil => simp [mapChars]
  | cons c s ih =>
    simp only [mapChars, textBack, ih, List.mem_cons, forall_eq_or_imp]
    by_cases h : isXmlChar c = true
    · simp only [h, if_true, true_and]
      split <;> rfl
    · simp [h]

/-- A character-wise map gives the string back exactly when it keeps every character. -/
theorem mapChars_eq_self {g : Char → Option Char} {s : Str} :
    mapChars g s = some s ↔ ∀ c ∈ s, g c = some c := by
  induction s with
  | nil => simp [mapChars]
  | cons c s ih =>
    simp only [mapChars, List.mem_cons, forall_eq_or_imp]
    cases hg : g c with
    | none => simp
    | some d =>
      simp only [Option.map_eq_some_iff, List.cons.injEq, Option.some.injEq]
      constructor
      · rintro ⟨t, h1, h2, h3⟩; exact ⟨h2, ih.1 (h3 ▸ h1)⟩
      · rintro ⟨h1, h2⟩; exact ⟨s, ih.2 h2, h1, rfl⟩

theorem mapChars_mem {g : Char → Option Char} {s t : Str} (h : mapChars g s = some t) {d : Char} (hd : d ∈ t) :
    ∃ c ∈ s, g c = some d := by
  induction s generalizing t with
  | nil => simp [mapChars] at h; subst h; simp at hd
  | cons c s ih =>
    simp only [mapChars] at h
    cases hg : g c with
    | none => rw [hg] at h; simp at h
    | some e =>
      rw [hg] at h
      simp only [Option.map_eq_some_iff] at h
      obtain ⟨t', h1, h2⟩ := h
      subst h2
      rcases List.mem_cons.1 hd with rfl | hd
      · exact ⟨c, by simp, hg⟩
      · obtain ⟨c', hc', h'⟩ := ih h1 hd
        exact ⟨c', by simp [hc'], h'⟩

theorem noCr_of_normEol_eq {s : Str} : ∀ c ∈ normEol s, c ≠ '\r' := by
  fun_induction normEol s with
  | case1 => simp
  | case2 s ih =>
    intro c hc
    rcases List.mem_cons.1 hc with rfl | hc
    · decide
    · exact ih c hc
  | case3 c s hx ih =>
    intro d hd
    rcases List.mem_cons.1 hd with rfl | hd
    · split
      · decide
      · assumption
    · exact ih d hd

/-- Escaping does not interfere with line-end normalisation. -/
theorem normEol_flatMap {e : Char → Str} (h1 : e '\r' = ['\r']) (h2 : e '\n' = ['\n'])
    (h3 : ∀ c, c ≠ '\r' → c ≠ '\n' → '\r' ∉ e c ∧ (e c).head? ≠ some '\n' ∧ e c ≠ []) (s : Str) :
    normEol (s.flatMap e) = (normEol s).flatMap e := by
  fun_induction normEol s with
  | case1 => rfl
  | case2 s ih => simp [h1, h2, normEol, ih]
  | case3 c s hx ih =>
    rw [List.flatMap_cons, List.flatMap_cons, ← ih]
    by_cases hc : c = '\r'
    · subst hc
      simp only [h1, if_true, h2]
      rw [normEol_append]
      · rfl
      · cases s with
        | nil => simp
        | cons d s =>
          rw [List.flatMap_cons]
          by_cases hd : d = '\n'
          · exact absurd (by rw [hd]) (hx s rfl)
          · by_cases hd' : d = '\r'
            · subst hd'; rw [h1]; simp
            · obtain ⟨_, h5, h6⟩ := h3 d hd' hd
              cases he : e d with
              | nil => exact absurd he h6
              | cons x xs => rw [he] at h5; simpa using h5
    · by_cases hc' : c = '\n'
      · subst hc'
        simp only [h2]
        rw [normEol_append_left (by decide), if_neg hc, h2]
      · rw [if_neg hc, normEol_append_left (h3 c hc hc').1]

theorem escChar_shape (c : Char) (h1 : c ≠ '\r') (h2 : c ≠ '\n') :
    '\r' ∉ escChar c ∧ (escChar c).head? ≠ some '\n' ∧ escChar c ≠ [] := by
  unfold escChar
  by_cases g1 : c = '&'; · subst g1; decide
  by_cases g2 : c = '<'; · subst g2; decide
  by_cases g3 : c = '>'; · subst g3; decide
  by_cases g4 : c = '"'; · subst g4; decide
  by_cases g5 : c = '\''; · subst g5; decide
  by_cases g6 : c = Char.ofNat 0xA0; · subst g6; decide
  by_cases g7 : c = '\t'; · subst g7; decide
  simp [g1, g2, g3, g4, g5, g6, g7, h2, Ne.symm h1]

theorem htmlEscChar_shape (c : Char) (h1 : c ≠ '\r') (h2 : c ≠ '\n') :
    '\r' ∉ htmlEscChar c ∧ (htmlEscChar c).head? ≠ some '\n' ∧ htmlEscChar c ≠ [] := by
  unfold htmlEscChar
  by_cases g1 : c = '&'; · subst g1; decide
  by_cases g2 : c = '<'; · subst g2; decide
  by_cases g3 : c = '>'; · subst g3; decide
  by_cases g4 : c = '"'; · subst g4; decide
  by_cases g5 : c = '\''; · subst g5; decide
  simp [g1, g2, g3, g4, g5, h2, Ne.symm h1]

theorem normEol_escape (s : Str) : normEol (escape s) = escape (normEol s) :=
  normEol_flatMap (by decide) (by decide) escChar_shape s

theorem normEol_htmlEscape (s : Str) : normEol (htmlEscape s) = htmlEscape (normEol s) := by
  simp only [htmlEscape_eq]; exact normEol_flatMap (by decide) (by decide) htmlEscChar_shape s

end ReqIF
