import Verif.Spec.Markup
import Verif.Proofs.Xhtml
/-!
# Tokens of printed trees
-/
namespace ReqIF
open Spec

theorem scan_in_tag {b : Str} (h : '>' ∉ b) (acc s : Str) :
    scan (some acc) (b ++ '>' :: s) = tagTok (acc.reverse ++ b) :: scan none s := by
  induction b generalizing acc with
  | nil => simp [scan]
  | cons c b ih =>
    rw [List.mem_cons, not_or] at h
    rw [List.cons_append, scan, if_neg (fun e => h.1 e.symm), ih h.2]
    simp

theorem scan_tag {b : Str} (h : '>' ∉ b) (s : Str) : scan none ('<' :: (b ++ '>' :: s)) = tagTok b :: scan none s := by
  rw [scan, if_pos rfl, scan_in_tag h]
  rfl

theorem scan_text {t : Str} (h : '<' ∉ t) (s : Str) : scan none (t ++ s) = t.map .char ++ scan none s := by
  induction t with
  | nil => rfl
  | cons c t ih =>
    rw [List.mem_cons, not_or] at h
    rw [List.cons_append, scan, if_neg (fun e => h.1 e.symm), ih h.2]
    rfl

/-- What follows the name in a tag. -/
structure RestOk (r : Str) : Prop where
  space : r = [] ∨ ∃ r', r = ' ' :: r'
  last : r.getLast? ≠ some '/'
  angle : '>' ∉ r

theorem Spec.NameOk.noSpace {n : Str} (h : NameOk n) : ∀ c ∈ n, (c != ' ') = true := by
  intro c hc
  simp [(h.2 c hc).1]

theorem bodyName_rest {n r : Str} (hn : NameOk n) (hr : RestOk r) : bodyName (n ++ r) = n ∧ bodyRest (n ++ r) = r := by
  unfold bodyName bodyRest
  rw [List.takeWhile_append_of_pos hn.noSpace, List.dropWhile_append_of_pos hn.noSpace]
  rcases hr.space with rfl | ⟨r', rfl⟩ <;> simp

theorem Spec.NameOk.head {n : Str} (h : NameOk n) (r : Str) : ∃ c m, n ++ r = c :: m ∧ c ≠ '/' := by
  obtain ⟨h1, h2⟩ := h
  cases n with
  | nil => exact absurd rfl h1
  | cons c n => exact ⟨c, n ++ r, rfl, (h2 c (by simp)).2.2.2⟩

theorem Spec.NameOk.last {n r : Str} (h : NameOk n) (hr : RestOk r) : (n ++ r).getLast? ≠ some '/' := by
  cases r with
  | nil =>
    rw [List.append_nil]
    intro e
    exact (h.2 _ (List.mem_of_getLast? e)).2.2.2 rfl
  | cons c r =>
    rw [List.getLast?_append]
    have h1 := hr.last
    cases e : (c :: r).getLast? with
    | none => simp at e
    | some d =>
      rw [e] at h1
      simpa using h1

theorem tagTok_ne {b : Str} {c : Char} {m : Str} (h : b = c :: m) (hc : c ≠ '/') : tagTok b =
    if b.getLast? = some '/' then .empty (bodyName b.dropLast) (bodyRest b.dropLast) else .start (bodyName b) (bodyRest b) := by
  subst h
  unfold tagTok
  split
  · rename_i n e
    cases e
    exact absurd rfl hc
  · rfl

theorem tagTok_start {n r : Str} (hn : NameOk n) (hr : RestOk r) : tagTok (n ++ r) = .start n r := by
  obtain ⟨c, m, h1, h2⟩ := hn.head r
  rw [tagTok_ne h1 h2, if_neg (hn.last hr), (bodyName_rest hn hr).1, (bodyName_rest hn hr).2]

theorem tagTok_empty {n r : Str} (hn : NameOk n) (hr : RestOk r) : tagTok (n ++ r ++ c!"/") = .empty n r := by
  obtain ⟨c, m, h1, h2⟩ := hn.head (r ++ c!"/")
  rw [List.append_assoc, tagTok_ne h1 h2, ← List.append_assoc, if_pos (by simp), List.dropLast_concat, (bodyName_rest hn hr).1,
    (bodyName_rest hn hr).2]

mutual
/-- The text of a tree, with the parameters of `tokensOf`. -/
def textWith (nm rest : Info → Str) (short : Info → Bool) : Node → Str
  | .text s => escape s
  | .elem i ks =>
    if ks.isEmpty && short i then c!"<" ++ nm i ++ rest i ++ c!"/>"
    else c!"<" ++ nm i ++ rest i ++ c!">" ++ textWithAll nm rest short ks ++ c!"</" ++ nm i ++ c!">"
  | _ => []

def textWithAll (nm rest : Info → Str) (short : Info → Bool) : List Node → Str
  | [] => []
  | n :: ns => textWith nm rest short n ++ textWithAll nm rest short ns
end

mutual
/-- A property of all elements; no comments and processing instructions. -/
def AllInfos (P : Info → Prop) : Node → Prop
  | .text _ => True
  | .elem i ks => P i ∧ AllInfosList P ks
  | _ => False

def AllInfosList (P : Info → Prop) : List Node → Prop
  | [] => True
  | n :: ns => AllInfos P n ∧ AllInfosList P ns
end

mutual
theorem scan_textWith {nm rest : Info → Str} {short : Info → Bool} : ∀ (n : Node),
    AllInfos (fun i => NameOk (nm i) ∧ RestOk (rest i)) n → ∀ s,
    scan none (textWith nm rest short n ++ s) = tokensOf nm rest short n ++ scan none s
  | .text t, _, s => by rw [textWith, tokensOf, scan_text (escape_noLt t)]
  | .elem i ks, h, s => by
    rw [AllInfos] at h
    obtain ⟨⟨h1, h2⟩, h3⟩ := h
    have g1 : '>' ∉ nm i := fun hm => (h1.2 _ hm).2.2.1 rfl
    have g2 := h2.angle
    rw [textWith, tokensOf]
    split
    · have e : c!"<" ++ nm i ++ rest i ++ c!"/>" ++ s = '<' :: ((nm i ++ rest i ++ c!"/") ++ '>' :: s) := by simp
      rw [e, scan_tag (by simp [g1, g2]), tagTok_empty h1 h2]
      rfl
    · have e : c!"<" ++ nm i ++ rest i ++ c!">" ++ textWithAll nm rest short ks ++ c!"</" ++ nm i ++ c!">" ++ s =
          '<' :: ((nm i ++ rest i) ++ '>' :: (textWithAll nm rest short ks ++ ('<' :: (('/' :: nm i) ++ '>' :: s)))) := by simp
      rw [e, scan_tag (by simp [g1, g2]), tagTok_start h1 h2, scan_textWithAll ks h3, scan_tag (by simp [g1])]
      simp [tagTok]
  | .comment _, h, _ => by rw [AllInfos] at h; exact h.elim; all_goals simp
  | .pi _ _, h, _ => by rw [AllInfos] at h; exact h.elim; all_goals simp

theorem scan_textWithAll {nm rest : Info → Str} {short : Info → Bool} : ∀ (ns : List Node),
    AllInfosList (fun i => NameOk (nm i) ∧ RestOk (rest i)) ns → ∀ s,
    scan none (textWithAll nm rest short ns ++ s) = tokensOfAll nm rest short ns ++ scan none s
  | [], _, s => by rw [textWithAll, tokensOfAll]; rfl
  | n :: ns, h, s => by
    rw [AllInfosList] at h
    rw [textWithAll, tokensOfAll, List.append_assoc, scan_textWith n h.1, scan_textWithAll ns h.2, List.append_assoc]
end

theorem toks_textWithAll {nm rest : Info → Str} {short : Info → Bool} {ns : List Node}
    (h : AllInfosList (fun i => NameOk (nm i) ∧ RestOk (rest i)) ns) :
    toks (textWithAll nm rest short ns) = tokensOfAll nm rest short ns := by
  have := scan_textWithAll (short := short) ns h []
  rw [List.append_nil] at this
  unfold toks
  rw [this, scan, List.append_nil]

/-! ## What follows from the tokens -/

theorem charsOf_append (a b : List Tok) : charsOf (a ++ b) = charsOf a ++ charsOf b := by
  unfold charsOf; rw [List.filterMap_append]

theorem charsOf_chars (s : Str) : charsOf (s.map .char) = s := by
  induction s with
  | nil => rfl
  | cons c s ih => unfold charsOf at ih ⊢; rw [List.map_cons, List.filterMap_cons]; dsimp only; rw [ih]

mutual
theorem charsOf_tokensOf {nm rest : Info → Str} {short : Info → Bool} : ∀ n : Node,
    charsOf (tokensOf nm rest short n) = (fragments n).flatMap escape
  | .text s => by rw [tokensOf, fragments, charsOf_chars]; simp
  | .elem i ks => by
    rw [tokensOf, fragments]
    split
    · rename_i h
      rw [Bool.and_eq_true, List.isEmpty_iff] at h
      rw [h.1, fragmentsAll]
      rfl
    · rw [List.cons_append]
      show charsOf (tokensOfAll nm rest short ks ++ [Tok.stop (nm i)]) = _
      rw [charsOf_append, charsOf_tokensOfAll ks]
      exact List.append_nil _
  | .comment s => by rw [tokensOf, fragments] <;> simp [charsOf]
  | .pi _ _ => by rw [tokensOf, fragments] <;> simp [charsOf]

theorem charsOf_tokensOfAll {nm rest : Info → Str} {short : Info → Bool} : ∀ ns : List Node,
    charsOf (tokensOfAll nm rest short ns) = (fragmentsAll ns).flatMap escape
  | [] => by rw [tokensOfAll, fragmentsAll]; rfl
  | n :: ns => by
    rw [tokensOfAll, fragmentsAll, charsOf_append, charsOf_tokensOf n, charsOf_tokensOfAll ns, List.flatMap_append]
end

theorem balanced_chars (st : List Str) (s : Str) (ts : List Tok) : balanced st (s.map .char ++ ts) = balanced st ts := by
  induction s with
  | nil => rfl
  | cons c s ih => rw [List.map_cons, List.cons_append, balanced, ih]

mutual
theorem balanced_tokensOf {nm rest : Info → Str} {short : Info → Bool} : ∀ (n : Node) (st : List Str) (ts : List Tok),
    balanced st (tokensOf nm rest short n ++ ts) = balanced st ts
  | .text s, st, ts => by rw [tokensOf, balanced_chars]
  | .elem i ks, st, ts => by
    rw [tokensOf]
    split
    · rw [List.cons_append, balanced]; rfl
    · rw [List.cons_append, List.cons_append, balanced, List.append_assoc, balanced_tokensOfAll ks, List.cons_append, balanced]
      simp
  | .comment s, st, ts => by rw [tokensOf] <;> simp
  | .pi _ _, st, ts => by rw [tokensOf] <;> simp

theorem balanced_tokensOfAll {nm rest : Info → Str} {short : Info → Bool} : ∀ (ns : List Node) (st : List Str) (ts : List Tok),
    balanced st (tokensOfAll nm rest short ns ++ ts) = balanced st ts
  | [], st, ts => by rw [tokensOfAll]; rfl
  | n :: ns, st, ts => by
    rw [tokensOfAll, List.append_assoc, balanced_tokensOf n, balanced_tokensOfAll ns]
end

end ReqIF
