import Verif.Proofs.GrammarChars
/-! What the reader accepts is in the grammar. -/
set_option linter.unusedSimpArgs false
namespace ReqIF.Grammar

/-! ## Nodes -/

theorem addLast_two (t : Str) (a b : Xml) (l : List Xml) : addLast t (a :: b :: l) = a :: addLast t (b :: l) := by
  cases a <;> simp [addLast]

theorem addLast_append (t : Str) : ∀ (ks : List Xml) (k : Xml), addLast t (ks ++ [k]) = ks ++ addLast t [k]
  | [], k => rfl
  | [a], k => addLast_two t a k []
  | a :: b :: l, k => by
    have := addLast_append t (b :: l) k
    rw [List.cons_append, List.cons_append, addLast_two, ← List.cons_append, this]
    rfl

theorem addText_reverse (t : Str) (l : List Xml) : (addText t l).reverse = addLast t l.reverse := by
  cases l with
  | nil => rfl
  | cons k l =>
    rw [List.reverse_cons, addLast_append]
    cases k <;> simp [addText, addLast]

theorem element_elem {e : Str} {x : Xml} (h : Element e x) : ∃ n as ks, x = .elem n as ks := by
  cases h <;> exact ⟨_, _, _, rfl⟩

theorem hasElem_iff : ∀ {l : List Xml}, hasElem l = true ↔ ∃ n as ks, .elem n as ks ∈ l
  | [] => by simp [hasElem]
  | x :: l => by
    cases x with
    | elem n as ks => simp only [hasElem, List.mem_cons, true_iff]; exact ⟨n, as, ks, .inl rfl⟩
    | text s => rw [hasElem, hasElem_iff (l := l)]; simp; simp
    | comment s => rw [hasElem, hasElem_iff (l := l)]; simp; simp
    | pi t d => rw [hasElem, hasElem_iff (l := l)]; simp; simp

theorem misc_noElem {u : Str} {ks : List Xml} (h : Misc u ks) : ∀ n as l, Xml.elem n as l ∉ ks := by
  induction h with
  | none => simp
  | space _ _ ih => exact ih
  | comment _ _ ih => intro n as l hm; rcases List.mem_append.1 hm with hm | hm; exact ih n as l hm; simp at hm
  | inst _ _ ih => intro n as l hm; rcases List.mem_append.1 hm with hm | hm; exact ih n as l hm; simp at hm

/-! ## What has been read -/

/-- Top level of a document, perhaps with the root. -/
def Top (u : Str) (ks : List Xml) : Prop :=
  Misc u ks ∨ ∃ a e b k₁ x k₂, u = a ++ e ++ b ∧ Misc a k₁ ∧ Element e x ∧ Misc b k₂ ∧ ks = k₁ ++ x :: k₂

/-- A start tag. -/
def StartTag (s n : Str) (as : List (Str × Str)) : Prop :=
  ∃ a w, s = c!"<" ++ n ++ a ++ w ++ c!">" ∧ isQName n = true ∧ Attributes a as ∧ OptSpace w

/-- Open elements; the last one has content so far. -/
def Outer : Str → Frame → List Frame → Prop
  | u, g, [] => Misc u g.kidsRev.reverse
  | u, g, h :: rest => ∃ v s body, u = v ++ s ++ body ∧ StartTag s g.name g.attrs ∧ Content body g.kidsRev.reverse ∧ Outer v h rest

def AtContent (u : Str) (f : Frame) : List Frame → Prop
  | [] => Top u f.kidsRev.reverse
  | h :: rest => Outer u f (h :: rest)

def AtMarked (u : Str) (f : Frame) : List Frame → Prop
  | [] => Top u f.kidsRev.reverse
  | h :: rest => ∃ v s body, u = v ++ s ++ body ∧ StartTag s f.name f.attrs ∧ Marked body f.kidsRev.reverse ∧ Outer v h rest

theorem top_snoc {u e : Str} {ks : List Xml} {k : Xml} (hm : ∀ {u ks}, Misc u ks → Misc (u ++ e) (ks ++ [k])) (h : Top u ks) : Top (u ++ e) (ks ++ [k]) := by
  rcases h with h | ⟨a, e', b, k₁, x, k₂, rfl, h1, h2, h3, rfl⟩
  · exact .inl (hm h)
  · exact .inr ⟨a, e', b ++ e, k₁, x, k₂ ++ [k], by simp, h1, h2, hm h3, by simp⟩

theorem misc_spaces {u : Str} {ks : List Xml} (h : Misc u ks) : ∀ {w : Str}, OptSpace w → Misc (u ++ w) ks := by
  intro w
  induction w generalizing u with
  | nil => intro _; rw [List.append_nil]; exact h
  | cons c w ih =>
    intro hw
    have := ih (u := u ++ [c]) (.space h (hw c (by simp))) (fun d hd => hw d (by simp [hd]))
    rwa [List.append_assoc] at this

theorem top_spaces {u w : Str} {ks : List Xml} (h : Top u ks) (hw : OptSpace w) : Top (u ++ w) ks := by
  rcases h with h | ⟨a, e', b, k₁, x, k₂, rfl, h1, h2, h3, rfl⟩
  · exact .inl (misc_spaces h hw)
  · exact .inr ⟨a, e', b ++ w, k₁, x, k₂, by simp, h1, h2, misc_spaces h3 hw, rfl⟩

theorem outer_of {u : Str} {f : Frame} {rest : List Frame} (h : AtContent u f rest) (hn : ¬((rest.isEmpty && hasElem f.kidsRev) = true)) : Outer u f rest := by
  cases rest with
  | cons g rest => exact h
  | nil =>
    rcases h with h | ⟨a, e, b, k₁, x, k₂, rfl, h1, h2, h3, h4⟩
    · exact h
    · exfalso
      apply hn
      obtain ⟨n, as, ks, rfl⟩ := element_elem h2
      have : Xml.elem n as ks ∈ f.kidsRev := by
        rw [← List.mem_reverse, h4]; simp
      simp [hasElem_iff.2 ⟨n, as, ks, this⟩]

theorem push_elem {u e : Str} {g : Frame} {rest : List Frame} {x : Xml} (h : Outer u g rest) (he : Element e x) :
    AtMarked (u ++ e) { g with kidsRev := x :: g.kidsRev } rest := by
  cases rest with
  | nil =>
    refine .inr ⟨u, e, [], g.kidsRev.reverse, x, [], by simp, h, he, .none, by simp⟩
  | cons k rest =>
    obtain ⟨v, s, body, rfl, h1, h2, h3⟩ := h
    refine ⟨v, s, body ++ e, by simp, h1, ?_, h3⟩
    rw [List.reverse_cons]
    exact .elem h2 he

theorem push_comment {u e b : Str} {g : Frame} {rest : List Frame} (h : AtContent u g rest) (he : Comment e b) :
    AtMarked (u ++ e) { g with kidsRev := .comment b :: g.kidsRev } rest := by
  cases rest with
  | nil =>
    have h' : Top u g.kidsRev.reverse := h
    show Top (u ++ e) _
    rw [List.reverse_cons]
    exact top_snoc (fun hm => .comment hm he) h'
  | cons k rest =>
    obtain ⟨v, s, body, rfl, h1, h2, h3⟩ := h
    refine ⟨v, s, body ++ e, by simp, h1, ?_, h3⟩
    rw [List.reverse_cons]
    exact .comment h2 he

theorem push_inst {u e t d : Str} {g : Frame} {rest : List Frame} (h : AtContent u g rest) (he : Instruction e t d) :
    AtMarked (u ++ e) { g with kidsRev := .pi t d :: g.kidsRev } rest := by
  cases rest with
  | nil =>
    have h' : Top u g.kidsRev.reverse := h
    show Top (u ++ e) _
    rw [List.reverse_cons]
    exact top_snoc (fun hm => .inst hm he) h'
  | cons k rest =>
    obtain ⟨v, s, body, rfl, h1, h2, h3⟩ := h
    refine ⟨v, s, body ++ e, by simp, h1, ?_, h3⟩
    rw [List.reverse_cons]
    exact .inst h2 he

theorem push_cdata {u e b : Str} {g : Frame} {rest : List Frame} (h0 : rest ≠ []) (h : AtContent u g rest) (he : CData e b) :
    AtMarked (u ++ e) { g with kidsRev := addText b g.kidsRev } rest := by
  cases rest with
  | nil => exact absurd rfl h0
  | cons k rest =>
    obtain ⟨v, s, body, rfl, h1, h2, h3⟩ := h
    refine ⟨v, s, body ++ e, by simp, h1, ?_, h3⟩
    rw [addText_reverse]
    exact .cdata h2 he

theorem flush_content {v buf : Str} {f f' : Frame} {rest : List Frame} (h : AtMarked v f rest) (hb : '<' ∉ buf) (hf : flush buf f rest = some f') :
    AtContent (v ++ buf.reverse) f' rest := by
  unfold flush at hf
  split at hf
  · cases hf
    rw [List.reverse_nil, List.append_nil]
    cases rest with
    | nil => exact h
    | cons g rest =>
      obtain ⟨u, s, body, rfl, h1, h2, h3⟩ := h
      exact ⟨u, s, body, rfl, h1, .marked h2, h3⟩
  · rename_i hne
    cases rest with
    | nil =>
      dsimp only at hf
      split at hf
      · rename_i hw
        cases hf
        rw [List.all_eq_true] at hw
        exact top_spaces h (fun c hc => hw c (List.mem_reverse.1 hc))
      · cases hf
    | cons g rest =>
      dsimp only at hf
      split at hf
      · cases hf
      · rename_i t ht
        cases hf
        obtain ⟨u, s, body, rfl, h1, h2, h3⟩ := h
        refine ⟨u, s, body ++ buf.reverse, by simp, h1, ?_, h3⟩
        rw [addText_reverse]
        refine .text h2 ((decodeText_iff ?_ ?_).1 ht)
        · rw [ne_eq, List.reverse_eq_nil_iff]
          exact hne
        · rw [List.mem_reverse]; exact hb

/-! ## The states of the reader -/

/-- A tag up to a place between attributes. -/
def InTag (v name : Str) (attrs : List (Str × Str)) (w u : Str) : Prop :=
  ∃ a, u = v ++ (c!"<" ++ name ++ a ++ w) ∧ isQName name = true ∧ Attributes a attrs ∧ OptSpace w

/-- What has been read since the last complete node. -/
def ModeReads (v u : Str) (rest : List Frame) : Mode → Prop
  | .text _ => False
  | .lt => u = v ++ c!"<"
  | .tagName buf => u = v ++ c!"<" ++ buf.reverse
  | .inTag name attrs ws => ∃ w, InTag v name attrs w u ∧ (ws = true → w ≠ [])
  | .attrName name attrs buf => ∃ u₀ w, InTag v name attrs w u₀ ∧ w ≠ [] ∧ u = u₀ ++ buf.reverse
  | .attrEq name attrs an => ∃ u₀ w e, InTag v name attrs w u₀ ∧ w ≠ [] ∧ isQName an = true ∧ OptSpace e ∧ u = u₀ ++ an ++ e
  | .attrQuote name attrs an => ∃ u₀ w e e', InTag v name attrs w u₀ ∧ w ≠ [] ∧ isQName an = true ∧ OptSpace e ∧ OptSpace e' ∧ u = u₀ ++ an ++ e ++ c!"=" ++ e'
  | .attrVal name attrs an q buf => ∃ u₀ w e e', InTag v name attrs w u₀ ∧ w ≠ [] ∧ isQName an = true ∧ OptSpace e ∧ OptSpace e' ∧
      (q = '"' ∨ q = '\'') ∧ q ∉ buf ∧ u = u₀ ++ an ++ e ++ c!"=" ++ e' ++ [q] ++ buf.reverse
  | .slash name attrs => ∃ u₀ w, InTag v name attrs w u₀ ∧ u = u₀ ++ c!"/"
  | .closeName buf => u = v ++ c!"</" ++ buf.reverse
  | .closeWs name => ∃ w, OptSpace w ∧ u = v ++ c!"</" ++ name ++ w
  | .bang buf => u = v ++ c!"<!" ++ buf.reverse
  | .comment buf => u = v ++ c!"<!--" ++ buf.reverse ∧ ¬ Has c!"--" buf.tail.reverse
  | .cdata buf => rest ≠ [] ∧ u = v ++ c!"<![CDATA[" ++ buf.reverse ∧ ¬ Has c!"]]>" buf.reverse
  | .pi buf => u = v ++ c!"<?" ++ buf.reverse ∧ ¬ Has c!"?>" buf.reverse

def Reads (u : Str) (s : RS) : Prop :=
  (∃ buf v, s.mode = .text buf ∧ u = v ++ buf.reverse ∧ '<' ∉ buf ∧ AtMarked v s.top s.rest) ∨
  (∃ v, AtContent v s.top s.rest ∧ ModeReads v u s.rest s.mode)

theorem has_snoc {p s : Str} {c : Char} (h : Has p (s ++ [c])) : Has p s ∨ ∃ a, s ++ [c] = a ++ p := by
  obtain ⟨a, b, e⟩ := h
  rcases List.eq_nil_or_concat b with rfl | ⟨b', d, rfl⟩
  · right; exact ⟨a, by rw [e, List.append_nil]⟩
  · left
    refine ⟨a, b', ?_⟩
    have : s ++ [c] = (a ++ p ++ b') ++ [d] := by rw [e]; simp
    exact (List.append_inj' this rfl).1

theorem open_reads {n u u₀ v w : Str} {as : List (Str × Str)} {f : Frame} {rest : List Frame} {s : RS} (hc : AtContent v f rest)
    (ht : InTag v n as w u₀) (hu : u = u₀ ++ c!">") (h : openElem n as f rest = some s) : Reads u s := by
  unfold openElem at h
  split at h
  · cases h
  · rename_i hn
    cases h
    obtain ⟨a, rfl, h1, h2, h3⟩ := ht
    left
    refine ⟨[], u, rfl, by simp, by simp, ?_⟩
    refine ⟨v, c!"<" ++ n ++ a ++ w ++ c!">", [], ?_, ⟨a, w, rfl, h1, h2, h3⟩, .none, outer_of hc hn⟩
    rw [hu]; simp

theorem empty_reads {n u u₀ v w : Str} {as : List (Str × Str)} {f : Frame} {rest : List Frame} {s : RS} (hc : AtContent v f rest)
    (ht : InTag v n as w u₀) (hu : u = u₀ ++ c!"/" ++ c!">") (h : emptyElem n as f rest = some s) : Reads u s := by
  unfold emptyElem at h
  split at h
  · cases h
  · rename_i hn
    cases h
    obtain ⟨a, rfl, h1, h2, h3⟩ := ht
    left
    refine ⟨[], u, rfl, by simp, by simp, ?_⟩
    have := push_elem (outer_of hc hn) (Element.empty h1 h2 h3)
    have e : u = v ++ (c!"<" ++ n ++ a ++ w ++ c!"/>") := by rw [hu]; simp
    rw [e]
    exact this

theorem close_reads {n u v w : Str} {f : Frame} {rest : List Frame} {s : RS} (hc : AtContent v f rest) (hw : OptSpace w)
    (hu : u = v ++ c!"</" ++ n ++ w ++ c!">") (h : closeElem n f rest = some s) : Reads u s := by
  unfold closeElem at h
  split at h
  · cases h
  · rename_i g rest'
    split at h
    · rename_i hn
      cases h
      obtain ⟨v0, t, body, rfl, ⟨a, w0, rfl, h1, h2, h3⟩, h4, h5⟩ := hc
      left
      refine ⟨[], u, rfl, by simp, by simp, ?_⟩
      have := push_elem h5 (Element.full h1 h2 h3 h4 hw)
      have e : u = v0 ++ (c!"<" ++ f.name ++ a ++ w0 ++ c!">" ++ body ++ c!"</" ++ f.name ++ w ++ c!">") := by
        rw [hu, ← hn]; simp
      rw [e]
      exact this
    · cases h

theorem optSpace_nil : OptSpace [] := by intro c hc; cases hc

theorem optSpace_snoc {w : Str} {c : Char} (h : OptSpace w) (hc : isWs c = true) : OptSpace (w ++ [c]) := by
  intro d hd
  rcases List.mem_append.1 hd with hd | hd
  · exact h d hd
  · rw [List.mem_singleton] at hd; rw [hd]; exact hc

theorem asciiLower_iff {c l u : Char} (hl : l.toNat < 128) (hu : 'a' ≤ l ∧ l ≤ 'z') (hlu : u.toNat + 32 = l.toNat) : asciiLower c = l ↔ c = l ∨ c = u := by
  have e0 : ('a' : Char).val.toNat = 97 := rfl
  have e1 : ('z' : Char).val.toNat = 122 := rfl
  have e2 : ('A' : Char).val.toNat = 65 := rfl
  have e3 : ('Z' : Char).val.toNat = 90 := rfl
  have tn : ∀ x : Char, x.toNat = x.val.toNat := fun _ => rfl
  have ext : ∀ a b : Char, a.toNat = b.toNat → a = b := fun a b h => Char.ext (UInt32.toNat_inj.1 h)
  simp only [Char.le_def, UInt32.le_iff_toNat_le, e0, e1] at hu
  unfold asciiLower
  by_cases h : ('A' ≤ c && c ≤ 'Z') = true
  · rw [if_pos h]
    simp only [Bool.and_eq_true, decide_eq_true_eq, Char.le_def, UInt32.le_iff_toNat_le, e2, e3] at h
    have hv : (c.toNat + 32).isValidChar := by
      left
      rw [tn]; omega
    have hof : (Char.ofNat (c.toNat + 32)).toNat = c.toNat + 32 := by rw [Char.ofNat, dif_pos hv]; rfl
    constructor
    · intro e
      right
      refine ext _ _ ?_
      have := congrArg Char.toNat e
      rw [hof] at this
      omega
    · rintro (rfl | rfl)
      · exfalso; omega
      · refine ext _ _ ?_
        rw [hof, hlu]
  · rw [if_neg h]
    constructor
    · intro e; exact .inl e
    · rintro (rfl | rfl)
      · rfl
      · exfalso
        apply h
        simp only [Bool.and_eq_true, decide_eq_true_eq, Char.le_def, UInt32.le_iff_toNat_le, e2, e3]
        rw [tn, tn] at hlu
        omega

theorem lower_xml {t : Str} : t.map asciiLower = c!"xml" ↔
    ∃ x m l, t = [x, m, l] ∧ (x = 'x' ∨ x = 'X') ∧ (m = 'm' ∨ m = 'M') ∧ (l = 'l' ∨ l = 'L') := by
  have hx : ∀ c, asciiLower c = 'x' ↔ c = 'x' ∨ c = 'X' := fun c => asciiLower_iff (by decide) (by decide) (by decide)
  have hm : ∀ c, asciiLower c = 'm' ↔ c = 'm' ∨ c = 'M' := fun c => asciiLower_iff (by decide) (by decide) (by decide)
  have hl : ∀ c, asciiLower c = 'l' ↔ c = 'l' ∨ c = 'L' := fun c => asciiLower_iff (by decide) (by decide) (by decide)
  match t with
  | [] => simp
  | [_] => simp
  | [_, _] => simp
  | [x, m, l] =>
    simp only [List.map_cons, List.map_nil, List.cons.injEq, and_true, hx, hm, hl]
    constructor
    · intro h; exact ⟨x, m, l, ⟨rfl, rfl, rfl⟩, h⟩
    · rintro ⟨_, _, _, ⟨rfl, rfl, rfl⟩, h⟩; exact h
  | _ :: _ :: _ :: _ :: _ => simp

theorem isNCName_noWs {t : Str} (h : isNCName t = true) : ∀ c ∈ t, isWs c = false := by
  intro c hc
  have := (isNCName_qchars h).2 c hc
  cases hw : isWs c with
  | false => rfl
  | true =>
    unfold isWs at hw
    simp only [Bool.or_eq_true, beq_iff_eq] at hw
    rcases hw with ((e | e) | e) | e <;> (rw [e] at this; revert this; decide)

theorem takeWhile_all {α : Type} {p : α → Bool} : ∀ {l : List α}, ∀ x ∈ l.takeWhile p, p x = true := by
  intro l
  induction l with
  | nil => intro x hx; cases hx
  | cons a l ih =>
    intro x hx
    rw [List.takeWhile_cons] at hx
    split at hx
    · rcases List.mem_cons.1 hx with rfl | hx'
      · assumption
      · exact ih x hx'
    · cases hx

theorem finishPi_inst {body : Str} {x : Xml} (hb : ¬ Has c!"?>" body) (h : finishPi body = some x) :
    ∃ t d, x = .pi t d ∧ Instruction (c!"<?" ++ body ++ c!"?>") t d := by
  unfold finishPi at h
  dsimp only at h
  split at h
  · rename_i hx
    cases h
    simp only [Bool.and_eq_true, bne_iff_ne, ne_eq, List.all_eq_true] at hx
    refine ⟨_, _, rfl, (body.dropWhile (fun c => !isWs c)).takeWhile isWs, body, rfl, ?_, takeWhile_all, ?_, ?_, hx.1.1, ?_, hx.2, hb⟩
    · rw [List.append_assoc, List.takeWhile_append_dropWhile, List.takeWhile_append_dropWhile]
    · intro e
      cases hd : body.dropWhile (fun c => !isWs c) with
      | nil => rfl
      | cons c r =>
        rw [hd, List.takeWhile_cons] at e
        have := List.head?_dropWhile_not (p := fun c => !isWs c) (l := body)
        rw [hd] at this
        simp only [List.head?_cons, Bool.not_not] at this
        rw [if_pos (by simpa using this)] at e
        cases e
    · intro c hc
      have := List.head?_dropWhile_not (p := isWs) (l := body.dropWhile (fun c => !isWs c))
      rw [hc] at this
      simpa using this
    · rw [← lower_xml]
      exact hx.1.2
  · cases h


theorem isQName_ne {n : Str} (h : isQName n = true) : n ≠ [] := by
  rintro rfl
  revert h
  decide

/-- One more attribute. -/
theorem inTag_attr {v name u₀ w an e e' raw val : Str} {q : Char} {attrs : List (Str × Str)} (h : InTag v name attrs w u₀) (hw : w ≠ [])
    (hn : isQName an = true) (he : OptSpace e) (he' : OptSpace e') (hq : q = '"' ∨ q = '\'') (hr : q ∉ raw) (hv : decodeAttr raw = some val) :
    InTag v name (attrs ++ [(an, val)]) [] (u₀ ++ an ++ e ++ c!"=" ++ e' ++ [q] ++ raw ++ [q]) := by
  obtain ⟨a, rfl, h1, h2, h3⟩ := h
  exact ⟨_, by simp, h1, .more h2 ⟨hw, h3⟩ hn he he' hq hr (decodeAttr_iff.1 hv), optSpace_nil⟩

theorem inTag_space {v name u w : Str} {c : Char} {attrs : List (Str × Str)} (h : InTag v name attrs w u) (hc : isWs c = true) :
    InTag v name attrs (w ++ [c]) (u ++ [c]) := by
  obtain ⟨a, rfl, h1, h2, h3⟩ := h
  exact ⟨a, by simp, h1, h2, optSpace_snoc h3 hc⟩

theorem inTag_start {v name : Str} (h : isQName name = true) : InTag v name [] [] (v ++ c!"<" ++ name) :=
  ⟨[], by simp, h, .none, optSpace_nil⟩

theorem reverse_eq_suffix {buf : Str} {c : Char} {a : Str} {p : Str} (e : buf.reverse ++ [c] = a ++ p) : c :: buf = p.reverse ++ a.reverse := by
  have := congrArg List.reverse e
  simpa using this

theorem step_reads {s s' : RS} {u : Str} {c : Char} (hs : Reads u s) (h : step s c = some s') : Reads (u ++ [c]) s' := by
  obtain ⟨mode, top, rest⟩ := s
  rcases hs with ⟨buf, v, hm, hu, hb, hv⟩ | ⟨v, hv, hm⟩
  · dsimp only at hm hv
    subst hm
    unfold step at h
    dsimp only at h
    split at h
    · rename_i hc
      rw [Option.map_eq_some_iff] at h
      obtain ⟨f, h1, rfl⟩ := h
      right
      refine ⟨v ++ buf.reverse, flush_content hv hb h1, ?_⟩
      show _ = _
      rw [hu, hc]
    · rename_i hc
      cases h
      left
      refine ⟨c :: buf, v, rfl, by rw [hu]; simp, ?_, hv⟩
      rw [List.mem_cons, not_or]
      exact ⟨fun e => hc e.symm, hb⟩
  dsimp only at hv hm
  unfold step at h
  cases mode with
  | text buf => exact hm.elim
  | lt =>
    have hu : u = v ++ c!"<" := hm
    dsimp only at h
    split at h; · rename_i hc; cases h; exact .inr ⟨v, hv, by show _ = _; rw [hu, hc]; simp⟩
    split at h; · rename_i hc; cases h; exact .inr ⟨v, hv, by show _ = _; rw [hu, hc]; simp⟩
    split at h
    · rename_i hc; cases h
      refine .inr ⟨v, hv, ?_, ?_⟩
      · rw [hu, hc]; simp
      · rintro ⟨a, b, e⟩; simp at e
    split at h
    · cases h; exact .inr ⟨v, hv, by show _ = _; rw [hu]; simp⟩
    · cases h
  | tagName buf =>
    have hu : u = v ++ c!"<" ++ buf.reverse := hm
    dsimp only at h
    split at h; · cases h; exact .inr ⟨v, hv, by show _ = _; rw [hu]; simp⟩
    split at h
    · rename_i hq
      have ht := inTag_start (v := v) hq
      rw [← hu] at ht
      split at h
      · rename_i hc; cases h
        exact .inr ⟨v, hv, _, inTag_space ht hc, by simp⟩
      split at h
      · rename_i hc; exact open_reads hv ht (by rw [hc]) h
      split at h
      · rename_i hc; cases h; exact .inr ⟨v, hv, u, _, ht, by rw [hc]⟩
      · cases h
    · cases h
  | inTag n as ws =>
    obtain ⟨w, ht, hw⟩ := hm
    dsimp only at h
    split at h
    · rename_i hc; cases h; exact .inr ⟨v, hv, _, inTag_space ht hc, by simp⟩
    split at h
    · rename_i hc; exact open_reads hv ht (by rw [hc]) h
    split at h
    · rename_i hc; cases h; exact .inr ⟨v, hv, u, _, ht, by rw [hc]⟩
    split at h
    · rename_i hc; cases h
      rw [Bool.and_eq_true] at hc
      exact .inr ⟨v, hv, u, w, ht, hw hc.1, by simp⟩
    · cases h
  | attrName n as buf =>
    obtain ⟨u₀, w, ht, hw, hu⟩ := hm
    dsimp only at h
    split at h; · cases h; exact .inr ⟨v, hv, u₀, w, ht, hw, by rw [hu]; simp⟩
    split at h
    · rename_i hq
      split at h
      · rename_i hc; cases h
        exact .inr ⟨v, hv, u₀, w, [], [], ht, hw, hq, optSpace_nil, optSpace_nil, by rw [hu, hc]; simp⟩
      split at h
      · rename_i hc; cases h
        exact .inr ⟨v, hv, u₀, w, [c], ht, hw, hq, optSpace_snoc optSpace_nil hc, by rw [hu]⟩
      · cases h
    · cases h
  | attrEq n as an =>
    obtain ⟨u₀, w, e, ht, hw, hq, he, hu⟩ := hm
    dsimp only at h
    split at h
    · rename_i hc; cases h
      exact .inr ⟨v, hv, u₀, w, e ++ [c], ht, hw, hq, optSpace_snoc he hc, by rw [hu]; simp⟩
    split at h
    · rename_i hc; cases h
      exact .inr ⟨v, hv, u₀, w, e, [], ht, hw, hq, he, optSpace_nil, by rw [hu, hc]; simp⟩
    · cases h
  | attrQuote n as an =>
    obtain ⟨u₀, w, e, e', ht, hw, hq, he, he', hu⟩ := hm
    dsimp only at h
    split at h
    · rename_i hc; cases h
      exact .inr ⟨v, hv, u₀, w, e, e' ++ [c], ht, hw, hq, he, optSpace_snoc he' hc, by rw [hu]; simp⟩
    split at h
    · rename_i hc; cases h
      exact .inr ⟨v, hv, u₀, w, e, e', ht, hw, hq, he, he', by simpa using hc, by simp, by rw [hu]; simp⟩
    · cases h
  | attrVal n as an q buf =>
    obtain ⟨u₀, w, e, e', ht, hw, hn, he, he', hq, hb, hu⟩ := hm
    dsimp only at h
    split at h
    · rename_i hc
      split at h
      · cases h
      · rename_i val hval
        cases h
        refine .inr ⟨v, hv, [], ?_, by simp⟩
        rw [hu, hc]
        exact inTag_attr ht hw hn he he' hq (by simpa using hb) hval
    · rename_i hc
      cases h
      refine .inr ⟨v, hv, u₀, w, e, e', ht, hw, hn, he, he', hq, ?_, by rw [hu]; simp⟩
      rw [List.mem_cons, not_or]
      exact ⟨fun x => hc x.symm, hb⟩
  | slash n as =>
    obtain ⟨u₀, w, ht, hu⟩ := hm
    dsimp only at h
    split at h
    · rename_i hc; exact empty_reads hv ht (by rw [hu, hc]) h
    · cases h
  | closeName buf =>
    have hu : u = v ++ c!"</" ++ buf.reverse := hm
    dsimp only at h
    split at h
    · rename_i hc; exact close_reads hv optSpace_nil (by rw [hu, hc]; simp) h
    split at h
    · rename_i hc; cases h
      exact .inr ⟨v, hv, [c], optSpace_snoc optSpace_nil hc, by rw [hu]⟩
    · cases h; exact .inr ⟨v, hv, by show _ = _; rw [hu]; simp⟩
  | closeWs n =>
    obtain ⟨w, hw, hu⟩ := hm
    dsimp only at h
    split at h
    · rename_i hc; exact close_reads hv hw (by rw [hu, hc]) h
    split at h
    · rename_i hc; cases h
      exact .inr ⟨v, hv, w ++ [c], optSpace_snoc hw hc, by rw [hu]; simp⟩
    · cases h
  | bang buf =>
    have hu : u = v ++ c!"<!" ++ buf.reverse := hm
    dsimp only at h
    split at h
    · rename_i hc; cases h
      rw [List.reverse_cons] at hc
      refine .inr ⟨v, hv, ?_, ?_⟩
      · rw [hu, List.append_assoc, hc]; simp
      · rintro ⟨a, b, e⟩; simp at e
    split at h
    · rename_i hc
      rw [List.reverse_cons] at hc
      split at h
      · cases h
      · rename_i hr; cases h
        refine .inr ⟨v, hv, ?_, ?_, ?_⟩
        · intro e
          apply hr
          show rest.isEmpty = true
          rw [List.isEmpty_iff]; exact e
        · rw [hu, List.append_assoc, hc]; simp
        · rintro ⟨a, b, e⟩; simp at e
    · split at h
      · cases h; exact .inr ⟨v, hv, by show _ = _; rw [hu]; simp⟩
      · cases h
  | comment buf =>
    obtain ⟨hu, hb⟩ := hm
    dsimp only at h
    split at h
    · rename_i h2
      split at h
      · rename_i hx
        cases h
        rw [Bool.and_eq_true, List.all_eq_true, decide_eq_true_eq] at hx
        obtain ⟨r, rfl⟩ : ∃ r, buf = '-' :: '-' :: r :=
          ⟨buf.drop 2, by have := List.take_append_drop 2 buf; rw [h2] at this; exact this.symm⟩
        left
        refine ⟨[], u ++ [c], rfl, by simp, by simp, ?_⟩
        have hcm : Comment (c!"<!--" ++ r.reverse ++ c!"-->") r.reverse := by
          refine ⟨rfl, fun d hd => hx.2 d (List.mem_reverse.1 hd), ?_⟩
          simpa using hb
        have := push_comment hv hcm
        have e : u ++ [c] = v ++ (c!"<!--" ++ r.reverse ++ c!"-->") := by rw [hu, hx.1]; simp
        rw [e]
        exact this
      · cases h
    · rename_i h2
      cases h
      refine .inr ⟨v, hv, by rw [hu]; simp, ?_⟩
      show ¬ Has _ buf.reverse
      cases buf with
      | nil => rintro ⟨a, b, e⟩; simp at e
      | cons d b =>
        intro hh
        rw [List.reverse_cons] at hh
        rcases has_snoc hh with hh | ⟨a, e⟩
        · exact hb hh
        · apply h2
          rw [reverse_eq_suffix e]
          rfl
  | cdata buf =>
    obtain ⟨h0, hu, hb⟩ := hm
    dsimp only at h
    split at h
    · rename_i h2
      split at h
      · rename_i hx
        cases h
        rw [List.all_eq_true] at hx
        rw [Bool.and_eq_true, decide_eq_true_eq, decide_eq_true_eq] at h2
        obtain ⟨r, rfl⟩ : ∃ r, buf = ']' :: ']' :: r :=
          ⟨buf.drop 2, by have := List.take_append_drop 2 buf; rw [h2.2] at this; exact this.symm⟩
        left
        refine ⟨[], u ++ [c], rfl, by simp, by simp, ?_⟩
        have hcm : CData (c!"<![CDATA[" ++ r.reverse ++ c!"]]>") r.reverse := by
          refine ⟨rfl, fun d hd => hx d (List.mem_reverse.1 hd), ?_⟩
          rintro ⟨a, b, e⟩
          apply hb
          refine ⟨a, b ++ c!"]]", ?_⟩
          rw [List.reverse_cons, List.reverse_cons, e]; simp
        have := push_cdata h0 hv hcm
        have e : u ++ [c] = v ++ (c!"<![CDATA[" ++ r.reverse ++ c!"]]>") := by rw [hu, h2.1]; simp
        rw [e]
        exact this
      · cases h
    · rename_i h2
      cases h
      refine .inr ⟨v, hv, h0, by rw [hu]; simp, ?_⟩
      intro hh
      rw [List.reverse_cons] at hh
      rcases has_snoc hh with hh | ⟨a, e⟩
      · exact hb hh
      · apply h2
        have := reverse_eq_suffix e
        simp at this
        rw [this.1, this.2]
        rfl
  | pi buf =>
    obtain ⟨hu, hb⟩ := hm
    dsimp only at h
    split at h
    · rename_i h2
      split at h
      · cases h
      · rename_i p hp
        cases h
        rw [Bool.and_eq_true, decide_eq_true_eq, decide_eq_true_eq] at h2
        obtain ⟨r, rfl⟩ : ∃ r, buf = '?' :: r :=
          ⟨buf.drop 1, by have := List.take_append_drop 1 buf; rw [h2.2] at this; exact this.symm⟩
        have hb' : ¬ Has c!"?>" r.reverse := by
          rintro ⟨a, b, e⟩
          apply hb
          exact ⟨a, b ++ c!"?", by rw [List.reverse_cons, e]; simp⟩
        obtain ⟨t, d, rfl, hi⟩ := finishPi_inst hb' hp
        left
        refine ⟨[], u ++ [c], rfl, by simp, by simp, ?_⟩
        have := push_inst hv hi
        have e : u ++ [c] = v ++ (c!"<?" ++ r.reverse ++ c!"?>") := by rw [hu, h2.1]; simp
        rw [e]
        exact this
    · rename_i h2
      cases h
      refine .inr ⟨v, hv, by rw [hu]; simp, ?_⟩
      intro hh
      rw [List.reverse_cons] at hh
      rcases has_snoc hh with hh | ⟨a, e⟩
      · exact hb hh
      · apply h2
        have := reverse_eq_suffix e
        simp at this
        rw [this.1, this.2]
        rfl

theorem run_reads : ∀ (t : Str) {u : Str} {s s' : RS}, Reads u s → run s t = some s' → Reads (u ++ t) s'
  | [], u, s, s', hs, h => by cases h; rw [List.append_nil]; exact hs
  | c :: t, u, s, s', hs, h => by
    rw [run] at h
    split at h
    · cases h
    · rename_i s₁ h1
      have := run_reads t (step_reads hs h1) h
      rwa [List.append_assoc] at this

theorem start_reads : Reads [] RS.start := .inl ⟨[], [], rfl, rfl, by simp, .inl .none⟩

end ReqIF.Grammar
