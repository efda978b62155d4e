import Verif.Proofs.RootInfo
import Verif.Proofs.Stringify
/-! What holds of every tree the reader produces: names are names, values and texts hold
XML characters, attribute names are distinct, no two texts are next to each other, comments and
processing instructions do not hold the marks that end them. -/
set_option linter.unusedSimpArgs false
namespace ReqIF

/-! ## Characters -/

theorem charOfCode_xml {n : Nat} {c : Char} (h : charOfCode n = some c) : isXmlChar c = true := by
  unfold charOfCode at h
  split at h
  · dsimp only at h
    split at h
    · rename_i hx; cases h; exact hx
    · cases h
  · cases h

theorem entityChar_xml {n : Str} {c : Char} (h : entityChar n = some c) : isXmlChar c = true := by
  unfold entityChar at h
  split at h; · cases h; decide
  split at h; · cases h; decide
  split at h; · cases h; decide
  split at h; · cases h; decide
  split at h; · cases h; decide
  split at h
  · rw [Option.bind_eq_some_iff] at h; obtain ⟨_, -, h⟩ := h; exact charOfCode_xml h
  · rw [Option.bind_eq_some_iff] at h; obtain ⟨_, -, h⟩ := h; exact charOfCode_xml h
  · cases h

theorem decodeGo_xml {lit : Char → Option Char} (hl : ∀ c d, lit c = some d → isXmlChar d = true) :
    ∀ (s : Str) (p : Option Str) (t : Str), decodeGo lit p s = some t → ∀ c ∈ t, isXmlChar c = true
  | [], none, t, h => by rw [decodeGo] at h; cases h; simp
  | [], some _, t, h => by rw [decodeGo] at h; cases h
  | c :: s, none, t, h => by
    rw [decodeGo] at h
    split at h
    · exact decodeGo_xml hl s _ t h
    · split at h
      · cases h
      · rename_i d hd
        rw [Option.map_eq_some_iff] at h
        obtain ⟨t', h1, rfl⟩ := h
        intro x hx
        rcases List.mem_cons.1 hx with rfl | hx
        · exact hl _ _ hd
        · exact decodeGo_xml hl s _ t' h1 x hx
  | c :: s, some nm, t, h => by
    rw [decodeGo] at h
    split at h
    · split at h
      · cases h
      · rename_i d hd
        rw [Option.map_eq_some_iff] at h
        obtain ⟨t', h1, rfl⟩ := h
        intro x hx
        rcases List.mem_cons.1 hx with rfl | hx
        · exact entityChar_xml hd
        · exact decodeGo_xml hl s _ t' h1 x hx
    · exact decodeGo_xml hl s _ t h

theorem decodeText_xml {s t : Str} (h : decodeText s = some t) : ∀ c ∈ t, isXmlChar c = true := by
  unfold decodeText at h
  split at h
  · cases h
  · refine decodeGo_xml ?_ s none t h
    intro c d hd
    unfold litText at hd
    split at hd
    · rename_i hx; cases hd; rw [Bool.and_eq_true] at hx; exact hx.1
    · cases hd

theorem decodeAttr_xml {s t : Str} (h : decodeAttr s = some t) : ∀ c ∈ t, isXmlChar c = true := by
  refine decodeGo_xml ?_ s none t h
  intro c d hd
  unfold litAttr at hd
  split at hd
  · rename_i hx
    rw [Bool.and_eq_true] at hx
    split at hd
    · cases hd; decide
    · cases hd; exact hx.1
  · cases hd

/-! ## Trees as written -/

/-- No two texts next to each other. -/
def noTexts2 : List Xml → Bool
  | a :: b :: ts => !(a.isText && b.isText) && noTexts2 (b :: ts)
  | _ => true

def AttrsSane (as : List (Str × Str)) : Prop := ∀ a ∈ as, isQName a.1 = true ∧ ∀ c ∈ a.2, isXmlChar c = true

/-- A comment being read (backwards): nowhere before the last character were there two hyphens. -/
def CommentBuf (buf : Str) : Prop := ∀ c b, c :: b <:+ buf → b.take 2 ≠ c!"--"

/-- A processing instruction being read (backwards): it has not been ended. -/
def PiBuf (buf : Str) : Prop := ∀ c b, c :: b <:+ buf → ¬(c = '>' ∧ b.take 1 = c!"?")

/-- What stands in a comment. -/
structure CommentOk (s : Str) : Prop where
  chars : ∀ c ∈ s, isXmlChar c = true
  noCr : '\r' ∉ s
  dashes : CommentBuf ('-' :: '-' :: s.reverse)

/-- What stands in a processing instruction. -/
structure PiOk (t d : Str) : Prop where
  target : isNCName t = true
  notXml : (t.map asciiLower != c!"xml") = true
  chars : ∀ c ∈ d, isXmlChar c = true
  noCr : '\r' ∉ d
  front : ∀ c, d.head? = some c → isWs c = false
  marks : PiBuf ('?' :: d.reverse)

mutual
def Xml.Sane : Xml → Prop
  | .elem n as ks => isQName n = true ∧ AttrsSane as ∧ noTexts2 ks = true ∧ SaneXmls ks
  | .text s => ∀ c ∈ s, isXmlChar c = true
  | .comment s => CommentOk s
  | .pi t d => PiOk t d

def SaneXmls : List Xml → Prop
  | [] => True
  | x :: xs => x.Sane ∧ SaneXmls xs
end

theorem saneXmls_iff {xs : List Xml} : SaneXmls xs ↔ ∀ x ∈ xs, x.Sane := by
  induction xs with
  | nil => simp [SaneXmls]
  | cons x xs ih => rw [SaneXmls, ih]; simp

theorem noTexts2_cons {x : Xml} {xs : List Xml} (h : noTexts2 xs = true) (hx : x.isText = false ∨ ∀ y, xs.head? = some y → y.isText = false) :
    noTexts2 (x :: xs) = true := by
  cases xs with
  | nil => rfl
  | cons y ys =>
    rw [noTexts2, h, Bool.and_true]
    rcases hx with hx | hx
    · rw [hx]; rfl
    · rw [hx y rfl]; simp

theorem noTexts2_append : ∀ (a : List Xml) {x : Xml}, noTexts2 a = true → (x.isText = false ∨ ∀ y, a.getLast? = some y → y.isText = false) →
    noTexts2 (a ++ [x]) = true
  | [], x, _, _ => rfl
  | [y], x, _, h => by
    rw [List.singleton_append, noTexts2]
    rcases h with h | h
    · rw [h]; simp [noTexts2]
    · rw [h y rfl]; simp [noTexts2]
  | y :: z :: ys, x, h, hx => by
    rw [noTexts2, Bool.and_eq_true] at h
    have := noTexts2_append (z :: ys) h.2 (hx.imp id (fun hy w hw => hy w (by rw [List.getLast?_cons_cons]; exact hw)))
    rw [List.cons_append, List.cons_append, noTexts2, h.1, Bool.true_and]
    exact this

theorem noTexts2_reverse : ∀ {a : List Xml}, noTexts2 a = true → noTexts2 a.reverse = true
  | [], _ => rfl
  | [y], _ => rfl
  | y :: z :: ys, h => by
    rw [noTexts2, Bool.and_eq_true] at h
    rw [List.reverse_cons]
    refine noTexts2_append _ (noTexts2_reverse h.2) ?_
    by_cases hy : y.isText = true
    · right
      intro w hw
      rw [List.reverse_cons, List.getLast?_append] at hw
      simp only [List.getLast?_singleton, Option.some_or, Option.some.injEq] at hw
      subst hw
      simpa [hy] using h.1
    · left; simpa using hy

/-! ## The reader -/

structure Frame.Sane (f : Frame) : Prop where
  kids : SaneXmls f.kidsRev
  texts : noTexts2 f.kidsRev = true

structure Frame.Named (f : Frame) : Prop where
  sane : f.Sane
  name : isQName f.name = true
  attrs : AttrsSane f.attrs

def Mode.Sane : Mode → Prop
  | .inTag n as _ => isQName n = true ∧ AttrsSane as
  | .attrName n as _ => isQName n = true ∧ AttrsSane as
  | .attrEq n as an => isQName n = true ∧ AttrsSane as ∧ isQName an = true
  | .attrQuote n as an => isQName n = true ∧ AttrsSane as ∧ isQName an = true
  | .attrVal n as an _ _ => isQName n = true ∧ AttrsSane as ∧ isQName an = true
  | .slash n as => isQName n = true ∧ AttrsSane as
  | .comment buf => CommentBuf buf ∧ '\r' ∉ buf
  | .pi buf => PiBuf buf ∧ '\r' ∉ buf
  | _ => True

/-- All frames but the outermost have names. -/
def FramesSane : Frame → List Frame → Prop
  | f, [] => f.Sane
  | f, g :: rest => f.Named ∧ FramesSane g rest

structure RS.Sane (s : RS) : Prop where
  mode : s.mode.Sane
  frames : FramesSane s.top s.rest

theorem FramesSane.top {f : Frame} {rest : List Frame} (h : FramesSane f rest) : f.Sane := by
  cases rest with
  | nil => exact h
  | cons g r => exact h.1.sane

/-- The children of the innermost element change. -/
theorem FramesSane.change {f : Frame} {rest : List Frame} (h : FramesSane f rest) {ks : List Xml} (hk : SaneXmls ks) (ht : noTexts2 ks = true) :
    FramesSane { f with kidsRev := ks } rest := by
  cases rest with
  | nil => exact ⟨hk, ht⟩
  | cons g r => exact ⟨⟨⟨hk, ht⟩, h.1.name, h.1.attrs⟩, h.2⟩

theorem FramesSane.push {f : Frame} {rest : List Frame} (h : FramesSane f rest) {x : Xml} (hx : x.Sane) (ht : x.isText = false) :
    FramesSane { f with kidsRev := x :: f.kidsRev } rest :=
  h.change (by rw [SaneXmls]; exact ⟨hx, h.top.kids⟩) (noTexts2_cons h.top.texts (.inl ht))

theorem addText_sane {t : Str} (ht : ∀ c ∈ t, isXmlChar c = true) {ks : List Xml} (hk : SaneXmls ks) (h2 : noTexts2 ks = true) :
    SaneXmls (addText t ks) ∧ noTexts2 (addText t ks) = true := by
  unfold addText
  split
  · rename_i s ks
    rw [SaneXmls, Xml.Sane] at hk
    refine ⟨?_, ?_⟩
    · rw [SaneXmls, Xml.Sane]
      refine ⟨?_, hk.2⟩
      intro c hc
      rcases List.mem_append.1 hc with hc | hc
      · exact hk.1 c hc
      · exact ht c hc
    · cases ks with
      | nil => rfl
      | cons y ys => exact h2
  · rename_i hne
    refine ⟨?_, ?_⟩
    · rw [SaneXmls, Xml.Sane]; exact ⟨ht, hk⟩
    · refine noTexts2_cons h2 (.inr ?_)
      intro y hy
      cases ks with
      | nil => cases hy
      | cons z zs =>
        cases hy
        cases y with
        | text s => exact absurd rfl (hne s zs)
        | _ => rfl

theorem flush_sane {buf : Str} {f f' : Frame} {rest : List Frame} (h : FramesSane f rest) (he : flush buf f rest = some f') :
    FramesSane f' rest := by
  unfold flush at he
  split at he
  · cases he; exact h
  · split at he
    · split at he
      · cases he; exact h
      · cases he
    · split at he
      · cases he
      · rename_i t ht
        cases he
        obtain ⟨h1, h2⟩ := addText_sane (decodeText_xml ht) h.top.kids h.top.texts
        exact h.change h1 h2

theorem openElem_sane {n : Str} {as : List (Str × Str)} {f : Frame} {rest : List Frame} {s : RS} (h : FramesSane f rest)
    (hn : isQName n = true) (ha : AttrsSane as) (he : openElem n as f rest = some s) : s.Sane := by
  unfold openElem at he
  split at he
  · cases he
  · cases he
    exact ⟨trivial, ⟨⟨⟨trivial, rfl⟩, hn, ha⟩, h⟩⟩

theorem emptyElem_sane {n : Str} {as : List (Str × Str)} {f : Frame} {rest : List Frame} {s : RS} (h : FramesSane f rest)
    (hn : isQName n = true) (ha : AttrsSane as) (he : emptyElem n as f rest = some s) : s.Sane := by
  unfold emptyElem at he
  split at he
  · cases he
  · cases he
    exact ⟨trivial, h.push (by rw [Xml.Sane]; exact ⟨hn, ha, rfl, trivial⟩) rfl⟩

theorem closeElem_sane {n : Str} {f : Frame} {rest : List Frame} {s : RS} (h : FramesSane f rest) (he : closeElem n f rest = some s) : s.Sane := by
  unfold closeElem at he
  split at he
  · cases he
  · rename_i g rest'
    split at he
    · cases he
      refine ⟨trivial, FramesSane.push h.2 ?_ rfl⟩
      rw [Xml.Sane]
      refine ⟨h.1.name, h.1.attrs, noTexts2_reverse h.1.sane.texts, ?_⟩
      rw [saneXmls_iff]
      intro x hx
      exact saneXmls_iff.1 h.1.sane.kids x (List.mem_reverse.1 hx)
    · cases he

theorem attrsSane_append {as : List (Str × Str)} (h : AttrsSane as) {n v : Str} (hn : isQName n = true) (hv : ∀ c ∈ v, isXmlChar c = true) :
    AttrsSane (as ++ [(n, v)]) := by
  intro a ha
  rcases List.mem_append.1 ha with ha | ha
  · exact h a ha
  · rw [List.mem_singleton] at ha; subst ha; exact ⟨hn, hv⟩

theorem attrsSane_nil : AttrsSane [] := by intro a ha; cases ha

theorem suffix_cons_cases {α : Type} {a c : α} {b l : List α} (h : c :: b <:+ a :: l) : (c = a ∧ b = l) ∨ c :: b <:+ l := by
  rw [List.suffix_cons_iff] at h
  rcases h with h | h
  · cases h; exact .inl ⟨rfl, rfl⟩
  · exact .inr h

theorem commentBuf_nil : CommentBuf [] := by
  intro c b h
  rw [List.suffix_nil] at h
  cases h

theorem commentBuf_cons {c : Char} {buf : Str} (h : CommentBuf buf) (hb : buf.take 2 ≠ c!"--") : CommentBuf (c :: buf) := by
  intro d b hs
  rcases suffix_cons_cases hs with ⟨-, rfl⟩ | hs
  · exact hb
  · exact h d b hs

theorem piBuf_nil : PiBuf [] := by
  intro c b h
  rw [List.suffix_nil] at h
  cases h

theorem piBuf_cons {c : Char} {buf : Str} (h : PiBuf buf) (hb : ¬(c = '>' ∧ buf.take 1 = c!"?")) : PiBuf (c :: buf) := by
  intro d b hs
  rcases suffix_cons_cases hs with ⟨rfl, rfl⟩ | hs
  · exact hb
  · exact h d b hs

/-- The end of what has been read of a processing instruction. -/
theorem piBuf_prefix {a b : Str} (h : PiBuf (a ++ b)) : PiBuf a := by
  intro c r hs hc
  refine h c (r ++ b) ?_ ⟨hc.1, ?_⟩
  · obtain ⟨t, e⟩ := hs
    exact ⟨t, by rw [← e]; simp⟩
  · cases r with
    | nil => exact absurd hc.2 (by decide)
    | cons x r => exact hc.2

theorem finishPi_pi {b : Str} {x : Xml} (hb : PiBuf ('?' :: b.reverse)) (hr : '\r' ∉ b) (h : finishPi b = some x) :
    x.Sane ∧ x.isText = false := by
  unfold finishPi at h
  dsimp only at h
  split at h
  · rename_i hc
    cases h
    refine ⟨?_, rfl⟩
    rw [Bool.and_eq_true, Bool.and_eq_true, List.all_eq_true] at hc
    rw [Xml.Sane]
    have hsub : (b.dropWhile (fun c => !isWs c)).dropWhile isWs <:+ b :=
      (List.dropWhile_suffix _).trans (List.dropWhile_suffix _)
    refine ⟨hc.1.1, hc.1.2, hc.2, fun hm => hr (hsub.mem hm), ?_, ?_⟩
    · intro c hh
      have := List.head?_dropWhile_not (p := isWs) (l := b.dropWhile (fun c => !isWs c))
      rw [hh] at this
      simpa using this
    · obtain ⟨t, e⟩ := hsub
      have : '?' :: b.reverse = ('?' :: ((b.dropWhile (fun c => !isWs c)).dropWhile isWs).reverse) ++ t.reverse := by
        conv => lhs; rw [← e]
        simp
      rw [this] at hb
      exact piBuf_prefix hb
  · cases h

theorem step_sane {s s' : RS} {c : Char} (hs : s.Sane) (hcr : c ≠ '\r') (h : step s c = some s') : s'.Sane := by
  obtain ⟨mode, top, rest⟩ := s
  have hm := hs.mode
  have hf := hs.frames
  unfold step at h
  cases mode with
  | text buf =>
    dsimp only at h
    split at h
    · rw [Option.map_eq_some_iff] at h
      obtain ⟨f, h1, rfl⟩ := h
      exact ⟨trivial, flush_sane hf h1⟩
    · cases h; exact ⟨trivial, hf⟩
  | lt =>
    dsimp only at h
    split at h; · cases h; exact ⟨trivial, hf⟩
    split at h; · cases h; exact ⟨trivial, hf⟩
    split at h; · cases h; exact ⟨⟨piBuf_nil, by simp⟩, hf⟩
    split at h
    · cases h; exact ⟨trivial, hf⟩
    · cases h
  | tagName buf =>
    dsimp only at h
    split at h; · cases h; exact ⟨trivial, hf⟩
    split at h
    · rename_i hq
      split at h; · cases h; exact ⟨⟨hq, attrsSane_nil⟩, hf⟩
      split at h; · exact openElem_sane hf hq attrsSane_nil h
      split at h
      · cases h; exact ⟨⟨hq, attrsSane_nil⟩, hf⟩
      · cases h
    · cases h
  | inTag n as ws =>
    dsimp only at h
    split at h; · cases h; exact ⟨hm, hf⟩
    split at h; · exact openElem_sane hf hm.1 hm.2 h
    split at h; · cases h; exact ⟨hm, hf⟩
    split at h
    · cases h; exact ⟨hm, hf⟩
    · cases h
  | attrName n as buf =>
    dsimp only at h
    split at h; · cases h; exact ⟨hm, hf⟩
    split at h
    · rename_i hq
      split at h; · cases h; exact ⟨⟨hm.1, hm.2, hq⟩, hf⟩
      split at h
      · cases h; exact ⟨⟨hm.1, hm.2, hq⟩, hf⟩
      · cases h
    · cases h
  | attrEq n as an =>
    dsimp only at h
    split at h; · cases h; exact ⟨hm, hf⟩
    split at h
    · cases h; exact ⟨hm, hf⟩
    · cases h
  | attrQuote n as an =>
    dsimp only at h
    split at h; · cases h; exact ⟨hm, hf⟩
    split at h
    · cases h; exact ⟨hm, hf⟩
    · cases h
  | attrVal n as an q buf =>
    dsimp only at h
    split at h
    · split at h
      · cases h
      · rename_i v hv
        cases h
        exact ⟨⟨hm.1, attrsSane_append hm.2.1 hm.2.2 (decodeAttr_xml hv)⟩, hf⟩
    · cases h; exact ⟨hm, hf⟩
  | slash n as =>
    dsimp only at h
    split at h
    · exact emptyElem_sane hf hm.1 hm.2 h
    · cases h
  | closeName buf =>
    dsimp only at h
    split at h; · exact closeElem_sane hf h
    split at h
    · cases h; exact ⟨trivial, hf⟩
    · cases h; exact ⟨trivial, hf⟩
  | closeWs n =>
    dsimp only at h
    split at h; · exact closeElem_sane hf h
    split at h
    · cases h; exact ⟨trivial, hf⟩
    · cases h
  | bang buf =>
    dsimp only at h
    split at h; · cases h; exact ⟨⟨commentBuf_nil, by simp⟩, hf⟩
    split at h
    · split at h
      · cases h
      · cases h; exact ⟨trivial, hf⟩
    · split at h
      · cases h; exact ⟨trivial, hf⟩
      · cases h
  | comment buf =>
    dsimp only at h
    split at h
    · rename_i h2
      split at h
      · rename_i hx
        cases h
        rw [Bool.and_eq_true, List.all_eq_true] at hx
        refine ⟨trivial, hf.push ?_ rfl⟩
        rw [Xml.Sane]
        refine ⟨fun c hc => hx.2 c (List.mem_reverse.1 hc), fun hc => hm.2 (List.mem_of_mem_drop (List.mem_reverse.1 hc)), ?_⟩
        have e : buf = '-' :: '-' :: buf.drop 2 := by
          have := List.take_append_drop 2 buf
          rw [h2] at this
          exact this.symm
        rw [List.reverse_reverse, ← e]
        exact hm.1
      · cases h
    · rename_i h2
      cases h
      refine ⟨⟨commentBuf_cons hm.1 h2, ?_⟩, hf⟩
      rw [List.mem_cons, not_or]
      exact ⟨fun e => hcr e.symm, hm.2⟩
  | cdata buf =>
    dsimp only at h
    split at h
    · split at h
      · rename_i hx
        cases h
        obtain ⟨h1, h2⟩ := addText_sane (t := (buf.drop 2).reverse)
          (fun c hc => List.all_eq_true.1 hx c (List.mem_reverse.1 hc)) hf.top.kids hf.top.texts
        exact ⟨trivial, hf.change h1 h2⟩
      · cases h
    · cases h; exact ⟨trivial, hf⟩
  | pi buf =>
    dsimp only at h
    split at h
    · rename_i h2
      split at h
      · cases h
      · rename_i p hp
        cases h
        rw [Bool.and_eq_true, decide_eq_true_eq, decide_eq_true_eq] at h2
        have e : buf = '?' :: buf.drop 1 := by
          have := List.take_append_drop 1 buf
          rw [h2.2] at this
          exact this.symm
        have := finishPi_pi (by rw [List.reverse_reverse, ← e]; exact hm.1) (fun hc => hm.2 (List.mem_of_mem_drop (List.mem_reverse.1 hc))) hp
        exact ⟨trivial, hf.push this.1 this.2⟩
    · rename_i h2
      cases h
      refine ⟨⟨piBuf_cons hm.1 (by simpa using h2), ?_⟩, hf⟩
      rw [List.mem_cons, not_or]
      exact ⟨fun e => hcr e.symm, hm.2⟩

theorem run_sane : ∀ (t : Str) {s s' : RS}, '\r' ∉ t → s.Sane → run s t = some s' → s'.Sane
  | [], s, s', _, hs, h => by cases h; exact hs
  | c :: t, s, s', hc, hs, h => by
    rw [List.mem_cons, not_or] at hc
    rw [run] at h
    split at h
    · cases h
    · rename_i s1 h1
      exact run_sane t hc.2 (step_sane hs (fun e => hc.1 e.symm) h1) h

theorem normEol_noCr (t : Str) : '\r' ∉ normEol t := by
  fun_induction normEol t with
  | case1 => simp
  | case2 s ih => simp [ih]
  | case3 c s _ ih =>
    rw [List.mem_cons, not_or]
    refine ⟨?_, ih⟩
    split
    · decide
    · rename_i h; exact fun e => h e.symm

theorem splitPiEnd_suffix : ∀ {t a b : Str}, splitPiEnd t = some (a, b) → b <:+ t := by
  intro t
  fun_induction splitPiEnd t with
  | case1 => intro a b h; cases h
  | case2 s => intro a b h; cases h; exact ⟨c!"?>", rfl⟩
  | case3 c s _ ih =>
    intro a b h
    rw [Option.map_eq_some_iff] at h
    obtain ⟨⟨x, y⟩, h1, h2⟩ := h
    cases h2
    exact (ih h1).trans (List.suffix_cons _ _)

theorem readDecl_suffix {t t' : Str} {d : Option Decl} (h : readDecl t = some (d, t')) : t' <:+ t := by
  unfold readDecl at h
  split at h
  · split at h
    · split at h
      · cases h
      · rename_i body s'' hsp
        split at h
        · cases h
        split at h
        · split at h
          · cases h
            exact (splitPiEnd_suffix hsp).trans ⟨['<', '?', 'x', 'm', 'l', _], rfl⟩
          · cases h
        · cases h
    · cases h; exact List.suffix_rfl
  · cases h; exact List.suffix_rfl

theorem readRaw_sane {t : Str} {d : Option Decl} {xs : List Xml} (h : readRaw t = some (d, xs)) : SaneXmls xs ∧ noTexts2 xs = true := by
  unfold readRaw at h
  split at h
  · cases h
  · rename_i hdecl
    split at h
    · cases h
    · rename_i st hst
      have hs := run_sane _ (s := RS.start) (fun hm => normEol_noCr _ ((readDecl_suffix hdecl).mem hm)) ⟨trivial, ⟨trivial, rfl⟩⟩ hst
      split at h
      · cases h
      · rename_i ks hk
        cases h
        unfold finish at hk
        split at hk
        · split at hk
          · cases hk
            have := hs.frames.top
            refine ⟨?_, noTexts2_reverse this.texts⟩
            rw [saneXmls_iff]
            intro x hx
            exact saneXmls_iff.1 this.kids x (List.mem_reverse.1 hx)
          · cases hk
        · cases hk

/-! ## Resolved trees -/

/-- No two texts next to each other. -/
def noTextTwice : List Node → Bool
  | a :: b :: ts => !(a.isText && b.isText) && noTextTwice (b :: ts)
  | _ => true

/-- The declarations and attributes of an element, and its name, are names. -/
structure Info.Sane (i : Info) : Prop where
  name : isNCName i.name = true
  pfx : ∀ p, i.pfx = some p → isNCName p = true
  attrs : ∀ a ∈ i.attrs, isNCName a.name = true ∧ (∀ p, a.pfx = some p → isNCName p = true) ∧ (∀ c ∈ a.value, isXmlChar c = true) ∧
    a.pfx.isSome = a.ns.isSome ∧ (a.ns = none → a.name ≠ c!"xmlns")
  nodup : (i.attrs.map (fun a => (a.ns, a.name))).Nodup
  maps : ∀ d ∈ i.nsmap, (∀ p, d.1 = some p → isNCName p = true) ∧ ∀ c ∈ d.2, isXmlChar c = true

mutual
/-- Every element of a tree is as the reader makes them. -/
def Node.Sane : Node → Prop
  | .elem i ks => i.Sane ∧ noTextTwice ks = true ∧ SaneNodes ks
  | .text s => ∀ c ∈ s, isXmlChar c = true
  | .comment s => CommentOk s
  | .pi t d => PiOk t d

def SaneNodes : List Node → Prop
  | [] => True
  | n :: ns => n.Sane ∧ SaneNodes ns
end

def MapSane (m : NsMap) : Prop := ∀ d ∈ m, (∀ p, d.1 = some p → isNCName p = true) ∧ ∀ c ∈ d.2, isXmlChar c = true

theorem isQName_split {q : Str} (h : isQName q = true) : (splitQName q = (none, q) ∧ isNCName q = true) ∨
    ∃ p l, splitQName q = (some p, l) ∧ isNCName p = true ∧ isNCName l = true := by
  have h0 := h
  unfold isQName at h
  rcases splitQName_eq q with e | ⟨p, l, e, -⟩
  · rw [e] at h; exact .inl ⟨e, h⟩
  · rw [e, Bool.and_eq_true] at h; exact .inr ⟨p, l, e, h⟩

theorem declsOf_sane {as : List (Str × Str)} (h : AttrsSane as) : MapSane (declsOf as) := by
  intro d hd
  unfold declsOf at hd
  rw [List.mem_filterMap] at hd
  obtain ⟨a, ha, e⟩ := hd
  rw [Option.map_eq_some_iff] at e
  obtain ⟨q, hq, rfl⟩ := e
  refine ⟨?_, (h a ha).2⟩
  rintro p hp
  dsimp only at hp
  subst hp
  unfold declaredPrefix at hq
  split at hq
  · cases hq
  · rcases isQName_split (h a ha).1 with ⟨e, -⟩ | ⟨p', l, e, -, h2⟩
    · rw [e] at hq; cases hq
    · rw [e] at hq
      dsimp only at hq
      split at hq
      · cases hq; exact h2
      · cases hq

theorem resolveAttrs_sane {m : NsMap} : ∀ {as : List (Str × Str)} {xs : List Attr}, AttrsSane as → (∀ a ∈ as, declaredPrefix a.1 = none) →
    resolveAttrs m as = some xs →
    ∀ a ∈ xs, isNCName a.name = true ∧ (∀ p, a.pfx = some p → isNCName p = true) ∧ (∀ c ∈ a.value, isXmlChar c = true) ∧
      a.pfx.isSome = a.ns.isSome ∧ (a.ns = none → a.name ≠ c!"xmlns")
  | [], xs, _, _, h => by cases h; intro a ha; cases ha
  | b :: bs, xs, hb, hn, h => by
    rw [resolveAttrs] at h
    split at h
    · rename_i x ys hx hys
      cases h
      intro a ha
      rcases List.mem_cons.1 ha with rfl | ha
      · have hb1 := hb b (by simp)
        have hn1 := hn b (by simp)
        rcases resolveAttr_cases hx with ⟨e, rfl⟩ | ⟨l, e, e2, rfl⟩ | ⟨p, l, u, e, e2, -, -, rfl⟩
        · refine ⟨?_, (by intro p hp; cases hp), hb1.2, rfl, ?_⟩
          · rcases isQName_split hb1.1 with ⟨-, h⟩ | ⟨p, l, e', -⟩
            · exact h
            · rw [e] at e'; cases e'
          · intro _ e'
            dsimp only at e'
            rw [e'] at hn1
            exact absurd hn1 (by decide)
        · obtain ⟨h1, h2⟩ := qname_local hb1.1 e2
          exact ⟨h2, (by rintro p ⟨⟩; exact h1), hb1.2, rfl, (by intro e; cases e)⟩
        · obtain ⟨h1, h2⟩ := qname_local hb1.1 e2
          exact ⟨h2, (by rintro p ⟨⟩; exact h1), hb1.2, rfl, (by intro e; cases e)⟩
      · exact resolveAttrs_sane (fun a ha => hb a (by simp [ha])) (fun a ha => hn a (by simp [ha])) hys a ha
    · cases h

theorem resolveElemName_sane {m : NsMap} {q : Str} (hq : isQName q = true) {a : Option Str} {b : Option Str} {c : Str}
    (h : resolveElemName m q = some (a, b, c)) : isNCName c = true ∧ ∀ p, b = some p → isNCName p = true := by
  unfold resolveElemName at h
  rcases isQName_split hq with ⟨e, h1⟩ | ⟨p, l, e, h1, h2⟩
  · rw [e] at h
    dsimp only at h
    split at h
    · cases h; exact ⟨h1, by intro p hp; cases hp⟩
    · split at h
      · cases h; exact ⟨h1, by intro p hp; cases hp⟩
      · cases h; exact ⟨h1, by intro p hp; cases hp⟩
  · rw [e] at h
    dsimp only at h
    split at h
    · cases h; exact ⟨h2, by rintro p ⟨⟩; exact h1⟩
    · split at h
      · cases h
      · cases h; exact ⟨h2, by rintro p ⟨⟩; exact h1⟩

theorem resolveInfo_sane {m : NsMap} {q : Str} {as : List (Str × Str)} {i : Info} (hm : MapSane m) (hq : isQName q = true) (ha : AttrsSane as)
    (h : resolveInfo m q as = some i) : i.Sane := by
  unfold resolveInfo at h
  dsimp only at h
  split at h
  · split at h
    · rename_i ns pfx l bs hn hb
      split at h
      · rename_i hd
        cases h
        obtain ⟨h1, h2⟩ := resolveElemName_sane hq hn
        refine ⟨h1, h2, ?_, noDup_iff.1 hd, ?_⟩
        · refine resolveAttrs_sane ?_ ?_ hb
          · intro a h; exact ha a (List.mem_filter.1 h).1
          · intro a h
            have := (List.mem_filter.1 h).2
            simpa using this
        · intro d hd
          unfold NsMap.push at hd
          rcases List.mem_append.1 hd with hd | hd
          · exact declsOf_sane ha d (List.mem_filter.1 hd).1
          · exact hm d (List.mem_filter.1 hd).1
      · cases h
    · cases h
  · cases h

theorem resolve_isText {m : NsMap} {x : Xml} {n : Node} (h : resolve m x = some n) : n.isText = x.isText := by
  cases x with
  | elem q as ks =>
    rw [resolve] at h
    split at h
    · cases h
    · split at h
      · cases h
      · cases h; rfl
  | text s => rw [resolve] at h; cases h; rfl
  | comment s => rw [resolve] at h; cases h; rfl
  | pi a b => rw [resolve] at h; cases h; rfl

theorem resolveList_texts {m : NsMap} : ∀ {xs : List Xml} {ns : List Node}, resolveList m xs = some ns → noTexts2 xs = true → noTextTwice ns = true
  | [], ns, h, _ => by rw [resolveList] at h; cases h; rfl
  | [x], ns, h, _ => by
    rw [resolveList] at h
    split at h
    · rename_i h1 h2
      rw [resolveList] at h2
      cases h2; cases h; rfl
    · cases h
  | x :: y :: xs, ns, h, ht => by
    rw [noTexts2, Bool.and_eq_true] at ht
    rw [resolveList] at h
    split at h
    · rename_i n ns' h1 h2
      cases h
      have ih := resolveList_texts h2 ht.2
      rw [resolveList] at h2
      split at h2
      · rename_i n2 ns2 h3 h4
        cases h2
        rw [noTextTwice, resolve_isText h1, resolve_isText h3, ht.1, ih]
        rfl
      · cases h2
    · cases h

mutual
theorem resolve_sane : ∀ (m : NsMap) (x : Xml) (n : Node), MapSane m → x.Sane → resolve m x = some n → n.Sane
  | m, .elem q as ks, n, hm, hx, h => by
    rw [Xml.Sane] at hx
    rw [resolve] at h
    split at h
    · cases h
    · rename_i i hi
      split at h
      · cases h
      · rename_i ns hns
        cases h
        have hs := resolveInfo_sane hm hx.1 hx.2.1 hi
        rw [Node.Sane]
        exact ⟨hs, resolveList_texts hns hx.2.2.1, resolveList_sane i.nsmap ks ns hs.maps hx.2.2.2 hns⟩
  | m, .text s, n, _, hx, h => by rw [resolve] at h; cases h; rw [Node.Sane]; rw [Xml.Sane] at hx; exact hx
  | m, .comment s, n, _, hx, h => by rw [resolve] at h; cases h; rw [Node.Sane]; rw [Xml.Sane] at hx; exact hx
  | m, .pi a b, n, _, hx, h => by rw [resolve] at h; cases h; rw [Node.Sane]; rw [Xml.Sane] at hx; exact hx

theorem resolveList_sane : ∀ (m : NsMap) (xs : List Xml) (ns : List Node), MapSane m → SaneXmls xs → resolveList m xs = some ns → SaneNodes ns
  | m, [], ns, _, _, h => by rw [resolveList] at h; cases h; rw [SaneNodes]; trivial
  | m, x :: xs, ns, hm, hx, h => by
    rw [SaneXmls] at hx
    rw [resolveList] at h
    split at h
    · rename_i n ns' h1 h2
      cases h
      rw [SaneNodes]
      exact ⟨resolve_sane m x n hm hx.1 h1, resolveList_sane m xs ns' hm hx.2 h2⟩
    · cases h
end

/-- The root of a document: its tag as written, and what it was resolved to. -/
theorem resolveList_root : ∀ (xs : List Xml) (ns : List Node) (r : Node), SaneXmls xs → resolveList [] xs = some ns → firstElem ns = some r →
    ∃ q as i ks, isQName q = true ∧ AttrsSane as ∧ resolveInfo [] q as = some i ∧ r = .elem i ks
  | [], ns, r, _, h, hf => by rw [resolveList] at h; cases h; cases hf
  | x :: xs, ns, r, hx, h, hf => by
    rw [SaneXmls] at hx
    rw [resolveList] at h
    split at h
    · rename_i n ns' h1 h2
      cases h
      cases x with
      | elem q as ks =>
        rw [resolve] at h1
        split at h1
        · cases h1
        · rename_i i hi
          split at h1
          · cases h1
          · cases h1
            rw [firstElem] at hf
            cases hf
            rw [Xml.Sane] at hx
            exact ⟨q, as, i, _, hx.1.1, hx.1.2.1, hi, rfl⟩
      | text s => rw [resolve] at h1; cases h1; exact resolveList_root xs ns' r hx.2 h2 hf
      | comment s => rw [resolve] at h1; cases h1; exact resolveList_root xs ns' r hx.2 h2 hf
      | pi a b => rw [resolve] at h1; cases h1; exact resolveList_root xs ns' r hx.2 h2 hf
    · cases h

theorem firstElem_sane : ∀ {ns : List Node} {r : Node}, SaneNodes ns → firstElem ns = some r → r.Sane
  | [], r, _, h => by cases h
  | n :: ns, r, hs, h => by
    rw [SaneNodes] at hs
    cases n with
    | elem i ks => simp only [firstElem] at h; cases h; exact hs.1
    | text s => exact firstElem_sane hs.2 h
    | comment s => exact firstElem_sane hs.2 h
    | pi t d => exact firstElem_sane hs.2 h

/-- Every tree the reader produces. -/
theorem readDoc_sane {t : Str} {d : Doc} (h : readDoc t = some d) : d.root.Sane ∧
    ∃ q as i ks, isQName q = true ∧ AttrsSane as ∧ resolveInfo [] q as = some i ∧ d.root = .elem i ks := by
  unfold readDoc at h
  split at h
  · cases h
  · rename_i dd xs hr
    obtain ⟨hs, -⟩ := readRaw_sane hr
    split at h
    · cases h
    · rename_i ns hns
      split at h
      · cases h
      · rename_i r hf
        cases h
        exact ⟨firstElem_sane (resolveList_sane [] xs ns (by intro d hd; cases hd) hs hns) hf, resolveList_root xs ns r hs hns hf⟩

end ReqIF
