import Verif.Proofs.GrammarComplete
/-! The XML declaration, line ends and whole files: the reader and the grammar agree. -/
set_option linter.unusedSimpArgs false
namespace ReqIF.Grammar

/-! ## Values in a declaration -/

/-- Characters of version numbers and encoding names. -/
def NiceChar (c : Char) : Prop := Letter c ∨ ('0' ≤ c ∧ c ≤ '9') ∨ c = '.' ∨ c = '_' ∨ c = '-'

theorem nice_char {c : Char} (h : NiceChar c) :
    isXmlChar c = true ∧ isWs c = false ∧ c ≠ '&' ∧ c ≠ '<' ∧ c ≠ '?' ∧ c ≠ '"' ∧ c ≠ '\'' := by
  have key : ∀ d : Char, ¬ (NiceChar d) → c ≠ d := by rintro d hd rfl; exact hd h
  have hb : 45 ≤ c.toNat ∧ c.toNat ≤ 122 := by
    have e1 : ('a' : Char).val.toNat = 97 := rfl
    have e2 : ('z' : Char).val.toNat = 122 := rfl
    have e3 : ('A' : Char).val.toNat = 65 := rfl
    have e4 : ('Z' : Char).val.toNat = 90 := rfl
    have e5 : ('0' : Char).val.toNat = 48 := rfl
    have e6 : ('9' : Char).val.toNat = 57 := rfl
    have tn : c.toNat = c.val.toNat := rfl
    unfold NiceChar Letter at h
    simp only [Char.le_def, UInt32.le_iff_toNat_le, e1, e2, e3, e4, e5, e6] at h
    rw [tn]
    rcases h with (h | h) | h | rfl | rfl | rfl
    · omega
    · omega
    · omega
    · decide
    · decide
    · decide
  refine ⟨?_, ?_, ?_, ?_, ?_, ?_, ?_⟩
  · unfold isXmlChar
    have : (32 ≤ c.toNat && c.toNat ≤ 55295) = true := by
      rw [Bool.and_eq_true, decide_eq_true_eq, decide_eq_true_eq]; omega
    simp only [this, Bool.or_true, Bool.true_or]
  · cases hw : isWs c with
    | false => rfl
    | true =>
      exfalso
      unfold isWs at hw
      simp only [Bool.or_eq_true, beq_iff_eq] at hw
      rcases hw with ((rfl | rfl) | rfl) | rfl <;> (revert hb; decide)
  all_goals (apply key; unfold NiceChar Letter; decide)

def Nice (v : Str) : Prop := ∀ c ∈ v, NiceChar c

theorem isVersion_iff {v : Str} : isVersion v = true ↔ Version v := by
  unfold isVersion Version
  split
  · rename_i d s
    simp only [List.all_eq_true, Bool.and_eq_true, decide_eq_true_eq]
    constructor
    · intro h; exact ⟨d :: s, rfl, by simp, h⟩
    · rintro ⟨x, e, _, h⟩
      have : d :: s = x := by
        have := congrArg (List.drop 2) e
        simpa using this
      rw [this]; exact h
  · rename_i hn
    constructor
    · intro h; cases h
    · rintro ⟨x, rfl, hx, h⟩
      cases x with
      | nil => exact absurd rfl hx
      | cons d s => exact absurd rfl (hn d s)

theorem isEncName_iff {v : Str} : isEncName v = true ↔ EncName v := by
  cases v with
  | nil => simp [isEncName, EncName]
  | cons c s =>
    simp only [isEncName, EncName, Letter, List.all_eq_true, Bool.and_eq_true, Bool.or_eq_true, decide_eq_true_eq, beq_iff_eq, List.cons.injEq]
    constructor
    · rintro ⟨h1, h2⟩
      refine ⟨c, s, ⟨rfl, rfl⟩, h1, ?_⟩
      intro d hd
      have := h2 d hd
      simp only [or_assoc] at this ⊢
      exact this
    · rintro ⟨_, _, ⟨rfl, rfl⟩, h1, h2⟩
      refine ⟨h1, ?_⟩
      intro d hd
      have := h2 d hd
      simp only [or_assoc] at this ⊢
      exact this

theorem version_nice {v : Str} (h : Version v) : Nice v := by
  obtain ⟨d, rfl, _, hd⟩ := h
  intro c hc
  rcases List.mem_append.1 hc with h | h
  · simp at h
    rcases h with rfl | rfl
    · exact .inr (.inl (by decide))
    · exact .inr (.inr (.inl rfl))
  · exact .inr (.inl (hd c h))

theorem encName_nice {v : Str} (h : EncName v) : Nice v := by
  obtain ⟨c, r, rfl, h1, h2⟩ := h
  intro d hd
  rcases List.mem_cons.1 hd with rfl | h'
  · exact .inl h1
  · exact h2 d h'

theorem yes_nice : Nice c!"yes" := by
  intro c hc
  simp at hc
  rcases hc with rfl | rfl | rfl <;> (left; unfold Letter; decide)

theorem no_nice : Nice c!"no" := by
  intro c hc
  simp at hc
  rcases hc with rfl | rfl <;> (left; unfold Letter; decide)

/-! ## Pseudo-attributes -/

theorem letters_plain {raw v : Str} (h : Letters AttrChar raw v) (ha : '&' ∉ raw) (hv : ∀ c ∈ v, isWs c = false) : raw = v := by
  induction h with
  | none => rfl
  | @char c d s t _ hl _ ih =>
    rw [List.mem_cons, not_or] at ha
    rw [ih ha.2 (fun x hx => hv x (by simp [hx]))]
    obtain ⟨_, _, h3⟩ := hl
    split at h3
    · have := hv d (by simp)
      rw [h3] at this
      exact absurd this (by decide)
    · rw [h3]
  | @ref r d s t hr _ _ =>
    exfalso
    apply ha
    obtain ⟨nm, rfl, _⟩ := reference_entity hr
    simp

theorem plain_letters {v : Str} (h : Nice v) : Letters AttrChar v v := by
  induction v with
  | nil => exact .none
  | cons c v ih =>
    have hc := nice_char (h c (by simp))
    refine .char hc.2.2.1 ⟨hc.1, hc.2.2.2.1, ?_⟩ (ih (fun d hd => h d (by simp [hd])))
    rw [hc.2.1]; rfl

theorem attributes_snoc {s p n v : Str} {as : List (Str × Str)} (h : Attributes s as) (hp : Pseudo p n v) (hn : isQName n = true) (hv : Nice v) :
    Attributes (s ++ p) (as ++ [(n, v)]) := by
  obtain ⟨w, e₁, e₂, q, rfl, hw, h1, h2, hq⟩ := hp
  have hr : q ∉ v := by
    intro hm
    have := nice_char (hv q hm)
    rcases hq with rfl | rfl
    · exact this.2.2.2.2.2.1 rfl
    · exact this.2.2.2.2.2.2 rfl
  have := Attributes.more h hw hn h1 h2 hq hr (plain_letters hv)
  simpa only [List.append_assoc] using this

theorem attributes_last {s : Str} {l : List (Str × Str)} (h : Attributes s l) : ∀ {as : List (Str × Str)} {n v : Str}, l = as ++ [(n, v)] →
    ∃ s' p, s = s' ++ p ∧ Attributes s' as ∧ ('&' ∉ p → (∀ c ∈ v, isWs c = false) → Pseudo p n v) := by
  cases h with
  | none => intro as n v e; simp at e
  | @more s as w n e₁ e₂ raw v q hs hw hn h1 h2 hq hr hv =>
    intro as' n' v' e
    obtain ⟨e1, e2⟩ := List.append_inj' e rfl
    cases e2
    subst e1
    refine ⟨s, w ++ n ++ e₁ ++ c!"=" ++ e₂ ++ [q] ++ raw ++ [q], by simp, hs, ?_⟩
    intro ha hws
    have : raw = v := letters_plain hv (fun hm => ha (by simp [hm])) hws
    rw [this]
    exact ⟨w, e₁, e₂, q, rfl, hw, h1, h2, hq⟩

theorem attributes_none {s : Str} (h : Attributes s []) : s = [] := by
  generalize hl : ([] : List (Str × Str)) = l at h
  cases h with
  | none => rfl
  | more => simp at hl

theorem pseudo_first {c d : Char} {p n v : Str} (hd : isWs d = true) (h : Pseudo (c :: p) n v) : Pseudo (d :: p) n v := by
  obtain ⟨w, e₁, e₂, q, e, hw, h1, h2, hq⟩ := h
  cases w with
  | nil => exact absurd rfl hw.1
  | cons x w =>
    have e' : p = w ++ n ++ e₁ ++ c!"=" ++ e₂ ++ [q] ++ v ++ [q] := by
      have := congrArg (List.drop 1) e
      simpa using this
    refine ⟨d :: w, e₁, e₂, q, by rw [e']; simp, ⟨by simp, ?_⟩, h1, h2, hq⟩
    intro y hy
    rcases List.mem_cons.1 hy with rfl | hy'
    · exact hd
    · exact hw.2 y (by simp [hy'])

theorem pseudo_head {p n v : Str} (h : Pseudo p n v) : ∃ c p', p = c :: p' ∧ isWs c = true := by
  obtain ⟨w, e₁, e₂, q, rfl, hw, h1, h2, hq⟩ := h
  cases w with
  | nil => exact absurd rfl hw.1
  | cons x w => exact ⟨x, _, by simp; rfl, hw.2 x (by simp)⟩

theorem pseudo_free {c : Char} {p n v : Str} (h : Pseudo p n v) (hc : isWs c = false) (h0 : c ≠ '=') (h1 : c ≠ '"') (h2 : c ≠ '\'') (hn : c ∉ n)
    (hv : c ∉ v) : c ∉ p := by
  obtain ⟨w, e₁, e₂, q, rfl, hw, he1, he2, hq⟩ := h
  have hsp : ∀ {w : Str}, OptSpace w → c ∉ w := by
    intro w hw hm
    have := hw c hm
    rw [hc] at this; cases this
  have hq' : c ≠ q := by
    rintro rfl
    rcases hq with e | e
    · exact h1 e
    · exact h2 e
  simp only [List.mem_append, List.mem_cons, List.not_mem_nil, or_false, not_or]
  exact ⟨⟨⟨⟨⟨⟨⟨hsp hw.2, hn⟩, hsp he1⟩, h0⟩, hsp he2⟩, hq'⟩, hv⟩, hq'⟩

/-! ## The declaration -/

theorem splitPiEnd_eq : ∀ {s b r : Str}, splitPiEnd s = some (b, r) → s = b ++ c!"?>" ++ r := by
  intro s
  induction s with
  | nil => intro b r h; simp [splitPiEnd] at h
  | cons c s ih =>
    intro b r h
    unfold splitPiEnd at h
    split at h
    · rename_i e; cases e
    · rename_i s1 e
      cases h
      cases e
      rfl
    · rename_i c' s' _ e
      cases e
      rw [Option.map_eq_some_iff] at h
      obtain ⟨⟨b', r'⟩, h1, h2⟩ := h
      cases h2
      rw [ih h1]
      simp

theorem splitPiEnd_of : ∀ {b r : Str}, '?' ∉ b → splitPiEnd (b ++ c!"?>" ++ r) = some (b, r)
  | [], r, _ => rfl
  | c :: b, r, h => by
    rw [List.mem_cons, not_or] at h
    rw [List.cons_append, List.cons_append, splitPiEnd]
    · rw [splitPiEnd_of h.2]; rfl
    · intro s e _
      exact h.1 e.symm

theorem misc_nil {u : Str} {ks : List Xml} (h : Misc u ks) : ks = [] → OptSpace u := by
  induction h with
  | none => intro _; exact optSpace_nil
  | space _ hc ih => intro e; exact optSpace_snoc (ih e) hc
  | comment => intro e; simp at e
  | inst => intro e; simp at e

/-- A text that is read as one element is an element. -/
theorem element_of_run {t n₀ n : Str} {a₀ as : List (Str × Str)} {ks : List Xml}
    (h : run RS.start t = some ⟨.text [], ⟨n₀, a₀, [.elem n as ks]⟩, []⟩) (h1 : t.head? = some '<') (h2 : ∃ t', t = t' ++ c!">") :
    Element t (.elem n as ks) := by
  obtain ⟨a, e, b, k₁, x, k₂, ht, hm1, he, hm2, hk⟩ := body_iff.1 ⟨_, h, (rfl : finish _ = some [.elem n as ks])⟩
  have hk1 : k₁ = [] := by
    cases k₁ with
    | nil => rfl
    | cons y k₁ => simp at hk
  subst hk1
  rw [List.nil_append] at hk
  cases hk
  have ha : a = [] := by
    cases a with
    | nil => rfl
    | cons c a =>
      have := misc_nil hm1 rfl c (by simp)
      rw [ht] at h1
      simp at h1
      exact absurd h1 (ws_ne this).2.2.1
  have hb : b = [] := by
    rcases List.eq_nil_or_concat b with hb | ⟨b', c, rfl⟩
    · exact hb
    · have hw := misc_nil hm2 rfl c (by simp)
      obtain ⟨t', ht'⟩ := h2
      rw [List.concat_eq_append] at ht
      rw [ht, ← List.append_assoc] at ht'
      have := (List.append_inj' ht' rfl).2
      simp at this
      exact absurd this (ws_ne hw).2.1
  subst ha hb
  rw [ht]
  simpa using he

/-- The tag that stands for a declaration. -/
theorem declTag_inv {body n : Str} {as : List (Str × Str)} {ks : List Xml} (h : Element (c!"<xml " ++ body ++ c!"/>") (.elem n as ks)) :
    ∃ s w, ' ' :: body = s ++ w ∧ Attributes s as ∧ OptSpace w := by
  generalize ht : c!"<xml " ++ body ++ c!"/>" = t at h
  generalize hx : Xml.elem n as ks = x at h
  cases h with
  | @empty n' s w as' hn ha hw =>
    cases hx
    refine ⟨s, w, ?_, ha, hw⟩
    have h1 : c!"xml" ++ (' ' :: body) = n ++ (s ++ w) := by
      have e1 : c!"<xml " ++ body ++ c!"/>" = c!"<" ++ (c!"xml" ++ (' ' :: body)) ++ c!"/>" := by simp
      have e2 : c!"<" ++ n ++ s ++ w ++ c!"/>" = c!"<" ++ (n ++ (s ++ w)) ++ c!"/>" := by simp
      rw [e1, e2] at ht
      exact List.append_cancel_left (List.append_cancel_right ht)
    have t1 := takeWhile_stop (p := isQChar) (a := c!"xml") (b := ' ' :: body) (by decide) (by intro x hx; cases hx; decide)
    have t2 := takeWhile_stop (p := isQChar) (a := n) (b := s ++ w) (isQName_qchars hn).2 (by
      intro x hx
      rcases attributes_head ha with rfl | ⟨c, s', rfl, hc⟩
      · rw [List.nil_append] at hx
        cases w with
        | nil => cases hx
        | cons c w => cases hx; exact ws_not_qchar (hw x (by simp))
      · cases hx; exact ws_not_qchar hc)
    rw [h1] at t1
    exact t1.2.symm.trans t2.2
  | @full n' s w u w' as' ks' hn ha hw hu hw' =>
    exfalso
    have e1 : c!"<xml " ++ body ++ c!"/>" = ((c!"<xml " ++ body) ++ ['/']) ++ c!">" := by simp
    have e2 : c!"<" ++ n' ++ s ++ w ++ c!">" ++ u ++ c!"</" ++ n' ++ w' ++ c!">" =
        ((c!"<" ++ n' ++ s ++ w ++ c!">" ++ u ++ c!"</") ++ (n' ++ w')) ++ c!">" := by simp
    rw [e1, e2] at ht
    have ht' := List.append_cancel_right ht
    have hm : '/' ∈ n' ++ w' := by
      rcases List.eq_nil_or_concat (n' ++ w') with hb | ⟨b', c, hb⟩
      · have := (isQName_qchars hn).1
        simp at hb
        exact absurd hb.1 this
      · rw [List.concat_eq_append] at hb
        rw [hb, ← List.append_assoc] at ht'
        have := (List.append_inj' ht' rfl).2
        simp at this
        rw [hb, this]; simp
    rcases List.mem_append.1 hm with hm | hm
    · have := (isQName_qchars hn).2 _ hm
      revert this; decide
    · have := hw' _ hm
      revert this; decide

theorem declOf_inv {as : List (Str × Str)} {d : Decl} (h : declOf as = some d) :
    ∃ v, Version v ∧ ((as = [(c!"version", v)] ∧ d.encoding = none) ∨
      (∃ x, EncName x ∧ as = [(c!"version", v), (c!"encoding", x)] ∧ d.encoding = some x) ∨
      (∃ y, (y = c!"yes" ∨ y = c!"no") ∧ as = [(c!"version", v), (c!"standalone", y)] ∧ d.encoding = none) ∨
      (∃ x y, EncName x ∧ (y = c!"yes" ∨ y = c!"no") ∧ as = [(c!"version", v), (c!"encoding", x), (c!"standalone", y)] ∧ d.encoding = some x)) := by
  unfold declOf at h
  split at h
  · rename_i vn v rest
    split at h
    · rename_i hv
      rw [Bool.and_eq_true, decide_eq_true_eq] at hv
      obtain ⟨rfl, hv⟩ := hv
      refine ⟨v, isVersion_iff.1 hv, ?_⟩
      split at h
      · cases h; exact .inl ⟨rfl, rfl⟩
      · rename_i n x
        split at h
        · rename_i hc
          rw [Bool.and_eq_true, decide_eq_true_eq] at hc
          obtain ⟨rfl, hc⟩ := hc
          cases h; exact .inr (.inl ⟨x, isEncName_iff.1 hc, rfl, rfl⟩)
        · split at h
          · rename_i hc
            rw [Bool.and_eq_true, Bool.or_eq_true, decide_eq_true_eq, decide_eq_true_eq, decide_eq_true_eq] at hc
            obtain ⟨rfl, hc⟩ := hc
            cases h; exact .inr (.inr (.inl ⟨x, hc, rfl, rfl⟩))
          · cases h
      · rename_i n x m y
        split at h
        · rename_i hc
          rw [Bool.and_eq_true, Bool.and_eq_true, Bool.and_eq_true, Bool.or_eq_true, decide_eq_true_eq, decide_eq_true_eq, decide_eq_true_eq,
            decide_eq_true_eq] at hc
          obtain ⟨⟨⟨rfl, h1⟩, rfl⟩, h2⟩ := hc
          cases h; exact .inr (.inr (.inr ⟨x, y, isEncName_iff.1 h1, h2, rfl, rfl⟩))
        · cases h
      · cases h
    · cases h
  · cases h

theorem nice_noWs {v : Str} (h : Nice v) : ∀ c ∈ v, isWs c = false := fun c hc => (nice_char (h c hc)).2.1

theorem standalone_nice {y : Str} (h : y = c!"yes" ∨ y = c!"no") : Nice y := by
  rcases h with rfl | rfl
  · exact yes_nice
  · exact no_nice

theorem decl_sound {s s' : Str} {d : Decl} (h : readDecl s = some (some d, s')) : ∃ h, s = h ++ s' ∧ Declaration h d.encoding := by
  unfold readDecl at h
  split at h
  · rename_i w t
    split at h
    · rename_i hw
      split at h
      · cases h
      · rename_i body r hsp
        split at h
        · cases h
        · rename_i hamp
          split at h
          · rename_i x1 x2 x3 attrs x4 hrun
            split at h
            · rename_i d' hd
              cases h
              have he := element_of_run hrun rfl ⟨c!"<xml " ++ body ++ c!"/", by simp⟩
              obtain ⟨p, w', hp, ha, hw'⟩ := declTag_inv he
              have hfree : '&' ∉ p := by
                intro hm
                have : '&' ∈ ' ' :: body := by rw [hp]; simp [hm]
                rcases List.mem_cons.1 this with e | e
                · cases e
                · exact hamp e
              obtain ⟨v, hv, hcases⟩ := declOf_inv hd
              -- the parts of the declaration
              obtain ⟨p1, p2, p3, hps, h1, h2, h3⟩ : ∃ p1 p2 p3, p = p1 ++ p2 ++ p3 ∧ Pseudo p1 c!"version" v ∧
                  (d.encoding = none ∧ p2 = [] ∨ ∃ n, d.encoding = some n ∧ Pseudo p2 c!"encoding" n ∧ EncName n) ∧
                  (p3 = [] ∨ Pseudo p3 c!"standalone" c!"yes" ∨ Pseudo p3 c!"standalone" c!"no") := by
                rcases hcases with ⟨rfl, hd1⟩ | ⟨x, hx, rfl, hd1⟩ | ⟨y, hy, rfl, hd1⟩ | ⟨x, y, hx, hy, rfl, hd1⟩
                · obtain ⟨s1, q1, rfl, b1, b2⟩ := attributes_last ha (as := []) rfl
                  rw [attributes_none b1, List.nil_append] at hfree
                  rw [attributes_none b1]
                  exact ⟨q1, [], [], by simp, b2 hfree (nice_noWs (version_nice hv)), .inl ⟨hd1, rfl⟩, .inl rfl⟩
                · obtain ⟨s1, q1, rfl, b1, b2⟩ := attributes_last ha (as := [(c!"version", v)]) rfl
                  obtain ⟨s2, q2, rfl, b3, b4⟩ := attributes_last b1 (as := []) rfl
                  rw [attributes_none b3] at hfree ⊢
                  simp only [List.nil_append, List.mem_append, not_or] at hfree
                  exact ⟨q2, q1, [], by simp, b4 hfree.1 (nice_noWs (version_nice hv)),
                    .inr ⟨x, hd1, b2 hfree.2 (nice_noWs (encName_nice hx)), hx⟩, .inl rfl⟩
                · obtain ⟨s1, q1, rfl, b1, b2⟩ := attributes_last ha (as := [(c!"version", v)]) rfl
                  obtain ⟨s2, q2, rfl, b3, b4⟩ := attributes_last b1 (as := []) rfl
                  rw [attributes_none b3] at hfree ⊢
                  simp only [List.nil_append, List.mem_append, not_or] at hfree
                  refine ⟨q2, [], q1, by simp, b4 hfree.1 (nice_noWs (version_nice hv)), .inl ⟨hd1, rfl⟩, .inr ?_⟩
                  have := b2 hfree.2 (nice_noWs (standalone_nice hy))
                  rcases hy with rfl | rfl
                  · exact .inl this
                  · exact .inr this
                · obtain ⟨s1, q1, rfl, b1, b2⟩ := attributes_last ha (as := [(c!"version", v), (c!"encoding", x)]) rfl
                  obtain ⟨s2, q2, rfl, b3, b4⟩ := attributes_last b1 (as := [(c!"version", v)]) rfl
                  obtain ⟨s3, q3, rfl, b5, b6⟩ := attributes_last b3 (as := []) rfl
                  rw [attributes_none b5] at hfree ⊢
                  simp only [List.nil_append, List.mem_append, not_or] at hfree
                  refine ⟨q3, q2, q1, by simp, b6 hfree.1.1 (nice_noWs (version_nice hv)),
                    .inr ⟨x, hd1, b4 hfree.1.2 (nice_noWs (encName_nice hx)), hx⟩, .inr ?_⟩
                  have := b2 hfree.2 (nice_noWs (standalone_nice hy))
                  rcases hy with rfl | rfl
                  · exact .inl this
                  · exact .inr this
              obtain ⟨c, p1', rfl, _⟩ := pseudo_head h1
              have hbody : body = p1' ++ p2 ++ p3 ++ w' := by
                rw [hps] at hp
                have := congrArg (List.drop 1) hp
                simpa using this
              refine ⟨c!"<?xml" ++ (w :: p1') ++ p2 ++ p3 ++ w' ++ c!"?>", ?_, w :: p1', p2, p3, w', v, rfl, pseudo_first hw h1, hv, h2, h3, hw'⟩
              rw [splitPiEnd_eq hsp, hbody]
              simp
            · cases h
          · cases h
    · cases h
  · cases h

theorem decl_none {s s' : Str} (h : readDecl s = some (none, s')) : s' = s := by
  unfold readDecl at h
  split at h
  · split at h
    · split at h
      · cases h
      · split at h
        · cases h
        · split at h
          · split at h <;> cases h
          · cases h
    · cases h; rfl
  · cases h; rfl

theorem decl_complete {h s' : Str} {enc : Option Str} (hd : Declaration h enc) : readDecl (h ++ s') = some (some ⟨enc⟩, s') := by
  obtain ⟨v, e, a, w, version, rfl, hv, hver, he, ha, hw⟩ := hd
  obtain ⟨c, v', rfl, hc⟩ := pseudo_head hv
  have hsp : isWs ' ' = true := rfl
  -- the attributes of the tag
  have a1 : Attributes (' ' :: v') [(c!"version", version)] := by
    have := attributes_snoc .none (pseudo_first hsp hv) (by decide) (version_nice hver)
    simpa using this
  obtain ⟨as, ha1, hdecl⟩ : ∃ as, Attributes ((' ' :: v') ++ e ++ a) as ∧ declOf as = some ⟨enc⟩ := by
    have i1 := isVersion_iff.2 hver
    rcases he with ⟨rfl, rfl⟩ | ⟨n, rfl, hp, hn⟩
    · rcases ha with rfl | ha | ha
      · exact ⟨_, by simpa using a1, by simp [declOf, i1]⟩
      · exact ⟨_, by rw [List.append_nil]; exact attributes_snoc a1 ha (by decide) yes_nice, by simp [declOf, i1]⟩
      · exact ⟨_, by rw [List.append_nil]; exact attributes_snoc a1 ha (by decide) no_nice, by simp [declOf, i1]⟩
    · have i2 := isEncName_iff.2 hn
      have a2 := attributes_snoc a1 hp (by decide) (encName_nice hn)
      rcases ha with rfl | ha | ha
      · exact ⟨_, by rw [List.append_nil]; exact a2, by simp [declOf, i1, i2]⟩
      · exact ⟨_, attributes_snoc a2 ha (by decide) yes_nice, by simp [declOf, i1, i2]⟩
      · exact ⟨_, attributes_snoc a2 ha (by decide) no_nice, by simp [declOf, i1, i2]⟩
  -- characters that do not occur
  have free : ∀ x, isWs x = false → x ≠ '=' → x ≠ '"' → x ≠ '\'' → x ∉ c!"version" → x ∉ c!"encoding" → x ∉ c!"standalone" → ¬ NiceChar x →
      x ∉ v' ++ e ++ a ++ w := by
    intro x x0 x1 x2 x3 x4 x5 x6 x7
    have f1 := pseudo_free hv x0 x1 x2 x3 x4 (fun hm => x7 (version_nice hver x hm))
    have f2 : x ∉ e := by
      rcases he with ⟨_, rfl⟩ | ⟨n, _, hp, hn⟩
      · simp
      · exact pseudo_free hp x0 x1 x2 x3 x5 (fun hm => x7 (encName_nice hn x hm))
    have f3 : x ∉ a := by
      rcases ha with rfl | hp | hp
      · simp
      · exact pseudo_free hp x0 x1 x2 x3 x6 (fun hm => x7 (yes_nice x hm))
      · exact pseudo_free hp x0 x1 x2 x3 x6 (fun hm => x7 (no_nice x hm))
    have f4 : x ∉ w := by
      intro hm
      have := hw x hm
      rw [x0] at this; cases this
    rw [List.mem_cons, not_or] at f1
    simp only [List.mem_append, not_or]
    exact ⟨⟨⟨f1.2, f2⟩, f3⟩, f4⟩
  have q1 : '?' ∉ v' ++ e ++ a ++ w := free '?' (by decide) (by decide) (by decide) (by decide) (by decide) (by decide) (by decide)
    (fun hn => (nice_char hn).2.2.2.2.1 rfl)
  have q2 : '&' ∉ v' ++ e ++ a ++ w := free '&' (by decide) (by decide) (by decide) (by decide) (by decide) (by decide) (by decide)
    (fun hn => (nice_char hn).2.2.1 rfl)
  have hel := Element.empty (n := c!"xml") (by decide) ha1 hw
  have hrun := run_element hel [] ⟨[], [], []⟩ ⟨[], [], []⟩ [] rfl (by simp [hasElem])
  have e0 : c!"<" ++ c!"xml" ++ (' ' :: v' ++ e ++ a) ++ w ++ c!"/>" = c!"<xml " ++ (v' ++ e ++ a ++ w) ++ c!"/>" := by simp
  rw [e0] at hrun
  have e1 : c!"<?xml" ++ c :: v' ++ e ++ a ++ w ++ c!"?>" ++ s' =
      '<' :: '?' :: 'x' :: 'm' :: 'l' :: c :: ((v' ++ e ++ a ++ w) ++ c!"?>" ++ s') := by simp
  rw [e1, readDecl]
  simp only [hc, if_true, splitPiEnd_of q1, if_neg q2]
  have hrun' : run RS.start (c!"<xml " ++ (v' ++ e ++ a ++ w) ++ c!"/>") = some ⟨.text [], ⟨[], [], [.elem c!"xml" as []]⟩, []⟩ := hrun
  rw [hrun']
  simp only [hdecl]

/-- An instruction with target `xml` is never completed. -/
theorem run_xmlPi {f : Frame} {rest : List Frame} {w : Char} (hw : isWs w = true) : ∀ {t b : Str} {st : RS},
    run ⟨.pi (b ++ [w, 'l', 'm', 'x']), f, rest⟩ t = some st → ∃ b', st.mode = .pi b' := by
  intro t
  induction t with
  | nil => intro b st h; cases h; exact ⟨_, rfl⟩
  | cons c t ih =>
    intro b st h
    rw [run] at h
    split at h
    · cases h
    · rename_i s1 hs
      unfold step at hs
      dsimp only at hs
      split at hs
      · rename_i hc
        exfalso
        rw [Bool.and_eq_true, decide_eq_true_eq, decide_eq_true_eq] at hc
        cases b with
        | nil =>
          have := hc.2
          simp at this
          subst this
          revert hw; decide
        | cons x b =>
          have hf : finishPi (((x :: b) ++ [w, 'l', 'm', 'x']).drop 1).reverse = none := by
            have e : (((x :: b) ++ [w, 'l', 'm', 'x']).drop 1).reverse = c!"xml" ++ (w :: b.reverse) := by simp
            have h1 := takeWhile_stop (p := fun c => !isWs c) (a := c!"xml") (b := w :: b.reverse) (by decide)
              (by intro y hy; cases hy; rw [hw]; rfl)
            rw [e]
            unfold finishPi
            rw [h1.1]
            dsimp only
            rw [if_neg]
            have : c!"xml".map asciiLower = c!"xml" := by decide
            rw [this]
            simp
          rw [hf] at hs
          cases hs
      · cases hs
        exact ih (b := c :: b) h

theorem decl_absent {s : Str} {ks : List Xml} (h : Body s ks) : readDecl s = some (none, s) := by
  obtain ⟨st, h1, h2⟩ := body_iff.2 h
  unfold readDecl
  split
  · rename_i w t
    split
    · rename_i hw
      exfalso
      have e : run RS.start ('<' :: '?' :: 'x' :: 'm' :: 'l' :: w :: t) = run ⟨.pi ([] ++ [w, 'l', 'm', 'x']), ⟨[], [], []⟩, []⟩ t := by
        have h0 : run RS.start c!"<?xml" = some ⟨.pi c!"lmx", ⟨[], [], []⟩, []⟩ := rfl
        have : '<' :: '?' :: 'x' :: 'm' :: 'l' :: w :: t = c!"<?xml" ++ (w :: t) := rfl
        rw [this, run_append_of_eq h0]
        rw [run_cons (s' := ⟨.pi (w :: c!"lmx"), ⟨[], [], []⟩, []⟩)]
        · rfl
        · simp [step]
      rw [e] at h1
      obtain ⟨b', hb'⟩ := run_xmlPi hw h1
      unfold finish at h2
      rw [hb'] at h2
      cases h2
    · rfl
  · rfl

/-! ## Files -/

theorem lines_iff : ∀ {s t : Str}, Lines s t ↔ normEol s = t := by
  intro s t
  constructor
  · intro h
    induction h with
    | none => rfl
    | crlf _ ih => rw [normEol, ih]
    | @cr s t hn _ ih =>
      rw [normEol]
      · rw [ih]; rfl
      · intro s' _ e
        rw [e] at hn
        exact hn rfl
    | @other c s t hc _ ih =>
      rw [normEol]
      · rw [ih, if_neg hc]
      · intro s' e _
        exact hc e
  · rintro rfl
    induction s using normEol.induct with
    | case1 => exact .none
    | case2 s ih => rw [normEol]; exact .crlf ih
    | case3 c s hn ih =>
      rw [normEol.eq_3 _ _ hn]
      split
      · rename_i hc
        subst hc
        refine .cr ?_ ih
        intro e
        cases s with
        | nil => cases e
        | cons d s => cases e; exact hn s rfl rfl
      · rename_i hc
        exact .other hc ih

theorem document_iff {t : Str} {d : Option Decl} {ks : List Xml} :
    (∃ s' st, readDecl t = some (d, s') ∧ run RS.start s' = some st ∧ finish st = some ks) ↔ Document t (d.map (·.encoding)) ks := by
  constructor
  · rintro ⟨s', st, h1, h2, h3⟩
    obtain ⟨a, e, b, k₁, x, k₂, rfl, hm1, he, hm2, hk⟩ := body_iff.1 ⟨st, h2, h3⟩
    cases d with
    | none =>
      rw [← decl_none h1]
      exact ⟨[], a, e, b, k₁, x, k₂, by simp, .inl ⟨rfl, rfl⟩, hm1, he, hm2, hk⟩
    | some d =>
      obtain ⟨h, rfl, hd⟩ := decl_sound h1
      exact ⟨h, a, e, b, k₁, x, k₂, by simp, .inr ⟨_, rfl, hd⟩, hm1, he, hm2, hk⟩
  · rintro ⟨h, a, e, b, k₁, x, k₂, rfl, hd, hm1, he, hm2, hk⟩
    have hb : Body (a ++ e ++ b) ks := ⟨a, e, b, k₁, x, k₂, rfl, hm1, he, hm2, hk⟩
    obtain ⟨st, h1, h2⟩ := body_iff.2 hb
    refine ⟨a ++ e ++ b, st, ?_, h1, h2⟩
    rcases hd with ⟨hd, rfl⟩ | ⟨enc, hd, hdecl⟩
    · cases d with
      | none => simpa using decl_absent hb
      | some d => cases hd
    · cases d with
      | none => cases hd
      | some d =>
        have : enc = d.encoding := by simpa using hd.symm
        subst this
        have := decl_complete (s' := a ++ e ++ b) hdecl
        simpa only [List.append_assoc] using this

/-- The reader and the grammar agree. -/
theorem file_iff {s : Str} {d : Option Decl} {ks : List Xml} : readRaw s = some (d, ks) ↔ File s (d.map (·.encoding)) ks := by
  have h1 : readRaw s = some (d, ks) ↔
      ∃ s' st, readDecl (normEol (dropBom s)) = some (d, s') ∧ run RS.start s' = some st ∧ finish st = some ks := by
    unfold readRaw
    constructor
    · intro h
      split at h
      · cases h
      · rename_i d' s' hd
        split at h
        · cases h
        · rename_i st hr
          split at h
          · cases h
          · rename_i ks' hf
            cases h
            exact ⟨s', st, hd, hr, hf⟩
    · rintro ⟨s', st, hd, hr, hf⟩
      rw [hd]
      dsimp only
      rw [hr]
      dsimp only
      rw [hf]
  rw [h1, document_iff]
  unfold File
  constructor
  · intro h
    refine ⟨dropBom s, normEol (dropBom s), ?_, lines_iff.2 rfl, h⟩
    cases s with
    | nil => left; exact ⟨rfl, by simp⟩
    | cons c s =>
      rw [dropBom]
      by_cases hc : c = Char.ofNat 0xFEFF
      · rw [if_pos hc]; right; rw [hc]
      · rw [if_neg hc]; left; exact ⟨rfl, by simpa using hc⟩
  · rintro ⟨u, t, hu, hl, h⟩
    have : dropBom s = u := by
      rcases hu with ⟨rfl, hh⟩ | rfl
      · cases s with
        | nil => rfl
        | cons c s =>
          rw [dropBom, if_neg]
          simpa using hh
      · rw [dropBom, if_pos rfl]
    rw [this, lines_iff.1 hl]
    exact h

end ReqIF.Grammar
