import Verif.Proofs.GrammarSound
/-! What is in the grammar is accepted by the reader, with the nodes of the grammar. -/
set_option linter.unusedSimpArgs false
namespace ReqIF.Grammar

theorem ws_not_qchar {c : Char} (h : isWs c = true) : isQChar c = false := by
  cases hq : isQChar c with
  | false => rfl
  | true =>
    have := (not_qchar_of_mem hq).2.2.2.2.2.2.2.2
    rw [h] at this
    cases this

theorem ws_ne {c : Char} (h : isWs c = true) : c ≠ '=' ∧ c ≠ '>' ∧ c ≠ '<' ∧ c ≠ '?' ∧ c ≠ '"' ∧ c ≠ '\'' ∧ c ≠ '&' := by
  refine ⟨?_, ?_, ?_, ?_, ?_, ?_, ?_⟩ <;> (rintro rfl; revert h; decide)

/-! ## Tags -/

theorem run_spaces {n : Str} {as : List (Str × Str)} {f : Frame} {rest : List Frame} :
    ∀ {w : Str} {b : Bool}, OptSpace w → run ⟨.inTag n as b, f, rest⟩ w = some ⟨.inTag n as (b || !w.isEmpty), f, rest⟩
  | [], b, _ => by simp [run]
  | c :: w, b, h => by
    have hc : isWs c = true := h c (by simp)
    rw [run_cons (s' := ⟨.inTag n as true, f, rest⟩) (by simp only [step, hc, if_true])]
    rw [run_spaces (fun d hd => h d (by simp [hd]))]
    simp

theorem run_eqSpaces {n an : Str} {as : List (Str × Str)} {f : Frame} {rest : List Frame} :
    ∀ {w : Str}, OptSpace w → run ⟨.attrEq n as an, f, rest⟩ w = some ⟨.attrEq n as an, f, rest⟩
  | [], _ => rfl
  | c :: w, h => by
    have hc : isWs c = true := h c (by simp)
    rw [run_cons (s' := ⟨.attrEq n as an, f, rest⟩) (by simp only [step, hc, if_true])]
    exact run_eqSpaces (fun d hd => h d (by simp [hd]))

theorem run_quoteSpaces {n an : Str} {as : List (Str × Str)} {f : Frame} {rest : List Frame} :
    ∀ {w : Str}, OptSpace w → run ⟨.attrQuote n as an, f, rest⟩ w = some ⟨.attrQuote n as an, f, rest⟩
  | [], _ => rfl
  | c :: w, h => by
    have hc : isWs c = true := h c (by simp)
    rw [run_cons (s' := ⟨.attrQuote n as an, f, rest⟩) (by simp only [step, hc, if_true])]
    exact run_quoteSpaces (fun d hd => h d (by simp [hd]))

theorem run_closeSpaces {n : Str} {f : Frame} {rest : List Frame} :
    ∀ {w : Str}, OptSpace w → run ⟨.closeWs n, f, rest⟩ w = some ⟨.closeWs n, f, rest⟩
  | [], _ => rfl
  | c :: w, h => by
    have hc : isWs c = true := h c (by simp)
    rw [run_cons (s' := ⟨.closeWs n, f, rest⟩) (by simp only [step, hc, if_true, if_neg (ws_ne hc).2.1])]
    exact run_closeSpaces (fun d hd => h d (by simp [hd]))

theorem run_equals {n buf e : Str} {as : List (Str × Str)} {f : Frame} {rest : List Frame} (hq : isQName buf.reverse = true) (he : OptSpace e) :
    run ⟨.attrName n as buf, f, rest⟩ (e ++ c!"=") = some ⟨.attrQuote n as buf.reverse, f, rest⟩ := by
  have hqe : isQChar '=' = false := by decide
  have hwe : isWs '=' = false := by decide
  cases e with
  | nil => rw [List.nil_append, run_cons (s' := ⟨.attrQuote n as buf.reverse, f, rest⟩) (by simp [step, hq, hqe])]; rfl
  | cons c e =>
    have hc : isWs c = true := he c (by simp)
    rw [List.cons_append, run_cons (s' := ⟨.attrEq n as buf.reverse, f, rest⟩)
      (by simp [step, hq, hc, ws_not_qchar hc, (ws_ne hc).1])]
    rw [run_append_of_eq (run_eqSpaces (fun d hd => he d (by simp [hd])))]
    rw [run_cons (s' := ⟨.attrQuote n as buf.reverse, f, rest⟩) (by simp [step, hwe])]
    rfl

theorem run_value {n an : Str} {as : List (Str × Str)} {q : Char} {f : Frame} {rest : List Frame} :
    ∀ {raw buf : Str}, q ∉ raw → run ⟨.attrVal n as an q buf, f, rest⟩ raw = some ⟨.attrVal n as an q (raw.reverse ++ buf), f, rest⟩
  | [], _, _ => rfl
  | c :: raw, buf, h => by
    rw [List.mem_cons, not_or] at h
    rw [run_cons (s' := ⟨.attrVal n as an q (c :: buf), f, rest⟩) (by simp only [step, if_neg (Ne.symm h.1)])]
    rw [run_value h.2]
    simp

theorem run_attribute {nm w n e₁ e₂ raw v : Str} {q : Char} {b : Bool} {as : List (Str × Str)} {f : Frame} {rest : List Frame}
    (hw : Space w) (hn : isQName n = true) (h1 : OptSpace e₁) (h2 : OptSpace e₂) (hq : q = '"' ∨ q = '\'') (hr : q ∉ raw)
    (hv : Letters AttrChar raw v) :
    run ⟨.inTag nm as b, f, rest⟩ (w ++ n ++ e₁ ++ c!"=" ++ e₂ ++ [q] ++ raw ++ [q]) = some ⟨.inTag nm (as ++ [(n, v)]) false, f, rest⟩ := by
  obtain ⟨hne, hqc⟩ := isQName_qchars hn
  cases n with
  | nil => exact absurd rfl hne
  | cons c n =>
    have hc := hqc c (by simp)
    have hcn := not_qchar_of_mem hc
    have e0 : w ++ c :: n ++ e₁ ++ c!"=" ++ e₂ ++ [q] ++ raw ++ [q] = w ++ (c :: (n ++ ((e₁ ++ c!"=") ++ (e₂ ++ (q :: (raw ++ [q])))))) := by simp
    rw [e0, run_append_of_eq (run_spaces hw.2)]
    have hb : (b || !w.isEmpty) = true := by
      have : w.isEmpty = false := by simpa using hw.1
      rw [this]; simp
    rw [hb]
    rw [run_cons (s' := ⟨.attrName nm as [c], f, rest⟩)
      (by simp [step, hc, hcn.1, hcn.2.2.2.1, hcn.2.2.2.2.2.2.2.2])]
    rw [run_attrName n (fun d hd => hqc d (by simp [hd]))]
    have hrev : (n.reverse ++ [c]).reverse = c :: n := by simp
    rw [run_append_of_eq (run_equals (by rw [hrev]; exact hn) h1), hrev]
    rw [run_append_of_eq (run_quoteSpaces h2)]
    rw [run_cons (s' := ⟨.attrVal nm as (c :: n) q [], f, rest⟩) (by rcases hq with rfl | rfl <;> simp [step, isWs])]
    rw [run_append_of_eq (run_value hr)]
    rw [run_cons (s' := ⟨.inTag nm (as ++ [(c :: n, v)]) false, f, rest⟩)
      (by simp only [step, if_true, List.append_nil, List.reverse_reverse, decodeAttr_iff.2 hv])]
    rfl

theorem run_attributes {nm s : Str} {as pre : List (Str × Str)} {f : Frame} {rest : List Frame} {b : Bool} (h : Attributes s as) :
    ∃ b', run ⟨.inTag nm pre b, f, rest⟩ s = some ⟨.inTag nm (pre ++ as) b', f, rest⟩ := by
  induction h with
  | none => exact ⟨b, by simp [run]⟩
  | @more s as w n e₁ e₂ raw v q _ hw hn h1 h2 hq hr hv ih =>
    obtain ⟨b', ih⟩ := ih
    refine ⟨false, ?_⟩
    have e0 : s ++ w ++ n ++ e₁ ++ c!"=" ++ e₂ ++ [q] ++ raw ++ [q] = s ++ (w ++ n ++ e₁ ++ c!"=" ++ e₂ ++ [q] ++ raw ++ [q]) := by simp
    rw [e0, run_append_of_eq ih, run_attribute hw hn h1 h2 hq hr hv]
    simp

theorem attributes_head {s : Str} {as : List (Str × Str)} (h : Attributes s as) : s = [] ∨ ∃ c s', s = c :: s' ∧ isWs c = true := by
  induction h with
  | none => exact .inl rfl
  | @more s as w n e₁ e₂ raw v q _ hw hn h1 h2 hq hr hv ih =>
    right
    rcases ih with rfl | ⟨c, s', rfl, hc⟩
    · cases w with
      | nil => exact absurd rfl hw.1
      | cons c w => exact ⟨c, _, by simp; rfl, hw.2 c (by simp)⟩
    · exact ⟨c, _, by simp; rfl, hc⟩

theorem run_tagEnd {buf : Str} {c : Char} {tl : Str} {f : Frame} {rest : List Frame} (hq : isQName buf.reverse = true) (hc : isQChar c = false) :
    run ⟨.tagName buf, f, rest⟩ (c :: tl) = run ⟨.inTag buf.reverse [] false, f, rest⟩ (c :: tl) := by
  have : step ⟨.tagName buf, f, rest⟩ c = step ⟨.inTag buf.reverse [] false, f, rest⟩ c := by
    simp only [step, hc, hq, Bool.false_eq_true, if_false, if_true, Bool.false_and]
  rw [run, run, this]

/-- A tag up to `>` or `/`. -/
theorem run_tag {n s w buf : Str} {as : List (Str × Str)} {f f' : Frame} {rest : List Frame} (hn : isQName n = true) (ha : Attributes s as)
    (hw : OptSpace w) (hf : flush buf f rest = some f') {c : Char} (hc : c = '>' ∨ c = '/') (tl : Str) :
    ∃ b, run ⟨.text buf, f, rest⟩ (c!"<" ++ n ++ s ++ w ++ c :: tl) = run ⟨.inTag n as b, f', rest⟩ (c :: tl) := by
  obtain ⟨hne, hqc⟩ := isQName_qchars hn
  cases n with
  | nil => exact absurd rfl hne
  | cons d n =>
    have hd := hqc d (by simp)
    have hdn := not_qchar_of_mem hd
    have e0 : c!"<" ++ d :: n ++ s ++ w ++ c :: tl = '<' :: d :: (n ++ (s ++ (w ++ c :: tl))) := by simp
    rw [e0, run_cons (s' := ⟨.lt, f', rest⟩) (by simp only [step, if_true, hf, Option.map_some])]
    rw [run_cons (s' := ⟨.tagName [d], f', rest⟩) (by simp [step, hd, hdn.1, hdn.2.1, hdn.2.2.1])]
    rw [run_tagName n (fun x hx => hqc x (by simp [hx]))]
    have hrev : (n.reverse ++ [d]).reverse = d :: n := by simp
    obtain ⟨x, t, hx, hxq⟩ : ∃ x t, s ++ (w ++ c :: tl) = x :: t ∧ isQChar x = false := by
      rcases attributes_head ha with rfl | ⟨x, s', rfl, hx⟩
      · cases w with
        | nil => exact ⟨c, tl, rfl, by rcases hc with rfl | rfl <;> decide⟩
        | cons x w => exact ⟨x, _, rfl, ws_not_qchar (hw x (by simp))⟩
      · exact ⟨x, _, rfl, ws_not_qchar hx⟩
    rw [hx, run_tagEnd (by rw [hrev]; exact hn) hxq, ← hx, hrev]
    obtain ⟨b', hb'⟩ := run_attributes (nm := d :: n) (pre := []) (f := f') (rest := rest) (b := false) ha
    rw [run_append_of_eq hb', run_append_of_eq (run_spaces hw)]
    exact ⟨_, rfl⟩

theorem run_endTag {n w buf : Str} {f f' g : Frame} {rest : List Frame} (hn : isQName n = true) (hw : OptSpace w)
    (hf : flush buf f (g :: rest) = some f') (hname : f'.name = n) :
    run ⟨.text buf, f, g :: rest⟩ (c!"</" ++ n ++ w ++ c!">") =
      some ⟨.text [], { g with kidsRev := .elem n f'.attrs f'.kidsRev.reverse :: g.kidsRev }, rest⟩ := by
  obtain ⟨hne, hqc⟩ := isQName_qchars hn
  have e0 : c!"</" ++ n ++ w ++ c!">" = '<' :: '/' :: (n ++ (w ++ c!">")) := by simp
  rw [e0, run_cons (s' := ⟨.lt, f', g :: rest⟩) (by simp only [step, if_true, hf, Option.map_some])]
  rw [run_cons (s' := ⟨.closeName [], f', g :: rest⟩) (by simp [step])]
  rw [run_closeName n hqc, List.append_nil]
  cases w with
  | nil =>
    rw [List.nil_append, run]
    simp only [step, if_true, List.reverse_reverse, closeElem, hname, run]
  | cons c w =>
    have hc : isWs c = true := hw c (by simp)
    rw [List.cons_append, run_cons (s' := ⟨.closeWs n, f', g :: rest⟩) (by simp [step, hc, (ws_ne hc).2.1])]
    rw [run_append_of_eq (run_closeSpaces (fun d hd => hw d (by simp [hd])))]
    simp only [run, step, if_true, closeElem, hname]

/-! ## Comments, instructions, CDATA -/

theorem run_commentBody {f : Frame} {rest : List Frame} {c : Char} : ∀ {t buf : Str}, ¬ Has c!"--" (buf.reverse ++ t) →
    run ⟨.comment buf, f, rest⟩ (t ++ [c]) = some ⟨.comment (c :: (t.reverse ++ buf)), f, rest⟩ := by
  have key : ∀ {buf t : Str}, ¬ Has c!"--" (buf.reverse ++ t) → ¬ (buf.take 2 = c!"--") := by
    intro buf t h e
    apply h
    have := List.take_append_drop 2 buf
    rw [e] at this
    exact ⟨(buf.drop 2).reverse, t, by rw [← this]; simp⟩
  intro t
  induction t with
  | nil =>
    intro buf h
    simp only [List.nil_append, run, step, if_neg (key h), List.reverse_nil]
  | cons d t ih =>
    intro buf h
    rw [List.cons_append, run_cons (s' := ⟨.comment (d :: buf), f, rest⟩) (by simp only [step, if_neg (key h)])]
    rw [ih (by rw [List.reverse_cons, List.append_assoc]; exact h)]
    simp

theorem run_comment {e b buf : Str} {f f' : Frame} {rest : List Frame} (he : Comment e b) (hf : flush buf f rest = some f') :
    run ⟨.text buf, f, rest⟩ e = some ⟨.text [], { f' with kidsRev := .comment b :: f'.kidsRev }, rest⟩ := by
  obtain ⟨rfl, hx, hh⟩ := he
  have e0 : c!"<!--" ++ b ++ c!"-->" = '<' :: '!' :: '-' :: '-' :: (((b ++ c!"-") ++ ['-']) ++ c!">") := by simp
  rw [e0, run_cons (s' := ⟨.lt, f', rest⟩) (by simp only [step, if_true, hf, Option.map_some])]
  rw [run_cons (s' := ⟨.bang [], f', rest⟩) (by simp [step])]
  rw [run_cons (s' := ⟨.bang ['-'], f', rest⟩) (by simp [step, List.isPrefixOf])]
  rw [run_cons (s' := ⟨.comment [], f', rest⟩) (by simp [step])]
  have hr := run_commentBody (f := f') (rest := rest) (c := '-') (t := b ++ c!"-") (buf := []) hh
  rw [run_append_of_eq hr]
  have hall : (List.all b.reverse isXmlChar) = true := by
    rw [List.all_eq_true]; intro c hc; exact hx c (List.mem_reverse.1 hc)
  simp [run, step, hall]

theorem has_snoc_ne {p s : Str} {c d : Char} (hcd : d ≠ c) (h : ¬ Has (p ++ [d]) s) : ¬ Has (p ++ [d]) (s ++ [c]) := by
  intro hh
  rcases has_snoc hh with hh | ⟨a, e⟩
  · exact h hh
  · rw [← List.append_assoc] at e
    have := (List.append_inj' e rfl).2
    simp at this
    exact hcd this.symm

theorem run_cdataBody {f : Frame} {rest : List Frame} : ∀ {t buf : Str}, ¬ Has c!"]]>" (buf.reverse ++ t) →
    run ⟨.cdata buf, f, rest⟩ t = some ⟨.cdata (t.reverse ++ buf), f, rest⟩ := by
  intro t
  induction t with
  | nil => intro buf _; rfl
  | cons d t ih =>
    intro buf h
    have hk : ¬ ((decide (d = '>') && decide (buf.take 2 = c!"]]")) = true) := by
      rw [Bool.and_eq_true, decide_eq_true_eq, decide_eq_true_eq]
      rintro ⟨rfl, e⟩
      apply h
      have := List.take_append_drop 2 buf
      rw [e] at this
      exact ⟨(buf.drop 2).reverse, t, by rw [← this]; simp⟩
    rw [run_cons (s' := ⟨.cdata (d :: buf), f, rest⟩) (by simp only [step, if_neg hk])]
    rw [ih (by rw [List.reverse_cons, List.append_assoc]; exact h)]
    simp

theorem run_cdata {e b buf : Str} {f f' g : Frame} {rest : List Frame} (he : CData e b) (hf : flush buf f (g :: rest) = some f') :
    run ⟨.text buf, f, g :: rest⟩ e = some ⟨.text [], { f' with kidsRev := addText b f'.kidsRev }, g :: rest⟩ := by
  obtain ⟨rfl, hx, hh⟩ := he
  have e0 : c!"<![CDATA[" ++ b ++ c!"]]>" = '<' :: (c!"![CDATA[" ++ (((b ++ [']']) ++ [']']) ++ c!">")) := by simp
  rw [e0, run_cons (s' := ⟨.lt, f', g :: rest⟩) (by simp only [step, if_true, hf, Option.map_some])]
  have h1 : run ⟨.lt, f', g :: rest⟩ c!"![CDATA[" = some ⟨.cdata [], f', g :: rest⟩ := by rfl
  rw [run_append_of_eq h1]
  have hh' : ¬ Has c!"]]>" ((b ++ [']']) ++ [']']) :=
    has_snoc_ne (p := c!"]]") (d := '>') (by decide) (has_snoc_ne (p := c!"]]") (d := '>') (by decide) hh)
  have hr := run_cdataBody (f := f') (rest := g :: rest) (t := (b ++ [']']) ++ [']']) (buf := []) hh'
  rw [run_append_of_eq hr]
  have hall : (List.all b.reverse isXmlChar) = true := by
    rw [List.all_eq_true]; intro c hc; exact hx c (List.mem_reverse.1 hc)
  simp [run, step, hall]

theorem run_piBody {f : Frame} {rest : List Frame} : ∀ {t buf : Str}, ¬ Has c!"?>" (buf.reverse ++ t) →
    run ⟨.pi buf, f, rest⟩ t = some ⟨.pi (t.reverse ++ buf), f, rest⟩ := by
  intro t
  induction t with
  | nil => intro buf _; rfl
  | cons d t ih =>
    intro buf h
    have hk : ¬ ((decide (d = '>') && decide (buf.take 1 = c!"?")) = true) := by
      rw [Bool.and_eq_true, decide_eq_true_eq, decide_eq_true_eq]
      rintro ⟨rfl, e⟩
      apply h
      have := List.take_append_drop 1 buf
      rw [e] at this
      exact ⟨(buf.drop 1).reverse, t, by rw [← this]; simp⟩
    rw [run_cons (s' := ⟨.pi (d :: buf), f, rest⟩) (by simp only [step, if_neg hk])]
    rw [ih (by rw [List.reverse_cons, List.append_assoc]; exact h)]
    simp

theorem takeWhile_stop {α : Type} {p : α → Bool} {a b : List α} (ha : ∀ x ∈ a, p x = true) (hb : ∀ x, b.head? = some x → p x = false) :
    (a ++ b).takeWhile p = a ∧ (a ++ b).dropWhile p = b := by
  induction a with
  | nil =>
    cases b with
    | nil => exact ⟨rfl, rfl⟩
    | cons x b => simp [List.takeWhile_cons, List.dropWhile_cons, hb x rfl]
  | cons x a ih =>
    obtain ⟨h1, h2⟩ := ih (fun y hy => ha y (by simp [hy]))
    simp [List.takeWhile_cons, List.dropWhile_cons, ha x (by simp), h1, h2]

theorem finishPi_of {body target w data : Str} (hb : body = target ++ w ++ data) (hw : OptSpace w) (h0 : w = [] → data = [])
    (hd : ∀ c, data.head? = some c → isWs c = false) (hn : isNCName target = true)
    (hx : ¬ (∃ x m l, target = [x, m, l] ∧ (x = 'x' ∨ x = 'X') ∧ (m = 'm' ∨ m = 'M') ∧ (l = 'l' ∨ l = 'L')))
    (hc : ∀ c ∈ data, isXmlChar c = true) : finishPi body = some (.pi target data) := by
  have h1 := takeWhile_stop (p := fun c => !isWs c) (a := target) (b := w ++ data)
    (fun c hc => by rw [isNCName_noWs hn c hc]; rfl)
    (by
      intro c hh
      cases w with
      | nil => rw [h0 rfl] at hh; cases hh
      | cons x w => cases hh; rw [hw c (by simp)]; rfl)
  have h2 := takeWhile_stop (p := isWs) (a := w) (b := data) hw hd
  rw [← lower_xml] at hx
  unfold finishPi
  rw [hb, List.append_assoc, h1.1, h1.2, h2.2]
  dsimp only
  rw [if_pos]
  simp only [Bool.and_eq_true, bne_iff_ne, ne_eq, List.all_eq_true]
  exact ⟨⟨hn, hx⟩, hc⟩

theorem run_inst {e t d buf : Str} {f f' : Frame} {rest : List Frame} (he : Instruction e t d) (hf : flush buf f rest = some f') :
    run ⟨.text buf, f, rest⟩ e = some ⟨.text [], { f' with kidsRev := .pi t d :: f'.kidsRev }, rest⟩ := by
  obtain ⟨w, body, rfl, hb, hw, h0, hd, hn, hx, hc, hh⟩ := he
  have e0 : c!"<?" ++ body ++ c!"?>" = '<' :: '?' :: ((body ++ ['?']) ++ c!">") := by simp
  rw [e0, run_cons (s' := ⟨.lt, f', rest⟩) (by simp only [step, if_true, hf, Option.map_some])]
  rw [run_cons (s' := ⟨.pi [], f', rest⟩) (by simp [step])]
  have hh' : ¬ Has c!"?>" (body ++ ['?']) := has_snoc_ne (p := c!"?") (d := '>') (by decide) hh
  have hr := run_piBody (f := f') (rest := rest) (t := body ++ ['?']) (buf := []) hh'
  rw [run_append_of_eq hr]
  simp [run, step, finishPi_of hb hw h0 hd hn hx hc]

/-! ## Elements and content -/

theorem flush_text {raw t : Str} {f g : Frame} {rest : List Frame} (h : Text raw t) :
    flush raw.reverse f (g :: rest) = some { f with kidsRev := addText t f.kidsRev } := by
  have hd := (decodeText_iff h.1 h.2.1).2 h
  unfold flush
  split
  · rename_i e
    exact absurd (by simpa using e) h.1
  · dsimp only
    rw [List.reverse_reverse, hd]

mutual
theorem run_element {e : Str} {x : Xml} (h : Element e x) (buf : Str) (f f' : Frame) (rest : List Frame) (hf : flush buf f rest = some f')
    (h0 : ¬ ((rest.isEmpty && hasElem f'.kidsRev) = true)) :
    run ⟨.text buf, f, rest⟩ e = some ⟨.text [], { f' with kidsRev := x :: f'.kidsRev }, rest⟩ := by
  match h with
  | .empty (n := n) (s := s) (w := w) (as := as) hn ha hw =>
    obtain ⟨b, hb⟩ := run_tag hn ha hw hf (.inr rfl : '/' = '>' ∨ '/' = '/') c!">"
    have e0 : c!"<" ++ n ++ s ++ w ++ c!"/>" = c!"<" ++ n ++ s ++ w ++ '/' :: c!">" := rfl
    rw [e0, hb, run_cons (s' := ⟨.slash n as, f', rest⟩) (by simp [step, isWs])]
    simp only [run, step, if_true, emptyElem, if_neg h0]
  | .full (n := n) (s := s) (w := w) (u := u) (w' := w') (as := as) (ks := ks) hn ha hw hu hw' =>
    obtain ⟨b, hb⟩ := run_tag hn ha hw hf (.inl rfl : '>' = '>' ∨ '>' = '/') (u ++ (c!"</" ++ n ++ w' ++ c!">"))
    have e0 : c!"<" ++ n ++ s ++ w ++ c!">" ++ u ++ c!"</" ++ n ++ w' ++ c!">" =
        c!"<" ++ n ++ s ++ w ++ '>' :: (u ++ (c!"</" ++ n ++ w' ++ c!">")) := by simp
    rw [e0, hb, run_cons (s' := ⟨.text [], ⟨n, as, []⟩, f' :: rest⟩) (by simp only [step, openElem, if_neg h0]; rfl)]
    obtain ⟨buf', K, h1, h2⟩ := run_content hu n as f' rest
    rw [run_append_of_eq h1, run_endTag hn hw' h2 rfl]
    simp

theorem run_marked {u : Str} {ks : List Xml} (h : Marked u ks) (n : Str) (a : List (Str × Str)) (g : Frame) (rest : List Frame) :
    run ⟨.text [], ⟨n, a, []⟩, g :: rest⟩ u = some ⟨.text [], ⟨n, a, ks.reverse⟩, g :: rest⟩ := by
  match h with
  | .none => rfl
  | .elem hu he =>
    obtain ⟨buf', K, h1, h2⟩ := run_content hu n a g rest
    rw [run_append_of_eq h1, run_element he _ _ _ _ h2 (by simp)]
    simp
  | .comment hu he =>
    obtain ⟨buf', K, h1, h2⟩ := run_content hu n a g rest
    rw [run_append_of_eq h1, run_comment he h2]
    simp
  | .inst hu he =>
    obtain ⟨buf', K, h1, h2⟩ := run_content hu n a g rest
    rw [run_append_of_eq h1, run_inst he h2]
    simp
  | .cdata (b := b) (ks := ks) hu he =>
    obtain ⟨buf', K, h1, h2⟩ := run_content hu n a g rest
    rw [run_append_of_eq h1, run_cdata he h2]
    have := addText_reverse b ks.reverse
    rw [List.reverse_reverse] at this
    rw [← this, List.reverse_reverse]

theorem run_content {u : Str} {ks : List Xml} (h : Content u ks) (n : Str) (a : List (Str × Str)) (g : Frame) (rest : List Frame) :
    ∃ buf K, run ⟨.text [], ⟨n, a, []⟩, g :: rest⟩ u = some ⟨.text buf, ⟨n, a, K⟩, g :: rest⟩ ∧
      flush buf ⟨n, a, K⟩ (g :: rest) = some ⟨n, a, ks.reverse⟩ := by
  match h with
  | .marked hm => exact ⟨[], ks.reverse, run_marked hm n a g rest, rfl⟩
  | .text (raw := raw) (t := t) (ks := ks) hm ht =>
    refine ⟨raw.reverse, ks.reverse, ?_, ?_⟩
    · rw [run_append_of_eq (run_marked hm n a g rest)]
      have := run_text raw ht.2.1 [] ⟨n, a, ks.reverse⟩ (g :: rest) []
      rw [List.append_nil, List.append_nil] at this
      rw [this]; rfl
    · rw [flush_text ht]
      have := addText_reverse t ks.reverse
      rw [List.reverse_reverse] at this
      rw [← this, List.reverse_reverse]
end

/-! ## Top level -/

theorem flush_top {buf : Str} {f : Frame} (h : OptSpace buf) : flush buf f [] = some f := by
  unfold flush
  split
  · rfl
  · dsimp only
    rw [if_pos]
    rw [List.all_eq_true]; exact h

theorem run_misc {u : Str} {ks : List Xml} (h : Misc u ks) (buf : Str) (f : Frame) (hb : OptSpace buf) :
    ∃ buf', OptSpace buf' ∧ run ⟨.text buf, f, []⟩ u = some ⟨.text buf', { f with kidsRev := ks.reverse ++ f.kidsRev }, []⟩ := by
  induction h with
  | none => exact ⟨buf, hb, rfl⟩
  | @space u ks c _ hc ih =>
    obtain ⟨b, h1, h2⟩ := ih
    refine ⟨c :: b, ?_, ?_⟩
    · intro d hd
      rcases List.mem_cons.1 hd with rfl | hd'
      · exact hc
      · exact h1 d hd'
    · rw [run_append_of_eq h2]
      simp only [run, step, if_neg (ws_ne hc).2.2.1]
  | @comment u e b ks _ he ih =>
    obtain ⟨b', h1, h2⟩ := ih
    refine ⟨[], optSpace_nil, ?_⟩
    rw [run_append_of_eq h2, run_comment he (flush_top h1)]
    simp
  | @inst u e t d ks _ he ih =>
    obtain ⟨b', h1, h2⟩ := ih
    refine ⟨[], optSpace_nil, ?_⟩
    rw [run_append_of_eq h2, run_inst he (flush_top h1)]
    simp

/-- The part of a document after the declaration. -/
def Body (s : Str) (ks : List Xml) : Prop :=
  ∃ a e b k₁ x k₂, s = a ++ e ++ b ∧ Misc a k₁ ∧ Element e x ∧ Misc b k₂ ∧ ks = k₁ ++ x :: k₂

/-- The reader accepts what can stand after the declaration. -/
theorem body_iff {s : Str} {ks : List Xml} : (∃ st, run RS.start s = some st ∧ finish st = some ks) ↔ Body s ks := by
  constructor
  · rintro ⟨st, h1, h2⟩
    have hr := run_reads s start_reads h1
    rw [List.nil_append] at hr
    obtain ⟨mode, top, rest⟩ := st
    unfold finish at h2
    dsimp only at h2
    split at h2
    · rename_i buf
      split at h2
      · rename_i hc
        cases h2
        simp only [Bool.and_eq_true, List.all_eq_true, List.isEmpty_iff] at hc
        obtain ⟨⟨rfl, hw⟩, he⟩ := hc
        rcases hr with ⟨b, v, hm, hu, hb, hv⟩ | ⟨v, hv, hm⟩
        · cases hm
          have ht := top_spaces (w := buf.reverse) hv (fun c hc => hw c (List.mem_reverse.1 hc))
          rw [← hu] at ht
          rcases ht with ht | ht
          · exfalso
            obtain ⟨n, as, l, hm⟩ := hasElem_iff.1 he
            exact misc_noElem ht n as l (List.mem_reverse.2 hm)
          · exact ht
        · exact hm.elim
      · cases h2
    · cases h2
  · rintro ⟨a, e, b, k₁, x, k₂, rfl, h1, h2, h3, rfl⟩
    obtain ⟨b1, hb1, r1⟩ := run_misc h1 [] ⟨[], [], []⟩ optSpace_nil
    have h0 : hasElem (k₁.reverse ++ []) = false := by
      cases hh : hasElem (k₁.reverse ++ []) with
      | false => rfl
      | true =>
        obtain ⟨n, as, l, hm⟩ := hasElem_iff.1 hh
        rw [List.append_nil, List.mem_reverse] at hm
        exact absurd hm (misc_noElem h1 n as l)
    have r2 := run_element h2 b1 ⟨[], [], k₁.reverse ++ []⟩ ⟨[], [], k₁.reverse ++ []⟩ [] (flush_top hb1) (by rw [h0]; simp)
    obtain ⟨b3, hb3, r3⟩ := run_misc h3 [] ⟨[], [], x :: (k₁.reverse ++ [])⟩ optSpace_nil
    refine ⟨⟨.text b3, ⟨[], [], k₂.reverse ++ x :: (k₁.reverse ++ [])⟩, []⟩, ?_, ?_⟩
    · rw [List.append_assoc]
      show run ⟨.text [], ⟨[], [], []⟩, []⟩ _ = _
      rw [run_append_of_eq r1, run_append_of_eq r2]
      exact r3
    · unfold finish
      dsimp only
      rw [if_pos]
      · simp
      · simp only [Bool.and_eq_true, List.all_eq_true, List.isEmpty_nil, true_and]
        refine ⟨hb3, ?_⟩
        obtain ⟨n, as, l, rfl⟩ := element_elem h2
        exact hasElem_iff.2 ⟨n, as, l, by simp⟩

end ReqIF.Grammar
