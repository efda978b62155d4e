import Verif.Proofs.SmallDocs
/-!
Counting the character `<` while reading: what ends up in text nodes came from
CDATA sections, and every CDATA section costs one `<` more.
-/
namespace ReqIF

/-- Number of `<` in a string. -/
def ltCount (s : Str) : Nat := s.count '<'

@[simp] theorem ltCount_nil : ltCount [] = 0 := rfl
theorem ltCount_cons (c : Char) (s : Str) : ltCount (c :: s) = ltCount s + (if c = '<' then 1 else 0) := by
  unfold ltCount; rw [List.count_cons]; simp
theorem ltCount_append (a b : Str) : ltCount (a ++ b) = ltCount a + ltCount b := by
  unfold ltCount; exact List.count_append
theorem ltCount_reverse (a : Str) : ltCount a.reverse = ltCount a := by
  unfold ltCount; exact List.count_reverse
theorem ltCount_drop (n : Nat) (a : Str) : ltCount (a.drop n) ≤ ltCount a := by
  unfold ltCount; exact (List.drop_sublist n a).count_le _
theorem ltCount_eq_zero {a : Str} : ltCount a = 0 ↔ '<' ∉ a := by
  unfold ltCount; exact List.count_eq_zero

mutual
/-- Number of `<` in the text of a tree. -/
def Xml.ltText : Xml → Nat
  | .elem _ _ ks => ltTextList ks
  | .text s => ltCount s
  | .comment _ => 0
  | .pi _ _ => 0

def ltTextList : List Xml → Nat
  | [] => 0
  | x :: xs => x.ltText + ltTextList xs
end

theorem ltTextList_append (a b : List Xml) : ltTextList (a ++ b) = ltTextList a + ltTextList b := by
  induction a with
  | nil => simp [ltTextList]
  | cons x a ih => simp [ltTextList, ih, Nat.add_assoc]

theorem ltTextList_reverse (a : List Xml) : ltTextList a.reverse = ltTextList a := by
  induction a with
  | nil => rfl
  | cons x a ih => simp [ltTextList, ltTextList_append, ih, Nat.add_comm]

theorem ltText_addText (t : Str) (ks : List Xml) : ltTextList (addText t ks) = ltCount t + ltTextList ks := by
  unfold addText
  split
  · simp [ltTextList, Xml.ltText, ltCount_append]; omega
  · simp [ltTextList, Xml.ltText]

/-- Number of `<` in the text of all open elements. -/
def RS.ltText (f : Frame) (rest : List Frame) : Nat := ltTextList f.kidsRev + (rest.map (fun g => ltTextList g.kidsRev)).sum

/-- `<` characters used by what the reader is in the middle of. -/
def Mode.pending : Mode → Nat
  | .text _ => 0
  | .cdata buf => 1 + ltCount buf
  | _ => 1

def Nat.sign1 (n : Nat) : Nat := if n = 0 then 0 else 1

/-- At least so many `<` were read inside the root element. -/
def RS.used (s : RS) : Nat :=
  RS.ltText s.top s.rest + Nat.sign1 (RS.ltText s.top s.rest) + s.mode.pending + (if s.rest.isEmpty then 1 else 0)

/-- Every `&` starts `&amp;`. -/
def AmpOk (s : Str) : Prop := ∀ a b, s = a ++ '&' :: b → c!"amp;" <+: b

theorem AmpOk.right {a b : Str} (h : AmpOk (a ++ b)) : AmpOk b := by
  intro x y e
  exact h (a ++ x) y (by rw [e, List.append_assoc])

theorem AmpOk.tail {c : Char} {b : Str} (h : AmpOk (c :: b)) : AmpOk b := AmpOk.right (a := [c]) h

/-- Decoding a part of such a text never yields `<`. -/
theorem decode_noLt (n : Nat) : ∀ (r rest v : Str), r.length ≤ n → AmpOk (r ++ rest) → decodeGo litText none r = some v → '<' ∉ v := by
  induction n with
  | zero =>
    intro r rest v hn h hd
    have : r = [] := List.length_eq_zero_iff.1 (by omega)
    subst this
    simp [decodeGo] at hd
    subst hd
    simp
  | succ n ih =>
    intro r rest v hn h hd
    cases r with
    | nil =>
      simp [decodeGo] at hd
      subst hd
      simp
    | cons c r =>
      by_cases hc : c = '&'
      · subst hc
        have h1 := h [] (r ++ rest) rfl
        rcases r with _ | ⟨c1, r⟩
        · simp [decodeGo] at hd
        rcases r with _ | ⟨c2, r⟩
        · obtain ⟨t, ht⟩ := h1
          simp only [List.cons_append, List.cons.injEq] at ht
          obtain ⟨rfl, -⟩ := ht
          exact absurd hd (by simp [decodeGo])
        rcases r with _ | ⟨c3, r⟩
        · obtain ⟨t, ht⟩ := h1
          simp only [List.cons_append, List.cons.injEq] at ht
          obtain ⟨rfl, rfl, -⟩ := ht
          exact absurd hd (by simp [decodeGo])
        rcases r with _ | ⟨c4, r⟩
        · obtain ⟨t, ht⟩ := h1
          simp only [List.cons_append, List.cons.injEq] at ht
          obtain ⟨rfl, rfl, rfl, -⟩ := ht
          exact absurd hd (by simp [decodeGo])
        obtain ⟨t, ht⟩ := h1
        simp only [List.cons_append, List.cons.injEq] at ht
        obtain ⟨rfl, rfl, rfl, rfl, -⟩ := ht
        have e : decodeGo litText none ('&' :: 'a' :: 'm' :: 'p' :: ';' :: r) = (decodeGo litText none r).map ('&' :: ·) := by
          simp [decodeGo, entityChar]
        rw [e] at hd
        obtain ⟨w, hw, rfl⟩ := Option.map_eq_some_iff.1 hd
        have := ih r rest w (by simp at hn; omega) (AmpOk.right (a := c!"&amp;") h) hw
        simpa using this
      · rw [decodeGo] at hd
        rw [if_neg hc] at hd
        unfold litText at hd
        split at hd
        · cases hd
        · rename_i d hl
          split at hl
          · rename_i hx
            cases hl
            obtain ⟨w, hw, rfl⟩ := Option.map_eq_some_iff.1 hd
            have := ih r rest w (by simp at hn; omega) h.tail hw
            simp at hx
            simp only [List.mem_cons, not_or]
            exact ⟨fun e => hx.2 e.symm, this⟩
          · cases hl

theorem flush_used {buf rest0 : Str} {f g : Frame} {rest : List Frame} (h : flush buf f rest = some g) (ha : AmpOk (buf.reverse ++ rest0)) :
    RS.ltText g rest = RS.ltText f rest := by
  unfold flush at h
  split at h
  · cases h; rfl
  · split at h
    · split at h
      · cases h; rfl
      · cases h
    · split at h
      · cases h
      · rename_i t hd
        cases h
        unfold decodeText at hd
        split at hd
        · cases hd
        · have := decode_noLt _ _ _ _ (Nat.le_refl _) ha hd
          simp only [RS.ltText, ltText_addText, ltCount_eq_zero.2 this, Nat.zero_add]

/-- The text being read goes on with the rest of the input. -/
def RS.inText (s : RS) (cs : Str) : Prop :=
  match s.mode with
  | .text buf => AmpOk (buf.reverse ++ cs)
  | _ => AmpOk cs

theorem inText_amp {s : RS} {cs : Str} (h : RS.inText s cs) : AmpOk cs := by
  unfold RS.inText at h
  split at h
  · exact h.right
  · exact h

theorem inText_of {s : RS} {cs : Str} (h : AmpOk cs) (hm : s.mode = .text [] ∨ ∀ b, s.mode ≠ .text b) : RS.inText s cs := by
  unfold RS.inText
  split
  · rename_i b hb
    rcases hm with hm | hm
    · rw [hm] at hb; cases hb; exact h
    · exact absurd hb (hm b)
  · exact h

theorem sign1_le (n : Nat) : Nat.sign1 n ≤ 1 := by unfold Nat.sign1; split <;> omega

theorem sign1_mono {a b : Nat} (h : a ≤ b) : Nat.sign1 a ≤ Nat.sign1 b := by unfold Nat.sign1; split <;> split <;> omega

theorem openElem_used {n : Str} {as : List (Str × Str)} {f : Frame} {rest : List Frame} {s' : RS} (h : openElem n as f rest = some s') :
    s'.mode = .text [] ∧ RS.ltText s'.top s'.rest = RS.ltText f rest ∧ s'.rest.isEmpty = false := by
  unfold openElem at h
  split at h
  · cases h
  · cases h; simp [RS.ltText, ltTextList]

theorem emptyElem_used {n : Str} {as : List (Str × Str)} {f : Frame} {rest : List Frame} {s' : RS} (h : emptyElem n as f rest = some s') :
    s'.mode = .text [] ∧ RS.ltText s'.top s'.rest = RS.ltText f rest ∧ s'.rest = rest := by
  unfold emptyElem at h
  split at h
  · cases h
  · cases h; simp [RS.ltText, ltTextList, Xml.ltText]

theorem closeElem_used {n : Str} {f : Frame} {rest : List Frame} {s' : RS} (h : closeElem n f rest = some s') :
    s'.mode = .text [] ∧ RS.ltText s'.top s'.rest = RS.ltText f rest ∧ rest.isEmpty = false := by
  unfold closeElem at h
  split at h
  · cases h
  · split at h
    · cases h
      simp [RS.ltText, ltTextList, Xml.ltText, ltTextList_reverse, Nat.add_assoc]
    · cases h

theorem isEmpty_le (rest : List Frame) : (if rest.isEmpty then 1 else 0) ≤ 1 := by split <;> omega

theorem step_used {s s' : RS} {c : Char} {cs : Str} (h : step s c = some s') (ha : RS.inText s (c :: cs)) :
    RS.inText s' cs ∧ s'.used ≤ s.used + (if c = '<' then 1 else 0) := by
  obtain ⟨mode, f, rest⟩ := s
  have ha' := (inText_amp ha).tail
  have simple : ∀ m : Mode, (∀ b, m ≠ .text b) → m.pending ≤ mode.pending →
      RS.inText ⟨m, f, rest⟩ cs ∧ RS.used ⟨m, f, rest⟩ ≤ RS.used ⟨mode, f, rest⟩ + (if c = '<' then 1 else 0) := by
    intro m h1 h2
    refine ⟨inText_of ha' (.inr h1), ?_⟩
    unfold RS.used
    dsimp only
    omega
  have opened : ∀ n as, mode.pending = 1 → openElem n as f rest = some s' →
      RS.inText s' cs ∧ s'.used ≤ RS.used ⟨mode, f, rest⟩ + (if c = '<' then 1 else 0) := by
    intro n as hp ho
    obtain ⟨h1, h2, h3⟩ := openElem_used ho
    refine ⟨inText_of ha' (.inl h1), ?_⟩
    unfold RS.used
    rw [h1, h2, h3]
    simp [Mode.pending, hp]
    omega
  have closed : ∀ n, mode.pending = 1 → closeElem n f rest = some s' →
      RS.inText s' cs ∧ s'.used ≤ RS.used ⟨mode, f, rest⟩ + (if c = '<' then 1 else 0) := by
    intro n hp ho
    obtain ⟨h1, h2, h3⟩ := closeElem_used ho
    refine ⟨inText_of ha' (.inl h1), ?_⟩
    have h4 := isEmpty_le s'.rest
    unfold RS.used
    rw [h1, h2, h3, hp]
    simp only [Mode.pending, Bool.false_eq_true, if_false]
    omega
  cases mode with
  | text buf =>
    simp only [step] at h
    split at h
    · rename_i hc
      obtain ⟨g, hg, rfl⟩ := Option.map_eq_some_iff.1 h
      refine ⟨inText_of ha' (.inr (by simp)), ?_⟩
      unfold RS.used
      dsimp only
      rw [flush_used hg (rest0 := c :: cs) ha, if_pos hc]
      simp [Mode.pending]
      omega
    · cases h
      refine ⟨?_, ?_⟩
      · show AmpOk ((c :: buf).reverse ++ cs)
        have : AmpOk (buf.reverse ++ c :: cs) := ha
        simpa using this
      · unfold RS.used
        simp [Mode.pending]
  | lt =>
    simp only [step] at h
    repeat' (split at h)
    all_goals first | (cases h; exact simple _ (by simp) (by simp [Mode.pending])) | cases h
  | tagName buf =>
    simp only [step] at h
    repeat' (split at h)
    all_goals first | exact opened _ _ rfl h | (cases h; exact simple _ (by simp) (by simp [Mode.pending])) | cases h
  | inTag name attrs ws =>
    simp only [step] at h
    repeat' (split at h)
    all_goals first | exact opened _ _ rfl h | (cases h; exact simple _ (by simp) (by simp [Mode.pending])) | cases h
  | attrName name attrs buf =>
    simp only [step] at h
    repeat' (split at h)
    all_goals first | (cases h; exact simple _ (by simp) (by simp [Mode.pending])) | cases h
  | attrEq name attrs an =>
    simp only [step] at h
    repeat' (split at h)
    all_goals first | (cases h; exact simple _ (by simp) (by simp [Mode.pending])) | cases h
  | attrQuote name attrs an =>
    simp only [step] at h
    repeat' (split at h)
    all_goals first | (cases h; exact simple _ (by simp) (by simp [Mode.pending])) | cases h
  | attrVal name attrs an q buf =>
    simp only [step] at h
    repeat' (split at h)
    all_goals first | (cases h; exact simple _ (by simp) (by simp [Mode.pending])) | cases h
  | slash name attrs =>
    simp only [step] at h
    split at h
    · obtain ⟨h1, h2, h3⟩ := emptyElem_used h
      refine ⟨inText_of ha' (.inl h1), ?_⟩
      unfold RS.used
      rw [h1, h2, h3]
      simp [Mode.pending]
      omega
    · cases h
  | closeName buf =>
    simp only [step] at h
    repeat' (split at h)
    all_goals first | exact closed _ rfl h | (cases h; exact simple _ (by simp) (by simp [Mode.pending])) | cases h
  | closeWs name =>
    simp only [step] at h
    repeat' (split at h)
    all_goals first | exact closed _ rfl h | (cases h; exact simple _ (by simp) (by simp [Mode.pending])) | cases h
  | bang buf =>
    simp only [step] at h
    repeat' (split at h)
    all_goals first | (cases h; exact simple _ (by simp) (by simp [Mode.pending])) | cases h
  | comment buf =>
    simp only [step] at h
    split at h
    · split at h
      · cases h
        refine ⟨inText_of ha' (.inl rfl), ?_⟩
        simp [RS.used, RS.ltText, ltTextList, Xml.ltText, Mode.pending]
        omega
      · cases h
    · cases h; exact simple _ (by simp) (by simp [Mode.pending])
  | cdata buf =>
    simp only [step] at h
    split at h
    · split at h
      · cases h
        refine ⟨inText_of ha' (.inl rfl), ?_⟩
        have h1 := ltCount_drop 2 buf
        unfold RS.used
        simp only [RS.ltText, ltText_addText, ltCount_reverse, Mode.pending]
        have h2 := sign1_le (ltCount (List.drop 2 buf) + ltTextList f.kidsRev + (rest.map (fun g => ltTextList g.kidsRev)).sum)
        omega
      · cases h
    · cases h
      refine ⟨inText_of ha' (.inr (by simp)), ?_⟩
      unfold RS.used
      simp only [Mode.pending, ltCount_cons]
      omega
  | pi buf =>
    simp only [step] at h
    split at h
    · split at h
      · cases h
      · rename_i p hp
        cases h
        refine ⟨inText_of ha' (.inl rfl), ?_⟩
        unfold finishPi at hp
        dsimp only at hp
        split at hp
        · cases hp
          simp [RS.used, RS.ltText, ltTextList, Xml.ltText, Mode.pending]
          omega
        · cases hp
    · cases h; exact simple _ (by simp) (by simp [Mode.pending])

theorem run_used {cs : Str} : ∀ {s s' : RS}, run s cs = some s' → RS.inText s cs → s'.used ≤ s.used + ltCount cs := by
  induction cs with
  | nil => intro s s' h _; simp [run] at h; subst h; simp
  | cons c cs ih =>
    intro s s' h ha
    simp only [run] at h
    split at h
    · cases h
    · rename_i t ht
      obtain ⟨h1, h2⟩ := step_used ht ha
      have := ih h h1
      rw [ltCount_cons]
      omega

/-- The text of the root is among the text counted. -/
theorem resolve_text {m : NsMap} {x : Xml} {n : Node} (h : resolve m x = some n) {s : Str} (ht : n.text? = some s) (he : ∃ i ks, n = .elem i ks) :
    ltCount s ≤ x.ltText := by
  cases x with
  | elem name attrs kids =>
    rw [resolve] at h
    split at h
    · cases h
    · split at h
      · cases h
      · rename_i i _ ks hks
        cases h
        cases kids with
        | nil => simp [resolveList] at hks; subst hks; simp [Node.text?] at ht
        | cons y ys =>
          rw [resolveList] at hks
          split at hks
          · rename_i n ns hn hns
            cases hks
            cases y with
            | text t =>
              simp [resolve] at hn
              subst hn
              simp [Node.text?] at ht
              subst ht
              simp [Xml.ltText, ltTextList]
            | elem a b c =>
              rw [resolve] at hn
              split at hn
              · cases hn
              · split at hn
                · cases hn
                · cases hn; simp [Node.text?] at ht
            | comment c => simp [resolve] at hn; subst hn; simp [Node.text?] at ht
            | pi c d => simp [resolve] at hn; subst hn; simp [Node.text?] at ht
          · cases hks
  | text t => simp [resolve] at h; subst h; simp at he
  | comment t => simp [resolve] at h; subst h; simp at he
  | pi t d => simp [resolve] at h; subst h; simp at he

theorem firstElem_isElem {ns : List Node} {r : Node} (h : firstElem ns = some r) : ∃ i ks, r = .elem i ks := by
  fun_induction firstElem ns with
  | case1 => cases h
  | case2 i ks => cases h; exact ⟨_, _, rfl⟩
  | case3 n ns _ ih => exact ih h

theorem firstElem_text {m : NsMap} {xs : List Xml} : ∀ {ns : List Node} {r : Node}, resolveList m xs = some ns → firstElem ns = some r →
    ∀ {s : Str}, r.text? = some s → ltCount s ≤ ltTextList xs := by
  induction xs with
  | nil => intro ns r h1 h2; simp [resolveList] at h1; subst h1; simp [firstElem] at h2
  | cons x xs ih =>
    intro ns r h1 h2 s hs
    rw [resolveList] at h1
    split at h1
    · rename_i n ns' hn hns
      cases h1
      rw [ltTextList]
      rw [firstElem.eq_def] at h2
      split at h2
      · cases ‹_ = []›
      · rename_i i ks _ e
        cases e
        cases h2
        have := resolve_text hn hs ⟨_, _, rfl⟩
        omega
      · rename_i e
        cases e
        have := ih hns h2 hs
        omega
    · cases h1

/-- Text placed, with every `&` written `&amp;`, in an element is never read as a
text with as many `<` as were written. -/
theorem readDoc_ltText {tag raw : Str} (ht : isNCName tag = true) (hcr : '\r' ∉ raw) (ha : AmpOk raw) {d : Doc} {s : Str}
    (h : readDoc (Spec.textDoc tag raw) = some d) (hs : d.root.text? = some s) : ltCount s + Nat.sign1 (ltCount s) ≤ ltCount raw := by
  have hq := isNCName_qchars ht
  have hqn := isQName_of_ncname ht
  obtain ⟨c, tl, rfl⟩ : ∃ c tl, tag = c :: tl := by
    cases tag with
    | nil => simp [isNCName] at ht
    | cons c tl => exact ⟨c, tl, rfl⟩
  have hc := hq.2 c (by simp)
  have hne := not_qchar_of_mem hc
  have hdoc : Spec.textDoc (c :: tl) raw = '<' :: c :: (tl ++ '>' :: (raw ++ (c!"</" ++ (c :: tl) ++ c!">"))) := by
    simp [Spec.textDoc]
  have hnocr : '\r' ∉ Spec.textDoc (c :: tl) raw := by
    have := qname_noCr hqn
    simp only [List.mem_cons, not_or] at this
    simp [Spec.textDoc, hcr, this]
  unfold readDoc readRaw at h
  have e0 : dropBom (Spec.textDoc (c :: tl) raw) = Spec.textDoc (c :: tl) raw := by rw [hdoc, dropBom, if_neg (by decide)]
  rw [e0, normEol_of_noCr hnocr] at h
  have hd : readDecl (Spec.textDoc (c :: tl) raw) = some (none, Spec.textDoc (c :: tl) raw) := by
    rw [hdoc]
    unfold readDecl
    split
    · rename_i h'; injection h' with _ h'; injection h' with h' _; exact absurd h' hne.2.2.1
    · rfl
  rw [hd] at h
  dsimp only at h
  have hopen : run RS.start (Spec.textDoc (c :: tl) raw) =
      run ⟨.text [], ⟨c :: tl, [], []⟩, [⟨[], [], []⟩]⟩ (raw ++ (c!"</" ++ (c :: tl) ++ c!">")) := by
    rw [hdoc]
    rw [run_cons (s' := ⟨.lt, ⟨[], [], []⟩, []⟩) (by simp [step, RS.start, flush])]
    rw [run_cons (s' := ⟨.tagName [c], ⟨[], [], []⟩, []⟩) (by simp [step, hne, hc])]
    rw [run_tagName tl (fun d hd => hq.2 d (by simp [hd]))]
    rw [run_cons]
    have e : (tl.reverse ++ [c]).reverse = c :: tl := by simp
    simp only [step, e, hqn]
    rfl
  rw [hopen] at h
  have hamp : AmpOk (raw ++ (c!"</" ++ (c :: tl) ++ c!">")) := by
    intro a b e
    have hno : '&' ∉ c!"</" ++ (c :: tl) ++ c!">" := by
      have : '&' ∉ c :: tl := fun hm => absurd (hq.2 _ hm) (by decide)
      simp only [List.mem_cons, not_or] at this
      simp [this]
    rcases List.append_eq_append_iff.1 e with ⟨x, h1, h2⟩ | ⟨x, h1, h2⟩
    · exact absurd (by rw [h2]; simp) hno
    · cases x with
      | nil =>
        simp only [List.nil_append] at h2
        exact absurd (by rw [← h2]; simp) hno
      | cons y x =>
        simp only [List.cons_append, List.cons.injEq] at h2
        obtain ⟨rfl, rfl⟩ := h2
        exact (ha _ _ h1).trans (List.prefix_append _ _)
  cases hrun : run ⟨.text [], ⟨c :: tl, [], []⟩, [⟨[], [], []⟩]⟩ (raw ++ (c!"</" ++ (c :: tl) ++ c!">")) with
  | none => rw [hrun] at h; cases h
  | some st =>
    rw [hrun] at h
    dsimp only at h
    have hu := run_used hrun hamp
    have e1 : RS.used ⟨.text [], ⟨c :: tl, [], []⟩, [⟨[], [], []⟩]⟩ = 0 := rfl
    have e2 : ltCount (raw ++ (c!"</" ++ (c :: tl) ++ c!">")) = ltCount raw + 1 := by
      have : '<' ∉ c :: tl := fun hm => absurd (hq.2 _ hm) (by decide)
      rw [ltCount_append, ltCount_append, ltCount_append, ltCount_eq_zero.2 this]
      rfl
    rw [e1, e2] at hu
    cases hf : finish st with
    | none => rw [hf] at h; cases h
    | some ks =>
      rw [hf] at h
      dsimp only at h
      unfold finish at hf
      split at hf
      · rename_i buf hm
        split at hf
        · rename_i hcond
          cases hf
          simp only [Bool.and_eq_true] at hcond
          split at h
          · cases h
          · rename_i ns hns
            split at h
            · cases h
            · rename_i r hr
              cases h
              have := firstElem_text hns hr hs
              rw [ltTextList_reverse] at this
              unfold RS.used at hu
              have e3 : RS.ltText st.top st.rest = ltTextList st.top.kidsRev := by
                have : st.rest = [] := by simpa using hcond.1.1
                simp [RS.ltText, this]
              rw [e3, hm, hcond.1.1] at hu
              simp only [Mode.pending, if_true] at hu
              have := sign1_mono this
              omega
        · cases hf
      · cases hf

end ReqIF
