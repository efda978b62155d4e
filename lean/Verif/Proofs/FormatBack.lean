import Verif.Proofs.FormatRead
/-! What the reader makes of a printed tree. -/
set_option linter.unusedSimpArgs false
namespace ReqIF.Format
open Spec ReqIF.Xsd

variable {P : Printer}

/-! ## Texts -/

theorem step_lt {buf : Str} {f f' : Frame} {rest : List Frame} (h : flush buf f rest = some f') (tl : Str) :
    run ⟨.text buf, f, rest⟩ ('<' :: tl) = run ⟨.text [], f', rest⟩ ('<' :: tl) := by
  rw [run_cons (s' := ⟨.lt, f', rest⟩) (by simp [step, h]), run_cons (s' := ⟨.lt, f', rest⟩) (by simp [step, flush])]

theorem addText_new {t : Str} {ks : List Xml} (h : ∀ x, ks.head? = some x → x.isText = false) : addText t ks = .text t :: ks := by
  unfold addText
  split
  · rename_i s ks
    have := h _ rfl
    cases this
  · rfl

theorem run_textNode {s : Str} (hne : s ≠ []) (hx : ∀ c ∈ s, isXmlChar c = true) (f g : Frame) (rest : List Frame)
    (hk : ∀ x, f.kidsRev.head? = some x → x.isText = false) (tl : Str) :
    run ⟨.text [], f, g :: rest⟩ (src P (.text s) ++ '<' :: tl) =
      run ⟨.text [], { f with kidsRev := .text s :: f.kidsRev }, g :: rest⟩ ('<' :: tl) := by
  rw [src, run_text _ (P.text_lt s), List.append_nil]
  refine step_lt ?_ tl
  have hn : P.text s ≠ [] := P.text_ne s hne
  have hd := P.text_back s hx
  unfold flush
  split
  · rename_i e; exact absurd (by simpa using congrArg List.reverse e) hn
  · dsimp only
    rw [List.reverse_reverse, hd]
    dsimp only
    rw [addText_new hk]

/-! ## Comments and processing instructions -/

theorem run_comment : ∀ (u buf : Str) (f : Frame) (rest : List Frame) (tl : Str), CommentBuf (u.reverse ++ buf) →
    run ⟨.comment buf, f, rest⟩ (u ++ tl) = run ⟨.comment (u.reverse ++ buf), f, rest⟩ tl
  | [], buf, f, rest, tl, _ => rfl
  | c :: u, buf, f, rest, tl, h => by
    have e : (c :: u).reverse ++ buf = u.reverse ++ c :: buf := by simp
    rw [e] at h ⊢
    have hb := h c buf (List.suffix_append _ _)
    rw [List.cons_append, run_cons (s' := ⟨.comment (c :: buf), f, rest⟩) (by simp only [step]; rw [if_neg hb])]
    exact run_comment u (c :: buf) f rest tl h

theorem run_commentNode {s : Str} (h : CommentOk s) (f : Frame) (rest : List Frame) (tl : Str) :
    run ⟨.text [], f, rest⟩ (src P (.comment s) ++ tl) = run ⟨.text [], { f with kidsRev := .comment s :: f.kidsRev }, rest⟩ tl := by
  have e : src P (.comment s) ++ tl = '<' :: '!' :: '-' :: '-' :: ((s ++ c!"--") ++ '>' :: tl) := by
    rw [src]; simp
  rw [e, run_cons (s' := ⟨.lt, f, rest⟩) (by simp [step, flush]), run_cons (s' := ⟨.bang [], f, rest⟩) (by simp [step]),
    run_cons (s' := ⟨.bang c!"-", f, rest⟩) rfl, run_cons (s' := ⟨.comment [], f, rest⟩) rfl]
  have e2 : (s ++ c!"--").reverse ++ [] = '-' :: '-' :: s.reverse := by simp
  rw [run_comment _ _ _ _ _ (by rw [e2]; exact h.dashes), e2]
  refine run_cons ?_ _
  simp only [step]
  rw [if_pos (by rfl), if_pos]
  · simp
  · rw [Bool.and_eq_true, List.all_eq_true]
    exact ⟨by decide, fun c hc => h.chars c (List.mem_reverse.1 hc)⟩

theorem run_pi : ∀ (u buf : Str) (f : Frame) (rest : List Frame) (tl : Str), PiBuf (u.reverse ++ buf) →
    run ⟨.pi buf, f, rest⟩ (u ++ tl) = run ⟨.pi (u.reverse ++ buf), f, rest⟩ tl
  | [], buf, f, rest, tl, _ => rfl
  | c :: u, buf, f, rest, tl, h => by
    have e : (c :: u).reverse ++ buf = u.reverse ++ c :: buf := by simp
    rw [e] at h ⊢
    have hb := h c buf (List.suffix_append _ _)
    rw [List.cons_append, run_cons (s' := ⟨.pi (c :: buf), f, rest⟩)
      (by simp only [step]; rw [if_neg (by rw [Bool.and_eq_true, decide_eq_true_eq, decide_eq_true_eq]; exact hb)])]
    exact run_pi u (c :: buf) f rest tl h

theorem ncname_chars {t : Str} (h : isNCName t = true) : (∀ c ∈ t, isWs c = false) ∧ '>' ∉ t ∧ '?' ∉ t ∧ '\r' ∉ t := by
  have hq := (isNCName_qchars h).2
  refine ⟨fun c hc => (not_qchar_of_mem (hq c hc)).2.2.2.2.2.2.2.2, ?_, ?_, ?_⟩
  · intro hm; exact (not_qchar_of_mem (hq _ hm)).2.2.2.1 rfl
  · intro hm; exact (not_qchar_of_mem (hq _ hm)).2.2.1 rfl
  · intro hm; exact absurd (not_qchar_of_mem (hq _ hm)).2.2.2.2.2.2.2.2 (by decide)

theorem piBuf_append {a b : Str} (h : PiBuf a) (hb : '>' ∉ b) (hq : ∀ c b', b = c :: b' → c ≠ '?') : PiBuf (a ++ b) := by
  intro c r hs hc
  obtain ⟨t, e⟩ := hs
  rw [List.append_eq_append_iff] at e
  rcases e with ⟨x, e1, e2⟩ | ⟨x, e1, e2⟩
  · cases x with
    | nil =>
      rw [List.nil_append] at e2
      exact hb (by rw [← e2, hc.1]; simp)
    | cons y x =>
      rw [List.cons_append] at e2
      cases e2
      have hs' : c :: x <:+ a := ⟨t, e1.symm⟩
      cases x with
      | nil =>
        cases b with
        | nil => exact absurd hc.2 (by decide)
        | cons z b =>
          have := hc.2
          simp only [List.nil_append, List.take_succ_cons, List.take_zero, List.cons.injEq, and_true] at this
          exact hq z b rfl this
      | cons z x => exact h c (z :: x) hs' ⟨hc.1, hc.2⟩
  · exact hb (by rw [e2, hc.1]; simp)

theorem takeWhile_all {α : Type} {p : α → Bool} : ∀ {a b : List α}, (∀ x ∈ a, p x = true) → (∀ x, b.head? = some x → p x = false) →
    (a ++ b).takeWhile p = a ∧ (a ++ b).dropWhile p = b
  | [], b, _, hb => by
    cases b with
    | nil => exact ⟨rfl, rfl⟩
    | cons x b => simp [hb x rfl]
  | x :: a, b, ha, hb => by
    obtain ⟨h1, h2⟩ := takeWhile_all (a := a) (b := b) (fun y hy => ha y (by simp [hy])) hb
    simp [ha x (by simp), h1, h2]

theorem finishPi_body {t d : Str} (h : PiOk t d) : finishPi (t ++ if d = [] then [] else ' ' :: d) = some (.pi t d) := by
  have hw := (ncname_chars h.target).1
  obtain ⟨h1, h2⟩ := takeWhile_all (p := fun c => !isWs c) (a := t) (b := if d = [] then [] else ' ' :: d)
    (by intro c hc; simp [hw c hc])
    (by
      intro c hc
      split at hc
      · cases hc
      · cases hc; decide)
  unfold finishPi
  dsimp only
  rw [h1, h2]
  have h3 : (if d = [] then [] else ' ' :: d).dropWhile isWs = d := by
    split
    · rename_i e; rw [e]; rfl
    · rw [List.dropWhile_cons, if_pos (by decide)]
      cases d with
      | nil => rfl
      | cons c d => rw [List.dropWhile_cons, if_neg (by rw [h.front c rfl]; decide)]
  rw [h3, if_pos]
  rw [Bool.and_eq_true, Bool.and_eq_true, List.all_eq_true]
  exact ⟨⟨h.target, h.notXml⟩, h.chars⟩

theorem run_piNode {t d : Str} (h : PiOk t d) (f : Frame) (rest : List Frame) (tl : Str) :
    run ⟨.text [], f, rest⟩ (src P (.pi t d) ++ tl) = run ⟨.text [], { f with kidsRev := .pi t d :: f.kidsRev }, rest⟩ tl := by
  have hfin := finishPi_body h
  have e : src P (.pi t d) ++ tl = '<' :: '?' :: (((t ++ if d = [] then [] else ' ' :: d) ++ c!"?") ++ '>' :: tl) := by
    rw [src]; simp
  rw [e, run_cons (s' := ⟨.lt, f, rest⟩) (by simp [step, flush]), run_cons (s' := ⟨.pi [], f, rest⟩) (by simp [step])]
  have hq := ncname_chars h.target
  have hb : PiBuf (((t ++ if d = [] then [] else ' ' :: d) ++ c!"?").reverse ++ []) := by
    have e2 : ((t ++ if d = [] then [] else ' ' :: d) ++ c!"?").reverse ++ [] =
        ('?' :: d.reverse) ++ ((if d = [] then [] else c!" ") ++ t.reverse) := by
      split
      · rename_i hd; rw [hd]; simp
      · simp
    rw [e2]
    refine piBuf_append h.marks ?_ ?_
    · intro hm
      rcases List.mem_append.1 hm with hm | hm
      · split at hm
        · cases hm
        · revert hm; decide
      · exact hq.2.1 (List.mem_reverse.1 hm)
    · intro c b' hc hcq
      subst hcq
      have : '?' ∈ ((if d = [] then [] else c!" ") ++ t.reverse) := by rw [hc]; simp
      rcases List.mem_append.1 this with hm | hm
      · split at hm
        · cases hm
        · revert hm; decide
      · exact hq.2.2.1 (List.mem_reverse.1 hm)
  rw [run_pi _ _ _ _ _ hb]
  refine run_cons ?_ _
  have e3 : ((t ++ if d = [] then [] else ' ' :: d) ++ c!"?").reverse ++ [] = '?' :: (t ++ if d = [] then [] else ' ' :: d).reverse := by
    rw [List.reverse_append]; simp
  simp only [step]
  rw [e3, if_pos (by simp), List.drop_succ_cons, List.drop_zero, List.reverse_reverse, hfin]

/-! ## Elements -/

theorem attrs_lex {as : List (Str × Str)} (h : AttrsSane as) : (P.attrs as).all attrLexOk = true := by
  rw [List.all_eq_true]
  intro a ha
  unfold Printer.attrs at ha
  obtain ⟨b, hb, rfl⟩ := List.mem_map.1 ha
  unfold attrLexOk
  rw [Bool.and_eq_true]
  refine ⟨(h b hb).1, ?_⟩
  simp only [Bool.not_eq_true', List.contains_eq_mem, decide_eq_false_iff_not]
  exact P.attr_quote b.2

theorem attrs_decode : ∀ {as : List (Str × Str)}, AttrsSane as → decodeAttrs (P.attrs as) = some as
  | [], _ => rfl
  | a :: as, h => by
    have ih := attrs_decode (as := as) (fun b hb => h b (by simp [hb]))
    unfold Printer.attrs at ih ⊢
    rw [List.map_cons, decodeAttrs]
    dsimp only
    rw [P.attr_back _ (h a (by simp)).2, ih]

theorem src_starts {m : NsMap} {n : Node} (hf : Fine m n) (h : n.isText = false) : ∃ t, src P n = '<' :: t := by
  cases n with
  | elem i ks => exact ⟨_, by rw [src, List.cons_append, List.cons_append]⟩
  | text s => cases h
  | comment s => exact ⟨_, by rw [src]; rfl⟩
  | pi t d => exact ⟨_, by rw [src]; rfl⟩

theorem srcAll_starts {m : NsMap} : ∀ {ns : List Node}, FineAll m ns → (∀ n, ns.head? = some n → n.isText = false) → ∀ tl : Str,
    ∃ t, srcAll P ns ++ '<' :: tl = '<' :: t
  | [], _, _, tl => ⟨tl, rfl⟩
  | n :: ns, h, hh, tl => by
    rw [FineAll] at h
    obtain ⟨t, e⟩ := src_starts h.1 (hh n rfl)
    exact ⟨_, by rw [srcAll, e, List.cons_append, List.cons_append]⟩

theorem rawAll_reverse_head : ∀ (n : Node) (r : List Xml), n.isText = false → ∀ x, (rawOf n :: r).head? = some x → x.isText = false := by
  intro n r h x hx
  cases hx
  cases n with
  | elem i ks => rw [rawOf]; rfl
  | text s => cases h
  | comment s => rw [rawOf]; rfl
  | pi t d => rw [rawOf]; rfl

mutual
theorem run_node : ∀ (m : NsMap) (n : Node), Fine m n → n.isText = false → ∀ (f : Frame) (rest : List Frame) (tl : Str),
    (isElem n = true → (rest.isEmpty && hasElem f.kidsRev) = false) →
    run ⟨.text [], f, rest⟩ (src P n ++ tl) = run ⟨.text [], { f with kidsRev := rawOf n :: f.kidsRev }, rest⟩ tl
  | m, .text s, _, ht, f, rest, tl, _ => by cases ht
  | m, .comment s, hf, _, f, rest, tl, _ => by
    rw [Fine] at hf
    rw [rawOf]
    exact run_commentNode hf f rest tl
  | m, .pi t d, hf, _, f, rest, tl, _ => by
    rw [Fine] at hf
    rw [rawOf]
    exact run_piNode hf f rest tl
  | m, .elem i ks, hf, _, f, rest, tl, hr => by
    have hr' := hr rfl
    rw [Fine] at hf
    obtain ⟨hi, h2, h3⟩ := hf
    rw [rawOf]
    by_cases hk : ks = []
    · subst hk
      have e : src P (.elem i []) ++ tl = '<' :: rawName i ++ attrsText (P.attrs (rawAttrs i)) ++ '/' :: '>' :: tl := by
        rw [src, if_pos rfl]; simp
      rw [e, run_tagStart _ hi.name _ (attrs_lex hi.attrs) _ _ _ _ (.inr rfl), attrs_decode hi.attrs]
      simp only [flush]
      rw [run_cons (s' := ⟨.slash (rawName i) (rawAttrs i), f, rest⟩) (by simp [step, isWs])]
      refine run_cons ?_ _
      simp only [step]
      rw [if_pos trivial]
      unfold emptyElem
      rw [hr', rawAll]
      rfl
    · have e : src P (.elem i ks) ++ tl = '<' :: rawName i ++ attrsText (P.attrs (rawAttrs i)) ++
          '>' :: (srcAll P ks ++ '<' :: '/' :: (rawName i ++ '>' :: tl)) := by
        rw [src, if_neg hk]; simp
      rw [e, run_tagStart _ hi.name _ (attrs_lex hi.attrs) _ _ _ _ (.inl rfl), attrs_decode hi.attrs]
      simp only [flush]
      rw [run_cons (s' := ⟨.text [], ⟨rawName i, rawAttrs i, []⟩, f :: rest⟩)
        (by simp only [step]; rw [if_neg (by decide), if_pos trivial]; unfold openElem; rw [hr']; rfl)]
      rw [run_nodes i.nsmap ks h3 h2 _ _ _ _ (by intro _ _ _ x hx; cases hx)]
      have e2 : '<' :: '/' :: (rawName i ++ '>' :: tl) = c!"</" ++ rawName i ++ '>' :: tl := by simp
      rw [e2, run_close _ hi.name]
      simp only [flush, closeElem, if_true, List.append_nil, List.reverse_reverse]

theorem run_nodes : ∀ (m : NsMap) (ns : List Node), FineAll m ns → noTextTwice ns = true → ∀ (f g : Frame) (rest : List Frame) (tl : Str),
    (∀ n, ns.head? = some n → n.isText = true → ∀ x, f.kidsRev.head? = some x → x.isText = false) →
    run ⟨.text [], f, g :: rest⟩ (srcAll P ns ++ '<' :: tl) =
      run ⟨.text [], { f with kidsRev := (rawAll ns).reverse ++ f.kidsRev }, g :: rest⟩ ('<' :: tl)
  | m, [], _, _, f, g, rest, tl, _ => by rw [srcAll, rawAll]; rfl
  | m, n :: ns, hf, h2, f, g, rest, tl, hh => by
    rw [FineAll] at hf
    have h2' : noTextTwice ns = true := by
      cases ns with
      | nil => rfl
      | cons a ns => rw [noTextTwice, Bool.and_eq_true] at h2; exact h2.2
    have e : (rawAll (n :: ns)).reverse ++ f.kidsRev = (rawAll ns).reverse ++ rawOf n :: f.kidsRev := by
      rw [rawAll]; simp
    rw [e, srcAll, List.append_assoc]
    by_cases ht : n.isText = true
    · cases n with
      | text s =>
        have hf1 := hf.1
        rw [Fine] at hf1
        have hnext : ∀ k, ns.head? = some k → k.isText = false := by
          intro k hk
          cases ns with
          | nil => cases hk
          | cons a ns =>
            cases hk
            rw [noTextTwice, Bool.and_eq_true] at h2
            have := h2.1
            rw [show (Node.text s).isText = true from rfl] at this
            simpa using this
        obtain ⟨t, ht'⟩ := srcAll_starts hf.2 hnext tl
        rw [ht', run_textNode hf1.1 hf1.2 _ _ _ (hh _ rfl rfl), ← ht']
        rw [run_nodes m ns hf.2 h2' _ _ _ _ (by
          intro k hk hkt
          rw [hnext k hk] at hkt
          cases hkt)]
        rw [rawOf]
      | elem _ _ => cases ht
      | comment _ => cases ht
      | pi _ _ => cases ht
    · have ht' : n.isText = false := by simpa using ht
      rw [run_node m n hf.1 ht' _ _ _ (fun _ => rfl)]
      rw [run_nodes m ns hf.2 h2' _ _ _ _ (by
        intro k _ _ x hx
        exact rawAll_reverse_head n f.kidsRev ht' x hx)]
end

/-! ## Whole documents -/

theorem attrsText_noCr {as : List (Str × Str)} (h : AttrsSane as) : '\r' ∉ attrsText (P.attrs as) := by
  intro hm
  unfold attrsText Printer.attrs at hm
  rw [List.flatMap_map, List.mem_flatMap] at hm
  obtain ⟨a, ha, hm⟩ := hm
  have hn : '\r' ∉ a.1 := fun hm => absurd (not_qchar_of_mem ((isQName_qchars (h a ha).1).2 _ hm)).2.2.2.2.2.2.2.2 (by decide)
  have hv := P.attr_cr a.2
  revert hm
  simp [hn, hv]

theorem name_noCr {q : Str} (h : isQName q = true) : '\r' ∉ q :=
  fun hm => absurd (not_qchar_of_mem ((isQName_qchars h).2 _ hm)).2.2.2.2.2.2.2.2 (by decide)

mutual
theorem src_noCr : ∀ (m : NsMap) (n : Node), Fine m n → '\r' ∉ src P n
  | m, .text s, _ => by rw [src]; exact P.text_cr s
  | m, .comment s, h => by
    rw [Fine] at h
    have := h.noCr
    rw [src]; simp [this]
  | m, .pi t d, h => by
    rw [Fine] at h
    have h1 := (ncname_chars h.target).2.2.2
    have h2 := h.noCr
    rw [src]
    split <;> simp [h1, h2]
  | m, .elem i ks, h => by
    rw [Fine] at h
    have h1 := name_noCr h.1.name
    have h2 := attrsText_noCr (P := P) h.1.attrs
    have h3 := srcAll_noCr i.nsmap ks h.2.2
    rw [src]
    split <;> simp [h1, h2, h3]

theorem srcAll_noCr : ∀ (m : NsMap) (ns : List Node), FineAll m ns → '\r' ∉ srcAll P ns
  | m, [], _ => by rw [srcAll]; simp
  | m, n :: ns, h => by
    rw [FineAll] at h
    have h1 := src_noCr m n h.1
    have h2 := srcAll_noCr m ns h.2
    rw [srcAll]; simp [h1, h2]
end

/-- A white space between top-level nodes. -/
theorem run_eol (f : Frame) (tl : Str) : run ⟨.text [], f, []⟩ ('\n' :: '<' :: tl) = run ⟨.text [], f, []⟩ ('<' :: tl) := by
  rw [run_cons (s' := ⟨.text c!"\n", f, []⟩) (by simp [step])]
  exact step_lt (by simp [flush, isWs]) tl

/-- Nodes outside the root, each behind a line end. -/
theorem run_outside : ∀ (ns : List Node), FineAll [] ns → (∀ n ∈ ns, n.isText = false ∧ isElem n = false) → ∀ (f : Frame) (tl : Str),
    run ⟨.text [], f, []⟩ (ns.flatMap (fun n => '\n' :: src P n) ++ tl) =
      run ⟨.text [], { f with kidsRev := (rawAll ns).reverse ++ f.kidsRev }, []⟩ tl
  | [], _, _, f, tl => by rw [rawAll]; rfl
  | n :: ns, hf, ho, f, tl => by
    rw [FineAll] at hf
    obtain ⟨h1, h2⟩ := ho n (by simp)
    obtain ⟨t, e⟩ := src_starts hf.1 h1
    rw [List.flatMap_cons, List.append_assoc, List.cons_append, e, List.cons_append, run_eol, ← List.cons_append, ← e]
    rw [run_node [] n hf.1 h1 _ _ _ (by rw [h2]; intro h; cases h)]
    rw [run_outside ns hf.2 (fun k hk => ho k (by simp [hk]))]
    have e3 : (rawAll (n :: ns)).reverse ++ f.kidsRev = (rawAll ns).reverse ++ rawOf n :: f.kidsRev := by
      rw [rawAll]; simp
    rw [e3]

theorem hasElem_outside : ∀ (ns : List Node) (r : List Xml), (∀ n ∈ ns, isElem n = false) → hasElem r = false →
    hasElem ((rawAll ns).reverse ++ r) = false
  | [], r, _, hr => by rw [rawAll]; exact hr
  | n :: ns, r, h, hr => by
    have e3 : (rawAll (n :: ns)).reverse ++ r = (rawAll ns).reverse ++ rawOf n :: r := by
      rw [rawAll]; simp
    rw [e3]
    refine hasElem_outside ns _ (fun k hk => h k (by simp [hk])) ?_
    have := h n (by simp)
    cases n with
    | elem i ks => cases this
    | text s => rw [rawOf]; exact hr
    | comment s => rw [rawOf]; exact hr
    | pi t d => rw [rawOf]; exact hr

theorem hasElem_append : ∀ (a b : List Xml), hasElem b = true → hasElem (a ++ b) = true
  | [], b, h => h
  | x :: a, b, h => by
    have := hasElem_append a b h
    cases x <;> simp [hasElem, this]

theorem rawAll_append (a b : List Node) : rawAll (a ++ b) = rawAll a ++ rawAll b := by
  induction a with
  | nil => rw [rawAll]; rfl
  | cons n a ih => rw [List.cons_append, rawAll, rawAll, ih]; rfl

/-- A printed document. -/
theorem readDoc_written {pre post : List Node} {r : Node} (hpre : FineAll [] pre) (hpost : FineAll [] post) (hr : Fine [] r)
    (opre : ∀ n ∈ pre, n.isText = false ∧ isElem n = false) (opost : ∀ n ∈ post, n.isText = false ∧ isElem n = false) (re : isElem r = true) :
    readDoc (declaration ++ (pre.flatMap (fun n => '\n' :: src P n) ++ ('\n' :: src P r ++ (post.flatMap (fun n => '\n' :: src P n) ++ c!"\n")))) =
      some ⟨some ⟨some c!"UTF-8"⟩, pre ++ r :: post, r⟩ := by
  have hcr : ∀ ns : List Node, FineAll [] ns → '\r' ∉ ns.flatMap (fun n => '\n' :: src P n) := by
    intro ns hns hm
    rw [List.mem_flatMap] at hm
    obtain ⟨n, hn, hm⟩ := hm
    have := src_noCr (P := P) [] n (fineAll_iff.1 hns n hn)
    revert hm
    simp [this]
  have hrt : r.isText = false := by cases r <;> first | rfl | cases re
  obtain ⟨t, et⟩ := src_starts (P := P) hr hrt
  have hbody : run RS.start (pre.flatMap (fun n => '\n' :: src P n) ++ ('\n' :: src P r ++ (post.flatMap (fun n => '\n' :: src P n) ++ c!"\n"))) =
      some ⟨.text c!"\n", ⟨[], [], (rawAll post).reverse ++ rawOf r :: (rawAll pre).reverse⟩, []⟩ := by
    unfold RS.start
    rw [run_outside pre hpre opre, List.append_nil]
    rw [et, List.cons_append, List.cons_append, run_eol, ← List.cons_append, ← et]
    rw [run_node [] r hr hrt _ _ _ (by
      intro _
      have := hasElem_outside pre [] (fun n hn => (opre n hn).2) rfl
      rw [List.append_nil] at this
      rw [this]
      rfl)]
    rw [run_outside post hpost opost]
    rfl
  have hraw : readRaw (declaration ++ (pre.flatMap (fun n => '\n' :: src P n) ++ ('\n' :: src P r ++ (post.flatMap (fun n => '\n' :: src P n) ++ c!"\n")))) =
      some (some ⟨some c!"UTF-8"⟩, rawAll (pre ++ r :: post)) := by
    unfold readRaw
    have e0 : ∀ s : Str, dropBom (declaration ++ s) = declaration ++ s := fun s => by
      simp only [declaration, List.cons_append]; rw [dropBom, if_neg (by decide)]
    have hn : ∀ s : Str, '\r' ∉ s → normEol (declaration ++ s) = declaration ++ s := by
      intro s hs
      refine normEol_of_noCr ?_
      rw [List.mem_append, not_or]
      exact ⟨by decide, hs⟩
    have hd : ∀ s : Str, readDecl (declaration ++ s) = some (some ⟨some c!"UTF-8"⟩, s) := fun s => rfl
    rw [e0, hn, hd]
    · dsimp only
      rw [hbody]
      dsimp only
      have hel : hasElem ((rawAll post).reverse ++ rawOf r :: (rawAll pre).reverse) = true := by
        refine hasElem_append _ _ ?_
        cases r with
        | elem i ks => rw [rawOf]; rfl
        | text s => cases re
        | comment s => cases re
        | pi t d => cases re
      unfold finish
      dsimp only
      rw [hel, if_pos (by decide)]
      dsimp only
      rw [rawAll_append, rawAll]
      simp
    · have h1 := hcr pre hpre
      have h2 := src_noCr (P := P) [] r hr
      have h3 := hcr post hpost
      simp only [List.mem_append, List.mem_cons, not_or]
      exact ⟨h1, ⟨by decide, h2⟩, h3, by decide, by simp⟩
  have hfine : FineAll [] (pre ++ r :: post) := by
    rw [fineAll_iff]
    intro n hn
    rw [List.mem_append, List.mem_cons] at hn
    rcases hn with hn | rfl | hn
    · exact fineAll_iff.1 hpre n hn
    · exact hr
    · exact fineAll_iff.1 hpost n hn
  have hfirst : ∀ pre : List Node, (∀ n ∈ pre, isElem n = false) → firstElem (pre ++ r :: post) = some r := by
    intro pre hp
    induction pre with
    | nil => cases r <;> first | rfl | cases re
    | cons n pre ih =>
      have := hp n (by simp)
      have ih := ih (fun k hk => hp k (by simp [hk]))
      cases n with
      | elem i ks => cases this
      | text s => exact ih
      | comment s => exact ih
      | pi t d => exact ih
  unfold readDoc
  rw [hraw]
  dsimp only
  rw [resolveList_raw [] _ hfine]
  dsimp only
  rw [hfirst pre (fun n hn => (opre n hn).2)]

end ReqIF.Format
