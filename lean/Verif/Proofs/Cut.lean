import Verif.Proofs.Read
import Verif.Proofs.Str
import Verif.Xml.Resolve
import Verif.Model.Parser
/-!
# Reading the beginning of a document

If the reader accepts a text and a longer one, it has seen the whole root element in the
shorter one.
-/
set_option linter.unusedSimpArgs false
namespace ReqIF

theorem normEol_prefix : ∀ (p q : Str), ∃ t, normEol (p ++ q) = normEol p ++ t
  | [], q => ⟨normEol q, rfl⟩
  | [c], q => by
    by_cases hc : c = '\r'
    · subst hc
      cases q with
      | nil => exact ⟨[], rfl⟩
      | cons d q =>
        by_cases hd : d = '\n'
        · subst hd; exact ⟨normEol q, rfl⟩
        · exact ⟨normEol (d :: q), by
            show normEol ('\r' :: d :: q) = _
            rw [normEol]
            · rfl
            · intro s _ h; injection h with h1 h2; exact hd h1⟩
    · exact ⟨normEol q, by
        show normEol (c :: q) = _
        rw [normEol_cons_of_ne hc, normEol_cons_of_ne hc]; rfl⟩
  | c :: d :: p, q => by
    by_cases hc : c = '\r'
    · subst hc
      by_cases hd : d = '\n'
      · subst hd
        obtain ⟨t, ht⟩ := normEol_prefix p q
        exact ⟨t, by
          show normEol ('\r' :: '\n' :: (p ++ q)) = normEol ('\r' :: '\n' :: p) ++ t
          rw [normEol, normEol, ht]; rfl⟩
      · obtain ⟨t, ht⟩ := normEol_prefix (d :: p) q
        refine ⟨t, ?_⟩
        have e : ∀ s : Str, normEol ('\r' :: d :: s) = '\n' :: normEol (d :: s) := by
          intro s
          rw [normEol]
          · rfl
          · intro s' _ h; injection h with h1 h2; exact hd h1
        show normEol ('\r' :: d :: (p ++ q)) = normEol ('\r' :: d :: p) ++ t
        rw [e, e]
        have ht' : normEol (d :: (p ++ q)) = normEol (d :: p) ++ t := ht
        rw [ht']; rfl
    · obtain ⟨t, ht⟩ := normEol_prefix (d :: p) q
      refine ⟨t, ?_⟩
      show normEol (c :: (d :: p ++ q)) = normEol (c :: d :: p) ++ t
      rw [normEol_cons_of_ne hc, normEol_cons_of_ne hc, ht]; rfl

theorem dropBom_append {p : Str} (hp : p ≠ []) (q : Str) : dropBom (p ++ q) = dropBom p ++ q := by
  cases p with
  | nil => exact absurd rfl hp
  | cons c p =>
    show (if c = Char.ofNat 0xFEFF then p ++ q else c :: (p ++ q)) = (if c = Char.ofNat 0xFEFF then p else c :: p) ++ q
    split <;> rfl

theorem splitPiEnd_append : ∀ {s : Str} {a b : Str} (q : Str), splitPiEnd s = some (a, b) → splitPiEnd (s ++ q) = some (a, b ++ q)
  | [], _, _, _, h => by cases h
  | [c], a, b, q, h => by
    rw [splitPiEnd] at h
    · simp [splitPiEnd] at h
    · intro s hc h'; cases h'
  | c :: d :: s, a, b, q, h => by
    by_cases hcd : c = '?' ∧ d = '>'
    · obtain ⟨rfl, rfl⟩ := hcd
      rw [splitPiEnd] at h
      cases h
      rfl
    · have e : ∀ s' : Str, splitPiEnd (c :: d :: s') = (splitPiEnd (d :: s')).map (fun p => (c :: p.1, p.2)) := by
        intro s'
        rw [splitPiEnd]
        intro s'' hc h'
        injection h' with h1 h2
        exact hcd ⟨hc, h1⟩
      rw [e] at h
      cases hr : splitPiEnd (d :: s) with
      | none => rw [hr] at h; cases h
      | some r =>
        rw [hr] at h
        cases h
        have := splitPiEnd_append q (a := r.1) (b := r.2) hr
        show splitPiEnd (c :: d :: (s ++ q)) = _
        rw [e]
        have h2 : splitPiEnd (d :: (s ++ q)) = some (r.1, r.2 ++ q) := this
        rw [h2]
        rfl

/-- The state after the whole of a document. -/
def atEnd (s : RS) : Prop := ∃ ks, finish s = some ks

/-- A text that is a document by itself has its XML declaration, if it begins with one. -/
theorem readDecl_append {p : Str} {d : Option Decl} {r : Str} {st : RS} (q : Str) (h : readDecl p = some (d, r))
    (hr : run RS.start r = some st) (hf : atEnd st) : readDecl (p ++ q) = some (d, r ++ q) := by
  by_cases hx : ∃ w s', p = '<' :: '?' :: 'x' :: 'm' :: 'l' :: w :: s'
  · obtain ⟨w, s', rfl⟩ := hx
    show readDecl ('<' :: '?' :: 'x' :: 'm' :: 'l' :: w :: (s' ++ q)) = _
    simp only [readDecl] at h ⊢
    by_cases hw : isWs w = true
    · rw [if_pos hw] at h ⊢
      cases hs : splitPiEnd s' with
      | none => rw [hs] at h; cases h
      | some ab =>
        obtain ⟨a, b⟩ := ab
        rw [hs] at h
        rw [splitPiEnd_append q hs]
        dsimp only at h ⊢
        by_cases ha : '&' ∈ a
        · rw [if_pos ha] at h; cases h
        rw [if_neg ha] at h ⊢
        revert h
        split
        · split
          · intro h; cases h; rfl
          · intro h; cases h
        · intro h; cases h
    · rw [if_neg hw] at h ⊢
      cases h
      rfl
  · have hn : readDecl p = some (none, p) := by
      unfold readDecl
      split
      · rename_i w s'; exact absurd ⟨w, s', rfl⟩ hx
      · rfl
    rw [hn] at h
    cases h
    obtain ⟨ks, hks⟩ := hf
    unfold readDecl
    split
    · rename_i w s' heq
      exfalso
      have bad : ∀ (t : Str) (st : RS), run RS.start t = some st → (∀ st', run RS.start t = some st' → finish st' = none) →
          finish st = some ks → False := by
        intro t st h1 h2 h3
        rw [h2 st h1] at h3; cases h3
      cases p with
      | nil => cases hr; cases hks
      | cons a p =>
        injection heq with ha heq
        subst ha
        cases p with
        | nil => cases hr; cases hks
        | cons a p =>
          injection heq with ha heq
          subst ha
          cases p with
          | nil => cases hr; cases hks
          | cons a p =>
            injection heq with ha heq
            subst ha
            cases p with
            | nil => cases hr; cases hks
            | cons a p =>
              injection heq with ha heq
              subst ha
              cases p with
              | nil => cases hr; cases hks
              | cons a p =>
                injection heq with ha heq
                subst ha
                cases p with
                | nil => cases hr; cases hks
                | cons a p =>
                  injection heq with ha heq
                  exact hx ⟨a, p, rfl⟩
    · rfl

/-- The modes the reader can be in after the root element. -/
def okMode : Mode → Prop
  | .cdata _ => False
  | .attrVal _ _ _ q _ => q = '"' ∨ q = '\''
  | _ => True

/-- After the root element. -/
structure Past (ks : List Xml) (s : RS) : Prop where
  rest : s.rest = []
  elem : hasElem ks = true
  kids : ∃ l, s.top.kidsRev = l ++ ks ∧ hasElem l = false
  mode : okMode s.mode

theorem hasElem_append : ∀ (a b : List Xml), hasElem (a ++ b) = (hasElem a || hasElem b)
  | [], _ => by simp [hasElem]
  | .elem .. :: a, b => by simp [hasElem]
  | .text _ :: a, b => by simpa [hasElem] using hasElem_append a b
  | .comment _ :: a, b => by simpa [hasElem] using hasElem_append a b
  | .pi _ _ :: a, b => by simpa [hasElem] using hasElem_append a b

theorem Past.has {ks : List Xml} {s : RS} (h : Past ks s) : hasElem s.top.kidsRev = true := by
  obtain ⟨l, hl, -⟩ := h.kids
  rw [hl, hasElem_append, h.elem]; simp

theorem past_mode {ks : List Xml} {s : RS} (h : Past ks s) {m : Mode} (hm : okMode m) : Past ks { s with mode := m } :=
  ⟨h.rest, h.elem, h.kids, hm⟩

theorem past_kid {ks : List Xml} {s : RS} (h : Past ks s) {x : Xml} (hx : hasElem [x] = false) :
    Past ks ⟨.text [], { s.top with kidsRev := x :: s.top.kidsRev }, s.rest⟩ := by
  obtain ⟨l, hl, hn⟩ := h.kids
  refine ⟨h.rest, h.elem, ⟨x :: l, by rw [hl]; rfl, ?_⟩, trivial⟩
  have := hasElem_append [x] l
  rw [hx, hn] at this
  exact this

theorem past_open {ks : List Xml} {s s' : RS} (h : Past ks s) {n : Str} {as : List (Str × Str)}
    (he : openElem n as s.top s.rest = some s') : Past ks s' := by
  unfold openElem at he
  rw [h.rest, h.has] at he
  simp at he

theorem past_empty {ks : List Xml} {s s' : RS} (h : Past ks s) {n : Str} {as : List (Str × Str)}
    (he : emptyElem n as s.top s.rest = some s') : Past ks s' := by
  unfold emptyElem at he
  rw [h.rest, h.has] at he
  simp at he

theorem past_close {ks : List Xml} {s s' : RS} (h : Past ks s) {n : Str}
    (he : closeElem n s.top s.rest = some s') : Past ks s' := by
  unfold closeElem at he
  rw [h.rest] at he
  cases he

theorem past_step {ks : List Xml} {s s' : RS} {c : Char} (h : Past ks s) (hs : step s c = some s') : Past ks s' := by
  unfold step at hs
  split at hs
  · split at hs
    · unfold flush at hs
      rw [h.rest] at hs
      have : s' = ⟨.lt, s.top, []⟩ := by
        revert hs
        repeat' split
        all_goals simp_all
      subst this
      exact ⟨rfl, h.elem, h.kids, trivial⟩
    · cases hs; exact past_mode h trivial
  · repeat' split at hs
    all_goals first | (cases hs; exact past_mode h trivial) | cases hs
  · repeat' split at hs
    all_goals first | exact past_open h hs | (cases hs; exact past_mode h trivial) | cases hs
  · repeat' split at hs
    all_goals first | exact past_open h hs | (cases hs; exact past_mode h trivial) | cases hs
  · repeat' split at hs
    all_goals first | (cases hs; exact past_mode h trivial) | cases hs
  · repeat' split at hs
    all_goals first | (cases hs; exact h) | (cases hs; exact past_mode h trivial) | cases hs
  · repeat' split at hs
    all_goals first
      | (rename_i hq; cases hs; exact past_mode h (by simpa [okMode] using hq))
      | (cases hs; exact h)
      | cases hs
  · rename_i name attrs an q buf hb
    have hq := h.mode
    rw [hb] at hq
    repeat' split at hs
    all_goals first | (cases hs; exact past_mode h trivial) | (cases hs; exact past_mode h hq) | cases hs
  · split at hs
    · exact past_empty h hs
    · cases hs
  · repeat' split at hs
    all_goals first | exact past_close h hs | (cases hs; exact past_mode h trivial) | cases hs
  · repeat' split at hs
    all_goals first | exact past_close h hs | (cases hs; exact h) | cases hs
  · dsimp only at hs
    repeat' split at hs
    all_goals first
      | (rename_i hh; rw [h.rest] at hh; exact absurd rfl hh)
      | (cases hs; exact past_mode h trivial)
      | cases hs
  · repeat' split at hs
    all_goals first | (cases hs; exact past_kid h rfl) | (cases hs; exact past_mode h trivial) | cases hs
  · rename_i b hb
    have := h.mode
    rw [hb] at this
    exact absurd this id
  · split at hs
    · split at hs
      · cases hs
      · rename_i p hp
        cases hs
        refine past_kid h ?_
        unfold finishPi at hp
        dsimp only at hp
        split at hp
        · cases hp; rfl
        · cases hp
    · cases hs; exact past_mode h trivial

theorem past_run {ks : List Xml} : ∀ {q : Str} {s s' : RS}, Past ks s → run s q = some s' → Past ks s'
  | [], _, _, h, hr => by cases hr; exact h
  | c :: q, s, s', h, hr => by
    rw [run] at hr
    cases hs : step s c with
    | none => rw [hs] at hr; cases hr
    | some s1 => rw [hs] at hr; exact past_run (past_step h hs) hr

theorem past_end {s : RS} (h : atEnd s) : Past s.top.kidsRev s := by
  obtain ⟨ks, hk⟩ := h
  unfold finish at hk
  split at hk
  · rename_i b hm
    split at hk
    · rename_i hc
      simp only [Bool.and_eq_true, List.isEmpty_iff] at hc
      exact ⟨hc.1.1, hc.2, ⟨[], rfl, rfl⟩, by rw [hm]; trivial⟩
    · cases hk
  · cases hk

theorem finish_kids {s : RS} {ks : List Xml} (h : finish s = some ks) : ks = s.top.kidsRev.reverse := by
  unfold finish at h
  split at h
  · split at h
    · cases h; rfl
    · cases h
  · cases h

/-- What the reader makes of a text and of a longer one. -/
theorem readRaw_cut {p q : Str} {d d' : Option Decl} {xs xs' : List Xml} (h : readRaw (p ++ q) = some (d, xs))
    (hp : readRaw p = some (d', xs')) : d' = d ∧ ∃ l, xs = xs' ++ l ∧ hasElem l = false := by
  unfold readRaw at h hp
  have hne : p ≠ [] := by
    rintro rfl
    simp [dropBom, normEol, readDecl, run, finish, RS.start, hasElem] at hp
  rw [dropBom_append hne] at h
  obtain ⟨t, ht⟩ := normEol_prefix (dropBom p) q
  rw [ht] at h
  cases hd : readDecl (normEol (dropBom p)) with
  | none => rw [hd] at hp; cases hp
  | some dr =>
    obtain ⟨d1, r⟩ := dr
    rw [hd] at hp
    dsimp only at hp
    cases hr : run RS.start r with
    | none => rw [hr] at hp; cases hp
    | some st =>
      rw [hr] at hp
      dsimp only at hp
      cases hf : finish st with
      | none => rw [hf] at hp; cases hp
      | some ks =>
        rw [hf] at hp
        cases hp
        rw [readDecl_append t hd hr ⟨_, hf⟩] at h
        dsimp only at h
        rw [run_append_of_eq hr] at h
        cases hr2 : run st t with
        | none => rw [hr2] at h; cases h
        | some st2 =>
          rw [hr2] at h
          dsimp only at h
          cases hf2 : finish st2 with
          | none => rw [hf2] at h; cases h
          | some ks2 =>
            rw [hf2] at h
            cases h
            refine ⟨rfl, ?_⟩
            obtain ⟨l, hl, hn⟩ := (past_run (past_end ⟨_, hf⟩) hr2).kids
            refine ⟨l.reverse, ?_, ?_⟩
            · rw [finish_kids hf2, finish_kids hf, hl, List.reverse_append]
            · have : ∀ l : List Xml, hasElem l.reverse = hasElem l := by
                intro l
                induction l with
                | nil => rfl
                | cons x l ih =>
                  rw [List.reverse_cons, hasElem_append, ih, ← List.singleton_append (l := l), hasElem_append, Bool.or_comm]
              rw [this, hn]

theorem resolveList_append {m : NsMap} : ∀ {a b : List Xml} {ns : List Node}, resolveList m (a ++ b) = some ns →
    ∃ na nb, resolveList m a = some na ∧ ns = na ++ nb
  | [], _, ns, _ => ⟨[], ns, rfl, rfl⟩
  | x :: a, b, ns, h => by
    rw [List.cons_append, resolveList] at h
    cases hx : resolve m x with
    | none => simp [hx] at h
    | some n =>
      cases hr : resolveList m (a ++ b) with
      | none => simp [hx, hr] at h
      | some ns' =>
        simp [hx, hr] at h
        obtain ⟨na, nb, h1, h2⟩ := resolveList_append hr
        refine ⟨n :: na, nb, ?_, ?_⟩
        · rw [resolveList, hx, h1]
        · rw [← h, h2]; rfl

theorem firstElem_append : ∀ {a b : List Node} {r : Node}, firstElem a = some r → firstElem (a ++ b) = some r
  | [], _, _, h => by cases h
  | .elem i ks :: a, b, r, h => h
  | .text _ :: a, b, r, h => firstElem_append (a := a) h
  | .comment _ :: a, b, r, h => firstElem_append (a := a) h
  | .pi _ _ :: a, b, r, h => firstElem_append (a := a) h

/-- A text and a longer one that are both documents have the same declaration and root. -/
theorem readDoc_cut {p q : Str} {d d' : Doc} (h : readDoc (p ++ q) = some d) (hp : readDoc p = some d') :
    d'.decl = d.decl ∧ d'.root = d.root := by
  unfold readDoc at h hp
  cases hr : readRaw (p ++ q) with
  | none => rw [hr] at h; cases h
  | some dx =>
    cases hr' : readRaw p with
    | none => rw [hr'] at hp; cases hp
    | some dx' =>
      obtain ⟨d1, xs⟩ := dx
      obtain ⟨d2, xs'⟩ := dx'
      obtain ⟨e, l, hl, -⟩ := readRaw_cut hr hr'
      rw [hr] at h
      rw [hr'] at hp
      dsimp only at h hp
      cases hn : resolveList [] xs with
      | none => rw [hn] at h; cases h
      | some ns =>
        rw [hn] at h
        dsimp only at h
        subst hl
        obtain ⟨na, nb, h1, h2⟩ := resolveList_append hn
        rw [h1] at hp
        dsimp only at hp
        cases hf : firstElem na with
        | none => rw [hf] at hp; cases hp
        | some r =>
          rw [hf] at hp
          rw [h2, firstElem_append hf] at h
          cases h
          cases hp
          exact ⟨e, rfl⟩

/-- The parser depends on declaration and root only. -/
theorem parseReqif_same {σ : Type} (progress : Option (Callback σ)) {d d' : Doc} (h1 : d'.decl = d.decl) (h2 : d'.root = d.root) :
    parseReqif progress d' = parseReqif progress d := by
  obtain ⟨a, b, c⟩ := d
  obtain ⟨a', b', c'⟩ := d'
  cases h1
  cases h2
  rfl

/-- The end of every printed document. -/
def rootEnd : Str := c!"</REQ-IF>\n"

/-- After the root element an end tag does not complete a document. -/
theorem past_rootEnd {ks : List Xml} {s s' : RS} (h : Past ks s) (hr : run s rootEnd = some s') : finish s' = none := by
  obtain ⟨mode, top, rest⟩ := s
  have hrest := h.rest
  have hm := h.mode
  dsimp only at hrest hm
  subst hrest
  cases mode with
  | text buf =>
    exfalso
    unfold rootEnd at hr
    rw [run] at hr
    have e : step ⟨.text buf, top, []⟩ '<' = (flush buf top []).map (fun f => ⟨.lt, f, []⟩) := rfl
    rw [e] at hr
    cases hf : flush buf top [] with
    | none => rw [hf] at hr; cases hr
    | some f =>
      rw [hf] at hr
      have e2 : run ⟨.lt, f, []⟩ c!"/REQ-IF>\n" = none := rfl
      exact absurd (e2.symm.trans hr) (by simp)
  | comment buf =>
    unfold rootEnd at hr
    rw [run] at hr
    by_cases hb : buf.take 2 = c!"--"
    · have e : step ⟨.comment buf, top, []⟩ '<' = none := by simp [step, hb]
      rw [e] at hr; cases hr
    · have e : step ⟨.comment buf, top, []⟩ '<' = some ⟨.comment ('<' :: buf), top, []⟩ := by simp [step, hb]
      rw [e] at hr
      have e2 : run ⟨.comment ('<' :: buf), top, []⟩ c!"/REQ-IF>\n" = some ⟨.comment (c!"\n>FI-QER/<" ++ buf), top, []⟩ := rfl
      dsimp only at hr
      rw [e2] at hr
      cases hr
      rfl
  | pi buf =>
    have e : run ⟨.pi buf, top, []⟩ rootEnd = some ⟨.pi (c!"\n>FI-QER/<" ++ buf), top, []⟩ := rfl
    rw [e] at hr
    cases hr
    rfl
  | cdata buf => exact absurd hm id
  | attrVal name attrs an q buf =>
    have e : run ⟨.attrVal name attrs an q buf, top, []⟩ rootEnd =
        some ⟨.attrVal name attrs an q (c!"\n>FI-QER/<" ++ buf), top, []⟩ := by
      rcases (hm : q = '"' ∨ q = '\'') with rfl | rfl <;> rfl
    rw [e] at hr
    cases hr
    rfl
  | lt =>
    have e : run ⟨.lt, top, []⟩ rootEnd = none := rfl
    exact absurd (e.symm.trans hr) (by simp)
  | tagName buf =>
    have e : step ⟨.tagName buf, top, []⟩ '<' = none := by
      show (if isQName buf.reverse = true then none else none) = none
      split <;> rfl
    unfold rootEnd at hr; rw [run, e] at hr; cases hr
  | inTag name attrs ws =>
    have e : step ⟨.inTag name attrs ws, top, []⟩ '<' = none := by
      cases ws <;> rfl
    unfold rootEnd at hr; rw [run, e] at hr; cases hr
  | attrName name attrs buf =>
    have e : step ⟨.attrName name attrs buf, top, []⟩ '<' = none := by
      show (if isQName buf.reverse = true then none else none) = none
      split <;> rfl
    unfold rootEnd at hr; rw [run, e] at hr; cases hr
  | attrEq name attrs an =>
    have e : run ⟨.attrEq name attrs an, top, []⟩ rootEnd = none := rfl
    exact absurd (e.symm.trans hr) (by simp)
  | attrQuote name attrs an =>
    have e : run ⟨.attrQuote name attrs an, top, []⟩ rootEnd = none := rfl
    exact absurd (e.symm.trans hr) (by simp)
  | slash name attrs =>
    have e : run ⟨.slash name attrs, top, []⟩ rootEnd = none := rfl
    exact absurd (e.symm.trans hr) (by simp)
  | closeName buf =>
    have e : run ⟨.closeName buf, top, []⟩ rootEnd = none := rfl
    exact absurd (e.symm.trans hr) (by simp)
  | closeWs name =>
    have e : run ⟨.closeWs name, top, []⟩ rootEnd = none := rfl
    exact absurd (e.symm.trans hr) (by simp)
  | bang buf =>
    have e : step ⟨.bang buf, top, []⟩ '<' = none := by
      have h1 : ∀ t : Str, '<' ∉ t → ('<' :: buf).reverse.isPrefixOf t = false := by
        intro t ht
        cases hp : ('<' :: buf).reverse.isPrefixOf t with
        | false => rfl
        | true => exact absurd ((List.isPrefixOf_iff_prefix.1 hp).subset (by simp)) ht
      have h2 : ∀ t : Str, '<' ∉ t → ('<' :: buf).reverse ≠ t := by
        rintro t ht rfl
        exact ht (by simp)
      unfold step
      dsimp only
      rw [if_neg (h2 _ (by decide)), if_neg (h2 _ (by decide)), h1 _ (by decide), h1 _ (by decide)]
      rfl
    unfold rootEnd at hr; rw [run, e] at hr; cases hr

/-- How a document continues after a shorter one. -/
theorem readRaw_tail {p q : Str} {a b : Option Decl × List Xml} (h : readRaw (p ++ q) = some a) (hp : readRaw p = some b) :
    ∃ st t st2, normEol (dropBom (p ++ q)) = normEol (dropBom p) ++ t ∧ atEnd st ∧ run st t = some st2 ∧ atEnd st2 := by
  unfold readRaw at h hp
  have hne : p ≠ [] := by
    rintro rfl
    simp [dropBom, normEol, readDecl, run, finish, RS.start, hasElem] at hp
  rw [dropBom_append hne] at h
  obtain ⟨t, ht⟩ := normEol_prefix (dropBom p) q
  rw [ht] at h
  cases hd : readDecl (normEol (dropBom p)) with
  | none => rw [hd] at hp; cases hp
  | some dr =>
    obtain ⟨d1, r⟩ := dr
    rw [hd] at hp
    dsimp only at hp
    cases hr : run RS.start r with
    | none => rw [hr] at hp; cases hp
    | some st =>
      rw [hr] at hp
      dsimp only at hp
      cases hf : finish st with
      | none => rw [hf] at hp; cases hp
      | some ks =>
        rw [readDecl_append t hd hr ⟨_, hf⟩] at h
        dsimp only at h
        rw [run_append_of_eq hr] at h
        cases hr2 : run st t with
        | none => rw [hr2] at h; cases h
        | some st2 =>
          rw [hr2] at h
          dsimp only at h
          cases hf2 : finish st2 with
          | none => rw [hf2] at h; cases h
          | some ks2 => exact ⟨st, t, st2, by rw [dropBom_append hne, ht], ⟨_, hf⟩, hr2, ⟨_, hf2⟩⟩

/-- Text after the root element. -/
theorem text_after {st st2 : RS} {t : Str} (h : atEnd st) (hlt : '<' ∉ t) (hw : t.all isWs = false) (hr : run st t = some st2) :
    ¬ atEnd st2 := by
  obtain ⟨mode, top, rest⟩ := st
  have key : ∀ (t buf : Str) (st2 : RS), '<' ∉ t → run ⟨.text buf, top, rest⟩ t = some st2 →
      st2 = ⟨.text (t.reverse ++ buf), top, rest⟩ := by
    intro t
    induction t with
    | nil => intro buf st2 _ h; cases h; rfl
    | cons c t ih =>
      intro buf st2 hlt hr
      rw [run] at hr
      have e : step ⟨.text buf, top, rest⟩ c = some ⟨.text (c :: buf), top, rest⟩ := by
        unfold step
        dsimp only
        rw [if_neg (by rintro rfl; exact hlt List.mem_cons_self)]
      rw [e] at hr
      rw [ih (c :: buf) st2 (fun h => hlt (List.mem_cons_of_mem _ h)) hr]
      simp
  obtain ⟨ks, hk⟩ := h
  cases mode with
  | text buf =>
    have := key t buf st2 hlt hr
    subst this
    rintro ⟨ks2, hk2⟩
    unfold finish at hk2
    dsimp only at hk2
    rw [List.all_append, List.all_reverse, hw] at hk2
    simp at hk2
  | _ => cases hk

/-- A text that ends like a printed document has no shorter text that is a document, except
without the last line end. -/
theorem printed_cut {x p q : Str} {a b : Option Decl × List Xml} (hs : p ++ q = x ++ rootEnd) (hbom : (p ++ q).head? ≠ some (Char.ofNat 0xFEFF))
    (h : readRaw (p ++ q) = some a) (hp : readRaw p = some b) : q = [] ∨ q = c!"\n" := by
  obtain ⟨st, t, st2, ht, he, hr, he2⟩ := readRaw_tail h hp
  have hne : p ≠ [] := by
    rintro rfl
    unfold readRaw at hp
    simp [dropBom, normEol, readDecl, run, finish, RS.start, hasElem] at hp
  have hb : dropBom (p ++ q) = p ++ q := by
    cases hpq : p ++ q with
    | nil => rfl
    | cons c r =>
      rw [hpq] at hbom
      show (if c = Char.ofNat 0xFEFF then r else c :: r) = c :: r
      rw [if_neg (by intro e; rw [e] at hbom; exact hbom rfl)]
  have hbp : dropBom p = p := by
    have := dropBom_append hne q
    rw [hb] at this
    exact (List.append_cancel_right this).symm
  rw [hb, hbp] at ht
  have hx : normEol (x ++ rootEnd) = normEol x ++ rootEnd := by
    rw [normEol_append x (by decide)]
    rfl
  rw [hs, hx] at ht
  rcases List.append_eq_append_iff.1 ht with ⟨c, h1, h2⟩ | ⟨c, h1, h2⟩
  · -- the cut is inside the end tag
    by_cases hq : q.length ≤ 1
    · cases q with
      | nil => exact Or.inl rfl
      | cons y q =>
        cases q with
        | cons _ _ => simp at hq
        | nil =>
          right
          have := congrArg List.getLast? hs
          rw [List.getLast?_append, List.getLast?_append] at this
          simpa [rootEnd] using this
    · exfalso
      -- at least two characters follow
      have hq2 : ∃ q0, q = q0 ++ c!">\n" := by
        have e : x ++ rootEnd = (x ++ c!"</REQ-IF") ++ c!">\n" := by simp [rootEnd]
        rw [e] at hs
        rcases List.append_eq_append_iff.1 hs with ⟨d, h3, h4⟩ | ⟨d, h3, h4⟩
        · exact ⟨d, h4⟩
        · cases d with
          | nil => exact ⟨[], h4.symm⟩
          | cons d1 d =>
            have := congrArg List.length h4
            simp at this
            omega
      obtain ⟨q0, rfl⟩ := hq2
      obtain ⟨t0, ht0⟩ := normEol_prefix p q0
      have h5 : normEol (p ++ (q0 ++ c!">\n")) = normEol p ++ (t0 ++ c!">\n") := by
        rw [← List.append_assoc, normEol_append (p ++ q0) (by decide), ht0, List.append_assoc]; rfl
      rw [hs, hx, ht] at h5
      have h6 : t = t0 ++ c!">\n" := List.append_cancel_left h5
      have hmem : '>' ∈ t := by rw [h6]; simp
      have hw : t.all isWs = false := by
        rw [h6, List.all_append]
        simp [isWs]
      cases c with
      | nil =>
        have : t = rootEnd := by simpa using h2.symm
        rw [this] at hr
        obtain ⟨ks2, hk2⟩ := he2
        rw [past_rootEnd (past_end he) hr] at hk2
        cases hk2
      | cons c1 c =>
        have hlt : '<' ∉ t := by
          have e : rootEnd = '<' :: c!"/REQ-IF>\n" := rfl
          rw [e, List.cons_append] at h2
          injection h2 with h7 h8
          intro hm
          have : '<' ∈ c!"/REQ-IF>\n" := by rw [h8]; exact List.mem_append_right _ hm
          exact absurd this (by decide)
        exact text_after he hlt hw hr he2
  · exfalso
    subst h2
    rw [run_append] at hr
    cases hc : run st c with
    | none => rw [hc] at hr; cases hr
    | some st1 =>
      rw [hc] at hr
      obtain ⟨ks2, hk2⟩ := he2
      rw [past_rootEnd (past_run (past_end he) hc) hr] at hk2
      cases hk2

end ReqIF
