import Verif.Proofs.FormatBack
/-! White space removed and added, and what it leaves alone. -/
set_option linter.unusedSimpArgs false
namespace ReqIF.Format
open Spec ReqIF.Xsd

/-! ## Outside the root -/

def xmlElem : Xml → Bool
  | .elem .. => true
  | _ => false

def OneRoot (ks : List Xml) : Prop := (∀ x ∈ ks, x.isText = false) ∧ (ks.filter xmlElem).length ≤ 1

def NoRoot (ks : List Xml) : Prop := (∀ x ∈ ks, x.isText = false) ∧ hasElem ks = false

def BottomOk : Frame → List Frame → Prop
  | f, [] => NoRoot f.kidsRev
  | _, g :: rest => BottomOk g rest

/-- The outermost frame holds no text and one element at most. -/
def TopOk : Frame → List Frame → Prop
  | f, [] => OneRoot f.kidsRev
  | _, g :: rest => BottomOk g rest

theorem hasElem_filter : ∀ {ks : List Xml}, hasElem ks = false → ks.filter xmlElem = []
  | [], _ => rfl
  | x :: ks, h => by
    cases x with
    | elem => cases h
    | text s => exact hasElem_filter (ks := ks) h
    | comment s => exact hasElem_filter (ks := ks) h
    | pi t d => exact hasElem_filter (ks := ks) h

theorem NoRoot.push {ks : List Xml} (h : NoRoot ks) {x : Xml} (hx : x.isText = false) : OneRoot (x :: ks) := by
  refine ⟨?_, ?_⟩
  · intro y hy
    rcases List.mem_cons.1 hy with rfl | hy
    · exact hx
    · exact h.1 y hy
  · rw [List.filter_cons, hasElem_filter h.2]
    split <;> simp

theorem OneRoot.push {ks : List Xml} (h : OneRoot ks) {x : Xml} (hx : x.isText = false) (he : xmlElem x = false) : OneRoot (x :: ks) := by
  refine ⟨?_, ?_⟩
  · intro y hy
    rcases List.mem_cons.1 hy with rfl | hy
    · exact hx
    · exact h.1 y hy
  · rw [List.filter_cons, he]
    exact h.2

theorem flush_top {buf : Str} {f f' : Frame} {rest : List Frame} (h : TopOk f rest) (he : flush buf f rest = some f') : TopOk f' rest := by
  unfold flush at he
  split at he
  · cases he; exact h
  · split at he
    · split at he
      · cases he; exact h
      · cases he
    · rename_i hr
      split at he
      · cases he
      · cases he
        cases rest with
        | nil => exact absurd rfl hr
        | cons g rest => exact h

theorem openElem_top {n : Str} {as : List (Str × Str)} {f : Frame} {rest : List Frame} {s : RS} (h : TopOk f rest)
    (he : openElem n as f rest = some s) : TopOk s.top s.rest := by
  unfold openElem at he
  split at he
  · cases he
  · rename_i hc
    cases he
    cases rest with
    | nil =>
      refine ⟨h.1, ?_⟩
      simpa using hc
    | cons g rest => exact h

theorem emptyElem_top {n : Str} {as : List (Str × Str)} {f : Frame} {rest : List Frame} {s : RS} (h : TopOk f rest)
    (he : emptyElem n as f rest = some s) : TopOk s.top s.rest := by
  unfold emptyElem at he
  split at he
  · cases he
  · rename_i hc
    cases he
    cases rest with
    | nil => exact NoRoot.push ⟨h.1, by simpa using hc⟩ rfl
    | cons g rest => exact h

theorem closeElem_top {n : Str} {f : Frame} {rest : List Frame} {s : RS} (h : TopOk f rest) (he : closeElem n f rest = some s) : TopOk s.top s.rest := by
  unfold closeElem at he
  split at he
  · cases he
  · rename_i g rest'
    split at he
    · cases he
      cases rest' with
      | nil => exact NoRoot.push h rfl
      | cons g' r => exact h
    · cases he

theorem top_push {f : Frame} {rest : List Frame} (h : TopOk f rest) {x : Xml} (hx : x.isText = false) (he : xmlElem x = false) :
    TopOk { f with kidsRev := x :: f.kidsRev } rest := by
  cases rest with
  | nil => exact OneRoot.push h hx he
  | cons g rest => exact h

theorem finishPi_kind {b : Str} {x : Xml} (h : finishPi b = some x) : x.isText = false ∧ xmlElem x = false := by
  unfold finishPi at h
  dsimp only at h
  split at h
  · cases h; exact ⟨rfl, rfl⟩
  · cases h

theorem step_top {s s' : RS} {c : Char} (hf : TopOk s.top s.rest) (hcd : s.rest = [] → ∀ b, s.mode ≠ .cdata b) (h : step s c = some s') :
    TopOk s'.top s'.rest ∧ (s'.rest = [] → ∀ b, s'.mode ≠ .cdata b) := by
  obtain ⟨mode, top, rest⟩ := s
  unfold step at h
  have hopen : ∀ {n as}, openElem n as top rest = some s' → TopOk s'.top s'.rest ∧ (s'.rest = [] → ∀ b, s'.mode ≠ .cdata b) := by
    intro n as he
    refine ⟨openElem_top hf he, ?_⟩
    unfold openElem at he
    split at he
    · cases he
    · cases he; intro e; cases e
  have hempty : ∀ {n as}, emptyElem n as top rest = some s' → TopOk s'.top s'.rest ∧ (s'.rest = [] → ∀ b, s'.mode ≠ .cdata b) := by
    intro n as he
    refine ⟨emptyElem_top hf he, ?_⟩
    unfold emptyElem at he
    split at he
    · cases he
    · cases he; intro _ b e; cases e
  have hclose : ∀ {n}, closeElem n top rest = some s' → TopOk s'.top s'.rest ∧ (s'.rest = [] → ∀ b, s'.mode ≠ .cdata b) := by
    intro n he
    refine ⟨closeElem_top hf he, ?_⟩
    unfold closeElem at he
    split at he
    · cases he
    · split at he
      · cases he; intro _ b e; cases e
      · cases he
  cases mode with
  | text buf =>
    dsimp only at h
    split at h
    · rw [Option.map_eq_some_iff] at h
      obtain ⟨f, h1, rfl⟩ := h
      exact ⟨flush_top hf h1, by intro _ b e; cases e⟩
    · cases h; exact ⟨hf, by intro _ b e; cases e⟩
  | cdata buf =>
    cases rest with
    | nil => exact absurd rfl (hcd rfl buf)
    | cons g rest =>
      dsimp only at h
      split at h
      · split at h
        · cases h; exact ⟨hf, by intro e; cases e⟩
        · cases h
      · cases h; exact ⟨hf, by intro e; cases e⟩
  | bang buf =>
    dsimp only at h
    split at h; · cases h; exact ⟨hf, by intro _ b e; cases e⟩
    split at h
    · split at h
      · cases h
      · rename_i hr
        cases h
        refine ⟨hf, ?_⟩
        intro e
        dsimp only at e
        rw [e] at hr
        exact absurd rfl hr
    · split at h
      · cases h; exact ⟨hf, by intro _ b e; cases e⟩
      · cases h
  | comment buf =>
    dsimp only at h
    split at h
    · split at h
      · cases h; exact ⟨top_push hf rfl rfl, by intro _ b e; cases e⟩
      · cases h
    · cases h; exact ⟨hf, by intro _ b e; cases e⟩
  | pi buf =>
    dsimp only at h
    split at h
    · split at h
      · cases h
      · rename_i p hp
        cases h; exact ⟨top_push hf (finishPi_kind hp).1 (finishPi_kind hp).2, by intro _ b e; cases e⟩
    · cases h; exact ⟨hf, by intro _ b e; cases e⟩
  | lt =>
    dsimp only at h
    repeat' (split at h)
    all_goals first
      | (cases h; exact ⟨hf, by intro _ b e; cases e⟩)
      | cases h
  | tagName buf =>
    dsimp only at h
    repeat' (split at h)
    all_goals first
      | exact hopen h
      | (cases h; exact ⟨hf, by intro _ b e; cases e⟩)
      | cases h
  | inTag n as ws =>
    dsimp only at h
    repeat' (split at h)
    all_goals first
      | exact hopen h
      | (cases h; exact ⟨hf, by intro _ b e; cases e⟩)
      | cases h
  | attrName n as buf =>
    dsimp only at h
    repeat' (split at h)
    all_goals first
      | (cases h; exact ⟨hf, by intro _ b e; cases e⟩)
      | cases h
  | attrEq n as an =>
    dsimp only at h
    repeat' (split at h)
    all_goals first
      | (cases h; exact ⟨hf, by intro _ b e; cases e⟩)
      | cases h
  | attrQuote n as an =>
    dsimp only at h
    repeat' (split at h)
    all_goals first
      | (cases h; exact ⟨hf, by intro _ b e; cases e⟩)
      | cases h
  | attrVal n as an q buf =>
    dsimp only at h
    repeat' (split at h)
    all_goals first
      | (cases h; exact ⟨hf, by intro _ b e; cases e⟩)
      | cases h
  | slash n as =>
    dsimp only at h
    split at h
    · exact hempty h
    · cases h
  | closeName buf =>
    dsimp only at h
    repeat' (split at h)
    all_goals first
      | exact hclose h
      | (cases h; exact ⟨hf, by intro _ b e; cases e⟩)
      | cases h
  | closeWs n =>
    dsimp only at h
    repeat' (split at h)
    all_goals first
      | exact hclose h
      | (cases h; exact ⟨hf, by intro _ b e; cases e⟩)
      | cases h

theorem run_top : ∀ (t : Str) {s s' : RS}, TopOk s.top s.rest → (s.rest = [] → ∀ b, s.mode ≠ .cdata b) → run s t = some s' → TopOk s'.top s'.rest
  | [], s, s', hs, _, h => by cases h; exact hs
  | c :: t, s, s', hs, hc, h => by
    rw [run] at h
    split at h
    · cases h
    · rename_i s1 h1
      obtain ⟨h2, h3⟩ := step_top hs hc h1
      exact run_top t h2 h3 h

theorem readRaw_oneRoot {t : Str} {d : Option Decl} {xs : List Xml} (h : readRaw t = some (d, xs)) : OneRoot xs := by
  unfold readRaw at h
  split at h
  · cases h
  · split at h
    · cases h
    · rename_i st hst
      have h0 : TopOk RS.start.top RS.start.rest := by
        show OneRoot []
        exact ⟨(fun x hx => by cases hx), (by decide)⟩
      have hs := run_top _ (s := RS.start) h0 (by intro _ b e; cases e) hst
      split at h
      · cases h
      · rename_i ks hk
        cases h
        unfold finish at hk
        split at hk
        · split at hk
          · rename_i hc
            cases hk
            rw [Bool.and_eq_true, Bool.and_eq_true] at hc
            have hr : st.rest = [] := List.isEmpty_iff.1 hc.1.1
            rw [hr] at hs
            refine ⟨fun x hx => hs.1 x (List.mem_reverse.1 hx), ?_⟩
            rw [List.filter_reverse, List.length_reverse]
            exact hs.2
          · cases hk
        · cases hk

theorem resolve_isElem {m : NsMap} {x : Xml} {n : Node} (h : resolve m x = some n) : isElem n = xmlElem x := by
  cases x with
  | elem q as ks =>
    rw [resolve] at h
    split at h
    · cases h
    · split at h
      · cases h
      · cases h; rfl
  | text s => rw [resolve] at h; cases h; rfl
  | comment s => rw [resolve] at h; cases h; rfl
  | pi a b => rw [resolve] at h; cases h; rfl

/-- The nodes around the root. -/
theorem around {m : NsMap} : ∀ {xs : List Xml} {ns : List Node} {r : Node}, OneRoot xs → resolveList m xs = some ns → firstElem ns = some r →
    ns = before ns ++ r :: after ns ∧ isElem r = true ∧ (∀ n ∈ before ns, n.isText = false ∧ isElem n = false) ∧
      ∀ n ∈ after ns, n.isText = false ∧ isElem n = false
  | [], ns, r, _, h, hf => by rw [resolveList] at h; cases h; cases hf
  | x :: xs, ns, r, hx, h, hf => by
    rw [resolveList] at h
    split at h
    · rename_i n ns' h1 h2
      cases h
      have e1 := resolve_isText h1
      have e2 := resolve_isElem h1
      have ht : n.isText = false := by rw [e1]; exact hx.1 x (by simp)
      by_cases he : isElem n = true
      · have hr : r = n := by
          cases n with
          | elem i ks => simp only [firstElem] at hf; cases hf; rfl
          | text s => cases he
          | comment s => cases he
          | pi t d => cases he
        have hb : before (n :: ns') = [] := by unfold before; rw [List.takeWhile_cons, he]; rfl
        have ha : after (n :: ns') = ns' := by unfold after; rw [List.dropWhile_cons, he]; rfl
        rw [hb, ha, hr]
        refine ⟨rfl, he, (by intro k hk; cases hk), ?_⟩
        have hlen := hx.2
        rw [List.filter_cons, ← e2, he] at hlen
        have h0 : xs.filter xmlElem = [] := by
          have : (xs.filter xmlElem).length = 0 := by simp at hlen; simpa using hlen
          exact List.length_eq_zero_iff.1 this
        clear hlen hf hb ha hr
        have hx1 : ∀ y ∈ xs, y.isText = false := fun y hy => hx.1 y (by simp [hy])
        clear hx h1 e1 e2
        induction xs generalizing ns' with
        | nil => rw [resolveList] at h2; cases h2; intro k hk; cases hk
        | cons y ys ih =>
          rw [resolveList] at h2
          split at h2
          · rename_i k ks hk hks
            cases h2
            rw [List.filter_cons] at h0
            split at h0
            · cases h0
            · rename_i hy
              intro k' hk'
              rcases List.mem_cons.1 hk' with rfl | hk'
              · refine ⟨?_, ?_⟩
                · rw [resolve_isText hk]; exact hx1 y (by simp)
                · rw [resolve_isElem hk]; simpa using hy
              · exact ih ks hks h0 (fun z hz => hx1 z (by simp [hz])) k' hk'
          · cases h2
      · have he' : isElem n = false := by simpa using he
        have hf' : firstElem ns' = some r := by
          cases n with
          | elem i ks => exact absurd rfl he
          | text s => exact hf
          | comment s => exact hf
          | pi t d => exact hf
        have hx' : OneRoot xs := by
          refine ⟨fun y hy => hx.1 y (by simp [hy]), ?_⟩
          have := hx.2
          rw [List.filter_cons, ← e2, he'] at this
          exact this
        obtain ⟨i1, i2, i3, i4⟩ := around hx' h2 hf'
        have hb : before (n :: ns') = n :: before ns' := by unfold before; rw [List.takeWhile_cons, he']; rfl
        have ha : after (n :: ns') = after ns' := by unfold after; rw [List.dropWhile_cons, he']; rfl
        rw [hb, ha]
        refine ⟨by rw [List.cons_append, ← i1], i2, ?_, i4⟩
        intro k hk
        rcases List.mem_cons.1 hk with rfl | hk
        · exact ⟨ht, he'⟩
        · exact i3 k hk
    · cases h

/-- What is known of a document that has been read. -/
structure FineDoc (d : Doc) : Prop where
  nodes : d.nodes = before d.nodes ++ d.root :: after d.nodes
  root : isElem d.root = true
  before : ∀ n ∈ before d.nodes, n.isText = false ∧ isElem n = false
  after : ∀ n ∈ after d.nodes, n.isText = false ∧ isElem n = false
  fine : FineAll [] d.nodes
  ascii : asciiMarkupAll d.nodes = true

theorem fineDoc_of {t : Str} {d : Doc} (h : readDoc t = some d) (h1 : asciiMarkupAll d.nodes = true) (h2 : noEmptyTextAll d.nodes = true) :
    FineDoc d := by
  unfold readDoc at h
  split at h
  · cases h
  · rename_i dd xs hr
    split at h
    · cases h
    · rename_i ns hns
      split at h
      · cases h
      · rename_i r hfe
        cases h
        obtain ⟨i1, i2, i3, i4⟩ := around (readRaw_oneRoot hr) hns hfe
        exact ⟨i1, i2, i3, i4, fineAll_of [] xs ns (readRaw_sane hr).1 hns h2, h1⟩

/-! ## White space removed -/

theorem isWords_eq (n : Node) : isWords n = (n.isText && !isSpacing n) := by cases n <;> rfl

theorem wordsFirst_eq (ks : List Node) : wordsFirst ks = startsWithWords ks := by
  cases ks with
  | nil => rfl
  | cons n ks => cases n <;> rfl

theorem unblank_isText (keep : List Nat → Bool) (sp : Bool) (path : List Nat) (n : Node) : (unblank keep sp path n).isText = n.isText := by
  cases n with
  | elem i ks => rw [unblank]; (try dsimp only); split <;> rfl
  | text s => simp [unblank]
  | comment s => simp [unblank]
  | pi t d => simp [unblank]

theorem unblank_text (keep : List Nat → Bool) (sp : Bool) (path : List Nat) (s : Str) : unblank keep sp path (.text s) = .text s := by
  simp [unblank]

/-- A node that is not text is kept. -/
theorem unblankKids_node {keep : List Nat → Bool} {sp all mixed : Bool} {path : List Nat} {k : Nat} {n : Node} {ks : List Node} (h : n.isText = false) :
    unblankKids keep sp all mixed path k (n :: ks) = unblank keep sp (k :: path) n :: unblankKids keep sp all mixed path (k + 1) ks := by
  rw [unblankKids, h]
  rfl

theorem unblankKids_head {keep : List Nat → Bool} {sp all mixed : Bool} {path : List Nat} : ∀ {ks : List Node} {k : Nat},
    (∀ n, ks.head? = some n → n.isText = false) → ∀ n, (unblankKids keep sp all mixed path k ks).head? = some n → n.isText = false
  | [], k, _, n, h => by rw [unblankKids] at h; cases h
  | a :: ks, k, ha, n, h => by
    rw [unblankKids_node (ha a rfl)] at h
    cases h
    rw [unblank_isText]
    exact ha a rfl

theorem noTextTwice_tail {n : Node} {ns : List Node} (h : noTextTwice (n :: ns) = true) : noTextTwice ns = true := by
  cases ns with
  | nil => rfl
  | cons a ns => rw [noTextTwice, Bool.and_eq_true] at h; exact h.2

theorem noTextTwice_next {n : Node} {ns : List Node} (h : noTextTwice (n :: ns) = true) (hn : n.isText = true) :
    ∀ k, ns.head? = some k → k.isText = false := by
  intro k hk
  cases ns with
  | nil => cases hk
  | cons a ns =>
    cases hk
    rw [noTextTwice, Bool.and_eq_true] at h
    have := h.1
    rw [hn] at this
    simpa using this

theorem noTextTwice_cons {n : Node} {ns : List Node} (h : noTextTwice ns = true) (hn : n.isText = true → ∀ k, ns.head? = some k → k.isText = false) :
    noTextTwice (n :: ns) = true := by
  cases ns with
  | nil => rfl
  | cons a ns =>
    rw [noTextTwice, h, Bool.and_true]
    by_cases ht : n.isText = true
    · rw [hn ht a rfl]; simp
    · have : n.isText = false := by simpa using ht
      rw [this]; rfl

theorem unblankKids_twice {keep : List Nat → Bool} {sp all mixed : Bool} {path : List Nat} : ∀ {ks : List Node} {k : Nat},
    noTextTwice ks = true → noTextTwice (unblankKids keep sp all mixed path k ks) = true
  | [], k, _ => by rw [unblankKids]; rfl
  | n :: ks, k, h => by
    have ih := unblankKids_twice (keep := keep) (sp := sp) (all := all) (mixed := mixed) (path := path) (k := k + 1) (noTextTwice_tail h)
    rw [unblankKids]
    split
    · exact ih
    · refine noTextTwice_cons ih ?_
      rw [unblank_isText]
      intro hn
      exact unblankKids_head (noTextTwice_next h hn)

mutual
theorem unblank_fine (keep : List Nat → Bool) : ∀ (m : NsMap) (sp : Bool) (path : List Nat) (n : Node), Fine m n → Fine m (unblank keep sp path n)
  | m, sp, path, .elem i ks, h => by
    have h0 := h
    rw [Fine] at h
    rw [unblank]
    try dsimp only
    split
    · exact h0
    · rw [Fine]
      exact ⟨h.1, unblankKids_twice h.2.1, unblankKids_fine keep i.nsmap _ _ _ path 0 ks h.2.2⟩
  | m, sp, path, .text s, h => by simpa [unblank] using h
  | m, sp, path, .comment s, h => by simpa [unblank] using h
  | m, sp, path, .pi t d, h => by simpa [unblank] using h

theorem unblankKids_fine (keep : List Nat → Bool) : ∀ (m : NsMap) (sp all mixed : Bool) (path : List Nat) (k : Nat) (ks : List Node),
    FineAll m ks → FineAll m (unblankKids keep sp all mixed path k ks)
  | m, sp, all, mixed, path, k, [], _ => by rw [unblankKids, FineAll]; trivial
  | m, sp, all, mixed, path, k, n :: ks, h => by
    rw [FineAll] at h
    have ih := unblankKids_fine keep m sp all mixed path (k + 1) ks h.2
    rw [unblankKids]
    split
    · exact ih
    · rw [FineAll]; exact ⟨unblank_fine keep m sp (k :: path) n h.1, ih⟩
end

theorem asciiAll_iff {ns : List Node} : asciiMarkupAll ns = true ↔ ∀ n ∈ ns, asciiMarkup n = true := by
  induction ns with
  | nil => simp [asciiMarkupAll]
  | cons n ns ih => rw [asciiMarkupAll, Bool.and_eq_true, ih]; simp

mutual
theorem unblank_ascii (keep : List Nat → Bool) : ∀ (sp : Bool) (path : List Nat) (n : Node), asciiMarkup n = true → asciiMarkup (unblank keep sp path n) = true
  | sp, path, .elem i ks, h => by
    have h0 := h
    rw [asciiMarkup, Bool.and_eq_true] at h
    rw [unblank]
    try dsimp only
    split
    · exact h0
    · rw [asciiMarkup, Bool.and_eq_true]
      exact ⟨h.1, unblankKids_ascii keep _ _ _ path 0 ks h.2⟩
  | sp, path, .text s, h => by simpa [unblank] using h
  | sp, path, .comment s, h => by simpa [unblank] using h
  | sp, path, .pi t d, h => by simpa [unblank] using h

theorem unblankKids_ascii (keep : List Nat → Bool) : ∀ (sp all mixed : Bool) (path : List Nat) (k : Nat) (ks : List Node),
    asciiMarkupAll ks = true → asciiMarkupAll (unblankKids keep sp all mixed path k ks) = true
  | sp, all, mixed, path, k, [], _ => by rw [unblankKids, asciiMarkupAll]
  | sp, all, mixed, path, k, n :: ks, h => by
    rw [asciiMarkupAll, Bool.and_eq_true] at h
    have ih := unblankKids_ascii keep sp all mixed path (k + 1) ks h.2
    rw [unblankKids]
    split
    · exact ih
    · rw [asciiMarkupAll, Bool.and_eq_true]; exact ⟨unblank_ascii keep sp (k :: path) n h.1, ih⟩
end

theorem core_isText (n : Node) : (core n).isText = n.isText := by
  cases n with
  | elem i ks =>
    rw [core]
    split
    · rfl
    · split <;> rfl
  | text s => simp [core]
  | comment s => simp [core]
  | pi t d => simp [core]

theorem core_isSpacing (n : Node) : isSpacing (core n) = isSpacing n := by
  cases n with
  | elem i ks =>
    rw [core]
    split
    · rfl
    · split <;> rfl
  | text s => simp [core]
  | comment s => simp [core]
  | pi t d => simp [core]

theorem isText_of_spacing {n : Node} (h : isSpacing n = true) : n.isText = true := by cases n <;> first | rfl | cases h

theorem unblankKids_allText {keep : List Nat → Bool} {sp all mixed : Bool} {path : List Nat} : ∀ {ks : List Node} {k : Nat},
    ks.all Node.isText = false → (unblankKids keep sp all mixed path k ks).all Node.isText = false
  | [], k, h => by cases h
  | n :: ks, k, h => by
    by_cases hn : n.isText = true
    · have h' : ks.all Node.isText = false := by rw [List.all_cons, hn] at h; exact h
      have ih := unblankKids_allText (keep := keep) (sp := sp) (all := all) (mixed := mixed) (path := path) (k := k + 1) h'
      rw [unblankKids]
      split
      · exact ih
      · rw [List.all_cons, ih]; simp
    · have hn' : n.isText = false := by simpa using hn
      rw [unblankKids_node hn', List.all_cons, unblank_isText, hn']
      rfl

theorem unblankKids_words {keep : List Nat → Bool} {sp all mixed : Bool} {path : List Nat} {ks : List Node} {k : Nat} (ht : noTextTwice ks = true)
    (h : startsWithWords ks = false) : startsWithWords (unblankKids keep sp all mixed path k ks) = false := by
  cases ks with
  | nil => rw [unblankKids]; rfl
  | cons n ks =>
    by_cases hn : n.isText = true
    · rw [unblankKids]
      split
      · have := unblankKids_head (keep := keep) (sp := sp) (all := all) (mixed := mixed) (path := path) (k := k + 1) (noTextTwice_next ht hn)
        generalize unblankKids keep sp all mixed path (k + 1) ks = l at this ⊢
        cases l with
        | nil => rfl
        | cons a l =>
          have := this a rfl
          cases a <;> first | rfl | cases this
      · cases n with
        | text s => rw [unblank_text]; exact h
        | elem _ _ => cases hn
        | comment _ => cases hn
        | pi _ _ => cases hn
    · have hn' : n.isText = false := by simpa using hn
      have := unblank_isText keep sp (k :: path) n
      rw [unblankKids_node hn']
      rw [hn'] at this
      generalize unblank keep sp (k :: path) n = a at this ⊢
      cases a <;> first | rfl | cases this

theorem unblankKids_first {keep : List Nat → Bool} {sp mixed : Bool} {path : List Nat} {ks : List Node} {k : Nat}
    (h : startsWithWords ks = true) : startsWithWords (unblankKids keep sp true mixed path k ks) = true := by
  cases ks with
  | nil => cases h
  | cons n ks =>
    rw [unblankKids]
    rw [if_neg (by simp)]
    cases n with
    | text s => rw [unblank_text]; exact h
    | elem _ _ => cases h
    | comment _ => cases h
    | pi _ _ => cases h

mutual
theorem core_unblank (keep : List Nat → Bool) : ∀ (m : NsMap) (sp : Bool) (path : List Nat) (n : Node), Fine m n → core (unblank keep sp path n) = core n
  | m, sp, path, .elem i ks, h => by
    rw [Fine] at h
    rw [unblank]
    try dsimp only
    by_cases ha : ks.all Node.isText = true
    · rw [if_pos ha]
    · rw [if_neg ha]
      have ha' : ks.all Node.isText = false := by simpa using ha
      rw [core, core, if_neg ha, if_neg (by rw [unblankKids_allText ha']; decide)]
      by_cases hw : startsWithWords ks = true
      · rw [wordsFirst_eq, hw, Bool.or_true, if_pos rfl, if_pos (unblankKids_first hw)]
        rw [coreAll_kept keep i.nsmap _ _ path 0 ks h.2.2]
      · have hw' : startsWithWords ks = false := by simpa using hw
        rw [if_neg hw, if_neg (by rw [unblankKids_words h.2.1 hw']; decide)]
        rw [coreAll_filter keep i.nsmap _ _ _ path 0 ks h.2.2]
  | m, sp, path, .text s, h => by simp [unblank]
  | m, sp, path, .comment s, h => by simp [unblank]
  | m, sp, path, .pi t d, h => by simp [unblank]

theorem coreAll_filter (keep : List Nat → Bool) : ∀ (m : NsMap) (sp all mixed : Bool) (path : List Nat) (k : Nat) (ks : List Node), FineAll m ks →
    (coreAll (unblankKids keep sp all mixed path k ks)).filter (fun k => !isSpacing k) = (coreAll ks).filter (fun k => !isSpacing k)
  | m, sp, all, mixed, path, k, [], _ => by rw [unblankKids]
  | m, sp, all, mixed, path, k, n :: ks, h => by
    rw [FineAll] at h
    have ih := coreAll_filter keep m sp all mixed path (k + 1) ks h.2
    rw [unblankKids]
    split
    · rename_i hc
      simp only [Bool.and_eq_true, isWords_eq] at hc
      have hs : isSpacing n = true := by
        have h1 := hc.1.1.1
        have h2 := hc.1.1.2
        rw [h1] at h2
        simpa using h2
      rw [ih, coreAll, List.filter_cons, core_isSpacing, hs]
      rfl
    · rw [coreAll, coreAll, List.filter_cons, List.filter_cons, ih, core_unblank keep m sp (k :: path) n h.1]

theorem coreAll_kept (keep : List Nat → Bool) : ∀ (m : NsMap) (sp mixed : Bool) (path : List Nat) (k : Nat) (ks : List Node), FineAll m ks →
    coreAll (unblankKids keep sp true mixed path k ks) = coreAll ks
  | m, sp, mixed, path, k, [], _ => by rw [unblankKids]
  | m, sp, mixed, path, k, n :: ks, h => by
    rw [FineAll] at h
    have ih := coreAll_kept keep m sp mixed path (k + 1) ks h.2
    rw [unblankKids, if_neg (by simp), coreAll, coreAll, ih, core_unblank keep m sp (k :: path) n h.1]
end

/-! ## White space added -/

theorem padded_isText (p : Bool) (l : Nat) (n : Node) : (padded p l n).isText = n.isText := by
  cases n with
  | elem i ks =>
    rw [padded]
    split
    · rfl
    · split <;> rfl
  | text s => simp [padded]
  | comment s => simp [padded]
  | pi t d => simp [padded]

theorem eol_fine (m : NsMap) (l : Nat) : Fine m (.text ('\n' :: indent l)) := by
  rw [Fine]
  refine ⟨by simp, ?_⟩
  intro c hc
  rcases List.mem_cons.1 hc with rfl | hc
  · decide
  · unfold indent at hc
    rw [(List.mem_replicate.1 hc).2]
    decide

theorem eol_spacing (l : Nat) : isSpacing (.text ('\n' :: indent l)) = true := by
  unfold isSpacing
  dsimp only
  rw [List.all_cons, Bool.and_eq_true, List.all_eq_true]
  refine ⟨by decide, ?_⟩
  intro c hc
  unfold indent at hc
  rw [(List.mem_replicate.1 hc).2]
  decide

theorem paddedKids_twice (l l2 : Nat) : ∀ {ks : List Node}, ks.any Node.isText = false →
    noTextTwice (paddedKids l ks ++ [.text ('\n' :: indent l2)]) = true
  | [], _ => by rw [paddedKids]; rfl
  | n :: ks, h => by
    rw [List.any_cons, Bool.or_eq_false_iff] at h
    have ih := paddedKids_twice l l2 h.2
    rw [paddedKids, List.cons_append, List.cons_append]
    refine noTextTwice_cons (noTextTwice_cons ih ?_) ?_
    · rw [padded_isText, h.1]; intro e; cases e
    · intro _ k hk
      cases hk
      rw [padded_isText, h.1]

mutual
theorem padded_fine : ∀ (m : NsMap) (l : Nat) (n : Node), Fine m n → Fine m (padded true l n)
  | m, l, .elem i ks, h => by
    have h0 := h
    rw [Fine] at h
    rw [padded]
    split
    · rename_i e; rw [e] at h0; exact h0
    · split
      · rename_i ht
        have ht' : ks.any Node.isText = false := by simpa using ht
        rw [Fine]
        refine ⟨h.1, paddedKids_twice _ _ ht', ?_⟩
        rw [fineAll_iff]
        intro k hk
        rcases List.mem_append.1 hk with hk | hk
        · exact fineAll_iff.1 (paddedKids_fine i.nsmap (l + 1) ks h.2.2) k hk
        · rw [List.mem_singleton] at hk
          rw [hk]
          exact eol_fine _ _
      · exact h0
  | m, l, .text s, h => by simpa [padded] using h
  | m, l, .comment s, h => by simpa [padded] using h
  | m, l, .pi t d, h => by simpa [padded] using h

theorem paddedKids_fine : ∀ (m : NsMap) (l : Nat) (ks : List Node), FineAll m ks → FineAll m (paddedKids l ks)
  | m, l, [], _ => by rw [paddedKids, FineAll]; trivial
  | m, l, n :: ks, h => by
    rw [FineAll] at h
    rw [paddedKids, FineAll, FineAll]
    exact ⟨eol_fine m l, padded_fine m l n h.1, paddedKids_fine m l ks h.2⟩
end

theorem coreAll_append (a b : List Node) : coreAll (a ++ b) = coreAll a ++ coreAll b := by
  induction a with
  | nil => rw [coreAll]; rfl
  | cons n a ih => rw [List.cons_append, coreAll, coreAll, ih]; rfl

theorem coreAll_spacing : ∀ {ks : List Node}, ks.any Node.isText = false → (coreAll ks).filter (fun k => !isSpacing k) = coreAll ks
  | [], _ => by rw [coreAll]; rfl
  | n :: ks, h => by
    rw [List.any_cons, Bool.or_eq_false_iff] at h
    have hs : isSpacing n = false := by
      cases hs : isSpacing n with
      | false => rfl
      | true => rw [isText_of_spacing hs] at h; exact h.1
    rw [coreAll, List.filter_cons, core_isSpacing, hs, coreAll_spacing h.2]
    rfl

theorem noText_words {ks : List Node} (h : ks.any Node.isText = false) : startsWithWords ks = false := by
  cases ks with
  | nil => rfl
  | cons n ks =>
    rw [List.any_cons, Bool.or_eq_false_iff] at h
    cases n <;> first | rfl | cases h.1

theorem noText_all {ks : List Node} (hk : ks ≠ []) (h : ks.any Node.isText = false) : ks.all Node.isText = false := by
  cases ks with
  | nil => exact absurd rfl hk
  | cons n ks =>
    rw [List.any_cons, Bool.or_eq_false_iff] at h
    rw [List.all_cons, h.1]
    rfl

mutual
theorem core_padded : ∀ (l : Nat) (n : Node), core (padded true l n) = core n
  | l, .elem i ks => by
    rw [padded]
    by_cases hk : ks = []
    · rw [if_pos hk, hk]
    · rw [if_neg hk]
      by_cases ht : (true && !ks.any Node.isText) = true
      · rw [if_pos ht]
        have ht' : ks.any Node.isText = false := by simpa using ht
        rw [core, core, noText_words ht', noText_all hk ht']
        have h1 : (paddedKids (l + 1) ks ++ [Node.text ('\n' :: indent l)]).all Node.isText = false := by
          cases ks with
          | nil => exact absurd rfl hk
          | cons n ks =>
            rw [List.any_cons, Bool.or_eq_false_iff] at ht'
            rw [paddedKids, List.cons_append, List.cons_append, List.all_cons, List.all_cons, padded_isText, ht'.1]
            simp
        have h2 : startsWithWords (paddedKids (l + 1) ks ++ [.text ('\n' :: indent l)]) = false := by
          cases ks with
          | nil => exact absurd rfl hk
          | cons n ks =>
            rw [paddedKids, List.cons_append]
            have := eol_spacing (l + 1)
            unfold isSpacing at this
            unfold startsWithWords
            dsimp only at this ⊢
            rw [this]
            rfl
        have h3 : (coreAll [Node.text ('\n' :: indent l)]).filter (fun k => !isSpacing k) = [] := by
          rw [coreAll, coreAll, List.filter_cons, core_isSpacing, eol_spacing]
          rfl
        rw [h1, h2, coreAll_append, List.filter_append, h3, List.append_nil, coreAll_padded (l + 1) ks]
        rfl
      · rw [if_neg ht]
  | l, .text s => by simp [padded]
  | l, .comment s => by simp [padded]
  | l, .pi t d => by simp [padded]

theorem coreAll_padded : ∀ (l : Nat) (ks : List Node),
    (coreAll (paddedKids l ks)).filter (fun k => !isSpacing k) = (coreAll ks).filter (fun k => !isSpacing k)
  | l, [] => by rw [paddedKids]
  | l, n :: ks => by
    rw [paddedKids, coreAll, coreAll, coreAll, List.filter_cons, core_isSpacing, eol_spacing, List.filter_cons, List.filter_cons, core_padded l n,
      coreAll_padded l ks]
    rfl
end

/-! ## Documents in which nothing is left to chance -/

theorem spaceOf_none {i : Info} (h : i.attrs.any (fun a => a.ns == some xmlNs && a.name == c!"space") = false) (sp : Bool) : spaceOf i sp = sp := by
  unfold spaceOf
  have : i.attrs.find? (fun a => a.ns == some xmlNs && a.name == c!"space") = none := by
    rw [List.find?_eq_none]
    intro a ha
    have := List.any_eq_false.1 h a ha
    exact this
  rw [this]

mutual
theorem unblank_core (keep : List Nat → Bool) : ∀ (path : List Nat) (n : Node), wordsInFront n = true → unblank keep false path n = core n
  | path, .elem i ks, h => by
    rw [wordsInFront, Bool.and_eq_true, Bool.and_eq_true] at h
    obtain ⟨⟨h1, h2⟩, h3⟩ := h
    have hsp := spaceOf_none (i := i) (by simpa using h1) false
    rw [unblank, core]
    try dsimp only
    rw [hsp]
    by_cases ha : ks.all Node.isText = true
    · rw [if_pos ha, if_pos ha]
    · rw [if_neg ha, if_neg ha, Bool.false_or, wordsFirst_eq]
      by_cases hw : startsWithWords ks = true
      · rw [if_pos hw, hw, unblankKids_all keep _ path 0 ks h3]
      · rw [if_neg hw]
        have hw' : startsWithWords ks = false := by simpa using hw
        have ha' : ks.all Node.isText = false := by simpa using ha
        rw [hw', ha', Bool.false_or, Bool.false_or] at h2
        rw [hw']
        have hm : ks.any isWords = false := by
          rw [List.any_eq_false]
          intro k hk
          have := List.all_eq_true.1 h2 k hk
          rw [isWords_eq]
          revert this
          cases k.isText <;> cases isSpacing k <;> simp
        rw [hm, unblankKids_none keep path 0 ks h3 hm]
  | path, .text s, _ => by simp [unblank, core]
  | path, .comment s, _ => by simp [unblank, core]
  | path, .pi t d, _ => by simp [unblank, core]

theorem unblankKids_all (keep : List Nat → Bool) : ∀ (mixed : Bool) (path : List Nat) (k : Nat) (ks : List Node), wordsInFrontAll ks = true →
    unblankKids keep false true mixed path k ks = coreAll ks
  | mixed, path, k, [], _ => by rw [unblankKids, coreAll]
  | mixed, path, k, n :: ks, h => by
    rw [wordsInFrontAll, Bool.and_eq_true] at h
    rw [unblankKids, if_neg (by simp), coreAll, unblank_core keep (k :: path) n h.1, unblankKids_all keep mixed path (k + 1) ks h.2]

theorem unblankKids_none (keep : List Nat → Bool) : ∀ (path : List Nat) (k : Nat) (ks : List Node), wordsInFrontAll ks = true → ks.any isWords = false →
    unblankKids keep false false false path k ks = (coreAll ks).filter (fun k => !isSpacing k)
  | path, k, [], _, _ => by rw [unblankKids, coreAll]; rfl
  | path, k, n :: ks, h, hm => by
    rw [wordsInFrontAll, Bool.and_eq_true] at h
    rw [List.any_cons, Bool.or_eq_false_iff] at hm
    have ih := unblankKids_none keep path (k + 1) ks h.2 hm.2
    rw [unblankKids, coreAll, List.filter_cons, core_isSpacing, ih, hm.1, unblank_core keep (k :: path) n h.1]
    have hm1 := hm.1
    rw [isWords_eq] at hm1
    by_cases hs : isSpacing n = true
    · rw [hs, isText_of_spacing hs]; rfl
    · have hs' : isSpacing n = false := by simpa using hs
      have ht : n.isText = false := by rw [hs'] at hm1; simpa using hm1
      rw [hs', ht]
      rfl
end

theorem filter_words {ks : List Node} (h : ks.all (fun k => !k.isText || isSpacing k) = true) :
    (ks.filter (fun k => !isSpacing k)).all (fun k => !k.isText || isSpacing k) = true := by
  rw [List.all_eq_true] at h ⊢
  intro k hk
  exact h k (List.mem_filter.1 hk).1

theorem coreAll_words : ∀ {ks : List Node}, ks.all (fun k => !k.isText || isSpacing k) = true →
    (coreAll ks).all (fun k => !k.isText || isSpacing k) = true
  | [], _ => by rw [coreAll]; rfl
  | n :: ks, h => by
    rw [List.all_cons, Bool.and_eq_true] at h
    rw [coreAll, List.all_cons, core_isText, core_isSpacing, h.1, coreAll_words h.2]
    rfl

theorem inFrontAll_iff {ks : List Node} : wordsInFrontAll ks = true ↔ ∀ k ∈ ks, wordsInFront k = true := by
  induction ks with
  | nil => simp [wordsInFrontAll]
  | cons n ks ih => rw [wordsInFrontAll, Bool.and_eq_true, ih]; simp

mutual
theorem core_inFront : ∀ (n : Node), wordsInFront n = true → wordsInFront (core n) = true
  | .elem i ks, h => by
    have h0 := h
    rw [wordsInFront, Bool.and_eq_true, Bool.and_eq_true] at h
    obtain ⟨⟨h1, h2⟩, h3⟩ := h
    have ih := coreAll_inFront ks h3
    rw [core]
    by_cases ha : ks.all Node.isText = true
    · rw [if_pos ha]; exact h0
    · rw [if_neg ha]
      have ha' : ks.all Node.isText = false := by simpa using ha
      by_cases hw : startsWithWords ks = true
      · rw [if_pos hw, wordsInFront, h1, ih]
        have : startsWithWords (coreAll ks) = true := by
          cases ks with
          | nil => cases hw
          | cons n ks =>
            rw [coreAll]
            cases n with
            | text s => simpa [core, startsWithWords] using hw
            | elem _ _ => cases hw
            | comment _ => cases hw
            | pi _ _ => cases hw
        rw [this]
        rfl
      · have hw' : startsWithWords ks = false := by simpa using hw
        rw [hw', ha', Bool.false_or, Bool.false_or] at h2
        rw [if_neg hw, wordsInFront, h1, filter_words (coreAll_words h2), Bool.or_true, Bool.true_and, Bool.true_and, inFrontAll_iff]
        intro k hk
        exact inFrontAll_iff.1 ih k (List.mem_filter.1 hk).1
  | .text s, _ => by simp [core, wordsInFront]
  | .comment s, _ => by simp [core, wordsInFront]
  | .pi t d, _ => by simp [core, wordsInFront]

theorem coreAll_inFront : ∀ (ks : List Node), wordsInFrontAll ks = true → wordsInFrontAll (coreAll ks) = true
  | [], _ => by rw [coreAll]; rfl
  | n :: ks, h => by
    rw [wordsInFrontAll, Bool.and_eq_true] at h
    rw [coreAll, wordsInFrontAll, core_inFront n h.1, coreAll_inFront ks h.2]
    rfl
end

theorem paddedKids_words (l : Nat) : ∀ {ks : List Node}, ks.any Node.isText = false →
    (paddedKids l ks).all (fun k => !k.isText || isSpacing k) = true
  | [], _ => by rw [paddedKids]; rfl
  | n :: ks, h => by
    rw [List.any_cons, Bool.or_eq_false_iff] at h
    rw [paddedKids, List.all_cons, List.all_cons, eol_spacing, padded_isText, h.1, paddedKids_words l h.2]
    simp

mutual
theorem padded_inFront : ∀ (l : Nat) (n : Node), wordsInFront n = true → wordsInFront (padded true l n) = true
  | l, .elem i ks, h => by
    have h0 := h
    rw [wordsInFront, Bool.and_eq_true, Bool.and_eq_true] at h
    obtain ⟨⟨h1, h2⟩, h3⟩ := h
    rw [padded]
    by_cases hk : ks = []
    · rw [if_pos hk]; rw [hk] at h0; exact h0
    · rw [if_neg hk]
      by_cases ht : (true && !ks.any Node.isText) = true
      · have ht' : ks.any Node.isText = false := by simpa using ht
        rw [if_pos ht, wordsInFront, h1]
        have e1 : (paddedKids (l + 1) ks ++ [Node.text ('\n' :: indent l)]).all (fun k => !k.isText || isSpacing k) = true := by
          rw [List.all_append, paddedKids_words _ ht', List.all_cons, eol_spacing]
          simp
        rw [e1, Bool.or_true, Bool.true_and, Bool.true_and, inFrontAll_iff]
        intro k hk
        rcases List.mem_append.1 hk with hk | hk
        · exact inFrontAll_iff.1 (paddedKids_inFront (l + 1) ks h3) k hk
        · rw [List.mem_singleton] at hk
          rw [hk]
          simp [wordsInFront]
      · rw [if_neg ht]; exact h0
  | l, .text s, _ => by simp [padded, wordsInFront]
  | l, .comment s, _ => by simp [padded, wordsInFront]
  | l, .pi t d, _ => by simp [padded, wordsInFront]

theorem paddedKids_inFront : ∀ (l : Nat) (ks : List Node), wordsInFrontAll ks = true → wordsInFrontAll (paddedKids l ks) = true
  | l, [], _ => by rw [paddedKids]; rfl
  | l, n :: ks, h => by
    rw [wordsInFrontAll, Bool.and_eq_true] at h
    rw [paddedKids, wordsInFrontAll, wordsInFrontAll, padded_inFront l n h.1, paddedKids_inFront l ks h.2]
    simp [wordsInFront]
end

/-! ## The written document -/

theorem padded_outside {n : Node} (h : isElem n = false) (l : Nat) : padded true l n = n := by
  cases n with
  | elem i ks => cases h
  | text s => simp [padded]
  | comment s => simp [padded]
  | pi t d => simp [padded]

theorem written_src {nodes : List Node} {r : Node} (hb : asciiMarkupAll (before nodes) = true) (ha : asciiMarkupAll (after nodes) = true) (hr : asciiMarkup r = true)
    (ob : ∀ n ∈ before nodes, isElem n = false) (oa : ∀ n ∈ after nodes, isElem n = false) :
    written nodes r = declaration ++ ((before nodes).flatMap (fun n => '\n' :: src asciiPrinter n) ++
      ('\n' :: src asciiPrinter (padded true 0 r) ++ ((after nodes).flatMap (fun n => '\n' :: src asciiPrinter n) ++ c!"\n"))) := by
  have e1 : ∀ ns : List Node, asciiMarkupAll ns = true → (∀ n ∈ ns, isElem n = false) → ∀ x : Str,
      '\n' :: (toAscii (ns.flatMap (fun n => dump true 0 n ++ c!"\n")) ++ x) = ns.flatMap (fun n => '\n' :: src asciiPrinter n) ++ '\n' :: x := by
    intro ns
    induction ns with
    | nil => intro _ _ x; rfl
    | cons n ns ih =>
      intro hf ho x
      rw [asciiMarkupAll, Bool.and_eq_true] at hf
      have e := dump_pretty 0 n hf.1
      rw [padded_outside (ho n (by simp))] at e
      rw [List.flatMap_cons, List.flatMap_cons, toAscii_append, toAscii_append, e]
      have ih := ih hf.2 (fun k hk => ho k (by simp [hk])) x
      have e4 : toAscii c!"\n" = c!"\n" := by decide
      rw [e4]
      simp only [List.append_assoc, List.cons_append, List.nil_append]
      rw [← ih]
  have e2 : ∀ ns : List Node, asciiMarkupAll ns = true → (∀ n ∈ ns, isElem n = false) →
      toAscii (ns.flatMap (fun n => '\n' :: dump true 0 n)) = ns.flatMap (fun n => '\n' :: src asciiPrinter n) := by
    intro ns
    induction ns with
    | nil => intro _ _; rfl
    | cons n ns ih =>
      intro hf ho
      rw [asciiMarkupAll, Bool.and_eq_true] at hf
      have e := dump_pretty 0 n hf.1
      rw [padded_outside (ho n (by simp))] at e
      rw [List.flatMap_cons, List.flatMap_cons, toAscii_append, ih hf.2 (fun k hk => ho k (by simp [hk]))]
      have e5 : toAscii ('\n' :: dump true 0 n) = '\n' :: toAscii (dump true 0 n) := by
        rw [← List.singleton_append, toAscii_append]
        have e4 : toAscii c!"\n" = c!"\n" := by decide
        rw [e4]
        rfl
      rw [e5, e]
  unfold written
  simp only [toAscii_append]
  rw [dump_pretty 0 r hr, e2 _ ha oa]
  have ed : toAscii declaration = declaration := by decide
  have e4 : toAscii c!"\n" = c!"\n" := by decide
  rw [ed, e4]
  have := e1 _ hb ob (src asciiPrinter (padded true 0 r) ++ ((after nodes).flatMap (fun n => '\n' :: src asciiPrinter n) ++ c!"\n"))
  simp only [List.append_assoc, List.cons_append, List.nil_append] at this ⊢
  rw [this]

theorem padded_elem {r : Node} (h : isElem r = true) (l : Nat) : isElem (padded true l r) = true := by
  cases r with
  | elem i ks =>
    rw [padded]
    split
    · rfl
    · split <;> rfl
  | text s => cases h
  | comment s => cases h
  | pi t d => cases h

theorem unblank_elem {r : Node} (h : isElem r = true) (keep : List Nat → Bool) (sp : Bool) (path : List Nat) : isElem (unblank keep sp path r) = true := by
  cases r with
  | elem i ks => rw [unblank]; (try dsimp only); split <;> rfl
  | text s => cases h
  | comment s => cases h
  | pi t d => cases h

/-- What is read back from the formatted document. -/
theorem format_back {d : Doc} (h : FineDoc d) (keep : List Nat → Bool) :
    readDoc (written d.nodes (unblank keep false [] d.root)) =
      some ⟨some ⟨some c!"UTF-8"⟩, before d.nodes ++ padded true 0 (unblank keep false [] d.root) :: after d.nodes,
        padded true 0 (unblank keep false [] d.root)⟩ := by
  have hf := fineAll_iff.1 h.fine
  rw [h.nodes] at hf
  have hb : FineAll [] (before d.nodes) := fineAll_iff.2 (fun n hn => hf n (by simp [hn]))
  have ha : FineAll [] (after d.nodes) := fineAll_iff.2 (fun n hn => hf n (by simp [hn]))
  have hr : Fine [] d.root := hf _ (by simp)
  have hu := unblank_fine keep [] false [] d.root hr
  have ht := asciiAll_iff.1 h.ascii
  rw [h.nodes] at ht
  have tb : asciiMarkupAll (before d.nodes) = true := asciiAll_iff.2 (fun n hn => ht n (by simp [hn]))
  have ta : asciiMarkupAll (after d.nodes) = true := asciiAll_iff.2 (fun n hn => ht n (by simp [hn]))
  rw [written_src tb ta (unblank_ascii keep false [] d.root (ht _ (by simp))) (fun n hn => (h.before n hn).2) (fun n hn => (h.after n hn).2)]
  exact readDoc_written hb ha (padded_fine [] 0 _ hu) h.before h.after (padded_elem (unblank_elem h.root keep false []) 0)

/-! ## The layout -/

theorem core_isElem (n : Node) : isElem (core n) = isElem n := by
  cases n with
  | elem i ks =>
    rw [core]
    split
    · rfl
    · split <;> rfl
  | text s => simp [core]
  | comment s => simp [core]
  | pi t d => simp [core]

theorem laidOutKids_two {l : Nat} {s : Str} {k : Node} {ks : List Node} (hs : s = lineAt (l + 1)) (hk : k.isText = false)
    (h1 : laidOut (l + 1) k = true) (h2 : laidOutKids l ks = true) : laidOutKids l (.text s :: k :: ks) = true := by
  rw [laidOutKids, h1, h2, hk, hs]
  simp

theorem filter_noText : ∀ {ks : List Node}, ks.all (fun k => !k.isText || isSpacing k) = true →
    ((coreAll ks).filter (fun k => !isSpacing k)).any Node.isText = false
  | [], _ => by rw [coreAll]; rfl
  | n :: ks, h => by
    rw [List.all_cons, Bool.and_eq_true] at h
    have ih := filter_noText h.2
    rw [coreAll, List.filter_cons, core_isSpacing]
    by_cases hs : isSpacing n = true
    · rw [hs]; exact ih
    · have hs' : isSpacing n = false := by simpa using hs
      rw [hs']
      have : n.isText = false := by have := h.1; rw [hs'] at this; simpa using this
      show (core n :: _).any Node.isText = false
      rw [List.any_cons, core_isText, this, ih]
      rfl

theorem laidOut_text {l : Nat} {i : Info} {ks : List Node} (h : startsWithWords ks = true) : laidOut l (.elem i ks) = true := by
  rw [laidOut]
  split
  · rfl
  · rw [if_pos]
    cases ks with
    | nil => cases h
    | cons n ks =>
      cases n with
      | text s =>
        rw [List.any_cons]
        have : isSpacing (.text s) = false := by simpa [startsWithWords, isSpacing] using h
        rw [this]
        rfl
      | elem _ _ => cases h
      | comment _ => cases h
      | pi _ _ => cases h

theorem any_of_words {ks : List Node} (h : startsWithWords ks = true) : ks.any Node.isText = true := by
  cases ks with
  | nil => cases h
  | cons n ks => cases n <;> first | rfl | cases h

mutual
theorem core_laidOut : ∀ (l : Nat) (n : Node), wordsInFront n = true → laidOut l (padded true l (core n)) = true
  | l, .elem i ks, h => by
    have h0 := h
    rw [wordsInFront, Bool.and_eq_true, Bool.and_eq_true] at h
    obtain ⟨⟨h1, h2⟩, h3⟩ := h
    rw [core]
    by_cases ha : ks.all Node.isText = true
    · rw [if_pos ha, padded]
      by_cases hk : ks = []
      · rw [if_pos hk, laidOut]; rfl
      · rw [if_neg hk]
        have : ks.any Node.isText = true := by
          cases ks with
          | nil => exact absurd rfl hk
          | cons n ks => rw [List.all_cons, Bool.and_eq_true] at ha; rw [List.any_cons, ha.1]; rfl
        rw [if_neg (by rw [this]; decide), laidOut, if_pos ha]
    · rw [if_neg ha]
      have ha' : ks.all Node.isText = false := by simpa using ha
      by_cases hw : startsWithWords ks = true
      · have hc : startsWithWords (coreAll ks) = true := by
          cases ks with
          | nil => cases hw
          | cons n ks =>
            rw [coreAll]
            cases n with
            | text s => simpa [core, startsWithWords] using hw
            | elem _ _ => cases hw
            | comment _ => cases hw
            | pi _ _ => cases hw
        rw [if_pos hw, padded]
        split
        · rename_i e; rw [e] at hc; cases hc
        · rw [if_neg (by rw [any_of_words hc]; decide)]
          exact laidOut_text hc
      · have hw' : startsWithWords ks = false := by simpa using hw
        rw [hw', ha', Bool.false_or, Bool.false_or] at h2
        rw [if_neg hw, padded]
        split
        · rw [laidOut]; rfl
        · rw [if_pos (by rw [filter_noText h2]; decide), laidOut]
          split
          · rfl
          · split
            · rfl
            · exact core_laidOutKids l ks h3 h2
  | l, .text s, _ => by simp [core, padded, laidOut]
  | l, .comment s, _ => by simp [core, padded, laidOut]
  | l, .pi t d, _ => by simp [core, padded, laidOut]

theorem core_laidOutKids : ∀ (l : Nat) (ks : List Node), wordsInFrontAll ks = true → ks.all (fun k => !k.isText || isSpacing k) = true →
    laidOutKids l (paddedKids (l + 1) ((coreAll ks).filter (fun k => !isSpacing k)) ++ [.text ('\n' :: indent l)]) = true
  | l, [], _, _ => by
    rw [coreAll]
    show laidOutKids l (paddedKids (l + 1) [] ++ [.text ('\n' :: indent l)]) = true
    rw [paddedKids]
    show laidOutKids l [.text ('\n' :: indent l)] = true
    rw [laidOutKids]
    simp [lineAt, indent]
  | l, n :: ks, h, hs => by
    rw [wordsInFrontAll, Bool.and_eq_true] at h
    rw [List.all_cons, Bool.and_eq_true] at hs
    have ih := core_laidOutKids l ks h.2 hs.2
    rw [coreAll, List.filter_cons, core_isSpacing]
    by_cases hn : isSpacing n = true
    · rw [hn]; exact ih
    · have hn' : isSpacing n = false := by simpa using hn
      have ht : n.isText = false := by have := hs.1; rw [hn'] at this; simpa using this
      rw [hn', if_pos (by rfl), paddedKids, List.cons_append, List.cons_append]
      exact laidOutKids_two rfl (by rw [padded_isText, core_isText, ht]) (core_laidOut (l + 1) n h.1) ih
end

theorem toAscii_ascii (s : Str) : ∀ c ∈ toAscii s, c.toNat < 128 := by
  intro c hc
  unfold toAscii at hc
  obtain ⟨a, _, hc⟩ := List.mem_flatMap.1 hc
  unfold asciiChar at hc
  split at hc
  · rename_i h
    rw [List.mem_singleton] at hc
    rw [hc]; exact h
  · rcases List.mem_append.1 hc with hc | hc
    · rcases List.mem_append.1 hc with hc | hc
      · exact (by decide : ∀ c ∈ c!"&#", c.toNat < 128) c hc
      · have := Nat.isDigit_of_mem_toDigits (b := 10) (by decide) (by decide) hc
        unfold Char.isDigit at this
        rw [Bool.and_eq_true] at this
        have h2 : c.val ≤ '9'.val := by simpa using this.2
        have h3 : c.toNat ≤ 57 := h2
        omega
    · exact (by decide : ∀ c ∈ c!";", c.toNat < 128) c hc

end ReqIF.Format
