import Verif.Spec.Jumbled
import Verif.Proofs.ParseInv
import Verif.Proofs.Lookup
import Verif.Proofs.Accepted
/-!
# Proofs about the order of items
-/
namespace ReqIF.Jumbled
open Spec Items

section
variable {α β : Type}

theorem mapPy_perm {f : α → Py β} {xs xs' : List α} (h : xs.Perm xs') {ys : List β} (hy : mapPy f xs = .ok ys) :
    ∃ ys', mapPy f xs' = .ok ys' ∧ ys.Perm ys' := by
  induction h generalizing ys with
  | nil => exact ⟨ys, hy, List.Perm.refl _⟩
  | cons x _ ih =>
    simp only [mapPy] at hy ⊢
    cases hx : f x with
    | error e => rw [hx] at hy; cases hy
    | ok v =>
      rw [hx] at hy
      dsimp only at hy ⊢
      split at hy
      · cases hy
      · rename_i vs hv
        cases hy
        obtain ⟨ys', h1, h2⟩ := ih hv
        rw [h1]
        exact ⟨_, rfl, h2.cons _⟩
  | swap x y l =>
    simp only [mapPy] at hy ⊢
    cases hx : f x with
    | error e => cases hz : f y <;> rw [hx, hz] at hy <;> cases hy
    | ok v =>
      cases hz : f y with
      | error e => rw [hz] at hy; cases hy
      | ok w =>
        rw [hx, hz] at hy
        cases hl : mapPy f l with
        | error e => rw [hl] at hy; cases hy
        | ok vs =>
          rw [hl] at hy
          cases hy
          exact ⟨_, rfl, List.Perm.swap _ _ _⟩
  | trans _ _ ih1 ih2 =>
    obtain ⟨zs, h1, h2⟩ := ih1 hy
    obtain ⟨ws, h3, h4⟩ := ih2 h1
    exact ⟨ws, h3, h2.trans h4⟩

theorem filterMapPy_eq (f : α → Py (Option β)) (xs : List α) :
    filterMapPy f xs = pyMap (List.filterMap id) (mapPy f xs) := by
  induction xs with
  | nil => rfl
  | cons x xs ih =>
    simp only [filterMapPy, mapPy]
    rw [ih]
    cases f x with
    | error e => rfl
    | ok v => cases v <;> cases mapPy f xs <;> rfl

theorem filterMapPy_perm {f : α → Py (Option β)} {xs xs' : List α} (h : xs.Perm xs') {ys : List β}
    (hy : filterMapPy f xs = .ok ys) : ∃ ys', filterMapPy f xs' = .ok ys' ∧ ys.Perm ys' := by
  rw [filterMapPy_eq] at hy ⊢
  cases hm : mapPy f xs with
  | error e => rw [hm] at hy; cases hy
  | ok vs =>
    rw [hm] at hy
    cases hy
    obtain ⟨vs', h1, h2⟩ := mapPy_perm h hm
    rw [h1]
    exact ⟨_, rfl, h2.filterMap _⟩

theorem held_perm {c : Container} {x x' : Node} (h : SameHeld c x x') {f : List Node → Py (List β)}
    (hf : ∀ {xs xs' : List Node}, xs.Perm xs' → ∀ {ys}, f xs = .ok ys → ∃ ys', f xs' = .ok ys' ∧ ys.Perm ys')
    {o o' : Option (List β)} (ho : parsedItems x c.tag f = .ok o) (ho' : parsedItems x' c.tag f = .ok o') :
    (o.getD []).Perm (o'.getD []) := by
  unfold parsedItems at ho ho'
  rcases h with ⟨h1, h2⟩ | ⟨a, a', h1, h2, hp⟩
  · rw [h1] at ho
    rw [h2] at ho'
    cases ho
    cases ho'
    exact List.Perm.refl _
  · rw [h1] at ho
    rw [h2] at ho'
    dsimp only at ho ho'
    cases hx : f a.children with
    | error e => rw [hx] at ho; cases ho
    | ok ys =>
      rw [hx] at ho
      cases ho
      obtain ⟨ys', h3, h4⟩ := hf hp hx
      rw [h3] at ho'
      cases ho'
      exact h4

theorem filter_distinct {key : α → Str} {l : List α} (h : Distinct key l) (k : Str) {p : α → Bool}
    (hq : ∀ x, p x = true → key x = k) : (l.filter p).length ≤ 1 := by
  induction l with
  | nil => simp
  | cons a l ih =>
    have h2 : key a ∉ l.map key ∧ Distinct key l := by simpa [Distinct] using h
    rw [List.filter_cons]
    split
    · rename_i hk
      have : l.filter p = [] := by
        rw [List.filter_eq_nil_iff]
        intro b hb hbk
        exact h2.1 (List.mem_map.2 ⟨b, hb, by rw [hq b hbk, hq a hk]⟩)
      rw [this]
      simp
    · exact ih h2.2

theorem last_perm {m m' : List α} (h1 : m.Perm m') (h2 : m.length ≤ 1) : m.getLast? = m'.getLast? := by
  match m, h2 with
  | [], _ => rw [List.nil_perm.1 h1]
  | [a], _ => rw [← List.singleton_perm.1 h1]

theorem lastWith_perm {key : α → Str} {l l' : List α} (hp : l.Perm l') (h : Distinct key l) (k : Str) :
    lastWith key k l = lastWith key k l' :=
  last_perm (hp.filter _) (filter_distinct h k fun _ hx => (@beq_iff_eq _ instBEqOfDecidableEq _ _ _).1 hx)

theorem find_perm {p : α → Bool} {l l' : List α} (hp : l.Perm l') (h : (l.filter p).length ≤ 1) : l.find? p = l'.find? p := by
  rw [← List.head?_filter, ← List.head?_filter]
  have h1 := hp.filter p
  generalize l.filter p = m at h1 h
  generalize l'.filter p = m' at h1
  match m, h with
  | [], _ => rw [List.nil_perm.1 h1]
  | [a], _ => rw [← List.singleton_perm.1 h1]

end

/-! ## Documents -/

/-- A relation that the parser's preparation of the tree keeps. -/
structure Kept (S : Node → Node → Prop) : Prop where
  tag : ∀ {x y}, S x y → x.tag = y.tag
  text : ∀ {x y}, S x y → x.isText = false ∧ y.isText = false
  uses : ∀ {x y}, S x y → ∀ q b, x.usesPfx q b = y.usesPfx q b
  strip : ∀ {x y x' y' full}, S x y → stripTags full x = .ok x' → stripTags full y = .ok y' → S x' y'
  cleaned : ∀ {x y}, S x y → ∀ m, S (cleanup m x) (cleanup m y)
  pi : ∀ {x y}, S x y → hasPI x = hasPI y
  flip : ∀ {x y}, S x y → S y x

theorem stripTagsList_eq (full : Bool) (ks : List Node) : stripTagsList full ks = mapPy (stripTags full) ks := by
  induction ks with
  | nil => rfl
  | cons k ks ih =>
    simp only [stripTagsList, mapPy, ih]
    cases stripTags full k with
    | error e => rfl
    | ok k' => cases mapPy (stripTags full) ks <;> rfl

theorem usesPfxList_eq (q : Option Str) (ks : List Node) : usesPfxList q ks = ks.any (fun k => k.usesPfx q true) := by
  induction ks with
  | nil => rfl
  | cons k ks ih => simp only [usesPfxList, List.any_cons, ih]

theorem cleanupList_eq (m : NsMap) (ks : List Node) : cleanupList m ks = ks.map (cleanup m) := by
  induction ks with
  | nil => rfl
  | cons k ks ih => simp only [cleanupList, List.map_cons, ih]

theorem cleanup_text (m : NsMap) (n : Node) : (cleanup m n).isText = n.isText := by cases n <;> rfl

theorem strip_text {full : Bool} {n n' : Node} (h : stripTags full n = .ok n') : n'.isText = n.isText := by
  cases n with
  | elem i ks =>
    simp only [stripTags] at h
    split at h
    · cases h
    · split at h <;> cases h <;> rfl
  | text s => cases h; rfl
  | comment s => cases h; rfl
  | pi a b => simp only [stripTags] at h; split at h <;> cases h

/-- The start tag after stripping. -/
def strippedTag (full : Bool) (i : Info) : Info :=
  if !full && containsStr xhtmlNs i.tag then i else { i with ns := none, pfx := none }

theorem strip_elem {full : Bool} {i : Info} {ks : List Node} {n : Node} (h : stripTags full (.elem i ks) = .ok n) :
    ∃ ls, mapPy (stripTags full) ks = .ok ls ∧ n = .elem (strippedTag full i) ls := by
  simp only [stripTags] at h
  rw [stripTagsList_eq] at h
  split at h
  · cases h
  · rename_i ls hl
    refine ⟨ls, hl, ?_⟩
    unfold strippedTag
    split at h <;> cases h
    · rename_i hc; rw [if_pos hc]
    · rename_i hc; rw [if_neg hc]

theorem mapPy_shown {full : Bool} {ks ls : List Node} (h : mapPy (stripTags full) ks = .ok ls) :
    mapPy (stripTags full) (ks.filter (fun k => !k.isText)) = .ok (ls.filter (fun k => !k.isText)) := by
  induction ks generalizing ls with
  | nil => cases h; rfl
  | cons k ks ih =>
    simp only [mapPy] at h
    cases hk : stripTags full k with
    | error e => rw [hk] at h; cases h
    | ok k' =>
      rw [hk] at h
      dsimp only at h
      cases hks : mapPy (stripTags full) ks with
      | error e => rw [hks] at h; cases h
      | ok ks' =>
        rw [hks] at h
        cases h
        have ht := strip_text hk
        rw [List.filter_cons, List.filter_cons, ht]
        cases k.isText with
        | true => exact ih hks
        | false =>
          simp only [Bool.not_false, if_true, mapPy, hk, ih hks]

theorem any_shown (q : Option Str) (ks : List Node) :
    ks.any (fun k => k.usesPfx q true) = (ks.filter (fun k => !k.isText)).any (fun k => k.usesPfx q true) := by
  induction ks with
  | nil => rfl
  | cons k ks ih =>
    rw [List.filter_cons, List.any_cons, ih]
    cases k <;> simp [Node.isText, Node.usesPfx]

theorem any_perm {p : Node → Bool} {l l' : List Node} (h : l.Perm l') : l.any p = l'.any p := by
  rw [Bool.eq_iff_iff, List.any_eq_true, List.any_eq_true]
  exact ⟨fun ⟨o, h1, h2⟩ => ⟨o, h.mem_iff.1 h1, h2⟩, fun ⟨o, h1, h2⟩ => ⟨o, h.mem_iff.2 h1, h2⟩⟩

theorem map_shown (m : NsMap) (ks : List Node) :
    (ks.map (cleanup m)).filter (fun k => !k.isText) = (ks.filter (fun k => !k.isText)).map (cleanup m) := by
  induction ks with
  | nil => rfl
  | cons k ks ih =>
    rw [List.map_cons, List.filter_cons, List.filter_cons, cleanup_text, ih]
    split <;> rfl

theorem elem_cleaned {i : Info} {ks ks' : List Node} (hu : ∀ q b, (Node.elem i ks).usesPfx q b = (Node.elem i ks').usesPfx q b)
    (m : NsMap) : ∃ j m', cleanup m (.elem i ks) = .elem j (ks.map (cleanup m')) ∧
      cleanup m (.elem i ks') = .elem j (ks'.map (cleanup m')) := by
  simp only [cleanup, cleanupList_eq, hu]
  exact ⟨_, _, rfl, rfl⟩

theorem hasPIs_eq (ks : List Node) : hasPIs ks = ks.any hasPI := by
  induction ks with
  | nil => rfl
  | cons k ks ih => simp only [hasPIs, List.any_cons, ih]

theorem pi_shown (ks : List Node) : ks.any hasPI = (ks.filter (fun k => !k.isText)).any hasPI := by
  induction ks with
  | nil => rfl
  | cons k ks ih =>
    rw [List.filter_cons, List.any_cons, ih]
    cases k <;> simp [Node.isText, hasPI]

theorem permuted_kept : Kept Permuted where
  tag := by rintro _ _ ⟨i, ks, ks', rfl, rfl, -⟩; rfl
  text := by rintro _ _ ⟨i, ks, ks', rfl, rfl, -⟩; exact ⟨rfl, rfl⟩
  uses := by
    rintro _ _ ⟨i, ks, ks', rfl, rfl, h⟩ q b
    simp only [Node.usesPfx, usesPfxList_eq]
    rw [any_shown q ks, any_shown q ks', any_perm (show (ks.filter (fun k => !k.isText)).Perm (ks'.filter (fun k => !k.isText)) from h)]
  strip := by
    rintro _ _ x' y' full ⟨i, ks, ks', rfl, rfl, h⟩ hx hy
    obtain ⟨ls, h1, rfl⟩ := strip_elem hx
    obtain ⟨ls', h2, rfl⟩ := strip_elem hy
    refine ⟨_, ls, ls', rfl, rfl, ?_⟩
    obtain ⟨ms, h3, h4⟩ := mapPy_perm h (mapPy_shown h1)
    have h5 := mapPy_shown h2
    rw [show ks'.filter (fun k => !k.isText) = (Node.elem i ks').children from rfl, h3] at h5
    cases h5
    exact h4
  cleaned := by
    rintro _ _ ⟨i, ks, ks', rfl, rfl, h⟩ m
    obtain ⟨j, m', h1, h2⟩ := elem_cleaned (i := i) (ks := ks) (ks' := ks') (fun q b => by
      simp only [Node.usesPfx, usesPfxList_eq]
      rw [any_shown q ks, any_shown q ks', any_perm (show (ks.filter (fun k => !k.isText)).Perm (ks'.filter (fun k => !k.isText)) from h)]) m
    rw [h1, h2]
    refine ⟨_, _, _, rfl, rfl, ?_⟩
    simp only [Node.children, Node.kids, map_shown]
    exact h.map _
  pi := by
    rintro _ _ ⟨i, ks, ks', rfl, rfl, h⟩
    simp only [hasPI, hasPIs_eq]
    rw [pi_shown ks, pi_shown ks', any_perm (show (ks.filter (fun k => !k.isText)).Perm (ks'.filter (fun k => !k.isText)) from h)]
  flip := by
    rintro _ _ ⟨i, ks, ks', rfl, rfl, h⟩
    exact ⟨i, ks', ks, rfl, rfl, h.symm⟩

theorem Each.pi {S : Node → Node → Prop} (K : Kept S) {ks ls : List Node} (h : Each S ks ls) : ks.any hasPI = ls.any hasPI := by
  induction h with
  | nil => rfl
  | same _ ih => simp only [List.any_cons, ih]
  | rel h _ ih => simp only [List.any_cons, ih, K.pi h]

theorem Each.flip {S : Node → Node → Prop} (K : Kept S) {ks ls : List Node} (h : Each S ks ls) : Each S ls ks := by
  induction h with
  | nil => exact .nil
  | same _ ih => exact .same ih
  | rel h _ ih => exact .rel (K.flip h) ih

theorem Each.any {S : Node → Node → Prop} (K : Kept S) {ks ls : List Node} (h : Each S ks ls) (q : Option Str) :
    ks.any (fun k => k.usesPfx q true) = ls.any (fun k => k.usesPfx q true) := by
  induction h with
  | nil => rfl
  | same _ ih => simp only [List.any_cons, ih]
  | rel h _ ih => simp only [List.any_cons, ih, K.uses h]

theorem Each.strip {S : Node → Node → Prop} (K : Kept S) {full : Bool} {ks ls ks' ls' : List Node} (h : Each S ks ls)
    (hk : mapPy (stripTags full) ks = .ok ks') (hl : mapPy (stripTags full) ls = .ok ls') : Each S ks' ls' := by
  induction h generalizing ks' ls' with
  | nil => cases hk; cases hl; exact .nil
  | @same k as bs h ih =>
    simp only [mapPy] at hk hl
    cases h1 : stripTags full k with
    | error e => rw [h1] at hk; cases hk
    | ok k' =>
      rw [h1] at hk hl
      dsimp only at hk hl
      cases h2 : mapPy (stripTags full) as with
      | error e => rw [h2] at hk; cases hk
      | ok as' =>
        cases h3 : mapPy (stripTags full) bs with
        | error e => rw [h3] at hl; cases hl
        | ok bs' =>
          rw [h2] at hk
          rw [h3] at hl
          cases hk
          cases hl
          exact .same (ih h2 h3)
  | @rel k l as bs hs h ih =>
    simp only [mapPy] at hk hl
    cases h1 : stripTags full k with
    | error e => rw [h1] at hk; cases hk
    | ok k' =>
      cases h4 : stripTags full l with
      | error e => rw [h4] at hl; cases hl
      | ok l' =>
        rw [h1] at hk
        rw [h4] at hl
        dsimp only at hk hl
        cases h2 : mapPy (stripTags full) as with
        | error e => rw [h2] at hk; cases hk
        | ok as' =>
          cases h3 : mapPy (stripTags full) bs with
          | error e => rw [h3] at hl; cases hl
          | ok bs' =>
            rw [h2] at hk
            rw [h3] at hl
            cases hk
            cases hl
            exact .rel (K.strip hs h1 h4) (ih h2 h3)

theorem Each.cleaned {S : Node → Node → Prop} (K : Kept S) {ks ls : List Node} (h : Each S ks ls) (m : NsMap) :
    Each S (ks.map (cleanup m)) (ls.map (cleanup m)) := by
  induction h with
  | nil => exact .nil
  | same _ ih => exact .same ih
  | rel h _ ih => exact .rel (K.cleaned h m) ih

theorem within_kept {S : Node → Node → Prop} (K : Kept S) : Kept (Within S) where
  tag := by rintro _ _ ⟨i, ks, ks', rfl, rfl, -⟩; rfl
  text := by rintro _ _ ⟨i, ks, ks', rfl, rfl, -⟩; exact ⟨rfl, rfl⟩
  uses := by
    rintro _ _ ⟨i, ks, ks', rfl, rfl, h⟩ q b
    simp only [Node.usesPfx, usesPfxList_eq, h.any K]
  strip := by
    rintro _ _ x' y' full ⟨i, ks, ks', rfl, rfl, h⟩ hx hy
    obtain ⟨ls, h1, rfl⟩ := strip_elem hx
    obtain ⟨ls', h2, rfl⟩ := strip_elem hy
    exact ⟨_, ls, ls', rfl, rfl, h.strip K h1 h2⟩
  cleaned := by
    rintro _ _ ⟨i, ks, ks', rfl, rfl, h⟩ m
    obtain ⟨j, m', h1, h2⟩ := elem_cleaned (i := i) (ks := ks) (ks' := ks') (fun q b => by
      simp only [Node.usesPfx, usesPfxList_eq, h.any K]) m
    rw [h1, h2]
    exact ⟨_, _, _, rfl, rfl, h.cleaned K m'⟩
  pi := by
    rintro _ _ ⟨i, ks, ks', rfl, rfl, h⟩
    simp only [hasPI, hasPIs_eq, h.pi K]
  flip := by
    rintro _ _ ⟨i, ks, ks', rfl, rfl, h⟩
    exact ⟨i, ks', ks, rfl, rfl, h.flip K⟩

theorem within_find {S : Node → Node → Prop} (K : Kept S) {x y : Node} (h : Within S x y) (t : Str) :
    (x.find t = none ∧ y.find t = none) ∨ ∃ a b, x.find t = some a ∧ y.find t = some b ∧ (a = b ∨ S a b) := by
  obtain ⟨i, ks, ks', rfl, rfl, h⟩ := h
  simp only [Node.find, Node.kids]
  induction h with
  | nil => exact .inl ⟨rfl, rfl⟩
  | @same k as bs _ ih =>
    simp only [List.find?_cons]
    split
    · exact .inr ⟨k, k, rfl, rfl, .inl rfl⟩
    · exact ih
  | @rel k l as bs hs _ ih =>
    simp only [List.find?_cons, K.tag hs, (K.text hs).1, (K.text hs).2]
    split
    · exact .inr ⟨k, l, rfl, rfl, .inr hs⟩
    · exact ih

theorem jumbled_kept : Kept JumbledDocs := within_kept (within_kept (within_kept permuted_kept))

theorem jumbled_stripped {d d' : Node} {r r' : Node} (h : JumbledDocs d d') (hr : strippedRoot d = .ok r) (hr' : strippedRoot d' = .ok r') :
    JumbledDocs r r' := by
  have hm : d.nsmap = d'.nsmap := by
    obtain ⟨i, ks, ks', rfl, rfl, -⟩ := h
    rfl
  unfold strippedRoot at hr hr'
  rw [← hm] at hr'
  cases hg : d.nsmap.get? none with
  | none => rw [hg] at hr hr'; cases hr; cases hr'; exact h
  | some u =>
    rw [hg] at hr hr'
    simp only [stripNamespace] at hr hr'
    cases h1 : stripTags false d with
    | error e => rw [h1] at hr; cases hr
    | ok a =>
      cases h2 : stripTags false d' with
      | error e => rw [h2] at hr'; cases hr'
      | ok a' =>
        rw [h1] at hr
        rw [h2] at hr'
        cases hr
        cases hr'
        exact jumbled_kept.cleaned (jumbled_kept.strip h h1 h2) []

theorem same_items (x : Node) : SameItems x x := by
  intro c
  cases hx : x.find c.tag with
  | none => exact .inl ⟨hx, hx⟩
  | some a => exact .inr ⟨a, a, hx, hx, List.Perm.refl _⟩

/-- Documents that differ in the order of items have the same items for the parser. -/
theorem docs_same {d d' : Node} {r r' : Node} (h : JumbledDocs d d') (hr : strippedRoot d = .ok r) (hr' : strippedRoot d' = .ok r') :
    (contentOf r = none ∧ contentOf r' = none) ∨ ∃ x x', contentOf r = some x ∧ contentOf r' = some x' ∧ SameItems x x' := by
  have K1 := within_kept permuted_kept
  have K2 := within_kept K1
  have hj := jumbled_stripped h hr hr'
  unfold contentOf
  rcases within_find K2 hj c!"CORE-CONTENT" with ⟨h1, h2⟩ | ⟨a, b, h1, h2, rfl | hab⟩
  · rw [h1, h2]; exact .inl ⟨rfl, rfl⟩
  · rw [h1, h2]
    simp only [Option.bind_some]
    cases hc : a.find c!"REQ-IF-CONTENT" with
    | none => exact .inl ⟨rfl, rfl⟩
    | some x => exact .inr ⟨x, x, rfl, rfl, same_items x⟩
  · rw [h1, h2]
    simp only [Option.bind_some]
    rcases within_find K1 hab c!"REQ-IF-CONTENT" with ⟨h3, h4⟩ | ⟨x, y, h3, h4, rfl | hxy⟩
    · exact .inl ⟨h3, h4⟩
    · exact .inr ⟨x, x, h3, h4, same_items x⟩
    · refine .inr ⟨x, y, h3, h4, ?_⟩
      intro c
      rcases within_find permuted_kept hxy c.tag with ⟨h5, h6⟩ | ⟨u, v, h5, h6, rfl | huv⟩
      · exact .inl ⟨h5, h6⟩
      · exact .inr ⟨u, u, h5, h6, List.Perm.refl _⟩
      · obtain ⟨i, ks, ks', rfl, rfl, hp⟩ := huv
        exact .inr ⟨_, _, h5, h6, hp⟩

theorem jumbled_strippable {d d' r : Node} (h : JumbledDocs d d') (hr : strippedRoot d = .ok r) : ∃ r', strippedRoot d' = .ok r' := by
  refine (Accept.stripped_ok d').2 ?_
  have hn : hasDefaultNs d' = hasDefaultNs d := by
    obtain ⟨i, ks, ks', rfl, rfl, -⟩ := h
    rfl
  rw [hn, ← jumbled_kept.pi h]
  exact (Accept.stripped_ok d).1 ⟨r, hr⟩

theorem content_accepted {x y : Node} (h : SameItems x y) (hx : Accept.ContentOk x) : Accept.ContentOk y := by
  have step : ∀ (c : Container) (P : Node → Prop), Accept.May x c.tag (fun n => Accept.Each n P) →
      Accept.May y c.tag (fun n => Accept.Each n P) := by
    intro c P hm v hv k hk
    rcases h c with ⟨-, h2⟩ | ⟨a, b, h1, h2, hp⟩
    · rw [hv] at h2; cases h2
    · rw [hv] at h2
      cases h2
      exact hm a h1 k (hp.mem_iff.2 hk)
  obtain ⟨h1, h2, h3, h4, h5, h6⟩ := hx
  exact ⟨step .dataTypes _ h1, step .specTypes _ h2, step .specifications _ h3, step .specRelations _ h4,
    step .specObjects _ h5, step .relationGroups _ h6⟩

/-- A tree that is accepted is accepted in any order of its items. -/
theorem root_accepted {r r' : Node} (h : JumbledDocs r r')
    (hc : ∀ x, contentOf r' = some x → ∃ y, contentOf r = some y ∧ SameItems y x) (ha : Accept.RootOk r) : Accept.RootOk r' := by
  have K1 := within_kept permuted_kept
  have K2 := within_kept K1
  obtain ⟨h1, h2, h3⟩ := ha
  refine ⟨?_, ?_, ?_⟩
  · unfold Accept.Called at h1 ⊢
    rw [← jumbled_kept.tag h, h1]
  · intro a ha
    rcases within_find K2 h c!"THE-HEADER" with ⟨-, e2⟩ | ⟨u, v, e1, e2, hv⟩
    · rw [ha] at e2; cases e2
    · rw [ha] at e2
      cases e2
      rcases hv with rfl | hv
      · exact h2 _ e1
      · obtain ⟨c, hc1, hc2⟩ := h2 _ e1
        rcases within_find K1 hv c!"REQ-IF-HEADER" with ⟨e3, -⟩ | ⟨p, q, e3, e4, hq⟩
        · rw [hc1] at e3; cases e3
        · rw [hc1] at e3
          cases e3
          refine ⟨q, e4, ?_⟩
          rcases hq with rfl | ⟨i, ks, ks', rfl, rfl, -⟩
          · exact hc2
          · exact hc2
  · intro a ha x hx
    obtain ⟨y, hy, hs⟩ := hc x (by rw [contentOf, ha]; exact hx)
    refine content_accepted hs ?_
    unfold contentOf at hy
    cases hf : r.find c!"CORE-CONTENT" with
    | none => rw [hf] at hy; cases hy
    | some w => rw [hf] at hy; exact h3 w hf y hy

/-- If the one is accepted, so is the other. -/
theorem docs_accepted {d d' r : Node} (h : JumbledDocs d d') (hr : strippedRoot d = .ok r) (ha : Accept.RootOk r) :
    ∃ r', strippedRoot d' = .ok r' ∧ Accept.RootOk r' := by
  obtain ⟨r', hr'⟩ := jumbled_strippable h hr
  refine ⟨r', hr', root_accepted (jumbled_stripped h hr hr') ?_ ha⟩
  intro x hx
  rcases docs_same h hr hr' with ⟨-, h2⟩ | ⟨u, v, h1, h2, hs⟩
  · rw [hx] at h2; cases h2
  · rw [hx] at h2
    cases h2
    exact ⟨u, h1, hs⟩

end ReqIF.Jumbled
