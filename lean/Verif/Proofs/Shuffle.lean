import Verif.Spec.Shuffle
import Verif.Proofs.Reorder
/-!
# Documents that differ in the order of the parts of elements: proofs
-/
set_option linter.unusedSimpArgs false
namespace ReqIF
open Spec

/-! ## Sorting -/

theorem namePut_filter {q : Node → Bool} {name : Str} (hq : ∀ k, q k = true → localName k = name) (k : Node) (l : List Node) :
    (namePut k l).filter q = (k :: l).filter q := by
  induction l with
  | nil => rfl
  | cons b l ih =>
    simp only [namePut]
    split
    · rfl
    · rename_i h
      rw [List.filter_cons, ih]
      simp only [List.filter_cons]
      by_cases hb : q b = true
      · by_cases hk : q k = true
        · rw [hq k hk, hq b hb] at h
          exact absurd (strLe_refl name) h
        · simp only [hb, hk, if_true, if_false, Bool.false_eq_true]
      · simp only [hb, if_false, Bool.false_eq_true]

theorem byName_filter {q : Node → Bool} {name : Str} (hq : ∀ k, q k = true → localName k = name) (l : List Node) :
    (byName l).filter q = l.filter q := by
  induction l with
  | nil => rfl
  | cons k l ih =>
    show (namePut k (byName l)).filter q = _
    rw [namePut_filter hq, List.filter_cons, List.filter_cons, ih]

theorem namePut_perm (a : Node) (l : List Node) : (namePut a l).Perm (a :: l) := by
  induction l with
  | nil => exact .refl _
  | cons b l ih =>
    simp only [namePut]
    split
    · exact .refl _
    · exact (ih.cons b).trans (.swap a b l)

theorem byName_perm (l : List Node) : (byName l).Perm l := by
  induction l with
  | nil => exact .refl _
  | cons a l ih => exact (namePut_perm a _).trans (ih.cons a)

theorem namePut_comm {a b : Node} (h : localName a ≠ localName b) (l : List Node) :
    namePut a (namePut b l) = namePut b (namePut a l) := by
  have hab : ¬ (strLe (localName a) (localName b) = true ∧ strLe (localName b) (localName a) = true) :=
    fun e => h (strLe_antisymm e.1 e.2)
  have ht := strLe_total (localName a) (localName b)
  induction l with
  | nil =>
    simp only [namePut]
    by_cases h1 : strLe (localName a) (localName b) = true <;> by_cases h2 : strLe (localName b) (localName a) = true <;>
      simp_all [namePut]
  | cons c l ih =>
    have t1 := @strLe_trans (localName a) (localName b) (localName c)
    have t2 := @strLe_trans (localName b) (localName a) (localName c)
    by_cases h1 : strLe (localName a) (localName b) = true <;> by_cases h2 : strLe (localName b) (localName a) = true <;>
      by_cases h3 : strLe (localName a) (localName c) = true <;> by_cases h4 : strLe (localName b) (localName c) = true <;>
      simp_all [namePut]

theorem byName_move (k : Node) (a b : List Node) (h : ∀ x ∈ a, localName x ≠ localName k) :
    byName (a ++ k :: b) = namePut k (byName (a ++ b)) := by
  induction a with
  | nil => rfl
  | cons x a ih =>
    show namePut x (byName (a ++ k :: b)) = namePut k (namePut x (byName (a ++ b)))
    rw [ih (fun y hy => h y (List.mem_cons_of_mem _ hy)), namePut_comm (h x List.mem_cons_self)]

/-- The first item of a name. -/
theorem first_named {k : Node} {t m : List Node} (h : k :: t.filter (fun x => localName x == localName k) = m.filter (fun x => localName x == localName k)) :
    ∃ a b, m = a ++ k :: b ∧ ∀ x ∈ a, localName x ≠ localName k := by
  induction m with
  | nil => cases h
  | cons x m ih =>
    by_cases hx : localName x = localName k
    · rw [List.filter_cons, if_pos (by simpa using hx)] at h
      injection h with h1 h2
      subst h1
      exact ⟨[], m, rfl, by simp⟩
    · rw [List.filter_cons, if_neg (by simpa using hx)] at h
      obtain ⟨a, b, e, h2⟩ := ih h
      refine ⟨x :: a, b, by rw [e]; rfl, ?_⟩
      intro y hy
      rcases List.mem_cons.1 hy with rfl | hy
      · exact hx
      · exact h2 y hy

/-- Sorting forgets the order of items with different names. -/
theorem byName_eq : ∀ {l m : List Node}, SameByName l m → byName l = byName m
  | [], m, h => by
    cases m with
    | nil => rfl
    | cons x m =>
      have := h (localName x)
      simp at this
  | k :: t, m, h => by
    have hk := h (localName k)
    rw [List.filter_cons, if_pos (by simp)] at hk
    obtain ⟨a, b, rfl, ha⟩ := first_named hk
    rw [byName_move k a b ha]
    show namePut k (byName t) = _
    rw [byName_eq (l := t) (m := a ++ b)]
    intro name
    have hn := h name
    by_cases e : localName k = name
    · subst e
      have ha' : a.filter (fun x => localName x == localName k) = [] := by
        rw [List.filter_eq_nil_iff]
        intro x hx
        simpa using ha x hx
      rw [List.filter_append, List.filter_cons, List.filter_cons, if_pos (by simp), if_pos (by simp), ha', List.nil_append] at hn
      injection hn with _ hn
      rw [hn, List.filter_append, ha', List.nil_append]
    · rw [List.filter_cons, if_neg (by simpa using e), List.filter_append, List.filter_cons, if_neg (by simpa using e), ← List.filter_append] at hn
      exact hn

/-- Sorting items that all have the same name. -/
theorem byName_same {name : Str} : ∀ {l : List Node}, (∀ k ∈ l, localName k = name) → byName l = l
  | [], _ => rfl
  | k :: l, h => by
    show namePut k (byName l) = _
    rw [byName_same (fun x hx => h x (List.mem_cons_of_mem _ hx))]
    cases l with
    | nil => rfl
    | cons b l =>
      simp only [namePut]
      rw [if_pos (by rw [h k List.mem_cons_self, h b (by simp)]; exact strLe_refl _)]

/-! ## The change leaves alone what the parser asks for -/

theorem unshuffled_fixed (n : Node) : unshuffled .fixed n = n := by
  cases n <;> simp [unshuffled]

theorem unshuffledKids_eq (p : Part) (ks : List Node) :
    unshuffledKids p ks = ks.map (fun k => unshuffled (p.inner (localName k)) k) := by
  induction ks with
  | nil => rfl
  | cons k ks ih => simp only [unshuffledKids, ih, List.map_cons]

/-- Only the children change. -/
theorem unshuffled_elem (p : Part) (i : Info) (ks : List Node) : ∃ ls, unshuffled p (.elem i ks) = .elem i ls := by
  simp only [unshuffled]
  split
  · exact ⟨_, rfl⟩
  · split <;> exact ⟨_, rfl⟩

theorem unshuffled_isText (p : Part) (n : Node) : (unshuffled p n).isText = n.isText := by
  cases n with
  | elem i ks => obtain ⟨ls, e⟩ := unshuffled_elem p i ks; rw [e]; rfl
  | _ => rfl

theorem unshuffled_tag (p : Part) (n : Node) : (unshuffled p n).tag = n.tag := by
  cases n with
  | elem i ks => obtain ⟨ls, e⟩ := unshuffled_elem p i ks; rw [e]; rfl
  | _ => rfl

theorem unshuffled_localName (p : Part) (n : Node) : localName (unshuffled p n) = localName n := by
  cases n with
  | elem i ks => obtain ⟨ls, e⟩ := unshuffled_elem p i ks; rw [e]; rfl
  | _ => rfl

theorem unshuffledKids_children (p : Part) (ks : List Node) : (unshuffledKids p ks).filter (fun k => !k.isText) =
    (ks.filter (fun k => !k.isText)).map (fun k => unshuffled (p.inner (localName k)) k) := by
  rw [unshuffledKids_eq, List.filter_map]
  congr 1
  congr 1
  funext k
  simp only [Function.comp_apply, unshuffled_isText]

/-- The children before sorting, if they are sorted. -/
theorem unshuffled_kids (p : Part) (i : Info) (ks : List Node) : unshuffled p (.elem i ks) = .elem i (unshuffledKids p ks) ∨
    p.inOrder i.name = false ∧ unshuffled p (.elem i ks) = .elem i (byName (unshuffledKids p ks)) := by
  simp only [unshuffled]
  split
  · rename_i h
    subst h
    rw [unshuffledKids_eq]
    left
    congr 1
    induction ks with
    | nil => rfl
    | cons k ks ih => rw [List.map_cons, ← ih, inner_fixed, unshuffled_fixed]
  · split
    · exact .inl rfl
    · rename_i h
      exact .inr ⟨by simpa using h, rfl⟩

theorem unshuffled_perm (p : Part) (i : Info) (ks : List Node) :
    ∃ ls, unshuffled p (.elem i ks) = .elem i ls ∧ ls.Perm (unshuffledKids p ks) := by
  rcases unshuffled_kids p i ks with h | ⟨-, h⟩
  · exact ⟨_, h, .refl _⟩
  · exact ⟨_, h, byName_perm _⟩

theorem unshuffled_len (p : Part) (n : Node) : (unshuffled p n).len = n.len := by
  cases n with
  | elem i ks =>
    obtain ⟨ls, e, hp⟩ := unshuffled_perm p i ks
    rw [e]
    simp only [Node.len, Node.children, Node.kids]
    rw [(hp.filter _).length_eq, unshuffledKids_children, List.length_map]
  | _ => rfl

theorem unshuffled_grouped (p : Part) (n : Node) (t : Str) (ht : plainTag t = true) :
    (unshuffled p n).children.filter (fun k => k.tag == .name t) =
      (n.children.filter (fun k => k.tag == .name t)).map (unshuffled (p.inner t)) := by
  cases n with
  | elem i ks =>
    have key : (unshuffled p (.elem i ks)).children.filter (fun k => k.tag == .name t) =
        ((unshuffledKids p ks).filter (fun k => !k.isText)).filter (fun k => k.tag == .name t) := by
      rcases unshuffled_kids p i ks with h | ⟨-, h⟩
      · rw [h]; rfl
      · rw [h]
        simp only [Node.children, Node.kids, List.filter_filter]
        apply byName_filter (name := t)
        intro k hk
        simp only [Bool.and_eq_true] at hk
        exact localName_of_plain (by simpa using hk.1) ht
    rw [key, unshuffledKids_children, List.filter_map]
    have e : ((fun k => k.tag == Tag.name t) ∘ fun k => unshuffled (p.inner (localName k)) k) = (fun k => k.tag == Tag.name t) := by
      funext k
      simp only [Function.comp, unshuffled_tag]
    rw [e]
    apply List.map_congr_left
    intro k hk
    have := (List.mem_filter.1 hk).2
    rw [localName_of_plain (by simpa using this) ht]
  | _ => rfl

theorem unshuffled_kept (p : Part) (n : Node) (h : p.inOrder (localName n) = true) :
    (unshuffled p n).children = n.children.map (fun k => unshuffled (p.inner (localName k)) k) := by
  cases n with
  | elem i ks =>
    rcases unshuffled_kids p i ks with e | ⟨e, -⟩
    · rw [e]
      exact unshuffledKids_children p ks
    · rw [show localName (.elem i ks) = i.name from rfl, e] at h
      cases h
  | _ => rfl

theorem unshuffled_selfClosed (p : Part) (n : Node) : isSelfClosedTag (unshuffled p n) = isSelfClosedTag n := by
  cases n with
  | elem i ks =>
    unfold isSelfClosedTag
    rw [unshuffled_len]
    by_cases h : (Node.elem i ks).len > 0
    · rw [if_pos h, if_pos h]
    · rw [if_neg h, if_neg h]
      have hall : ∀ k ∈ ks, k.isText = true := by
        intro k hk
        cases ht : k.isText with
        | true => rfl
        | false =>
          exfalso
          apply h
          simp only [Node.len, Node.children, Node.kids]
          exact List.length_pos_of_mem (List.mem_filter.2 ⟨hk, by simp [ht]⟩)
      have hkids : unshuffledKids p ks = ks := by
        rw [unshuffledKids_eq]
        conv => rhs; rw [← List.map_id ks]
        apply List.map_congr_left
        intro k hk
        have := hall k hk
        cases k with
        | text s => rfl
        | elem j ls => cases this
        | comment s => cases this
        | pi a b => cases this
      have e : unshuffled p (.elem i ks) = .elem i ks := by
        rcases unshuffled_kids p i ks with e | ⟨-, e⟩
        · rw [e, hkids]
        · rw [e, hkids, byName_same (name := [])]
          intro k hk
          have := hall k hk
          cases k with
          | text s => rfl
          | elem j ls => cases this
          | comment s => rfl
          | pi a b => rfl
      rw [e]
  | _ => rfl

/-! Printing for a message -/

mutual
theorem tried_only (r : Bool) (n : Node) : tried (stringifyNode r n) = .ok () ∨ tried (stringifyNode r n) = .error .valueError :=
  match n with
  | .elem i ks => by rw [tried_elem]; exact tried_only_kids ks
  | .text s => .inl rfl
  | .comment s => .inl rfl
  | .pi a b => .inr rfl

theorem tried_only_kids (ks : List Node) : tried (stringifyKids ks) = .ok () ∨ tried (stringifyKids ks) = .error .valueError :=
  match ks with
  | [] => .inl rfl
  | k :: ks => by
    rw [tried_kids]
    rcases tried_only false k with h | h
    · rw [h]; exact tried_only_kids ks
    · rw [h]; exact .inr rfl
end

theorem tried_perm {l m : List Node} (h : l.Perm m) : tried (stringifyKids l) = tried (stringifyKids m) := by
  induction h with
  | nil => rfl
  | cons a _ ih => rw [tried_kids, tried_kids, ih]
  | swap a b l =>
    rw [tried_kids, tried_kids, tried_kids, tried_kids]
    rcases tried_only false a with h | h <;> rcases tried_only false b with h' | h' <;> rw [h, h'] <;> rfl
  | trans _ _ h1 h2 => exact h1.trans h2

mutual
theorem unshuffled_tried (p : Part) (r : Bool) (n : Node) :
    tried (stringifyNode r (unshuffled p n)) = tried (stringifyNode r n) :=
  match n with
  | .elem i ks => by
    obtain ⟨ls, e, hp⟩ := unshuffled_perm p i ks
    rw [e, tried_elem, tried_elem, tried_perm hp, unshuffledKids_tried]
  | .text s => rfl
  | .comment s => rfl
  | .pi a b => rfl

theorem unshuffledKids_tried (p : Part) (ks : List Node) :
    tried (stringifyKids (unshuffledKids p ks)) = tried (stringifyKids ks) :=
  match ks with
  | [] => rfl
  | k :: ks => by
    simp only [unshuffledKids]
    rw [tried_kids, tried_kids, unshuffledKids_tried p ks, unshuffled_tried _ false k]
end

/-! Removal of namespaces -/

mutual
theorem strip_only (full : Bool) (n : Node) : ∀ e, stripTags full n = .error e → e = if full then .valueError else .typeError :=
  match n with
  | .elem i ks => fun e h => by
    simp only [stripTags] at h
    cases hk : stripTagsList full ks with
    | error e' =>
      rw [hk] at h
      cases h
      exact strip_only_kids full ks e hk
    | ok ks' =>
      rw [hk] at h
      dsimp only at h
      split at h <;> cases h
  | .text s => fun e h => by cases h
  | .comment s => fun e h => by cases h
  | .pi a b => fun e h => by
    simp only [stripTags] at h
    split at h <;> cases h
    · rename_i hf; rw [if_pos hf]
    · rename_i hf; rw [if_neg hf]

theorem strip_only_kids (full : Bool) (ks : List Node) : ∀ e, stripTagsList full ks = .error e → e = if full then .valueError else .typeError :=
  match ks with
  | [] => fun e h => by cases h
  | k :: ks => fun e h => by
    simp only [stripTagsList] at h
    cases hk : stripTags full k with
    | error e' => rw [hk] at h; cases h; exact strip_only full k e hk
    | ok k' =>
      rw [hk] at h
      cases hks : stripTagsList full ks with
      | error e' => rw [hks] at h; cases h; exact strip_only_kids full ks e hks
      | ok ks' => rw [hks] at h; cases h
end

theorem strip_put (full : Bool) (k : Node) (l : List Node) : stripTagsList full (namePut k l) =
    (stripTags full k >>= fun k' => stripTagsList full l >>= fun l' => .ok (namePut k' l')) := by
  induction l with
  | nil =>
    simp only [namePut, stripTagsList]
    cases stripTags full k <;> rfl
  | cons b l ih =>
    simp only [namePut]
    cases hk : stripTags full k with
    | error e =>
      have h1 := strip_only full k e hk
      split
      · simp only [stripTagsList, hk]; rfl
      · simp only [stripTagsList, ih, hk]
        cases hb : stripTags full b with
        | error e' => rw [h1, strip_only full b e' hb]; rfl
        | ok b' => rfl
    | ok k' =>
      have e1 := localName_strip hk
      split
      · rename_i hle
        simp only [stripTagsList, hk]
        cases hb : stripTags full b with
        | error e' => rfl
        | ok b' =>
          have e2 := localName_strip hb
          cases stripTagsList full l with
          | error e => rfl
          | ok l' =>
            show Except.ok (k' :: b' :: l') = Except.ok (namePut k' (b' :: l'))
            simp only [namePut]
            rw [if_pos (by rw [e1, e2]; exact hle)]
      · rename_i hle
        simp only [stripTagsList, ih, hk]
        cases hb : stripTags full b with
        | error e' => rfl
        | ok b' =>
          have e2 := localName_strip hb
          cases stripTagsList full l with
          | error e => rfl
          | ok l' =>
            show Except.ok (b' :: namePut k' l') = Except.ok (namePut k' (b' :: l'))
            simp only [namePut]
            rw [if_neg (by rw [e1, e2]; exact hle)]

theorem strip_byName (full : Bool) (l : List Node) : stripTagsList full (byName l) = pyMap byName (stripTagsList full l) := by
  induction l with
  | nil => rfl
  | cons k l ih =>
    show stripTagsList full (namePut k (byName l)) = _
    rw [strip_put, ih]
    simp only [stripTagsList]
    cases stripTags full k with
    | error e => rfl
    | ok k' => cases stripTagsList full l <;> rfl

mutual
theorem unshuffled_strip (full : Bool) (p : Part) (n : Node) :
    stripTags full (unshuffled p n) = pyMap (unshuffled p) (stripTags full n) :=
  match n with
  | .elem i ks => by
    by_cases hp : p = .fixed
    · subst hp
      rw [unshuffled_fixed]
      cases stripTags full (.elem i ks) with
      | error e => rfl
      | ok r => simp only [pyMap, unshuffled_fixed]
    · by_cases ho : p.inOrder i.name = true
      · simp only [unshuffled, if_neg hp, if_pos ho, stripTags, unshuffledKids_strip full p ks]
        cases stripTagsList full ks with
        | error e => rfl
        | ok ks' =>
          simp only [pyMap]
          split <;> simp only [unshuffled, if_neg hp, if_pos ho]
      · simp only [unshuffled, if_neg hp, if_neg ho, stripTags, strip_byName, unshuffledKids_strip full p ks]
        cases stripTagsList full ks with
        | error e => rfl
        | ok ks' =>
          simp only [pyMap]
          split <;> simp only [unshuffled, if_neg hp, if_neg ho]
  | .text s => rfl
  | .comment s => rfl
  | .pi a b => by simp only [unshuffled, stripTags]; split <;> rfl

theorem unshuffledKids_strip (full : Bool) (p : Part) (ks : List Node) :
    stripTagsList full (unshuffledKids p ks) = pyMap (unshuffledKids p) (stripTagsList full ks) :=
  match ks with
  | [] => rfl
  | k :: ks => by
    simp only [unshuffledKids, stripTagsList, unshuffled_strip full _ k, unshuffledKids_strip full p ks]
    cases hk : stripTags full k with
    | error e => rfl
    | ok k' =>
      cases stripTagsList full ks with
      | error e => rfl
      | ok ks' => simp only [pyMap, unshuffledKids, localName_strip hk]
end

/-! Namespace declarations -/

theorem uses_perm (q : Option Str) {l m : List Node} (h : l.Perm m) : usesPfxList q l = usesPfxList q m := by
  induction h with
  | nil => rfl
  | cons a _ ih => simp only [usesPfxList, ih]
  | swap a b l =>
    simp only [usesPfxList]
    cases Node.usesPfx q true a <;> cases Node.usesPfx q true b <;> rfl
  | trans _ _ h1 h2 => exact h1.trans h2

mutual
theorem unshuffled_uses (q : Option Str) (b : Bool) (p : Part) (n : Node) :
    (unshuffled p n).usesPfx q b = n.usesPfx q b :=
  match n with
  | .elem i ks => by
    obtain ⟨ls, e, hp⟩ := unshuffled_perm p i ks
    rw [e]
    simp only [Node.usesPfx, uses_perm q hp, unshuffledKids_uses q p ks]
  | .text s => rfl
  | .comment s => rfl
  | .pi _ _ => rfl

theorem unshuffledKids_uses (q : Option Str) (p : Part) (ks : List Node) :
    usesPfxList q (unshuffledKids p ks) = usesPfxList q ks :=
  match ks with
  | [] => rfl
  | k :: ks => by
    simp only [unshuffledKids, usesPfxList, unshuffled_uses q true _ k, unshuffledKids_uses q p ks]
end

theorem cleanup_put (m : NsMap) (k : Node) (l : List Node) : cleanupList m (namePut k l) = namePut (cleanup m k) (cleanupList m l) := by
  induction l with
  | nil => rfl
  | cons b l ih =>
    simp only [namePut, cleanupList, localName_cleanup]
    split
    · rfl
    · simp only [cleanupList, ih]

theorem cleanup_byName (m : NsMap) (l : List Node) : cleanupList m (byName l) = byName (cleanupList m l) := by
  induction l with
  | nil => rfl
  | cons k l ih =>
    show cleanupList m (namePut k (byName l)) = namePut (cleanup m k) (byName (cleanupList m l))
    rw [cleanup_put, ih]

mutual
theorem unshuffled_cleanup (m : NsMap) (p : Part) (n : Node) : cleanup m (unshuffled p n) = unshuffled p (cleanup m n) :=
  match n with
  | .elem i ks => by
    have e : ∀ q, Node.usesPfx q false (unshuffled p (.elem i ks)) = Node.usesPfx q false (.elem i ks) :=
      fun q => unshuffled_uses q false p _
    by_cases h : p = .fixed
    · simp only [unshuffled, if_pos h, cleanup]
    · by_cases ho : p.inOrder i.name = true
      · simp only [unshuffled, if_neg h, if_pos ho] at e
        simp only [unshuffled, if_neg h, if_pos ho, cleanup, e, unshuffledKids_cleanup _ p ks]
      · simp only [unshuffled, if_neg h, if_neg ho] at e
        simp only [unshuffled, if_neg h, if_neg ho, cleanup, e, cleanup_byName, unshuffledKids_cleanup _ p ks]
  | .text s => rfl
  | .comment s => rfl
  | .pi _ _ => rfl

theorem unshuffledKids_cleanup (m : NsMap) (p : Part) (ks : List Node) :
    cleanupList m (unshuffledKids p ks) = unshuffledKids p (cleanupList m ks) :=
  match ks with
  | [] => rfl
  | k :: ks => by
    simp only [unshuffledKids, cleanupList, unshuffled_cleanup m _ k, unshuffledKids_cleanup m p ks, localName_cleanup]
end

theorem unshuffledKids_word (ks : List Node) : unshuffledKids .word ks = ks := by
  induction ks with
  | nil => rfl
  | cons k ks ih =>
    show unshuffled .fixed k :: unshuffledKids .word ks = _
    rw [unshuffled_fixed, ih]

theorem unshuffled_word (n : Node) : unshuffled .word n = n := by
  cases n with
  | elem i ks => exact congrArg (Node.elem i) (unshuffledKids_word ks)
  | _ => rfl

/-- The order of parts does not matter. -/
theorem shuffle_tolerant : Tolerant unshuffled where
  fixed := unshuffled_fixed
  word n := congrArg Node.text? (unshuffled_word n)
  others p n h := by cases n <;> first | rfl | cases h
  isElem p n := by
    cases n with
    | elem i ks => obtain ⟨ls, e⟩ := unshuffled_elem p i ks; rw [e]; rfl
    | _ => rfl
  tag := unshuffled_tag
  attr p n k _ := by
    cases n with
    | elem i ks => obtain ⟨ls, e⟩ := unshuffled_elem p i ks; rw [e]; rfl
    | _ => rfl
  nsmap p n := by
    cases n with
    | elem i ks => obtain ⟨ls, e⟩ := unshuffled_elem p i ks; rw [e]; rfl
    | _ => rfl
  grouped := unshuffled_grouped
  kept := unshuffled_kept
  len_ := unshuffled_len
  selfClosed := unshuffled_selfClosed
  tried_ := unshuffled_tried
  strip := unshuffled_strip
  cleanup_ := unshuffled_cleanup
  tagDump n := by
    cases n with
    | elem i ks => obtain ⟨ls, e⟩ := unshuffled_elem .root i ks; rw [e]; rfl
    | _ => rfl

/-! ## Trees that differ in the order of parts -/

theorem sameByName_map {f : Node → Node} (hf : ∀ k, localName (f k) = localName k) {l m : List Node} (h : SameByName l m) :
    SameByName (l.map f) (m.map f) := by
  intro name
  have e : (fun k => localName k == name) ∘ f = (fun k => localName k == name) := by
    funext k
    simp only [Function.comp, hf]
  rw [List.filter_map, List.filter_map, e, h name]

mutual
/-- Trees that differ in the order of parts are the same once it is sorted out. -/
theorem Spec.Shuffled.same_ : ∀ {p : Part} {n n' : Node}, Shuffled p n n' → unshuffled p n = unshuffled p n'
  | _, _, _, .same p n => rfl
  | p, .elem i ks, _, .listed hp hk => by
    simp only [unshuffled, if_neg hp, Spec.ShuffledKids.same_ hk]
  | p, .elem i ks, _, .free (ls := ls) (ms := ms) hp ho hk hs => by
    have e : byName (unshuffledKids p ls) = byName (unshuffledKids p ms) := by
      rw [unshuffledKids_eq, unshuffledKids_eq]
      exact byName_eq (sameByName_map (fun k => unshuffled_localName _ k) hs)
    simp only [unshuffled, if_neg hp, ho, Bool.false_eq_true, if_false, Spec.ShuffledKids.same_ hk, e]

theorem Spec.ShuffledKids.same_ : ∀ {p : Part} {ks ks' : List Node}, ShuffledKids p ks ks' →
    unshuffledKids p ks = unshuffledKids p ks'
  | _, _, _, .nil p => rfl
  | p, k :: ks, k' :: ks', .cons h hk => by
    have e1 := Spec.Shuffled.same_ h
    have e2 := Spec.ShuffledKids.same_ hk
    have : localName k = localName k' := by
      cases h <;> rfl
    simp only [unshuffledKids, e2]
    rw [← this, e1]
end

/-! ## Two documents -/

theorem Tolerant.documents_ {φ : Part → Node → Node} (H : Tolerant φ) {s s' : Str} {d d' : Doc}
    (hs : readDoc s = some d) (hs' : readDoc s' = some d') (hd : d.decl = d'.decl) (ht : φ .root d.root = φ .root d'.root) :
    (∃ b b', parseString s = .ok b ∧ parseString s' = .ok b' ∧ bundleBy φ b = bundleBy φ b') ∨
    ∃ e, parseString s = .error e ∧ parseString s' = .error e := by
  have h1 := H.document_ (d := d) (d' := { d with root := φ .root d.root }) rfl rfl
  have h2 := H.document_ (d := d') (d' := { d with root := φ .root d.root }) hd.symm ht
  rw [h1, ← parseString_ofDoc hs, ← parseString_ofDoc hs'] at h2
  revert h2
  generalize parseString s = a
  generalize parseString s' = b
  intro h
  cases a with
  | error e => cases b with
    | error e' => cases h; exact .inr ⟨e, rfl, rfl⟩
    | ok _ => cases h
  | ok a => cases b with
    | error _ => cases h
    | ok b => exact .inl ⟨a, b, rfl, rfl, Except.ok.inj h⟩

/-! ## Changing source elements twice -/

section
variable (g f : Part → Node → Node)

theorem valueBy_twice (a : SpecObjectAttribute) : valueBy g (valueBy f a) = valueBy (fun p n => g p (f p n)) a := by
  simp [valueBy, Function.comp_def]

theorem definitionBy_twice (a : SpecAttributeDefinition) :
    definitionBy g (definitionBy f a) = definitionBy (fun p n => g p (f p n)) a := by
  simp [definitionBy, Function.comp_def]

theorem typeBy_twice (t : SpecType) : typeBy g (typeBy f t) = typeBy (fun p n => g p (f p n)) t := by
  cases t <;> simp [typeBy, Function.comp_def, definitionBy_twice]

theorem objectBy_twice (o : SpecObject) : objectBy g (objectBy f o) = objectBy (fun p n => g p (f p n)) o := by
  simp [objectBy, Function.comp_def, valueBy_twice]

theorem relationBy_twice (r : SpecRelation) : relationBy g (relationBy f r) = relationBy (fun p n => g p (f p n)) r := by
  cases r
  simp [relationBy, Function.comp_def, valueBy_twice]

mutual
theorem hierarchyBy_twice : (h : Hierarchy) → hierarchyBy g (hierarchyBy f h) = hierarchyBy (fun p n => g p (f p n)) h
  | .leaf i => by simp [hierarchyBy, hinfoBy, Function.comp_def]
  | .node i cs => by simp [hierarchyBy, hinfoBy, Function.comp_def, hierarchiesBy_twice cs]

theorem hierarchiesBy_twice : (hs : List Hierarchy) →
    hierarchiesBy g (hierarchiesBy f hs) = hierarchiesBy (fun p n => g p (f p n)) hs
  | [] => rfl
  | h :: hs => by simp [hierarchiesBy, hierarchyBy_twice h, hierarchiesBy_twice hs]
end

theorem specificationBy_twice (s : Specification) :
    specificationBy g (specificationBy f s) = specificationBy (fun p n => g p (f p n)) s := by
  cases s
  simp [specificationBy, Function.comp_def, valueBy_twice, hierarchiesBy_twice]

theorem contentBy_twice (c : Content) : contentBy g (contentBy f c) = contentBy (fun p n => g p (f p n)) c := by
  cases c
  simp [contentBy, Function.comp_def, typeBy_twice, objectBy_twice, relationBy_twice, specificationBy_twice]

theorem bundleBy_twice (b : Bundle) : bundleBy g (bundleBy f b) = bundleBy (fun p n => g p (f p n)) b := by
  cases b
  simp [bundleBy, Function.comp_def, contentBy_twice, typeBy_twice, objectBy_twice]
end

/-- Bundles with the same changed source elements are the same without source elements. -/
theorem sourceless_by {f : Part → Node → Node} {b b' : Bundle} (h : bundleBy f b = bundleBy f b') :
    sourceless b = sourceless b' := by
  have e := congrArg sourceless h
  simp only [sourceless, bundleBy_twice] at e
  exact e

end ReqIF
