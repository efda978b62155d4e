import Verif.Spec.Reorder
import Verif.Proofs.Spacing
import Verif.Proofs.ReadSane
/-!
# Documents that differ in the order of attributes: proofs
-/
set_option linter.unusedSimpArgs false
namespace ReqIF
open Spec

/-! ## The order -/

theorem strLe_refl (s : Str) : strLe s s = true := by
  induction s with
  | nil => rfl
  | cons a s ih => simp [strLe, ih]

theorem toNat_ne {a b : Char} (h : a ≠ b) : a.toNat ≠ b.toNat := fun e => h (Char.toNat_inj.1 e)

theorem strLe_total (s t : Str) : strLe s t = true ∨ strLe t s = true := by
  induction s generalizing t with
  | nil => exact .inl rfl
  | cons a s ih =>
    cases t with
    | nil => exact .inr rfl
    | cons b t =>
      simp only [strLe]
      by_cases h : a = b
      · subst h; simpa using ih t
      · rw [if_neg h, if_neg (Ne.symm h)]
        have := toNat_ne h
        simp only [decide_eq_true_eq]
        omega

theorem strLe_antisymm {s t : Str} (h : strLe s t = true) (h' : strLe t s = true) : s = t := by
  induction s generalizing t with
  | nil => cases t with
    | nil => rfl
    | cons b t => cases h'
  | cons a s ih =>
    cases t with
    | nil => cases h
    | cons b t =>
      simp only [strLe] at h h'
      by_cases e : a = b
      · subst e
        simp only [if_true] at h h'
        rw [ih h h']
      · rw [if_neg e] at h
        rw [if_neg (Ne.symm e)] at h'
        simp only [decide_eq_true_eq] at h h'
        omega

theorem strLe_trans {s t u : Str} (h : strLe s t = true) (h' : strLe t u = true) : strLe s u = true := by
  induction s generalizing t u with
  | nil => rfl
  | cons a s ih =>
    cases t with
    | nil => cases h
    | cons b t =>
      cases u with
      | nil => cases h'
      | cons c u =>
        simp only [strLe] at h h' ⊢
        by_cases e : a = b
        · subst e
          simp only [if_true] at h
          by_cases e' : a = c
          · subst e'
            simp only [if_true] at h' ⊢
            exact ih h h'
          · rw [if_neg e'] at h' ⊢
            exact h'
        · rw [if_neg e] at h
          by_cases e' : b = c
          · subst e'
            rw [if_neg e]
            exact h
          · rw [if_neg e'] at h'
            simp only [decide_eq_true_eq] at h h'
            have : a ≠ c := by rintro rfl; omega
            rw [if_neg this]
            simp only [decide_eq_true_eq]
            omega

/-! ## Sorting -/

theorem attrPut_find (k : Str) (a : Attr) (l : List Attr) :
    (attrPut a l).find? (fun x => x.key == k) = (a :: l).find? (fun x => x.key == k) := by
  induction l with
  | nil => rfl
  | cons b l ih =>
    simp only [attrPut]
    split
    · rfl
    · rename_i h
      rw [List.find?_cons, ih]
      simp only [List.find?_cons]
      by_cases hb : b.key = k
      · by_cases ha : a.key = k
        · rw [ha, hb] at h
          exact absurd (strLe_refl k) h
        · have ha' : (a.key == k) = false := by simpa using ha
          simp only [ha']
      · have hb' : (b.key == k) = false := by simpa using hb
        simp only [hb']

theorem attrsByKey_find (k : Str) (l : List Attr) :
    (attrsByKey l).find? (fun x => x.key == k) = l.find? (fun x => x.key == k) := by
  induction l with
  | nil => rfl
  | cons a l ih =>
    show (attrPut a (attrsByKey l)).find? _ = _
    rw [attrPut_find, List.find?_cons, List.find?_cons, ih]

theorem attrPut_perm (a : Attr) (l : List Attr) : (attrPut a l).Perm (a :: l) := by
  induction l with
  | nil => exact .refl _
  | cons b l ih =>
    simp only [attrPut]
    split
    · exact .refl _
    · exact (ih.cons b).trans (.swap a b l)

theorem attrsByKey_perm (l : List Attr) : (attrsByKey l).Perm l := by
  induction l with
  | nil => exact .refl _
  | cons a l ih => exact (attrPut_perm a _).trans (ih.cons a)

theorem attrPut_comm {a b : Attr} (h : a.key ≠ b.key) (l : List Attr) :
    attrPut a (attrPut b l) = attrPut b (attrPut a l) := by
  have hab : ¬ (strLe a.key b.key = true ∧ strLe b.key a.key = true) := fun e => h (strLe_antisymm e.1 e.2)
  have ht := strLe_total a.key b.key
  induction l with
  | nil =>
    simp only [attrPut]
    by_cases h1 : strLe a.key b.key = true <;> by_cases h2 : strLe b.key a.key = true <;>
      simp_all [attrPut]
  | cons c l ih =>
    have t1 := @strLe_trans a.key b.key c.key
    have t2 := @strLe_trans b.key a.key c.key
    by_cases h1 : strLe a.key b.key = true <;> by_cases h2 : strLe b.key a.key = true <;>
      by_cases h3 : strLe a.key c.key = true <;> by_cases h4 : strLe b.key c.key = true <;>
      simp_all [attrPut]

/-- Sorting forgets the order. -/
theorem attrsByKey_eq {l l' : List Attr} (h : l.Perm l') (hn : (l.map Attr.key).Nodup) : attrsByKey l = attrsByKey l' := by
  induction h with
  | nil => rfl
  | cons a _ ih =>
    show attrPut a (attrsByKey _) = attrPut a (attrsByKey _)
    rw [ih (by simpa using (List.nodup_cons.1 hn).2)]
  | swap a b l =>
    show attrPut b (attrPut a (attrsByKey l)) = attrPut a (attrPut b (attrsByKey l))
    have : b.key ≠ a.key := by
      intro e
      simp [e] at hn
    exact attrPut_comm this _
  | trans h1 _ ih1 ih2 => exact (ih1 hn).trans (ih2 ((h1.map Attr.key).nodup_iff.1 hn))

/-! ## The change leaves alone what the parser asks for -/

theorem ordered_fixed (n : Node) : ordered .fixed n = n := by
  cases n <;> simp [ordered]

theorem orderedKids_eq (p : Part) (ks : List Node) :
    orderedKids p ks = ks.map (fun k => ordered (p.inner (localName k)) k) := by
  induction ks with
  | nil => rfl
  | cons k ks ih => simp only [orderedKids, ih, List.map_cons]

theorem ordered_isText (p : Part) (n : Node) : (ordered p n).isText = n.isText := by
  cases n <;> simp only [ordered]
  split <;> rfl

theorem ordered_tag (p : Part) (n : Node) : (ordered p n).tag = n.tag := by
  cases n <;> simp only [ordered]
  split <;> rfl

theorem ordered_attr (p : Part) (n : Node) (k : Str) : (ordered p n).attr? k = n.attr? k := by
  cases n <;> simp only [ordered]
  split
  · rfl
  · simp only [Node.attr?, Node.attrs]
    split
    · rfl
    · rw [attrsByKey_find]

theorem ordered_nsmap (p : Part) (n : Node) : (ordered p n).nsmap = n.nsmap := by
  cases n <;> simp only [ordered]
  split <;> rfl

theorem ordered_children (p : Part) (n : Node) :
    (ordered p n).children = n.children.map (fun k => ordered (p.inner (localName k)) k) := by
  cases n with
  | elem i ks =>
    simp only [ordered]
    split
    · rename_i h
      subst h
      simp [inner_fixed, ordered_fixed]
    · simp only [Node.children, Node.kids, orderedKids_eq]
      rw [List.filter_map]
      congr 1
      congr 1
      funext k
      simp only [Function.comp_apply, ordered_isText]
  | _ => rfl

theorem ordered_text (p : Part) (n : Node) : (ordered p n).text? = n.text? := by
  cases n with
  | elem i ks =>
    simp only [ordered]
    split
    · rfl
    · cases ks with
      | nil => rfl
      | cons k ks =>
        cases k with
        | elem j ls =>
          have : ∃ j' ls', ordered (p.inner (localName (.elem j ls))) (.elem j ls) = .elem j' ls' := by
            simp only [ordered]
            split <;> exact ⟨_, _, rfl⟩
          obtain ⟨j', ls', e⟩ := this
          simp only [orderedKids, e]
          rfl
        | _ => rfl
  | _ => rfl

theorem ordered_selfClosed (p : Part) (n : Node) : isSelfClosedTag (ordered p n) = isSelfClosedTag n := by
  unfold isSelfClosedTag
  simp only [Node.len, ordered_children, List.length_map, ordered_text]
  rfl

mutual
theorem ordered_tried (p : Part) (r : Bool) (n : Node) :
    tried (stringifyNode r (ordered p n)) = tried (stringifyNode r n) :=
  match n with
  | .elem i ks => by
    simp only [ordered]
    split
    · rfl
    · rw [tried_elem, tried_elem, orderedKids_tried]
  | .text s => rfl
  | .comment s => rfl
  | .pi a b => rfl

theorem orderedKids_tried (p : Part) (ks : List Node) :
    tried (stringifyKids (orderedKids p ks)) = tried (stringifyKids ks) :=
  match ks with
  | [] => rfl
  | k :: ks => by
    simp only [orderedKids]
    rw [tried_kids, tried_kids, orderedKids_tried p ks, ordered_tried _ false k]
end

mutual
theorem ordered_strip (full : Bool) (p : Part) (n : Node) :
    stripTags full (ordered p n) = pyMap (ordered p) (stripTags full n) :=
  match n with
  | .elem i ks => by
    simp only [ordered]
    split
    · rename_i h
      simp only [stripTags]
      cases hk : stripTagsList full ks with
      | error e => rfl
      | ok ks' =>
        dsimp only
        split <;> simp only [pyMap, ordered, if_pos h]
    · rename_i h
      simp only [stripTags, orderedKids_strip full p ks]
      cases hk : stripTagsList full ks with
      | error e => rfl
      | ok ks' =>
        have e : ∀ l, Info.tag { i with attrs := l } = i.tag := fun _ => rfl
        simp only [e]
        by_cases hr : p = .root
        · simp only [pyMap, if_pos hr]
          split <;> simp only [ordered, if_neg h, if_pos hr]
        · simp only [pyMap, if_neg hr]
          split <;> simp only [ordered, if_neg h, if_neg hr]
  | .text s => rfl
  | .comment s => rfl
  | .pi a b => by simp only [ordered, stripTags]; split <;> rfl

theorem orderedKids_strip (full : Bool) (p : Part) (ks : List Node) :
    stripTagsList full (orderedKids p ks) = pyMap (orderedKids p) (stripTagsList full ks) :=
  match ks with
  | [] => rfl
  | k :: ks => by
    simp only [orderedKids, stripTagsList, ordered_strip full _ k, orderedKids_strip full p ks]
    cases hk : stripTags full k with
    | error e => rfl
    | ok k' =>
      cases stripTagsList full ks with
      | error e => rfl
      | ok ks' => simp only [pyMap, orderedKids, localName_strip hk]
end

theorem ordered_usesInfo (q : Option Str) (i : Info) {l : List Attr} (h : l.Perm i.attrs) :
    Info.usesPfx q { i with attrs := l } = i.usesPfx q := by
  simp only [Info.usesPfx]
  congr 1
  rw [Bool.eq_iff_iff]
  simp only [List.any_eq_true, h.mem_iff]

theorem orderedAttrs_perm (p : Part) (l : List Attr) : (if p = .root then l else attrsByKey l).Perm l := by
  split
  · exact .refl _
  · exact attrsByKey_perm l

mutual
theorem ordered_uses (q : Option Str) (b : Bool) (p : Part) (n : Node) :
    (ordered p n).usesPfx q b = n.usesPfx q b :=
  match n with
  | .elem i ks => by
    simp only [ordered]
    split
    · rfl
    · simp only [Node.usesPfx, orderedKids_uses q p ks, ordered_usesInfo q i (orderedAttrs_perm p _)]
      rfl
  | .text s => rfl
  | .comment s => rfl
  | .pi _ _ => rfl

theorem orderedKids_uses (q : Option Str) (p : Part) (ks : List Node) :
    usesPfxList q (orderedKids p ks) = usesPfxList q ks :=
  match ks with
  | [] => rfl
  | k :: ks => by
    simp only [orderedKids, usesPfxList, ordered_uses q true _ k, orderedKids_uses q p ks]
end

mutual
theorem ordered_cleanup (m : NsMap) (p : Part) (n : Node) : cleanup m (ordered p n) = ordered p (cleanup m n) :=
  match n with
  | .elem i ks => by
    have e : ∀ q, Node.usesPfx q false (ordered p (.elem i ks)) = Node.usesPfx q false (.elem i ks) :=
      fun q => ordered_uses q false p _
    by_cases h : p = .fixed
    · simp only [ordered, if_pos h, cleanup]
    · simp only [ordered, if_neg h] at e
      simp only [ordered, if_neg h, cleanup, e, orderedKids_cleanup _ p ks]
  | .text s => rfl
  | .comment s => rfl
  | .pi _ _ => rfl

theorem orderedKids_cleanup (m : NsMap) (p : Part) (ks : List Node) :
    cleanupList m (orderedKids p ks) = orderedKids p (cleanupList m ks) :=
  match ks with
  | [] => rfl
  | k :: ks => by
    simp only [orderedKids, cleanupList, ordered_cleanup m _ k, orderedKids_cleanup m p ks, localName_cleanup]
end

/-- The order of attributes does not matter. -/
theorem order_harmless : Harmless ordered where
  fixed := ordered_fixed
  word n := ordered_text .word n
  others p n h := by cases n <;> first | rfl | cases h
  isElem p n := by
    cases n <;> simp only [ordered]
    split <;> rfl
  tag := ordered_tag
  attr p n k _ := ordered_attr p n k
  nsmap := ordered_nsmap
  children := ordered_children
  selfClosed := ordered_selfClosed
  tried_ := ordered_tried
  strip := ordered_strip
  cleanup_ := ordered_cleanup
  tagDump n := by
    cases n with
    | elem i ks => simp only [ordered]; rfl
    | _ => rfl

/-! ## The attributes of an element have different names -/

theorem clark_inj {u v : Option Str} {n m : Str} (hn : '}' ∉ n) (hm : '}' ∉ m) (h : clark u n = clark v m) :
    u = v ∧ n = m := by
  have tail : ∀ {a b n m : Str}, '}' ∉ n → '}' ∉ m → a ++ '}' :: n = b ++ '}' :: m → a = b ∧ n = m := by
    intro a b n m hn hm h
    have h := congrArg List.reverse h
    simp only [List.reverse_append, List.reverse_cons, List.append_assoc, List.cons_append, List.nil_append] at h
    have key : ∀ {x y s t : Str}, '}' ∉ x → '}' ∉ y → x ++ '}' :: s = y ++ '}' :: t → x = y ∧ s = t := by
      intro x
      induction x with
      | nil =>
        intro y s t _ hy h
        cases y with
        | nil => simpa using h
        | cons c y =>
          simp only [List.nil_append, List.cons_append, List.cons.injEq] at h
          exact absurd (by rw [h.1]; exact List.mem_cons_self ..) hy
      | cons c x ih =>
        intro y s t hx hy h
        cases y with
        | nil =>
          simp only [List.nil_append, List.cons_append, List.cons.injEq] at h
          exact absurd (by rw [h.1]; exact List.mem_cons_self ..) hx
        | cons d y =>
          simp only [List.cons_append, List.cons.injEq] at h
          have := ih (fun e => hx (List.mem_cons_of_mem _ e)) (fun e => hy (List.mem_cons_of_mem _ e)) h.2
          simp [h.1, this.1, this.2]
    have := key (by simpa using hn) (by simpa using hm) h
    exact ⟨List.reverse_inj.1 this.2, List.reverse_inj.1 this.1⟩
  cases u with
  | none => cases v with
    | none => exact ⟨rfl, h⟩
    | some v =>
      simp only [clark] at h
      exact absurd (by simp [h]) hn
  | some u => cases v with
    | none =>
      simp only [clark] at h
      exact absurd (by simp [← h]) hm
    | some v =>
      simp only [clark, List.append_assoc, List.cons_append, List.nil_append, List.cons.injEq, true_and] at h
      have := tail hn hm h
      exact ⟨by rw [this.1], this.2⟩

theorem ncname_noBrace {s : Str} (h : isNCName s = true) : '}' ∉ s := by
  intro hm
  have := (isNCName_qchars h).2 _ hm
  revert this
  decide

theorem Info.Sane.keys {i : Info} (h : i.Sane) : (i.attrs.map Attr.key).Nodup := by
  have hn := h.nodup
  have ha : ∀ a ∈ i.attrs, '}' ∉ a.name := fun a hm => ncname_noBrace (h.attrs a hm).1
  revert hn ha
  generalize i.attrs = l
  intro hn ha
  induction l with
  | nil => exact List.nodup_nil
  | cons a l ih =>
    simp only [List.map_cons, List.nodup_cons] at hn ⊢
    refine ⟨fun hm => hn.1 ?_, ih hn.2 fun b hb => ha b (List.mem_cons_of_mem _ hb)⟩
    obtain ⟨b, hb, e⟩ := List.mem_map.1 hm
    have := clark_inj (ha b (List.mem_cons_of_mem _ hb)) (ha a (List.mem_cons_self ..)) e
    exact List.mem_map.2 ⟨b, hb, by rw [this.1, this.2]⟩

mutual
/-- Trees that differ in the order of attributes are the same once it is sorted out. -/
theorem Spec.Reordered.same_ : ∀ {p : Part} {n n' : Node}, Reordered p n n' → n.Sane → ordered p n = ordered p n'
  | _, _, _, .same p n, _ => rfl
  | p, .elem i ks, _, .elem (attrs := attrs) (ks' := ks') hp hr ha hk, hs => by
    simp only [Node.Sane] at hs
    have e1 := Spec.ReorderedKids.same_ hk hs.2.2
    simp only [ordered, if_neg hp, e1]
    by_cases h : p = .root
    · simp only [if_pos h, hr h]
    · simp only [if_neg h, attrsByKey_eq ha hs.1.keys]

theorem Spec.ReorderedKids.same_ : ∀ {p : Part} {ks ks' : List Node}, ReorderedKids p ks ks' → SaneNodes ks →
    orderedKids p ks = orderedKids p ks'
  | _, _, _, .nil p, _ => rfl
  | p, k :: ks, k' :: ks', .cons h hk, hs => by
    simp only [SaneNodes] at hs
    have e1 := Spec.Reordered.same_ h hs.1
    have e2 := Spec.ReorderedKids.same_ hk hs.2
    have : localName k = localName k' := by
      cases h <;> rfl
    simp only [orderedKids, e2, e1, this]
    rw [← this, e1]
end

/-! ## Two changes one after the other -/

theorem ordered_localName (p : Part) (n : Node) : localName (ordered p n) = localName n := by
  cases n <;> simp only [ordered]
  split <;> rfl

mutual
theorem ordered_unspaced (p : Part) (n : Node) : ordered p (unspaced p n) = unspaced p (ordered p n) :=
  match n with
  | .elem i ks => by
    by_cases hp : p = .fixed
    · subst hp; rw [ordered_fixed, ordered_fixed]
    · by_cases hw : p = .word
      · subst hw; rw [unspaced_word, unspaced_word]
      have ht : (orderedKids p ks).all Node.isText = ks.all Node.isText := by
        rw [orderedKids_eq, List.all_map]
        congr 1
        funext k
        exact ordered_isText _ _
      by_cases h : ks.all Node.isText = true
      · simp only [unspaced, ordered, hp, h, ht, or_true, if_true, if_false]
      · simp only [unspaced, ordered, hp, hw, h, ht, or_self, if_false, orderedKids_unspaced p ks, Bool.false_eq_true]
  | .text s => rfl
  | .comment s => rfl
  | .pi _ _ => rfl

theorem orderedKids_unspaced (p : Part) (ks : List Node) : orderedKids p (unspacedKids p ks) = unspacedKids p (orderedKids p ks) :=
  match ks with
  | [] => rfl
  | k :: ks => by
    simp only [unspacedKids, orderedKids, ordered_isText]
    split
    · exact orderedKids_unspaced p ks
    · simp only [orderedKids, unspaced_localName, ordered_localName, ordered_unspaced _ k, orderedKids_unspaced p ks]
end

/-! ## Two documents -/

/-- Two documents that are the same after a harmless change are parsed to the same bundle, up to this change
of its source elements, and written the same; or both fail in the same way. -/
theorem Harmless.documents_ {φ : Part → Node → Node} (H : Harmless φ) {s s' : Str} {d d' : Doc}
    (hs : readDoc s = some d) (hs' : readDoc s' = some d') (hd : d.decl = d'.decl) (ht : φ .root d.root = φ .root d'.root) :
    (∃ b b', parseString s = .ok b ∧ parseString s' = .ok b' ∧ bundleBy φ b = bundleBy φ b' ∧ unparse b = unparse b') ∨
    ∃ e, parseString s = .error e ∧ parseString s' = .error e := by
  have h1 := H.document_ (d := d) (d' := { d with root := φ .root d.root }) rfl rfl
  have h2 := H.document_ (d := d') (d' := { d with root := φ .root d.root }) hd.symm ht
  rw [h1, ← parseString_ofDoc hs, ← parseString_ofDoc hs'] at h2
  revert h2
  generalize parseString s = a
  generalize parseString s' = b
  intro h
  cases a with
  | error e => cases b with
    | error e' => cases h; exact .inr ⟨e, rfl, rfl⟩
    | ok _ => cases h
  | ok a => cases b with
    | error _ => cases h
    | ok b =>
      have h := Except.ok.inj h
      refine .inl ⟨a, b, rfl, rfl, h, ?_⟩
      rw [← H.unparse_ a, ← H.unparse_ b, h]

end ReqIF
