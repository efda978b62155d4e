import Verif.Proofs.Shuffle
/-!
# Documents that differ in attributes ReqIF does not have: proofs
-/
set_option linter.unusedSimpArgs false
namespace ReqIF
open Spec

theorem undecorated_fixed (n : Node) : undecorated .fixed n = n := by
  cases n <;> simp [undecorated]

theorem undecoratedKids_eq (p : Part) (ks : List Node) :
    undecoratedKids p ks = ks.map (fun k => undecorated (p.inner (localName k)) k) := by
  induction ks with
  | nil => rfl
  | cons k ks ih => simp only [undecoratedKids, ih, List.map_cons]

theorem undecorated_isText (p : Part) (n : Node) : (undecorated p n).isText = n.isText := by
  cases n <;> simp only [undecorated]
  split <;> rfl

theorem undecorated_tag (p : Part) (n : Node) : (undecorated p n).tag = n.tag := by
  cases n <;> simp only [undecorated]
  split <;> rfl

theorem isReadAttr_find (l : List Attr) (k : Str) (hk : isReadName k = true) :
    (l.filter isReadAttr).find? (fun a => a.key == k) = l.find? (fun a => a.key == k) := by
  rw [List.find?_filter]
  congr 1
  funext a
  by_cases h : a.key = k
  · simp [h, isReadAttr, hk]
  · simp [h]

theorem undecorated_attr (p : Part) (n : Node) (k : Str) (hk : isReadName k = true) :
    (undecorated p n).attr? k = n.attr? k := by
  cases n <;> simp only [undecorated]
  split
  · rfl
  · simp only [Node.attr?, Node.attrs]
    split
    · rfl
    · rw [isReadAttr_find _ _ hk]

theorem undecorated_nsmap (p : Part) (n : Node) : (undecorated p n).nsmap = n.nsmap := by
  cases n <;> simp only [undecorated]
  split <;> rfl

theorem undecorated_children (p : Part) (n : Node) :
    (undecorated p n).children = n.children.map (fun k => undecorated (p.inner (localName k)) k) := by
  cases n with
  | elem i ks =>
    simp only [undecorated]
    split
    · rename_i h
      subst h
      simp [inner_fixed, undecorated_fixed]
    · simp only [Node.children, Node.kids, undecoratedKids_eq]
      rw [List.filter_map]
      congr 1
      congr 1
      funext k
      simp only [Function.comp_apply, undecorated_isText]
  | _ => rfl

theorem undecorated_text (p : Part) (n : Node) : (undecorated p n).text? = n.text? := by
  cases n with
  | elem i ks =>
    simp only [undecorated]
    split
    · rfl
    · cases ks with
      | nil => rfl
      | cons k ks =>
        cases k with
        | elem j ls =>
          have : ∃ j' ls', undecorated (p.inner (localName (.elem j ls))) (.elem j ls) = .elem j' ls' := by
            simp only [undecorated]
            split <;> exact ⟨_, _, rfl⟩
          obtain ⟨j', ls', e⟩ := this
          simp only [undecoratedKids, e]
          rfl
        | _ => rfl
  | _ => rfl

theorem undecorated_selfClosed (p : Part) (n : Node) : isSelfClosedTag (undecorated p n) = isSelfClosedTag n := by
  unfold isSelfClosedTag
  simp only [Node.len, undecorated_children, List.length_map, undecorated_text]
  rfl

mutual
theorem undecorated_tried (p : Part) (r : Bool) (n : Node) :
    tried (stringifyNode r (undecorated p n)) = tried (stringifyNode r n) :=
  match n with
  | .elem i ks => by
    simp only [undecorated]
    split
    · rfl
    · rw [tried_elem, tried_elem, undecoratedKids_tried]
  | .text s => rfl
  | .comment s => rfl
  | .pi a b => rfl

theorem undecoratedKids_tried (p : Part) (ks : List Node) :
    tried (stringifyKids (undecoratedKids p ks)) = tried (stringifyKids ks) :=
  match ks with
  | [] => rfl
  | k :: ks => by
    simp only [undecoratedKids]
    rw [tried_kids, tried_kids, undecoratedKids_tried p ks, undecorated_tried _ false k]
end

mutual
theorem undecorated_strip (full : Bool) (p : Part) (n : Node) :
    stripTags full (undecorated p n) = pyMap (undecorated p) (stripTags full n) :=
  match n with
  | .elem i ks => by
    simp only [undecorated]
    split
    · rename_i h
      simp only [stripTags]
      cases hk : stripTagsList full ks with
      | error e => rfl
      | ok ks' =>
        dsimp only
        split <;> simp only [pyMap, undecorated, if_pos h]
    · rename_i h
      simp only [stripTags, undecoratedKids_strip full p ks]
      cases hk : stripTagsList full ks with
      | error e => rfl
      | ok ks' =>
        have e : ∀ l, Info.tag { i with attrs := l } = i.tag := fun _ => rfl
        simp only [e]
        by_cases hr : p = .root
        · simp only [pyMap, if_pos hr]
          split <;> simp only [undecorated, if_neg h, if_pos hr]
        · simp only [pyMap, if_neg hr]
          split <;> simp only [undecorated, if_neg h, if_neg hr]
  | .text s => rfl
  | .comment s => rfl
  | .pi a b => by simp only [undecorated, stripTags]; split <;> rfl

theorem undecoratedKids_strip (full : Bool) (p : Part) (ks : List Node) :
    stripTagsList full (undecoratedKids p ks) = pyMap (undecoratedKids p) (stripTagsList full ks) :=
  match ks with
  | [] => rfl
  | k :: ks => by
    simp only [undecoratedKids, stripTagsList, undecorated_strip full _ k, undecoratedKids_strip full p ks]
    cases hk : stripTags full k with
    | error e => rfl
    | ok k' =>
      cases stripTagsList full ks with
      | error e => rfl
      | ok ks' => simp only [pyMap, undecoratedKids, localName_strip hk]
end

theorem undecorated_usesInfo (q : Option Str) (i : Info) (p : Part) :
    Info.usesPfx q { i with attrs := if p = .root then i.attrs else i.attrs.filter isReadAttr } = i.usesPfx q := by
  simp only [Info.usesPfx]
  congr 1
  split
  · rfl
  · rw [List.any_filter]
    congr 1
    funext a
    simp only [isReadAttr]
    cases a.ns <;> simp

mutual
theorem undecorated_uses (q : Option Str) (b : Bool) (p : Part) (n : Node) :
    (undecorated p n).usesPfx q b = n.usesPfx q b :=
  match n with
  | .elem i ks => by
    simp only [undecorated]
    split
    · rfl
    · simp only [Node.usesPfx, undecoratedKids_uses q p ks, undecorated_usesInfo q i p]
      rfl
  | .text s => rfl
  | .comment s => rfl
  | .pi _ _ => rfl

theorem undecoratedKids_uses (q : Option Str) (p : Part) (ks : List Node) :
    usesPfxList q (undecoratedKids p ks) = usesPfxList q ks :=
  match ks with
  | [] => rfl
  | k :: ks => by
    simp only [undecoratedKids, usesPfxList, undecorated_uses q true _ k, undecoratedKids_uses q p ks]
end

mutual
theorem undecorated_cleanup (m : NsMap) (p : Part) (n : Node) : cleanup m (undecorated p n) = undecorated p (cleanup m n) :=
  match n with
  | .elem i ks => by
    have e : ∀ q, Node.usesPfx q false (undecorated p (.elem i ks)) = Node.usesPfx q false (.elem i ks) :=
      fun q => undecorated_uses q false p _
    by_cases h : p = .fixed
    · simp only [undecorated, if_pos h, cleanup]
    · simp only [undecorated, if_neg h] at e
      simp only [undecorated, if_neg h, cleanup, e, undecoratedKids_cleanup _ p ks]
  | .text s => rfl
  | .comment s => rfl
  | .pi _ _ => rfl

theorem undecoratedKids_cleanup (m : NsMap) (p : Part) (ks : List Node) :
    cleanupList m (undecoratedKids p ks) = undecoratedKids p (cleanupList m ks) :=
  match ks with
  | [] => rfl
  | k :: ks => by
    simp only [undecoratedKids, cleanupList, undecorated_cleanup m _ k, undecoratedKids_cleanup m p ks, localName_cleanup]
end

/-- Unknown attributes do not matter. -/
theorem decoration_harmless : Harmless undecorated where
  fixed := undecorated_fixed
  word n := undecorated_text .word n
  others p n h := by cases n <;> first | rfl | cases h
  isElem p n := by
    cases n <;> simp only [undecorated]
    split <;> rfl
  tag := undecorated_tag
  attr := undecorated_attr
  nsmap := undecorated_nsmap
  children := undecorated_children
  selfClosed := undecorated_selfClosed
  tried_ := undecorated_tried
  strip := undecorated_strip
  cleanup_ := undecorated_cleanup
  tagDump n := by
    cases n with
    | elem i ks => simp only [undecorated]; rfl
    | _ => rfl

mutual
/-- Trees that differ in unknown attributes are the same without them. -/
theorem Spec.Decorated.same_ : ∀ {p : Part} {n n' : Node}, Decorated p n n' → undecorated p n = undecorated p n'
  | _, _, _, .same p n => rfl
  | p, .elem i ks, _, .elem (attrs := attrs) hp hr ha hk => by
    simp only [undecorated, if_neg hp, Spec.DecoratedKids.same_ hk]
    by_cases h : p = .root
    · simp only [if_pos h, hr h]
    · simp only [if_neg h, ha]

theorem Spec.DecoratedKids.same_ : ∀ {p : Part} {ks ks' : List Node}, DecoratedKids p ks ks' →
    undecoratedKids p ks = undecoratedKids p ks'
  | _, _, _, .nil p => rfl
  | p, k :: ks, k' :: ks', .cons h hk => by
    have e1 := Spec.Decorated.same_ h
    have e2 := Spec.DecoratedKids.same_ hk
    have : localName k = localName k' := by
      cases h <;> rfl
    simp only [undecoratedKids, e2]
    rw [← this, e1]
end

end ReqIF
