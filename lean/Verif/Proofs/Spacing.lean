import Verif.Spec.Spacing
import Verif.Proofs.Harmless
/-!
# Documents that differ in indentation: proofs
-/
set_option linter.unusedSimpArgs false
namespace ReqIF
open Spec

/-! ## Basic facts -/

theorem unspaced_fixed (n : Node) : unspaced .fixed n = n := by
  cases n <;> simp [unspaced]

theorem unspaced_word (n : Node) : unspaced .word n = n := by
  cases n <;> simp [unspaced]

theorem unspacedKids_eq (p : Part) (ks : List Node) :
    unspacedKids p ks = (ks.filter (fun k => !k.isText)).map (fun k => unspaced (p.inner (localName k)) k) := by
  induction ks with
  | nil => rfl
  | cons k ks ih =>
    simp only [unspacedKids, List.filter_cons]
    cases k.isText <;> simp [ih]

theorem unspaced_isText (p : Part) (n : Node) : (unspaced p n).isText = n.isText := by
  cases n <;> simp only [unspaced]
  split <;> rfl

theorem unspaced_tag (p : Part) (n : Node) : (unspaced p n).tag = n.tag := by
  cases n <;> simp only [unspaced]
  split <;> rfl

theorem unspaced_attr (p : Part) (n : Node) (k : Str) : (unspaced p n).attr? k = n.attr? k := by
  cases n <;> simp only [unspaced]
  split <;> rfl

theorem unspaced_nsmap (p : Part) (n : Node) : (unspaced p n).nsmap = n.nsmap := by
  cases n <;> simp only [unspaced]
  split <;> rfl

theorem unspaced_localName (p : Part) (n : Node) : localName (unspaced p n) = localName n := by
  cases n <;> simp only [unspaced]
  split <;> rfl

theorem inner_fixed (s : Str) : Part.fixed.inner s = .fixed := rfl
theorem inner_word (s : Str) : Part.word.inner s = .fixed := rfl

theorem unspacedKids_children (p : Part) (ks : List Node) :
    (unspacedKids p ks).filter (fun k => !k.isText) = unspacedKids p ks := by
  rw [unspacedKids_eq, List.filter_eq_self]
  intro k hk
  obtain ⟨k', hk', rfl⟩ := List.mem_map.1 hk
  rw [unspaced_isText]
  exact (List.mem_filter.1 hk').2

/-- The children, one by one. -/
theorem unspaced_children (p : Part) (n : Node) :
    (unspaced p n).children = n.children.map (fun k => unspaced (p.inner (localName k)) k) := by
  cases n with
  | elem i ks =>
    simp only [unspaced]
    split
    · rename_i h
      simp only [Node.children, Node.kids]
      rcases h with rfl | rfl | h
      · simp [inner_fixed, unspaced_fixed]
      · simp [inner_word, unspaced_fixed]
      · rw [filter_text _ h]; rfl
    · simp only [Node.children, Node.kids]
      rw [unspacedKids_children, unspacedKids_eq]
  | _ => rfl

theorem unspaced_len (p : Part) (n : Node) : (unspaced p n).len = n.len := by
  simp only [Node.len, unspaced_children, List.length_map]

theorem all_text_of_len {i : Info} {ks : List Node} (h : (Node.elem i ks).len = 0) : ks.all Node.isText = true := by
  simp only [Node.len, Node.children, Node.kids, List.length_eq_zero_iff, List.filter_eq_nil_iff] at h
  rw [List.all_eq_true]
  intro k hk
  have := h k hk
  simpa using this

/-- An element without children is kept as it is. -/
theorem unspaced_of_len {p : Part} {n : Node} (h : n.len = 0) : unspaced p n = n := by
  cases n with
  | elem i ks => simp only [unspaced]; rw [if_pos (.inr (.inr (all_text_of_len h)))]
  | _ => rfl

theorem unspaced_selfClosed (p : Part) (n : Node) : isSelfClosedTag (unspaced p n) = isSelfClosedTag n := by
  by_cases h : n.len = 0
  · rw [unspaced_of_len h]
  · have h' : n.len > 0 := by omega
    unfold isSelfClosedTag
    rw [unspaced_len, if_pos h', if_pos h']

theorem unspaced_isElem (p : Part) (n : Node) : Format.isElem (unspaced p n) = Format.isElem n := by
  cases n <;> simp only [unspaced]
  split <;> rfl

/-! ## Printing an element only for the message -/

mutual
theorem unspaced_tried (p : Part) (r : Bool) (n : Node) :
    tried (stringifyNode r (unspaced p n)) = tried (stringifyNode r n) :=
  match n with
  | .elem i ks => by
    simp only [unspaced]
    split
    · rfl
    · rw [tried_elem, tried_elem, unspacedKids_tried]
  | .text s => rfl
  | .comment s => rfl
  | .pi a b => rfl

theorem unspacedKids_tried (p : Part) (ks : List Node) :
    tried (stringifyKids (unspacedKids p ks)) = tried (stringifyKids ks) :=
  match ks with
  | [] => rfl
  | k :: ks => by
    simp only [unspacedKids]
    split
    · rename_i h
      rw [unspacedKids_tried p ks, tried_kids]
      cases k with
      | text s => rfl
      | _ => cases h
    · rw [tried_kids, tried_kids, unspacedKids_tried p ks, unspaced_tried _ false k]
end

/-! ## The removal of namespaces -/

theorem strip_isText {full : Bool} {k k' : Node} (h : stripTags full k = .ok k') : k'.isText = k.isText := by
  cases k with
  | text s => cases h; rfl
  | comment s => cases h; rfl
  | pi t d => simp only [stripTags] at h; split at h <;> cases h
  | elem i ks =>
    simp only [stripTags] at h
    cases hk : stripTagsList full ks with
    | error e => rw [hk] at h; cases h
    | ok ks' =>
      rw [hk] at h
      dsimp only at h
      split at h <;> cases h <;> rfl

theorem strip_allText {full : Bool} {ks ks' : List Node} (h : stripTagsList full ks = .ok ks') :
    ks'.all Node.isText = ks.all Node.isText := by
  induction ks generalizing ks' with
  | nil => cases h; rfl
  | cons k ks ih =>
    simp only [stripTagsList] at h
    cases hk : stripTags full k with
    | error e => rw [hk] at h; cases h
    | ok k1 =>
      rw [hk] at h
      cases hs : stripTagsList full ks with
      | error e => rw [hs] at h; cases h
      | ok ks1 =>
        rw [hs] at h
        cases h
        simp only [List.all_cons, strip_isText hk, ih hs]

mutual
theorem unspaced_strip (full : Bool) (p : Part) (n : Node) :
    stripTags full (unspaced p n) = pyMap (unspaced p) (stripTags full n) :=
  match n with
  | .elem i ks => by
    simp only [unspaced]
    split
    · rename_i h
      simp only [stripTags]
      cases hk : stripTagsList full ks with
      | error e => rfl
      | ok ks' =>
        have h' : p = .fixed ∨ p = .word ∨ ks'.all Node.isText = true := by rw [strip_allText hk]; exact h
        dsimp only
        split <;> simp only [pyMap, unspaced, if_pos h']
    · rename_i h
      simp only [stripTags, unspacedKids_strip full p ks]
      cases hk : stripTagsList full ks with
      | error e => rfl
      | ok ks' =>
        have h' : ¬ (p = .fixed ∨ p = .word ∨ ks'.all Node.isText = true) := by rw [strip_allText hk]; exact h
        simp only [pyMap]
        split <;> simp only [unspaced, if_neg h']
  | .text s => rfl
  | .comment s => rfl
  | .pi a b => by simp only [unspaced, stripTags]; split <;> rfl

theorem unspacedKids_strip (full : Bool) (p : Part) (ks : List Node) :
    stripTagsList full (unspacedKids p ks) = pyMap (unspacedKids p) (stripTagsList full ks) :=
  match ks with
  | [] => rfl
  | k :: ks => by
    simp only [unspacedKids]
    split
    · rename_i h
      rw [unspacedKids_strip full p ks]
      cases k with
      | text s =>
        simp only [stripTagsList, stripTags]
        cases stripTagsList full ks <;> simp [pyMap, unspacedKids, Node.isText]
      | _ => cases h
    · rename_i h
      simp only [stripTagsList, unspaced_strip full _ k, unspacedKids_strip full p ks]
      cases hk : stripTags full k with
      | error e => rfl
      | ok k' =>
        cases stripTagsList full ks with
        | error e => rfl
        | ok ks' =>
          simp only [pyMap, unspacedKids, strip_isText hk, if_neg h, localName_strip hk]
end

mutual
theorem unspaced_uses (pfx : Option Str) (b : Bool) (p : Part) (n : Node) :
    (unspaced p n).usesPfx pfx b = n.usesPfx pfx b :=
  match n with
  | .elem i ks => by
    simp only [unspaced]
    split
    · rfl
    · simp only [Node.usesPfx, unspacedKids_uses pfx p ks]
  | .text s => rfl
  | .comment s => rfl
  | .pi _ _ => rfl

theorem unspacedKids_uses (pfx : Option Str) (p : Part) (ks : List Node) :
    usesPfxList pfx (unspacedKids p ks) = usesPfxList pfx ks :=
  match ks with
  | [] => rfl
  | k :: ks => by
    simp only [unspacedKids]
    split
    · rename_i h
      rw [unspacedKids_uses pfx p ks]
      cases k with
      | text s => rfl
      | _ => cases h
    · simp only [usesPfxList, unspaced_uses pfx true _ k, unspacedKids_uses pfx p ks]
end

theorem cleanup_isText (m : NsMap) (k : Node) : (cleanup m k).isText = k.isText := by
  cases k <;> rfl

theorem cleanup_allText (m : NsMap) (ks : List Node) : (cleanupList m ks).all Node.isText = ks.all Node.isText := by
  induction ks with
  | nil => rfl
  | cons k ks ih => simp only [cleanupList, List.all_cons, cleanup_isText, ih]

mutual
theorem unspaced_cleanup (m : NsMap) (p : Part) (n : Node) : cleanup m (unspaced p n) = unspaced p (cleanup m n) :=
  match n with
  | .elem i ks => by
    have e : ∀ q, Node.usesPfx q false (unspaced p (.elem i ks)) = Node.usesPfx q false (.elem i ks) :=
      fun q => unspaced_uses q false p _
    by_cases h : p = .fixed ∨ p = .word ∨ ks.all Node.isText = true
    · simp only [unspaced, if_pos h, cleanup, cleanup_allText]
    · simp only [unspaced, if_neg h] at e
      simp only [unspaced, if_neg h, cleanup, cleanup_allText, e, unspacedKids_cleanup _ p ks]
  | .text s => rfl
  | .comment s => rfl
  | .pi _ _ => rfl

theorem unspacedKids_cleanup (m : NsMap) (p : Part) (ks : List Node) :
    cleanupList m (unspacedKids p ks) = unspacedKids p (cleanupList m ks) :=
  match ks with
  | [] => rfl
  | k :: ks => by
    simp only [unspacedKids, cleanupList, cleanup_isText]
    split
    · exact unspacedKids_cleanup m p ks
    · simp only [cleanupList, unspaced_cleanup m _ k, unspacedKids_cleanup m p ks, localName_cleanup]
end

/-! ## The document -/

/-- Spacing does not matter. -/
theorem spacing_harmless : Harmless unspaced where
  fixed := unspaced_fixed
  word n := congrArg Node.text? (unspaced_word n)
  others p n h := by cases n <;> first | rfl | cases h
  isElem := unspaced_isElem
  tag := unspaced_tag
  attr p n k _ := unspaced_attr p n k
  nsmap := unspaced_nsmap
  children := unspaced_children
  selfClosed := unspaced_selfClosed
  tried_ := unspaced_tried
  strip := unspaced_strip
  cleanup_ := unspaced_cleanup
  tagDump n := by
    cases n <;> simp only [unspaced]
    split <;> rfl

theorem unspaced_document {d d' : Doc} (hd : d.decl = d'.decl) (hr : d'.root = unspaced .root d.root) :
    (parseReqif (none : Option (Callback Unit)) d' ()).1 =
      pyMap unspacedBundle (parseReqif (none : Option (Callback Unit)) d ()).1 :=
  spacing_harmless.document_ hd hr

theorem unparse_unspaced (b : Bundle) : unparse (unspacedBundle b) = unparse b := spacing_harmless.unparse_ b

end ReqIF
