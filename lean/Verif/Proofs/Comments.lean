import Verif.Spec.Comments
import Verif.Props.C58_60
/-!
# Documents that differ in comments: proofs
-/
set_option linter.unusedSimpArgs false
namespace ReqIF
open Spec

/-! ## The relation -/

mutual
/-- The same element but for comments in the places where they do not matter. -/
inductive Alike : Place → Node → Node → Prop
  | same (p n) : Alike p n n
  | elem (p i) {ks ks'} : AlikeKids p ks ks' → Alike p (.elem i ks) (.elem i ks')

/-- The same for the children of an element. -/
inductive AlikeKids : Place → List Node → List Node → Prop
  | nil (p) : AlikeKids p [] []
  | cons (p) {k k' ks ks'} : Alike (p.inner (localName k)) k k' → AlikeKids p ks ks' →
      AlikeKids p (k :: ks) (k' :: ks')
  | left (p) {k ks ks'} : p.loose = true → isNote k = true → AlikeKids p ks ks' → AlikeKids p (k :: ks) ks'
  | right (p) {k ks ks'} : p.loose = true → isNote k = true → AlikeKids p ks ks' → AlikeKids p ks (k :: ks')
end

theorem tidy_localName {p q : Place} {k k' : Node} (h : tidy p k = tidy q k') : localName k = localName k' := by
  cases k <;> cases k' <;> simp [tidy] at h <;> simp [localName]
  rw [h.1]

mutual
theorem alike_of_tidy {p : Place} {n n' : Node} (h : tidy p n = tidy p n') : Alike p n n' :=
  match n, n', h with
  | .elem i ks, .elem j ks', h => by
    simp only [tidy, Node.elem.injEq] at h
    rw [h.1]
    exact .elem _ _ (alikeKids_of_tidy h.2)
  | .text s, n', h => by
    cases n' <;> simp [tidy] at h
    rw [h]; exact .same _ _
  | .comment s, n', h => by
    cases n' <;> simp [tidy] at h
    rw [h]; exact .same _ _
  | .pi a b, n', h => by
    cases n' <;> simp [tidy] at h
    rw [h.1, h.2]; exact .same _ _
  | .elem i ks, .text s, h => by simp [tidy] at h
  | .elem i ks, .comment s, h => by simp [tidy] at h
  | .elem i ks, .pi a b, h => by simp [tidy] at h
termination_by sizeOf n + sizeOf n'

theorem alikeKids_of_tidy {p : Place} {ks ks' : List Node} (h : tidyKids p ks = tidyKids p ks') :
    AlikeKids p ks ks' :=
  match ks, ks', h with
  | [], [], _ => .nil _
  | k :: ks, ks', h => by
    by_cases hk : p.loose = true ∧ isNote k = true
    · simp only [tidyKids, hk.1, hk.2, Bool.and_self, if_true] at h
      exact .left _ hk.1 hk.2 (alikeKids_of_tidy h)
    · match ks', h with
      | [], h =>
        simp only [tidyKids] at h
        rw [if_neg (by simpa using hk)] at h
        cases h
      | k' :: ks', h =>
        by_cases hk' : p.loose = true ∧ isNote k' = true
        · rw [tidyKids.eq_2 p k' ks', hk'.1, hk'.2] at h
          exact .right _ hk'.1 hk'.2 (alikeKids_of_tidy h)
        · simp only [tidyKids] at h
          rw [if_neg (by simpa using hk), if_neg (by simpa using hk'), List.cons.injEq] at h
          have e := tidy_localName h.1
          exact .cons _ (alike_of_tidy (by rw [e] at h ⊢; exact h.1)) (alikeKids_of_tidy h.2)
  | [], k' :: ks', h => by
    by_cases hk' : p.loose = true ∧ isNote k' = true
    · simp only [tidyKids, hk'.1, hk'.2, Bool.and_self, if_true] at h
      exact .right _ hk'.1 hk'.2 (alikeKids_of_tidy h)
    · simp only [tidyKids] at h
      rw [if_neg (by simpa using hk')] at h
      cases h
termination_by sizeOf ks + sizeOf ks'
end

/-! ## The relation is kept by the removal of namespaces -/

theorem isNote_strip {full : Bool} {k : Node} (h : isNote k = true) : stripTags full k = .ok k := by
  cases k <;> simp [isNote] at h <;> rfl

theorem isNote_cleanup {m : NsMap} {k : Node} (h : isNote k = true) : cleanup m k = k := by
  cases k <;> simp [isNote] at h <;> rfl

theorem isNote_uses {p : Option Str} {b : Bool} {k : Node} (h : isNote k = true) : k.usesPfx p b = false := by
  cases k <;> simp [isNote] at h <;> rfl

/-- Two results that are alike: the same error, or related values. -/
inductive AlikePy {α : Type} (r : α → α → Prop) : Py α → Py α → Prop
  | error (e) : AlikePy r (.error e) (.error e)
  | ok {a b} : r a b → AlikePy r (.ok a) (.ok b)

theorem localName_strip {full : Bool} {k k' : Node} (h : stripTags full k = .ok k') :
    localName k' = localName k := by
  cases k with
  | text s => cases h; rfl
  | comment s => cases h; rfl
  | pi t d => simp only [stripTags] at h; split at h <;> cases h
  | elem i ks =>
    simp only [stripTags] at h
    cases hk : stripTagsList full ks with
    | error e => rw [hk] at h; cases h
    | ok ks' =>
      rw [hk] at h
      dsimp only at h
      split at h <;> cases h <;> rfl

theorem localName_cleanup {m : NsMap} {k : Node} : localName (cleanup m k) = localName k := by
  cases k <;> rfl

mutual
theorem alike_strip {full : Bool} {p : Place} {n n' : Node} (h : Alike p n n') :
    AlikePy (Alike p) (stripTags full n) (stripTags full n') :=
  match h with
  | .same _ n => by
    cases stripTags full n with
    | error e => exact .error e
    | ok a => exact .ok (.same _ _)
  | .elem _ i hk => by
    have hk := alikeKids_strip (full := full) hk
    simp only [stripTags]
    revert hk
    generalize stripTagsList full _ = a
    generalize stripTagsList full _ = b
    intro hk
    cases hk with
    | error e => exact .error e
    | ok hk =>
      dsimp only
      split
      · exact .ok (.elem _ _ hk)
      · exact .ok (.elem _ _ hk)

theorem alikeKids_strip {full : Bool} {p : Place} {ks ks' : List Node} (h : AlikeKids p ks ks') :
    AlikePy (AlikeKids p) (stripTagsList full ks) (stripTagsList full ks') :=
  match h with
  | .nil _ => .ok (.nil _)
  | .cons _ (k := k) (k' := k') hk hs => by
    have h1 := alike_strip (full := full) hk
    have h2 := alikeKids_strip (full := full) hs
    simp only [stripTagsList]
    revert h2
    generalize stripTagsList full _ = a
    generalize stripTagsList full _ = b
    intro h2
    have hn : ∀ a, stripTags full k = .ok a → localName a = localName k := fun a h => localName_strip h
    revert h1 hn
    generalize stripTags full k = c
    generalize stripTags full k' = d
    intro h1 hn
    cases h1 with
    | error e => exact .error e
    | ok h1 =>
      cases h2 with
      | error e => exact .error e
      | ok h2 => exact .ok (.cons _ (by rw [hn _ rfl]; exact h1) h2)
  | .left _ hl hc hs => by
    have h2 := alikeKids_strip (full := full) hs
    simp only [stripTagsList, isNote_strip hc]
    revert h2
    generalize stripTagsList full _ = a
    generalize stripTagsList full _ = b
    intro h2
    cases h2 with
    | error e => exact .error e
    | ok h2 => exact .ok (.left _ hl hc h2)
  | .right _ hl hc hs => by
    have h2 := alikeKids_strip (full := full) hs
    simp only [stripTagsList, isNote_strip hc]
    revert h2
    generalize stripTagsList full _ = a
    generalize stripTagsList full _ = b
    intro h2
    cases h2 with
    | error e => exact .error e
    | ok h2 => exact .ok (.right _ hl hc h2)
end

mutual
theorem alike_uses {pfx : Option Str} {b : Bool} {p : Place} {n n' : Node} (h : Alike p n n') :
    n.usesPfx pfx b = n'.usesPfx pfx b :=
  match h with
  | .same _ _ => rfl
  | .elem _ i hk => by simp only [Node.usesPfx, alikeKids_uses hk]

theorem alikeKids_uses {pfx : Option Str} {p : Place} {ks ks' : List Node} (h : AlikeKids p ks ks') :
    usesPfxList pfx ks = usesPfxList pfx ks' :=
  match h with
  | .nil _ => rfl
  | .cons _ hk hs => by simp only [usesPfxList, alike_uses hk, alikeKids_uses hs]
  | .left _ _ hc hs => by simp only [usesPfxList, isNote_uses hc, alikeKids_uses hs, Bool.false_or]
  | .right _ _ hc hs => by simp only [usesPfxList, isNote_uses hc, alikeKids_uses hs, Bool.false_or]
end

mutual
theorem alike_cleanup {m : NsMap} {p : Place} {n n' : Node} (h : Alike p n n') :
    Alike p (cleanup m n) (cleanup m n') :=
  match h with
  | .same _ _ => .same _ _
  | .elem _ i (ks := ks) (ks' := ks') hk => by
    have e : ∀ q, Node.usesPfx q false (.elem i ks) = Node.usesPfx q false (.elem i ks') :=
      fun q => alike_uses (.elem p i hk)
    simp only [cleanup, e]
    exact .elem _ _ (alikeKids_cleanup hk)

theorem alikeKids_cleanup {m : NsMap} {p : Place} {ks ks' : List Node} (h : AlikeKids p ks ks') :
    AlikeKids p (cleanupList m ks) (cleanupList m ks') :=
  match h with
  | .nil _ => .nil _
  | .cons _ hk hs => by
    simp only [cleanupList]
    exact .cons _ (by rw [localName_cleanup]; exact alike_cleanup hk) (alikeKids_cleanup hs)
  | .left _ hl hc hs => by
    simp only [cleanupList, isNote_cleanup hc]
    exact .left _ hl hc (alikeKids_cleanup hs)
  | .right _ hl hc hs => by
    simp only [cleanupList, isNote_cleanup hc]
    exact .right _ hl hc (alikeKids_cleanup hs)
end

theorem alike_nsmap {p : Place} {n n' : Node} (h : Alike p n n') : n.nsmap = n'.nsmap := by
  cases h <;> rfl

theorem alike_root {p : Place} {n n' : Node} (h : Alike p n n') :
    AlikePy (Alike p) (strippedRoot n) (strippedRoot n') := by
  unfold strippedRoot
  rw [alike_nsmap h]
  split
  · unfold stripNamespace
    have h1 := alike_strip (full := false) h
    revert h1
    generalize stripTags false n = a
    generalize stripTags false n' = b
    intro h1
    cases h1 with
    | error e => exact .error e
    | ok h1 => exact .ok (alike_cleanup h1)
  · exact .ok h

/-! ## What the parser looks at -/

theorem alike_tag {p : Place} {n n' : Node} (h : Alike p n n') : n.tag = n'.tag := by
  cases h <;> rfl

theorem alike_attr {p : Place} {n n' : Node} (h : Alike p n n') (k : Str) : n.attr? k = n'.attr? k := by
  cases h <;> rfl

theorem alike_isText {p : Place} {n n' : Node} (h : Alike p n n') : n.isText = n'.isText := by
  cases h <;> rfl

theorem alikeKids_refl (p : Place) (ks : List Node) : AlikeKids p ks ks := by
  induction ks with
  | nil => exact .nil _
  | cons k ks ih => exact .cons _ (.same _ _) ih

theorem alike_kids {p : Place} {n n' : Node} (h : Alike p n n') : AlikeKids p n.kids n'.kids := by
  cases h with
  | same => exact alikeKids_refl _ _
  | elem _ _ hk => exact hk

mutual
theorem alike_other {n n' : Node} (h : Alike .other n n') : n = n' :=
  match h with
  | .same _ _ => rfl
  | .elem _ i hk => by rw [alikeKids_other hk]

theorem alikeKids_other {ks ks' : List Node} (h : AlikeKids .other ks ks') : ks = ks' :=
  match h with
  | .nil _ => rfl
  | .cons _ hk hs => by rw [alike_other hk, alikeKids_other hs]
  | .left _ hl _ _ => by cases hl
  | .right _ hl _ _ => by cases hl
end

/-- Children that are not notes, pairwise. -/
theorem alikeKids_find {p : Place} (hp : p.loose = false) {ks ks' : List Node} (h : AlikeKids p ks ks') (t : Str) :
    (ks.find? (fun k => !k.isText && k.tag == .name t) = none ∧
      ks'.find? (fun k => !k.isText && k.tag == .name t) = none) ∨
    ∃ k k', ks.find? (fun k => !k.isText && k.tag == .name t) = some k ∧
      ks'.find? (fun k => !k.isText && k.tag == .name t) = some k' ∧ Alike (p.inner (localName k)) k k' := by
  induction ks generalizing ks' with
  | nil =>
    cases h with
    | nil => exact .inl ⟨rfl, rfl⟩
    | right _ hl => rw [hp] at hl; cases hl
  | cons k ks ih =>
    cases h with
    | left _ hl => rw [hp] at hl; cases hl
    | right _ hl => rw [hp] at hl; cases hl
    | @cons _ _ k' _ ks' hk hs =>
      have e : (!k.isText && k.tag == .name t) = (!k'.isText && k'.tag == .name t) := by
        rw [alike_isText hk, alike_tag hk]
      simp only [List.find?_cons, ← e]
      cases (!k.isText && k.tag == .name t) with
      | true => exact .inr ⟨k, k', rfl, rfl, hk⟩
      | false => exact ih hs

/-- The local name of an element found by its tag, when the tag has no namespace. -/
theorem localName_of_tag {k : Node} {t : Str} (h : k.tag = .name t) (ht : '}' ∉ t) (hne : t ≠ []) :
    localName k = t := by
  cases k with
  | text s => simp [Node.tag] at h; exact absurd h hne
  | comment s => cases h
  | pi a b => cases h
  | elem i ks =>
    simp only [Node.tag, Info.tag, Tag.name.injEq] at h
    unfold clark at h
    split at h
    · exact h
    · exfalso
      apply ht
      rw [← h]
      simp

theorem alike_find {p : Place} (hp : p.loose = false) {n n' : Node} (h : Alike p n n') (t : Str)
    (ht : '}' ∉ t) (hne : t ≠ []) :
    (n.find t = none ∧ n'.find t = none) ∨
    ∃ k k', n.find t = some k ∧ n'.find t = some k' ∧ Alike (p.inner t) k k' := by
  rcases alikeKids_find hp (alike_kids h) t with ⟨h1, h2⟩ | ⟨k, k', h1, h2, h3⟩
  · exact .inl ⟨h1, h2⟩
  · refine .inr ⟨k, k', h1, h2, ?_⟩
    have := List.find?_some h1
    simp only [Bool.and_eq_true, beq_iff_eq] at this
    rw [localName_of_tag this.2 ht hne] at h3
    exact h3

theorem alike_find_other {p : Place} (hp : p.loose = false) {n n' : Node} (h : Alike p n n') (t : Str)
    (ht : '}' ∉ t) (hne : t ≠ []) (hi : p.inner t = .other) : n.find t = n'.find t := by
  rcases alike_find hp h t ht hne with ⟨h1, h2⟩ | ⟨k, k', h1, h2, h3⟩
  · rw [h1, h2]
  · rw [hi] at h3
    rw [h1, h2, alike_other h3]


/-! ## Items -/

/-- A child without its own children. -/
def trimmed : Node → Node
  | .elem i _ => .elem i []
  | n => n

/-- The start tags of an element and its children: what the unparser needs of a source element. -/
def shellNode : Node → Node
  | .elem i ks => .elem i ((ks.filter (fun k => !k.isText)).map trimmed)
  | n => n

theorem alike_trimmed {p : Place} {n n' : Node} (h : Alike p n n') : trimmed n = trimmed n' := by
  cases h <;> rfl

theorem alikeKids_trimmed {p : Place} (hp : p.loose = false) {ks ks' : List Node} (h : AlikeKids p ks ks') :
    (ks.filter (fun k => !k.isText)).map trimmed = (ks'.filter (fun k => !k.isText)).map trimmed := by
  induction ks generalizing ks' with
  | nil =>
    cases h with
    | nil => rfl
    | right _ hl => rw [hp] at hl; cases hl
  | cons k ks ih =>
    cases h with
    | left _ hl => rw [hp] at hl; cases hl
    | right _ hl => rw [hp] at hl; cases hl
    | @cons _ _ k' _ ks' hk hs =>
      simp only [List.filter_cons, alike_isText hk]
      split
      · simp only [List.map_cons, alike_trimmed hk, ih hs]
      · exact ih hs

theorem alike_shell {p : Place} (hp : p.loose = false) {n n' : Node} (h : Alike p n n') :
    shellNode n = shellNode n' := by
  cases h with
  | same => rfl
  | elem _ i hk => simp only [shellNode, alikeKids_trimmed hp hk]

theorem childTags_shell (n : Node) : childTags (shellNode n) = childTags n := by
  cases n with
  | elem i ks =>
    simp only [childTags, shellNode, Node.children, Node.kids]
    induction ks with
    | nil => rfl
    | cons k ks ih =>
      cases k <;> simp_all [List.filter_cons, Node.isText, trimmed, Node.tag]
  | _ => rfl

/-- Containers whose items are untouched. -/
theorem alikeKids_notes {p : Place} (hi : ∀ s, p.inner s = .other) {ks ks' : List Node} (h : AlikeKids p ks ks') :
    (ks.filter (fun k => !k.isText)).filter (fun c => !isCommentNode c) =
      (ks'.filter (fun k => !k.isText)).filter (fun c => !isCommentNode c) := by
  have drop : ∀ (k : Node) (ks : List Node), isNote k = true →
      ((k :: ks).filter (fun k => !k.isText)).filter (fun c => !isCommentNode c) =
        (ks.filter (fun k => !k.isText)).filter (fun c => !isCommentNode c) := by
    intro k ks hk
    cases k <;> simp [isNote] at hk <;> simp [Node.isText, isCommentNode, Node.tag]
  match h with
  | .nil _ => rfl
  | .cons _ hk hs =>
    rw [hi] at hk
    rw [alike_other hk]
    simp only [List.filter_cons]
    have ih := alikeKids_notes hi hs
    split
    · simp only [List.filter_cons, ih]
    · exact ih
  | .left _ _ hc hs => rw [drop _ _ hc, alikeKids_notes hi hs]
  | .right _ _ hc hs => rw [drop _ _ hc, alikeKids_notes hi hs]

theorem alike_upToComments {p : Place} (hi : ∀ s, p.inner s = .other) {t : Str} (hne : t ≠ []) {x y : Node}
    (h : Alike p x y) (ht : x.tag = .name t) : SameUpToComments x y := by
  cases h with
  | elem _ i hk => exact ⟨i, _, _, rfl, rfl, alikeKids_notes hi hk⟩
  | same =>
    cases x with
    | elem i ks => exact ⟨i, ks, ks, rfl, rfl, rfl⟩
    | text s => simp [Node.tag] at ht; exact absurd ht hne
    | comment s => cases ht
    | pi a b => cases ht

theorem find_tag' {x k : Node} {t : Str} (h : x.find t = some k) : k.tag = .name t := by
  have := List.find?_some h
  simp only [Bool.and_eq_true, beq_iff_eq] at this
  exact this.2

theorem alike_container {p : Place} (hp : p.loose = false) {t : Str} (ht : '}' ∉ t) (hne : t ≠ [])
    (hi : ∀ s, (p.inner t).inner s = .other) {x y : Node} (h : Alike p x y) :
    SameUpToCommentsOpt (x.find t) (y.find t) := by
  rcases alike_find hp h t ht hne with ⟨h1, h2⟩ | ⟨k, k', h1, h2, h3⟩
  · rw [h1, h2]; trivial
  · rw [h1, h2]
    exact alike_upToComments hi hne h3 (find_tag' h1)

theorem alikeKids_filter {p : Place} (hp : p.loose = false) {t : Str} (ht : '}' ∉ t) (hne : t ≠ [])
    (hi : p.inner t = .other) {ks ks' : List Node} (h : AlikeKids p ks ks') :
    (ks.filter (fun k => !k.isText)).filter (fun k => k.tag == .name t) =
      (ks'.filter (fun k => !k.isText)).filter (fun k => k.tag == .name t) := by
  induction ks generalizing ks' with
  | nil =>
    cases h with
    | nil => rfl
    | right _ hl => rw [hp] at hl; cases hl
  | cons k ks ih =>
    cases h with
    | left _ hl => rw [hp] at hl; cases hl
    | right _ hl => rw [hp] at hl; cases hl
    | @cons _ _ k' _ ks' hk hs =>
      simp only [List.filter_cons, alike_isText hk]
      split
      · simp only [List.filter_cons, alike_tag hk]
        split
        · rename_i _ hk'
          rw [localName_of_tag (t := t) (by rw [alike_tag hk]; simpa using hk') ht hne, hi] at hk
          rw [alike_other hk, ih hs]
        · exact ih hs
      · exact ih hs

theorem alike_findLast {p : Place} (hp : p.loose = false) {t : Str} (ht : '}' ∉ t) (hne : t ≠ [])
    (hi : p.inner t = .other) {x y : Node} (h : Alike p x y) : findLast x t = findLast y t := by
  unfold findLast Node.children
  rw [alikeKids_filter hp ht hne hi (alike_kids h)]

theorem alike_butValues {p : Place} (hp : p = .object ∨ p = .specification) {x y : Node} (h : Alike p x y) :
    SameButValues x y := by
  rcases hp with rfl | rfl
  all_goals
    exact ⟨alike_tag h, alike_attr h, alike_container rfl (by decide) (by decide) (fun _ => rfl) h,
      alike_find_other rfl h _ (by decide) (by decide) rfl,
      alike_findLast rfl (by decide) (by decide) rfl h⟩

/-! ## Spec objects and specifications -/

/-- A spec object with only the start tags of its source. -/
def shellObject (o : SpecObject) : SpecObject := { o with xmlNode := o.xmlNode.map shellNode }

/-- A specification with only the start tags of its source. -/
def shellSpecification (o : Specification) : Specification := { o with xmlNode := o.xmlNode.map shellNode }

theorem parseSpecObject_source {x : Node} {o : SpecObject} (h : parseSpecObject x = .ok o) :
    o.xmlNode = some x := by
  unfold parseSpecObject at h
  obtain ⟨_, _, h⟩ := py_bind_inv h
  obtain ⟨_, _, h⟩ := py_bind_inv h
  obtain ⟨_, _, h⟩ := py_bind_inv h
  obtain ⟨_, _, h⟩ := py_bind_inv h
  obtain ⟨_, _, h⟩ := py_bind_inv h
  obtain ⟨_, _, h⟩ := py_bind_inv h
  cases h; rfl

theorem parseSpecification_source {x : Node} {o : Specification} (h : parseSpecification x = .ok o) :
    o.xmlNode = some x := by
  unfold parseSpecification at h
  obtain ⟨_, _, h⟩ := py_bind_inv h
  obtain ⟨_, _, h⟩ := py_bind_inv h
  obtain ⟨_, _, h⟩ := py_bind_inv h
  obtain ⟨_, _, h⟩ := py_bind_inv h
  obtain ⟨_, _, h⟩ := py_bind_inv h
  cases h; rfl

theorem alike_object {x y : Node} (h : Alike .object x y) :
    pyMap shellObject (parseSpecObject x) = pyMap shellObject (parseSpecObject y) := by
  have e := C60_spec_object x y (alike_butValues (.inl rfl) h)
  have sx := fun o => parseSpecObject_source (x := x) (o := o)
  have sy := fun o => parseSpecObject_source (x := y) (o := o)
  have hs := alike_shell rfl h
  revert e sx sy
  generalize parseSpecObject x = a
  generalize parseSpecObject y = b
  intro e sx sy
  cases a with
  | error _ => cases b with
    | error _ => simpa [pyMap] using e
    | ok _ => cases e
  | ok o => cases b with
    | error _ => cases e
    | ok o' =>
      have e1 : ({ o with xmlNode := none } : SpecObject) = { o' with xmlNode := none } := by
        simpa [pyMap] using e
      have hx := sx o rfl
      have hy := sy o' rfl
      show Except.ok _ = Except.ok _
      congr 1
      cases o; cases o'
      simp only [SpecObject.mk.injEq, and_true] at e1
      simp only at hx hy
      simp only [shellObject, SpecObject.mk.injEq, hx, hy, Option.map_some, hs]
      obtain ⟨a1, a2, a3, a4, a5, a6⟩ := e1
      exact ⟨a1, a2, a3, a4, a5, a6, trivial⟩

theorem alike_specification {x y : Node} (h : Alike .specification x y) :
    pyMap shellSpecification (parseSpecification x) = pyMap shellSpecification (parseSpecification y) := by
  have e := C60_specification x y (alike_butValues (.inr rfl) h)
  have sx := fun o => parseSpecification_source (x := x) (o := o)
  have sy := fun o => parseSpecification_source (x := y) (o := o)
  have hs := alike_shell rfl h
  revert e sx sy
  generalize parseSpecification x = a
  generalize parseSpecification y = b
  intro e sx sy
  cases a with
  | error _ => cases b with
    | error _ => simpa [pyMap] using e
    | ok _ => cases e
  | ok o => cases b with
    | error _ => cases e
    | ok o' =>
      have e1 : ({ o with xmlNode := none } : Specification) = { o' with xmlNode := none } := by
        simpa [pyMap] using e
      have hx := sx o rfl
      have hy := sy o' rfl
      show Except.ok _ = Except.ok _
      congr 1
      cases o; cases o'
      simp only [Specification.mk.injEq, and_true] at e1
      simp only at hx hy
      simp only [shellSpecification, Specification.mk.injEq, hx, hy, Option.map_some, hs]
      simp [e1]


/-! ## Containers -/

theorem pyMap_pyMap {α β γ : Type} (f : α → β) (g : β → γ) (a : Py α) : pyMap g (pyMap f a) = pyMap (g ∘ f) a := by
  cases a <;> rfl

theorem alikeKids_objects {ks ks' : List Node} (h : AlikeKids .objects ks ks') :
    pyMap (List.map shellObject) (filterMapPy objectItem (ks.filter (fun k => !k.isText))) =
      pyMap (List.map shellObject) (filterMapPy objectItem (ks'.filter (fun k => !k.isText))) := by
  have drop : ∀ (k : Node) (ks : List Node), isNote k = true →
      filterMapPy objectItem ((k :: ks).filter (fun k => !k.isText)) =
        filterMapPy objectItem (ks.filter (fun k => !k.isText)) := by
    intro k ks hk
    cases k with
    | text s => rfl
    | comment s =>
      rw [List.filter_cons_of_pos rfl]
      generalize ks.filter (fun k => !k.isText) = l
      have : objectItem (.comment s) = .ok none := rfl
      simp only [filterMapPy, this]
      cases filterMapPy objectItem l <;> rfl
    | elem i ks => simp [isNote] at hk
    | pi a b => simp [isNote] at hk
  match h with
  | .nil _ => rfl
  | .left _ _ hc hs => rw [drop _ _ hc, alikeKids_objects hs]
  | .right _ _ hc hs => rw [drop _ _ hc, alikeKids_objects hs]
  | .cons _ (k := k) (k' := k') hk hs =>
    have ih := alikeKids_objects hs
    have hi : Alike .object k k' := hk
    have hc : isCommentNode k = isCommentNode k' := by unfold isCommentNode; rw [alike_tag hi]
    have ho := alike_object hi
    simp only [List.filter_cons, alike_isText hi]
    split
    · simp only [filterMapPy, objectItem, hc, someItem]
      revert ih ho
      generalize filterMapPy objectItem _ = a
      generalize filterMapPy objectItem _ = b
      generalize parseSpecObject k = c
      generalize parseSpecObject k' = d
      intro ih ho
      cases isCommentNode k' with
      | true =>
        simp only [if_true]
        cases a <;> cases b <;> simp_all [pyMap]
      | false =>
        simp only [Bool.false_eq_true, if_false]
        cases c <;> cases d <;> cases a <;> cases b <;> simp_all [pyMap]
    · exact ih

theorem alikeKids_specifications {ks ks' : List Node} (h : AlikeKids .specifications ks ks') :
    pyMap (List.map shellSpecification) (mapPy parseSpecification (ks.filter (fun k => !k.isText))) =
      pyMap (List.map shellSpecification) (mapPy parseSpecification (ks'.filter (fun k => !k.isText))) := by
  match h with
  | .nil _ => rfl
  | .left _ hl _ _ => cases hl
  | .right _ hl _ _ => cases hl
  | .cons _ (k := k) (k' := k') hk hs =>
    have ih := alikeKids_specifications hs
    have hi : Alike .specification k k' := hk
    have ho := alike_specification hi
    simp only [List.filter_cons, alike_isText hi]
    split
    · simp only [mapPy]
      revert ih ho
      generalize mapPy parseSpecification _ = a
      generalize mapPy parseSpecification _ = b
      generalize parseSpecification k = c
      generalize parseSpecification k' = d
      intro ih ho
      cases c <;> cases d <;> cases a <;> cases b <;> simp_all [pyMap]
    · exact ih

theorem alike_objectItems {x y : Node} (h : Alike .content x y) :
    pyMap (Option.map (List.map shellObject)) (parsedItems x c!"SPEC-OBJECTS" (filterMapPy objectItem)) =
      pyMap (Option.map (List.map shellObject)) (parsedItems y c!"SPEC-OBJECTS" (filterMapPy objectItem)) := by
  unfold parsedItems
  rcases alike_find rfl h c!"SPEC-OBJECTS" (by decide) (by decide) with ⟨h1, h2⟩ | ⟨k, k', h1, h2, h3⟩
  · rw [h1, h2]
  · rw [h1, h2]
    have e : pyMap (List.map shellObject) (filterMapPy objectItem k.children) =
        pyMap (List.map shellObject) (filterMapPy objectItem k'.children) :=
      alikeKids_objects (alike_kids h3)
    dsimp only
    revert e
    generalize filterMapPy objectItem k.children = a
    generalize filterMapPy objectItem k'.children = b
    intro e
    cases a <;> cases b <;> simp_all [pyMap]

theorem alike_specificationItems {x y : Node} (h : Alike .content x y) :
    pyMap (Option.map (List.map shellSpecification)) (parsedItems x c!"SPECIFICATIONS" (mapPy parseSpecification)) =
      pyMap (Option.map (List.map shellSpecification))
        (parsedItems y c!"SPECIFICATIONS" (mapPy parseSpecification)) := by
  unfold parsedItems
  rcases alike_find rfl h c!"SPECIFICATIONS" (by decide) (by decide) with ⟨h1, h2⟩ | ⟨k, k', h1, h2, h3⟩
  · rw [h1, h2]
  · rw [h1, h2]
    have e : pyMap (List.map shellSpecification) (mapPy parseSpecification k.children) =
        pyMap (List.map shellSpecification) (mapPy parseSpecification k'.children) :=
      alikeKids_specifications (alike_kids h3)
    dsimp only
    revert e
    generalize mapPy parseSpecification k.children = a
    generalize mapPy parseSpecification k'.children = b
    intro e
    cases a <;> cases b <;> simp_all [pyMap]

/-! ## The content -/

/-- The result of `parseContent` in terms of the six containers. -/
def assembled (a : Py (Option (List DataType))) (b : Py (Option (List SpecType)))
    (c : Py (Option (List Specification))) (d : Py (Option (List (Except MissingTag SpecRelation))))
    (e : Py (Option (List SpecObject))) (f : Py (Option (List RelationGroup))) :
    Py (Content × Lookup × List MissingTag) := do
  let dts ← a
  let sts ← b
  let sps ← c
  let rels ← d
  let objs ← e
  let groups ← f
  return (⟨dts, sts, objs, rels.map goodRelations, sps, groups⟩,
    ⟨indexBy DataType.identifier (dts.getD []), indexBy SpecType.identifier (sts.getD []),
      indexBy SpecObject.identifier (objs.getD []),
      (goodRelations (rels.getD [])).foldl (fun d r => appendParent d r.source r.target) [], true⟩,
    relationErrors (rels.getD []))

theorem parseContent_assembled (x : Node) :
    (parseContent (none : Option (Callback Unit)) x ()).1 =
      assembled (parsedItems x c!"DATATYPES" (mapPy parseDataType))
        (parsedItems x c!"SPEC-TYPES" (filterMapPy parseSpecType))
        (parsedItems x c!"SPECIFICATIONS" (mapPy parseSpecification))
        (parsedItems x c!"SPEC-RELATIONS" (mapPy relationItem))
        (parsedItems x c!"SPEC-OBJECTS" (filterMapPy objectItem))
        (parsedItems x c!"SPEC-RELATION-GROUPS" (mapPy parseRelationGroup)) := by
  have f3 : ∀ xs, foldPy specificationStep [] xs = pyMap id (mapPy parseSpecification xs) :=
    fun xs => by rw [specifications_fold]; cases mapPy parseSpecification xs <;> rfl
  have f6 : ∀ xs, foldPy relationGroupStep [] xs = pyMap id (mapPy parseRelationGroup xs) :=
    fun xs => by rw [groups_fold]; cases mapPy parseRelationGroup xs <;> rfl
  simp only [parseContent, M.bind, parseContainer_none, containerResult_eq dataTypes_fold,
    containerResult_eq specTypes_fold, containerResult_eq f3, containerResult_eq (fun xs => relations_fold xs _),
    containerResult_eq specObjects_fold, containerResult_eq f6, assembled]
  generalize parsedItems x c!"DATATYPES" (mapPy parseDataType) = a
  generalize parsedItems x c!"SPEC-TYPES" (filterMapPy parseSpecType) = b
  generalize parsedItems x c!"SPECIFICATIONS" (mapPy parseSpecification) = c
  generalize parsedItems x c!"SPEC-RELATIONS" (mapPy relationItem) = d
  generalize parsedItems x c!"SPEC-OBJECTS" (filterMapPy objectItem) = e
  generalize parsedItems x c!"SPEC-RELATION-GROUPS" (mapPy parseRelationGroup) = f
  cases a with
  | error _ => rfl
  | ok a =>
  cases b with
  | error _ => rfl
  | ok b =>
  cases c with
  | error _ => rfl
  | ok c =>
  cases d with
  | error _ => rfl
  | ok d =>
  cases e with
  | error _ => rfl
  | ok e =>
  cases f with
  | error _ => rfl
  | ok f =>
    show Except.ok _ = Except.ok _
    congr 1
    cases a <;> cases b <;> cases c <;> cases d <;> cases e <;> cases f <;> rfl

theorem set_map {κ α β : Type} [DecidableEq κ] (g : α → β) (d : Dict κ α) (k : κ) (v : α) :
    (Dict.set d k v).map (fun e => (e.1, g e.2)) = Dict.set (d.map (fun e => (e.1, g e.2))) k (g v) := by
  induction d with
  | nil => rfl
  | cons e d ih =>
    obtain ⟨k', v'⟩ := e
    simp only [Dict.set, List.map_cons]
    by_cases h : k' = k
    · simp only [if_pos h, List.map_cons]
    · simp only [if_neg h, List.map_cons, ih]

theorem indexBy_map {κ α : Type} [DecidableEq κ] (key : α → κ) (g : α → α) (hg : ∀ a, key (g a) = key a)
    (l : List α) : (indexBy key l).map (fun e => (e.1, g e.2)) = indexBy key (l.map g) := by
  unfold indexBy
  have : ∀ d : Dict κ α, (l.foldl (fun d x => Dict.set d (key x) x) d).map (fun e => (e.1, g e.2)) =
      (l.map g).foldl (fun d x => Dict.set d (key x) x) (d.map (fun e => (e.1, g e.2))) := by
    induction l with
    | nil => intro d; rfl
    | cons a l ih =>
      intro d
      simp only [List.foldl_cons, List.map_cons, hg]
      rw [ih, set_map]
  exact this []

/-- A content with only the start tags of the sources. -/
def shellContent (c : Content) : Content :=
  { c with specObjects := c.specObjects.map (List.map shellObject),
           specifications := c.specifications.map (List.map shellSpecification) }

/-- A lookup with only the start tags of the sources. -/
def shellLookup (l : Lookup) : Lookup :=
  { l with specObjects := l.specObjects.map fun e => (e.1, shellObject e.2) }

/-- A bundle with only the start tags of the sources. -/
def shellBundle (b : Bundle) : Bundle :=
  { b with coreContent := b.coreContent.map (Option.map shellContent), lookup := shellLookup b.lookup }

theorem assembled_shell (a : Py (Option (List DataType))) (b : Py (Option (List SpecType)))
    {c c' : Py (Option (List Specification))} (d : Py (Option (List (Except MissingTag SpecRelation))))
    {e e' : Py (Option (List SpecObject))} (f : Py (Option (List RelationGroup)))
    (hc : pyMap (Option.map (List.map shellSpecification)) c = pyMap (Option.map (List.map shellSpecification)) c')
    (he : pyMap (Option.map (List.map shellObject)) e = pyMap (Option.map (List.map shellObject)) e') :
    pyMap (fun r => (shellContent r.1, shellLookup r.2.1, r.2.2)) (assembled a b c d e f) =
      pyMap (fun r => (shellContent r.1, shellLookup r.2.1, r.2.2)) (assembled a b c' d e' f) := by
  cases a with
  | error _ => rfl
  | ok a =>
  cases b with
  | error _ => rfl
  | ok b =>
  cases c with
  | error _ => cases c' with
    | error _ => cases hc; rfl
    | ok _ => cases hc
  | ok c =>
  cases c' with
  | error _ => cases hc
  | ok c' =>
  cases d with
  | error _ => rfl
  | ok d =>
  cases e with
  | error _ => cases e' with
    | error _ => cases he; rfl
    | ok _ => cases he
  | ok e =>
  cases e' with
  | error _ => cases he
  | ok e' =>
  cases f with
  | error _ => rfl
  | ok f =>
    simp only [pyMap, Except.ok.injEq] at hc he
    simp only [assembled, py_bind_ok, py_pure, pyMap, shellContent, shellLookup, hc, he,
      indexBy_map SpecObject.identifier shellObject (fun _ => rfl)]
    have : (e.getD []).map shellObject = (e'.getD []).map shellObject := by
      cases e <;> cases e' <;> simp_all
    rw [this]

theorem alike_content {x y : Node} (h : Alike .content x y) :
    pyMap (fun r => (shellContent r.1, shellLookup r.2.1, r.2.2))
        (parseContent (none : Option (Callback Unit)) x ()).1 =
      pyMap (fun r => (shellContent r.1, shellLookup r.2.1, r.2.2))
        (parseContent (none : Option (Callback Unit)) y ()).1 := by
  have other : ∀ {β : Type} (tag : Str) (f : List Node → Py β), '}' ∉ tag → tag ≠ [] →
      Place.content.inner tag = .other → parsedItems x tag f = parsedItems y tag f := by
    intro β tag f h1 h2 h3
    unfold parsedItems
    rw [alike_find_other rfl h tag h1 h2 h3]
  rw [parseContent_assembled, parseContent_assembled,
    other _ _ (by decide) (by decide) rfl,
    parsedItems_comments (fun _ => parseSpecType_comment)
      (alike_container rfl (by decide) (by decide) (fun _ => rfl) h),
    other c!"SPEC-RELATIONS" _ (by decide) (by decide) rfl,
    other c!"SPEC-RELATION-GROUPS" _ (by decide) (by decide) rfl]
  exact assembled_shell _ _ _ _ (alike_specificationItems h) (alike_objectItems h)


/-! ## The document -/

theorem parseCore_state (root : Node) :
    parseCore (none : Option (Callback Unit)) root () = ((parseCore (none : Option (Callback Unit)) root ()).1, ()) :=
  rfl

theorem alike_core {x y : Node} (h : Alike .root x y) :
    pyMap (fun r : Option (Option Content) × Lookup × List MissingTag =>
        (r.1.map (Option.map shellContent), shellLookup r.2.1, r.2.2))
        (parseCore (none : Option (Callback Unit)) x ()).1 =
      pyMap (fun r => (r.1.map (Option.map shellContent), shellLookup r.2.1, r.2.2))
        (parseCore (none : Option (Callback Unit)) y ()).1 := by
  unfold parseCore
  rcases alike_find rfl h c!"CORE-CONTENT" (by decide) (by decide) with ⟨h1, h2⟩ | ⟨k, k', h1, h2, h3⟩
  · rw [h1, h2]
  · rw [h1, h2]
    dsimp only
    rcases alike_find rfl h3 c!"REQ-IF-CONTENT" (by decide) (by decide) with ⟨g1, g2⟩ | ⟨c, c', g1, g2, g3⟩
    · rw [g1, g2]
    · rw [g1, g2]
      have e := alike_content g3
      simp only [M.bind, M.pure]
      revert e
      generalize parseContent (none : Option (Callback Unit)) c () = a
      generalize parseContent (none : Option (Callback Unit)) c' () = b
      intro e
      obtain ⟨a, _⟩ := a
      obtain ⟨b, _⟩ := b
      cases a <;> cases b <;> simp_all [pyMap]

theorem alikeKids_len {p : Place} (hp : p.loose = false) {ks ks' : List Node} (h : AlikeKids p ks ks') :
    (ks.filter (fun k => !k.isText)).length = (ks'.filter (fun k => !k.isText)).length := by
  have := congrArg List.length (alikeKids_trimmed hp h)
  simpa using this

theorem alike_document {d d' : Doc} (hd : d.decl = d'.decl) (h : Alike .root d.root d'.root) :
    pyMap shellBundle (parseReqif (none : Option (Callback Unit)) d ()).1 =
      pyMap shellBundle (parseReqif (none : Option (Callback Unit)) d' ()).1 := by
  have hm := alike_nsmap h
  have hs := alike_root h
  have hdump : tagDumpOf d.root = tagDumpOf d'.root := by
    revert h
    generalize d.root = a
    generalize d'.root = b
    intro h
    cases h <;> rfl
  unfold parseReqif
  simp only [M.bind, M.lift]
  revert hs
  generalize strippedRoot d.root = a
  generalize strippedRoot d'.root = b
  intro hs
  cases hs with
  | error e => rfl
  | @ok r r' hr =>
    dsimp only
    have ht := alike_tag hr
    have hl : r.len = r'.len := alikeKids_len rfl (alike_kids hr)
    have hn : namespaceInfoOf d r = namespaceInfoOf d' r' := by
      unfold namespaceInfoOf
      simp only [hm, hd, hdump, alike_attr hr]
    have hh := alike_find_other rfl hr c!"THE-HEADER" (by decide) (by decide) rfl
    have hte := alike_find_other rfl hr c!"TOOL-EXTENSIONS" (by decide) (by decide) rfl
    have hc := alike_core hr
    rw [ht, hl, hh, hte, hn, hm]
    split
    · split
      · rfl
      · cases optPy parseHeader (r'.find c!"THE-HEADER") with
        | error e => rfl
        | ok hdr =>
          simp only [M.bind, M.pure]
          rw [parseCore_state r, parseCore_state r']
          revert hc
          generalize (parseCore (none : Option (Callback Unit)) r ()).1 = a
          generalize (parseCore (none : Option (Callback Unit)) r' ()).1 = b
          intro hc
          cases a <;> cases b <;> simp_all [pyMap, shellBundle]
    · rfl

theorem readDoc_nonempty {s : Str} {d : Doc} (h : readDoc s = some d) : s.length ≠ 0 := by
  intro h0
  have : s = [] := List.length_eq_zero_iff.1 h0
  subst this
  revert h
  exact fun h => by cases h

theorem parseString_ofDoc {s : Str} {d : Doc} (h : readDoc s = some d) :
    parseString s = (parseReqif (none : Option (Callback Unit)) d ()).1 := by
  unfold parseString parseFromString
  rw [if_neg (readDoc_nonempty h), h]

/-! ## The output -/

theorem childTags_shellObject (o : SpecObject) : specObjectChildTags (shellObject o) = specObjectChildTags o := by
  unfold specObjectChildTags shellObject
  cases o.xmlNode with
  | none => rfl
  | some n => simp only [Option.map_some, childTags_shell]

theorem unparse_shellObject (o : SpecObject) : unparseSpecObject (shellObject o) = unparseSpecObject o := by
  unfold unparseSpecObject
  rw [childTags_shellObject]
  rfl

theorem unparse_shellSpecification (o : Specification) :
    unparseSpecification (shellSpecification o) = unparseSpecification o := by
  have e : specificationChildTags (shellSpecification o) = specificationChildTags o := by
    unfold specificationChildTags shellSpecification
    cases o.xmlNode with
    | none => rfl
    | some n => simp only [Option.map_some, childTags_shell]
  unfold unparseSpecification
  rw [e]
  rfl

theorem trackedGo_map {σ α : Type} (progress : Option (Callback σ)) (sec : Str) (total : Nat) (f : α → Py Str)
    (g : α → α) (hg : ∀ a, f (g a) = f a) (xs : List α) (k : Nat) (b : Str) :
    trackedGo progress sec total (printStep f) k b (xs.map g) = trackedGo progress sec total (printStep f) k b xs := by
  induction xs generalizing k b with
  | nil => rfl
  | cons x xs ih =>
    simp only [List.map_cons, trackedGo, ih]
    have : printStep f b (g x) = printStep f b x := by unfold printStep; rw [hg]
    rw [this]

theorem unparseContainer_map {σ α : Type} (progress : Option (Callback σ)) (tag : Str) (f : α → Py Str)
    (g : α → α) (hg : ∀ a, f (g a) = f a) (items : Option (List α)) :
    unparseContainer progress tag f (items.map (List.map g)) = unparseContainer progress tag f items := by
  cases items with
  | none => rfl
  | some xs =>
    simp only [unparseContainer, Option.map_some, trackedLoop, List.length_map, trackedGo_map _ _ _ _ _ hg]

/-- The output does not depend on more of the sources than their start tags. -/
theorem unparse_shell (b : Bundle) : unparse (shellBundle b) = unparse b := by
  have hc : unparseCore (none : Option (Callback Unit)) (shellBundle b).coreContent =
      unparseCore (none : Option (Callback Unit)) b.coreContent := by
    unfold shellBundle
    match b.coreContent with
    | none => rfl
    | some none => rfl
    | some (some c) =>
      simp only [Option.map_some, unparseCore, unparseContent, shellContent,
        unparseContainer_map _ _ _ _ unparse_shellObject, unparseContainer_map _ _ _ _ unparse_shellSpecification]
  unfold unparse unparseM
  rw [hc]
  rfl

theorem withoutSources_shell (b : Bundle) : withoutSources (shellBundle b) = withoutSources b := by
  obtain ⟨n, h, c, t, l, e⟩ := b
  simp only [withoutSources, shellBundle, Bundle.mk.injEq, true_and, and_true]
  refine ⟨?_, ?_⟩
  · match c with
    | none => rfl
    | some none => rfl
    | some (some c) =>
      simp only [Option.map_some, shellContent, Option.map_map]
      congr 2
      · congr 1
        · cases c.specObjects with
          | none => rfl
          | some xs => simp [shellObject, Function.comp_def]
        · cases c.specifications with
          | none => rfl
          | some xs => simp [shellSpecification, Function.comp_def]
  · simp [shellLookup, shellObject, Function.comp_def]

end ReqIF
