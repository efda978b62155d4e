import Verif.Spec.Items
import Verif.Proofs.Harmless
/-! # Documents put together -/
namespace ReqIF.Items
open ReqIF Spec

/-! ## Outcomes -/

section
variable {α β γ : Type}

theorem Both.common {j : α → α → α} (r : Py γ) {g g' h : γ → Py α} (H : ∀ v, Both j (g v) (g' v) (h v)) :
    Both j (r >>= g) (r >>= g') (r >>= h) := by
  cases r with
  | error e => exact .inl rfl
  | ok v => exact H v

theorem Both.part {j : α → α → α} {k : γ → γ → γ} {r r' s : Py γ} (H : Both k r r' s) {g : γ → Py α}
    (hg : ∀ a b, Both j (g a) (g b) (g (k a b))) : Both j (r >>= g) (r' >>= g) (s >>= g) := by
  cases s with
  | error e =>
    rcases H with h | h
    · rw [h]; exact .inl rfl
    · rw [h]; exact .inr rfl
  | ok v =>
    obtain ⟨a, b, h1, h2, h3⟩ := H
    rw [h1, h2, h3]
    exact hg a b

theorem Both.done {j : α → α → α} {a b v : α} (h : v = j a b) : Both j (.ok a) (.ok b) (.ok v) := ⟨a, b, rfl, rfl, h⟩

theorem Both.fail {j : α → α → α} (e : PyErr) : Both j (.error e) (.error e) (.error e) := .inl rfl

theorem both_map (f : γ → Py α) (xs ys : List γ) : Both (· ++ ·) (mapPy f xs) (mapPy f ys) (mapPy f (xs ++ ys)) := by
  induction xs with
  | nil =>
    show Both _ _ _ (mapPy f ys)
    cases h : mapPy f ys with
    | error e => exact .inr rfl
    | ok vs => exact ⟨[], vs, rfl, rfl, rfl⟩
  | cons x xs ih =>
    simp only [List.cons_append, mapPy]
    cases f x with
    | error e => exact .inl rfl
    | ok v =>
      dsimp only
      cases hs : mapPy f (xs ++ ys) with
      | error e =>
        rw [hs] at ih
        rcases ih with h | h
        · rw [h]; exact .inl rfl
        · rw [h]; exact .inr rfl
      | ok vs =>
        rw [hs] at ih
        obtain ⟨a, b, h1, h2, h3⟩ := ih
        rw [h1, h2, h3]
        exact ⟨_, _, rfl, rfl, rfl⟩

theorem both_filterMap (f : γ → Py (Option α)) (xs ys : List γ) :
    Both (· ++ ·) (filterMapPy f xs) (filterMapPy f ys) (filterMapPy f (xs ++ ys)) := by
  induction xs with
  | nil =>
    show Both _ _ _ (filterMapPy f ys)
    cases h : filterMapPy f ys with
    | error e => exact .inr rfl
    | ok vs => exact ⟨[], vs, rfl, rfl, rfl⟩
  | cons x xs ih =>
    simp only [List.cons_append, filterMapPy]
    cases f x with
    | error e => exact .inl rfl
    | ok v =>
      dsimp only
      cases hs : filterMapPy f (xs ++ ys) with
      | error e =>
        rw [hs] at ih
        rcases ih with h | h
        · rw [h]; exact .inl rfl
        · rw [h]; exact .inr rfl
      | ok vs =>
        rw [hs] at ih
        obtain ⟨a, b, h1, h2, h3⟩ := ih
        rw [h1, h2, h3]
        refine ⟨_, _, rfl, rfl, ?_⟩
        cases v <;> rfl
end

/-! ## Trees -/

variable {Q Q' : List Node → List Node → Prop}

theorem Along.elems {ts : List Str} {a b c : Node} (h : Along Q ts a b c) :
    ∃ i as bs cs, a = .elem i as ∧ b = .elem i bs ∧ c = .elem i cs := by
  cases ts with
  | nil => obtain ⟨i, xs, ys, h1, h2, h3, -⟩ := h; exact ⟨i, _, _, _, h1, h2, h3⟩
  | cons t ts => obtain ⟨i, as, bs, cs, h1, h2, h3, -⟩ := h; exact ⟨i, _, _, _, h1, h2, h3⟩

theorem Beside.imp {t : Str} {S S' : Node → Node → Node → Prop} {as bs cs : List Node} (h : Beside t S as bs cs)
    (H : ∀ a b c, S a b c → S' a b c) : Beside t S' as bs cs := by
  induction h with
  | nil => exact .nil
  | same hk _ ih => exact .same hk ih
  | part ha hs _ ih => exact .part ha (H _ _ _ hs) ih

theorem Along.imp {ts : List Str} (H : ∀ xs ys, Q xs ys → Q' xs ys) : ∀ {a b c : Node}, Along Q ts a b c → Along Q' ts a b c := by
  induction ts with
  | nil => rintro a b c ⟨i, xs, ys, h1, h2, h3, h4⟩; exact ⟨i, xs, ys, h1, h2, h3, H _ _ h4⟩
  | cons t ts ih =>
    rintro a b c ⟨i, as, bs, cs, h1, h2, h3, h4⟩
    exact ⟨i, as, bs, cs, h1, h2, h3, h4.imp fun _ _ _ => ih⟩

/-! ## Namespaces -/

/-- The lists use the same declarations (as `cleanup` sees it). -/
def SameUse (xs ys : List Node) : Prop := ∀ p, usesPfxList p xs = usesPfxList p ys

theorem uses_append (p : Option Str) (xs ys : List Node) : usesPfxList p (xs ++ ys) = (usesPfxList p xs || usesPfxList p ys) := by
  induction xs with
  | nil => rfl
  | cons x xs ih => simp only [List.cons_append, usesPfxList, ih, Bool.or_assoc]

mutual
theorem strip_uses (p : Option Str) (n n' : Node) (h : stripTags false n = .ok n') : n'.usesPfx p true = needs p n :=
  match n with
  | .elem i ks => by
    simp only [stripTags] at h
    cases hs : stripTagsList false ks with
    | error e => rw [hs] at h; cases h
    | ok ks' =>
      rw [hs] at h
      dsimp only at h
      have ih := strip_usesList p ks ks' hs
      by_cases hx : containsStr xhtmlNs i.tag = true
      · simp only [hx, Bool.not_false, Bool.and_self, if_true] at h
        cases h
        simp only [Node.usesPfx, needs, inXhtml, hx, ih, Bool.true_and, Info.usesPfx]
      · simp only [Bool.not_eq_true] at hx
        simp only [hx, Bool.and_false, Bool.false_eq_true, if_false] at h
        cases h
        simp only [Node.usesPfx, needs, inXhtml, hx, ih, Bool.true_and, Info.usesPfx, Bool.false_and, Option.isSome_none, Bool.false_or]
        rfl
  | .text s => by cases h; rfl
  | .comment s => by cases h; rfl
  | .pi a b => by cases h

theorem strip_usesList (p : Option Str) (ns ns' : List Node) (h : stripTagsList false ns = .ok ns') : usesPfxList p ns' = needsAny p ns :=
  match ns with
  | [] => by cases h; rfl
  | n :: ns => by
    simp only [stripTagsList] at h
    cases h1 : stripTags false n with
    | error e => rw [h1] at h; cases h
    | ok n' =>
      rw [h1] at h
      dsimp only at h
      cases h2 : stripTagsList false ns with
      | error e => rw [h2] at h; cases h
      | ok ks' =>
        rw [h2] at h
        cases h
        simp only [usesPfxList, needsAny, strip_uses p n n' h1, strip_usesList p ns ks' h2]
end

mutual
theorem strip_error (n : Node) (e : PyErr) (h : stripTags false n = .error e) : e = .typeError :=
  match n with
  | .elem i ks => by
    simp only [stripTags] at h
    cases hs : stripTagsList false ks with
    | error e' => rw [hs] at h; cases h; exact strip_errorList ks _ hs
    | ok ks' => rw [hs] at h; dsimp only at h; split at h <;> cases h
  | .text s => by cases h
  | .comment s => by cases h
  | .pi a b => by cases h; rfl

theorem strip_errorList (ns : List Node) (e : PyErr) (h : stripTagsList false ns = .error e) : e = .typeError :=
  match ns with
  | [] => by cases h
  | n :: ns => by
    simp only [stripTagsList] at h
    cases h1 : stripTags false n with
    | error e' => rw [h1] at h; cases h; exact strip_error n _ h1
    | ok n' =>
      rw [h1] at h
      dsimp only at h
      cases h2 : stripTagsList false ns with
      | error e' => rw [h2] at h; cases h; exact strip_errorList ns _ h2
      | ok ks' => rw [h2] at h; cases h
end

theorem strip_append (xs ys : List Node) : Both (· ++ ·) (stripTagsList false xs) (stripTagsList false ys) (stripTagsList false (xs ++ ys)) := by
  induction xs with
  | nil =>
    show Both _ _ _ (stripTagsList false ys)
    cases h : stripTagsList false ys with
    | error e => exact .inr rfl
    | ok vs => exact ⟨[], vs, rfl, rfl, rfl⟩
  | cons x xs ih =>
    simp only [List.cons_append, stripTagsList]
    cases stripTags false x with
    | error e => exact .inl rfl
    | ok v =>
      dsimp only
      cases hs : stripTagsList false (xs ++ ys) with
      | error e =>
        rw [hs] at ih
        rcases ih with h | h
        · rw [h]; exact .inl rfl
        · rw [h]; exact .inr rfl
      | ok vs =>
        rw [hs] at ih
        obtain ⟨a, b, h1, h2, h3⟩ := ih
        rw [h1, h2, h3]
        exact ⟨_, _, rfl, rfl, rfl⟩

/-- Three outcomes: all are results, in the relation, or the third and one of the others are the same exception. -/
def Three {α : Type} (S : α → α → α → Prop) (r r' s : Py α) : Prop :=
  (∃ a b c, r = .ok a ∧ r' = .ok b ∧ s = .ok c ∧ S a b c) ∨ ∃ e, s = .error e ∧ (r = .error e ∨ r' = .error e)

theorem stripElem {i : Info} {ks : List Node} : stripTags false (.elem i ks) =
    pyMap (fun ks' => if containsStr xhtmlNs i.tag = true then .elem i ks' else .elem { i with ns := none, pfx := none } ks') (stripTagsList false ks) := by
  simp only [stripTags]
  cases stripTagsList false ks with
  | error e => rfl
  | ok ks' =>
    simp only [pyMap, Bool.not_false, Bool.true_and]
    split <;> rfl

theorem strip_beside {t : Str} {S S' : Node → Node → Node → Prop} {as bs cs : List Node} (h : Beside t S as bs cs)
    (H : ∀ a b c, S a b c → Three S' (stripTags false a) (stripTags false b) (stripTags false c)) :
    Three (Beside t S') (stripTagsList false as) (stripTagsList false bs) (stripTagsList false cs) := by
  induction h with
  | nil => exact .inl ⟨[], [], [], rfl, rfl, rfl, .nil⟩
  | same hk _ ih =>
    simp only [stripTagsList]
    rename_i k as bs cs _
    cases hs : stripTags false k with
    | error e => exact .inr ⟨e, rfl, .inl rfl⟩
    | ok k' =>
      rcases ih with ⟨a, b, c, h1, h2, h3, h4⟩ | ⟨e, h1, h2 | h2⟩
      · rw [h1, h2, h3]
        exact .inl ⟨_, _, _, rfl, rfl, rfl, .same (by rw [localName_strip hs]; exact hk) h4⟩
      · rw [h1, h2]; exact .inr ⟨e, rfl, .inl rfl⟩
      · rw [h1, h2]; exact .inr ⟨e, rfl, .inr rfl⟩
  | part ha hs _ ih =>
    simp only [stripTagsList]
    rcases H _ _ _ hs with ⟨a, b, c, g1, g2, g3, g4⟩ | ⟨e, g1, g2 | g2⟩
    · rw [g1, g2, g3]
      dsimp only
      rcases ih with ⟨a, b, c, h1, h2, h3, h4⟩ | ⟨e, h1, h2 | h2⟩
      · rw [h1, h2, h3]
        exact .inl ⟨_, _, _, rfl, rfl, rfl, .part (by rw [localName_strip g1]; exact ha) g4 h4⟩
      · rw [h1, h2]; exact .inr ⟨e, rfl, .inl rfl⟩
      · rw [h1, h2]; exact .inr ⟨e, rfl, .inr rfl⟩
    · rw [g1, g2]; exact .inr ⟨e, rfl, .inl rfl⟩
    · rw [g1, g2]
      dsimp only
      refine .inr ⟨e, rfl, .inr rfl⟩

theorem strip_along {ts : List Str} : ∀ {a b c : Node}, Along SameNeeds ts a b c →
    Three (Along SameUse ts) (stripTags false a) (stripTags false b) (stripTags false c) := by
  induction ts with
  | nil =>
    rintro a b c ⟨i, xs, ys, rfl, rfl, rfl, hq⟩
    simp only [stripElem]
    have h := strip_append xs ys
    cases hs : stripTagsList false (xs ++ ys) with
    | error e =>
      rw [hs] at h
      rcases h with h | h
      · rw [h]; exact .inr ⟨e, rfl, .inl rfl⟩
      · rw [h]; exact .inr ⟨e, rfl, .inr rfl⟩
    | ok vs =>
      rw [hs] at h
      obtain ⟨xs', ys', h1, h2, h3⟩ := h
      rw [h1, h2, h3]
      refine .inl ⟨_, _, _, rfl, rfl, rfl, ?_⟩
      have hu : SameUse xs' ys' := fun p => by rw [strip_usesList p xs xs' h1, strip_usesList p ys ys' h2]; exact hq p
      by_cases hx : containsStr xhtmlNs i.tag = true
      · simp only [hx, if_true]; exact ⟨i, xs', ys', rfl, rfl, rfl, hu⟩
      · simp only [hx, if_false, Bool.false_eq_true]; exact ⟨_, xs', ys', rfl, rfl, rfl, hu⟩
  | cons t ts ih =>
    rintro a b c ⟨i, as, bs, cs, rfl, rfl, rfl, hb⟩
    simp only [stripElem]
    rcases strip_beside hb (fun _ _ _ => ih) with ⟨a, b, c, h1, h2, h3, h4⟩ | ⟨e, h1, h2 | h2⟩
    · rw [h1, h2, h3]
      refine .inl ⟨_, _, _, rfl, rfl, rfl, ?_⟩
      by_cases hx : containsStr xhtmlNs i.tag = true
      · simp only [hx, if_true]; exact ⟨i, a, b, c, rfl, rfl, rfl, h4⟩
      · simp only [hx, if_false, Bool.false_eq_true]; exact ⟨_, a, b, c, rfl, rfl, rfl, h4⟩
    · rw [h1, h2]; exact .inr ⟨e, rfl, .inl rfl⟩
    · rw [h1, h2]; exact .inr ⟨e, rfl, .inr rfl⟩

theorem uses_beside {t : Str} {S : Node → Node → Node → Prop} {as bs cs : List Node} (h : Beside t S as bs cs) (p : Option Str)
    (H : ∀ a b c, S a b c → b.usesPfx p true = a.usesPfx p true ∧ c.usesPfx p true = a.usesPfx p true) :
    usesPfxList p bs = usesPfxList p as ∧ usesPfxList p cs = usesPfxList p as := by
  induction h with
  | nil => exact ⟨rfl, rfl⟩
  | same hk _ ih => simp only [usesPfxList, ih.1, ih.2]; exact ⟨trivial, trivial⟩
  | part ha hs _ ih => simp only [usesPfxList, ih.1, ih.2, (H _ _ _ hs).1, (H _ _ _ hs).2]; exact ⟨trivial, trivial⟩

theorem uses_along {ts : List Str} (p : Option Str) : ∀ {a b c : Node}, Along SameUse ts a b c → ∀ f,
    b.usesPfx p f = a.usesPfx p f ∧ c.usesPfx p f = a.usesPfx p f := by
  induction ts with
  | nil =>
    rintro a b c ⟨i, xs, ys, rfl, rfl, rfl, hq⟩ f
    simp only [Node.usesPfx, uses_append, ← hq p, Bool.or_self]
    exact ⟨trivial, trivial⟩
  | cons t ts ih =>
    rintro a b c ⟨i, as, bs, cs, rfl, rfl, rfl, hb⟩ f
    have := uses_beside hb p (fun _ _ _ h => ih h true)
    simp only [Node.usesPfx, this.1, this.2]
    exact ⟨trivial, trivial⟩

theorem cleanup_append (m : NsMap) (xs ys : List Node) : cleanupList m (xs ++ ys) = cleanupList m xs ++ cleanupList m ys := by
  induction xs with
  | nil => rfl
  | cons x xs ih => simp only [List.cons_append, cleanupList, ih]

theorem cleanup_beside {t : Str} {S S' : Node → Node → Node → Prop} {as bs cs : List Node} (h : Beside t S as bs cs) (m : NsMap)
    (H : ∀ a b c, S a b c → S' (cleanup m a) (cleanup m b) (cleanup m c)) :
    Beside t S' (cleanupList m as) (cleanupList m bs) (cleanupList m cs) := by
  induction h with
  | nil => exact .nil
  | same hk _ ih => exact .same (by rw [localName_cleanup]; exact hk) ih
  | part ha hs _ ih => exact .part (by rw [localName_cleanup]; exact ha) (H _ _ _ hs) ih

theorem cleanup_along {ts : List Str} : ∀ {m : NsMap} {a b c : Node}, Along SameUse ts a b c →
    Along (fun _ _ => True) ts (cleanup m a) (cleanup m b) (cleanup m c) := by
  induction ts with
  | nil =>
    intro m a b c h
    have hu := fun p => uses_along p h false
    obtain ⟨i, xs, ys, rfl, rfl, rfl, hq⟩ := h
    simp only [cleanup, (hu _).1, (hu _).2, cleanup_append]
    exact ⟨_, _, _, rfl, rfl, rfl, trivial⟩
  | cons t ts ih =>
    intro m a b c h
    have hu := fun p => uses_along p h false
    obtain ⟨i, as, bs, cs, rfl, rfl, rfl, hb⟩ := h
    simp only [cleanup, (hu _).1, (hu _).2]
    exact ⟨_, _, _, _, rfl, rfl, rfl, cleanup_beside hb _ fun _ _ _ => ih⟩

theorem root_along {ts : List Str} {a b c : Node} (h : Along SameNeeds ts a b c) :
    Three (Along (fun _ _ => True) ts) (strippedRoot a) (strippedRoot b) (strippedRoot c) := by
  have hm : b.nsmap = a.nsmap ∧ c.nsmap = a.nsmap := by
    obtain ⟨i, as, bs, cs, rfl, rfl, rfl⟩ := h.elems
    exact ⟨rfl, rfl⟩
  unfold strippedRoot
  rw [hm.1, hm.2]
  cases a.nsmap.get? none with
  | none => exact .inl ⟨a, b, c, rfl, rfl, rfl, h.imp fun _ _ _ => trivial⟩
  | some u =>
    dsimp only [stripNamespace]
    rcases strip_along h with ⟨a, b, c, h1, h2, h3, h4⟩ | ⟨e, h1, h2 | h2⟩
    · rw [h1, h2, h3]
      exact .inl ⟨_, _, _, rfl, rfl, rfl, cleanup_along h4⟩
    · rw [h1, h2]; exact .inr ⟨e, rfl, .inl rfl⟩
    · rw [h1, h2]; exact .inr ⟨e, rfl, .inr rfl⟩

/-! ## Finding -/

/-- The relation of related elements, with the tags. -/
theorem Along.tag {ts : List Str} {a b c : Node} (h : Along Q ts a b c) : b.tag = a.tag ∧ c.tag = a.tag := by
  obtain ⟨i, as, bs, cs, rfl, rfl, rfl⟩ := h.elems
  exact ⟨rfl, rfl⟩

theorem Along.isText {ts : List Str} {a b c : Node} (h : Along Q ts a b c) : a.isText = false ∧ b.isText = false ∧ c.isText = false := by
  obtain ⟨i, as, bs, cs, rfl, rfl, rfl⟩ := h.elems
  exact ⟨rfl, rfl, rfl⟩

theorem beside_other {ts : List Str} {t t' : Str} {as bs cs : List Node} (h : Beside t (Along Q ts) as bs cs) (hp : plainTag t' = true) (hn : t' ≠ t) :
    bs.find? (fun k => !k.isText && k.tag == .name t') = as.find? (fun k => !k.isText && k.tag == .name t') ∧
    cs.find? (fun k => !k.isText && k.tag == .name t') = as.find? (fun k => !k.isText && k.tag == .name t') := by
  induction h with
  | nil => exact ⟨rfl, rfl⟩
  | same hk _ ih => simp only [List.find?_cons, ih.1, ih.2]; exact ⟨trivial, trivial⟩
  | part ha hs _ ih =>
    rename_i a b c _ _ _ _
    have h0 : (a.tag == .name t') = false := by
      cases he : a.tag == .name t' with
      | false => rfl
      | true => exact absurd ((localName_of_plain (by simpa using he) hp).symm.trans ha) hn
    simp only [List.find?_cons, hs.tag.1, hs.tag.2, h0, Bool.and_false, ih.1, ih.2]
    exact ⟨trivial, trivial⟩

theorem beside_own {ts : List Str} {t : Str} {as bs cs : List Node} (h : Beside t (Along Q ts) as bs cs) (hp : plainTag t = true) :
    (as.find? (fun k => !k.isText && k.tag == .name t) = none ∧ bs.find? (fun k => !k.isText && k.tag == .name t) = none ∧
      cs.find? (fun k => !k.isText && k.tag == .name t) = none) ∨
    ∃ a b c, as.find? (fun k => !k.isText && k.tag == .name t) = some a ∧ bs.find? (fun k => !k.isText && k.tag == .name t) = some b ∧
      cs.find? (fun k => !k.isText && k.tag == .name t) = some c ∧ Along Q ts a b c := by
  induction h with
  | nil => exact .inl ⟨rfl, rfl, rfl⟩
  | same hk _ ih =>
    rename_i k _ _ _ _
    have h0 : (k.tag == .name t) = false := by
      cases he : k.tag == .name t with
      | false => rfl
      | true => exact absurd (localName_of_plain (by simpa using he) hp) hk
    simpa only [List.find?_cons, h0, Bool.and_false] using ih
  | part ha hs _ ih =>
    rename_i a b c _ _ _ _
    simp only [List.find?_cons, hs.tag.1, hs.tag.2, hs.isText.1, hs.isText.2.1, hs.isText.2.2, Bool.not_false, Bool.true_and]
    cases he : a.tag == .name t with
    | true => exact .inr ⟨a, b, c, rfl, rfl, rfl, hs⟩
    | false => exact ih

theorem Along.other {ts : List Str} {t t' : Str} {a b c : Node} (h : Along Q (t :: ts) a b c) (hp : plainTag t' = true) (hn : t' ≠ t) :
    b.find t' = a.find t' ∧ c.find t' = a.find t' := by
  obtain ⟨i, as, bs, cs, rfl, rfl, rfl, hb⟩ := h
  exact beside_other hb hp hn

theorem Along.own {ts : List Str} {t : Str} {a b c : Node} (h : Along Q (t :: ts) a b c) (hp : plainTag t = true) :
    (a.find t = none ∧ b.find t = none ∧ c.find t = none) ∨
    ∃ x y z, a.find t = some x ∧ b.find t = some y ∧ c.find t = some z ∧ Along Q ts x y z := by
  obtain ⟨i, as, bs, cs, rfl, rfl, rfl, hb⟩ := h
  exact beside_own hb hp

theorem beside_len {ts : List Str} {t : Str} {as bs cs : List Node} (h : Beside t (Along Q ts) as bs cs) :
    (bs.filter (fun k => !k.isText)).length = (as.filter (fun k => !k.isText)).length ∧
    (cs.filter (fun k => !k.isText)).length = (as.filter (fun k => !k.isText)).length := by
  induction h with
  | nil => exact ⟨rfl, rfl⟩
  | same hk _ ih =>
    simp only [List.filter_cons]
    split
    · simp only [List.length_cons, ih.1, ih.2]; exact ⟨trivial, trivial⟩
    · exact ih
  | part ha hs _ ih =>
    simp only [List.filter_cons, hs.isText.1, hs.isText.2.1, hs.isText.2.2, Bool.not_false, if_true, List.length_cons, ih.1, ih.2]
    exact ⟨trivial, trivial⟩

/-! ## The content -/

theorem items_other {β : Type} {c : Container} {x y z : Node} (h : Along Q [c.tag] x y z) {t : Str} (hp : plainTag t = true) (hn : t ≠ c.tag)
    (f : List Node → Py β) : parsedItems y t f = parsedItems x t f ∧ parsedItems z t f = parsedItems x t f := by
  unfold parsedItems
  rw [(h.other hp hn).1, (h.other hp hn).2]
  exact ⟨rfl, rfl⟩

theorem items_own {α : Type} {c : Container} {x y z : Node} (h : Along Q [c.tag] x y z) {f : List Node → Py (List α)}
    (hf : ∀ xs ys, Both (· ++ ·) (f xs) (f ys) (f (xs ++ ys))) :
    Both joinedLists (parsedItems x c.tag f) (parsedItems y c.tag f) (parsedItems z c.tag f) := by
  unfold parsedItems
  rcases h.own (by cases c <;> decide) with ⟨h1, h2, h3⟩ | ⟨a, b, d, h1, h2, h3, h4⟩
  · rw [h1, h2, h3]; exact .done rfl
  · rw [h1, h2, h3]
    obtain ⟨i, xs, ys, rfl, rfl, rfl, -⟩ := h4
    have he : (Node.elem i (xs ++ ys)).children = (Node.elem i xs).children ++ (Node.elem i ys).children := List.filter_append ..
    dsimp only
    rw [he]
    have hb := hf (Node.elem i xs).children (Node.elem i ys).children
    cases hz : f ((Node.elem i xs).children ++ (Node.elem i ys).children) with
    | error e =>
      rw [hz] at hb
      rcases hb with hb | hb
      · rw [hb]; exact .inl rfl
      · rw [hb]; exact .inr rfl
    | ok vs =>
      rw [hz] at hb
      obtain ⟨u, v, g1, g2, g3⟩ := hb
      rw [g1, g2, g3]
      exact .done rfl

/-- The results of `parseContent`, put together. -/
def parts (c : Container) (r r' : Content × Lookup × List MissingTag) : Content × Lookup × List MissingTag :=
  (joinedContent c r.1 r'.1, joinedLookup c r.2.1 (joinedContent c r.1 r'.1), joinedExceptions c r.2.2 r'.2.2)

theorem goodRelations_append (xs ys : List (Except MissingTag SpecRelation)) :
    goodRelations (xs ++ ys) = goodRelations xs ++ goodRelations ys := by
  unfold goodRelations
  rw [List.filterMap_append]

theorem relationErrors_append (xs ys : List (Except MissingTag SpecRelation)) :
    relationErrors (xs ++ ys) = relationErrors xs ++ relationErrors ys := by
  unfold relationErrors
  rw [List.filterMap_append]

theorem content_both (c : Container) {x y z : Node} (h : Along Q [c.tag] x y z) :
    Both (parts c) (parseContent (none : Option (Callback Unit)) x ()).1 (parseContent (none : Option (Callback Unit)) y ()).1
      (parseContent (none : Option (Callback Unit)) z ()).1 := by
  simp only [parseContent_assembled, assembled]
  cases c with
  | dataTypes =>
    have o := fun {β : Type} (t : Str) (hp : plainTag t = true) (hn : t ≠ c!"DATATYPES") (f : List Node → Py β) =>
      items_other (c := .dataTypes) h hp hn f
    rw [(o c!"SPEC-TYPES" (by decide) (by decide) _).1, (o c!"SPEC-TYPES" (by decide) (by decide) _).2,
      (o c!"SPECIFICATIONS" (by decide) (by decide) _).1, (o c!"SPECIFICATIONS" (by decide) (by decide) _).2,
      (o c!"SPEC-RELATIONS" (by decide) (by decide) _).1, (o c!"SPEC-RELATIONS" (by decide) (by decide) _).2,
      (o c!"SPEC-OBJECTS" (by decide) (by decide) _).1, (o c!"SPEC-OBJECTS" (by decide) (by decide) _).2,
      (o c!"SPEC-RELATION-GROUPS" (by decide) (by decide) _).1, (o c!"SPEC-RELATION-GROUPS" (by decide) (by decide) _).2]
    refine (items_own h (both_map parseDataType)).part fun a b => ?_
    refine .common _ fun _ => .common _ fun _ => .common _ fun _ => .common _ fun _ => .common _ fun _ => ?_
    exact .done rfl
  | specTypes =>
    have o := fun {β : Type} (t : Str) (hp : plainTag t = true) (hn : t ≠ c!"SPEC-TYPES") (f : List Node → Py β) =>
      items_other (c := .specTypes) h hp hn f
    rw [(o c!"DATATYPES" (by decide) (by decide) _).1, (o c!"DATATYPES" (by decide) (by decide) _).2,
      (o c!"SPECIFICATIONS" (by decide) (by decide) _).1, (o c!"SPECIFICATIONS" (by decide) (by decide) _).2,
      (o c!"SPEC-RELATIONS" (by decide) (by decide) _).1, (o c!"SPEC-RELATIONS" (by decide) (by decide) _).2,
      (o c!"SPEC-OBJECTS" (by decide) (by decide) _).1, (o c!"SPEC-OBJECTS" (by decide) (by decide) _).2,
      (o c!"SPEC-RELATION-GROUPS" (by decide) (by decide) _).1, (o c!"SPEC-RELATION-GROUPS" (by decide) (by decide) _).2]
    refine .common _ fun _ => (items_own h (both_filterMap parseSpecType)).part fun a b => ?_
    refine .common _ fun _ => .common _ fun _ => .common _ fun _ => .common _ fun _ => ?_
    exact .done rfl
  | specifications =>
    have o := fun {β : Type} (t : Str) (hp : plainTag t = true) (hn : t ≠ c!"SPECIFICATIONS") (f : List Node → Py β) =>
      items_other (c := .specifications) h hp hn f
    rw [(o c!"DATATYPES" (by decide) (by decide) _).1, (o c!"DATATYPES" (by decide) (by decide) _).2,
      (o c!"SPEC-TYPES" (by decide) (by decide) _).1, (o c!"SPEC-TYPES" (by decide) (by decide) _).2,
      (o c!"SPEC-RELATIONS" (by decide) (by decide) _).1, (o c!"SPEC-RELATIONS" (by decide) (by decide) _).2,
      (o c!"SPEC-OBJECTS" (by decide) (by decide) _).1, (o c!"SPEC-OBJECTS" (by decide) (by decide) _).2,
      (o c!"SPEC-RELATION-GROUPS" (by decide) (by decide) _).1, (o c!"SPEC-RELATION-GROUPS" (by decide) (by decide) _).2]
    refine .common _ fun _ => .common _ fun _ => (items_own h (both_map parseSpecification)).part fun a b => ?_
    refine .common _ fun _ => .common _ fun _ => .common _ fun _ => ?_
    exact .done rfl
  | specRelations =>
    have o := fun {β : Type} (t : Str) (hp : plainTag t = true) (hn : t ≠ c!"SPEC-RELATIONS") (f : List Node → Py β) =>
      items_other (c := .specRelations) h hp hn f
    rw [(o c!"DATATYPES" (by decide) (by decide) _).1, (o c!"DATATYPES" (by decide) (by decide) _).2,
      (o c!"SPEC-TYPES" (by decide) (by decide) _).1, (o c!"SPEC-TYPES" (by decide) (by decide) _).2,
      (o c!"SPECIFICATIONS" (by decide) (by decide) _).1, (o c!"SPECIFICATIONS" (by decide) (by decide) _).2,
      (o c!"SPEC-OBJECTS" (by decide) (by decide) _).1, (o c!"SPEC-OBJECTS" (by decide) (by decide) _).2,
      (o c!"SPEC-RELATION-GROUPS" (by decide) (by decide) _).1, (o c!"SPEC-RELATION-GROUPS" (by decide) (by decide) _).2]
    refine .common _ fun _ => .common _ fun _ => .common _ fun _ => ?_
    have hz := items_own h (both_map relationItem)
    -- the relations are there in all documents or in none
    have hn : ∀ a b, parsedItems x c!"SPEC-RELATIONS" (mapPy relationItem) = .ok a →
        parsedItems y c!"SPEC-RELATIONS" (mapPy relationItem) = .ok b → a.isSome = b.isSome := by
      intro a b ha hb
      unfold parsedItems at ha hb
      rcases h.own (by decide) with ⟨h1, h2, -⟩ | ⟨k, l, m, h1, h2, -⟩
      · rw [show x.find c!"SPEC-RELATIONS" = none from h1] at ha
        rw [show y.find c!"SPEC-RELATIONS" = none from h2] at hb
        cases ha; cases hb; rfl
      · rw [show x.find c!"SPEC-RELATIONS" = some k from h1] at ha
        rw [show y.find c!"SPEC-RELATIONS" = some l from h2] at hb
        dsimp only at ha hb
        split at ha <;> cases ha
        split at hb <;> cases hb
        rfl
    revert hz hn
    show Both joinedLists (parsedItems x c!"SPEC-RELATIONS" _) (parsedItems y c!"SPEC-RELATIONS" _) (parsedItems z c!"SPEC-RELATIONS" _) → _
    generalize parsedItems x c!"SPEC-RELATIONS" (mapPy relationItem) = p
    generalize parsedItems y c!"SPEC-RELATIONS" (mapPy relationItem) = q
    generalize parsedItems z c!"SPEC-RELATIONS" (mapPy relationItem) = r
    intro hz hn
    cases r with
    | error e =>
      rcases hz with g | g
      · rw [g]; exact .inl rfl
      · rw [g]; exact .inr rfl
    | ok v =>
      obtain ⟨a, b, rfl, rfl, rfl⟩ := hz
      have hab := hn a b rfl rfl
      refine .common (j := parts .specRelations) _ fun _ => .common _ fun _ => .done ?_
      cases a with
      | none => cases b with
        | none => rfl
        | some _ => cases hab
      | some a => cases b with
        | none => cases hab
        | some b =>
          simp only [parts, joinedContent, joinedLookup, joinedExceptions, joinedLists, Option.map_some, Option.getD_some,
            goodRelations_append, relationErrors_append]
  | specObjects =>
    have o := fun {β : Type} (t : Str) (hp : plainTag t = true) (hn : t ≠ c!"SPEC-OBJECTS") (f : List Node → Py β) =>
      items_other (c := .specObjects) h hp hn f
    rw [(o c!"DATATYPES" (by decide) (by decide) _).1, (o c!"DATATYPES" (by decide) (by decide) _).2,
      (o c!"SPEC-TYPES" (by decide) (by decide) _).1, (o c!"SPEC-TYPES" (by decide) (by decide) _).2,
      (o c!"SPECIFICATIONS" (by decide) (by decide) _).1, (o c!"SPECIFICATIONS" (by decide) (by decide) _).2,
      (o c!"SPEC-RELATIONS" (by decide) (by decide) _).1, (o c!"SPEC-RELATIONS" (by decide) (by decide) _).2,
      (o c!"SPEC-RELATION-GROUPS" (by decide) (by decide) _).1, (o c!"SPEC-RELATION-GROUPS" (by decide) (by decide) _).2]
    refine .common _ fun _ => .common _ fun _ => .common _ fun _ => .common _ fun _ =>
      (items_own h (both_filterMap objectItem)).part fun a b => ?_
    refine .common _ fun _ => ?_
    exact .done rfl
  | relationGroups =>
    have o := fun {β : Type} (t : Str) (hp : plainTag t = true) (hn : t ≠ c!"SPEC-RELATION-GROUPS") (f : List Node → Py β) =>
      items_other (c := .relationGroups) h hp hn f
    rw [(o c!"DATATYPES" (by decide) (by decide) _).1, (o c!"DATATYPES" (by decide) (by decide) _).2,
      (o c!"SPEC-TYPES" (by decide) (by decide) _).1, (o c!"SPEC-TYPES" (by decide) (by decide) _).2,
      (o c!"SPECIFICATIONS" (by decide) (by decide) _).1, (o c!"SPECIFICATIONS" (by decide) (by decide) _).2,
      (o c!"SPEC-RELATIONS" (by decide) (by decide) _).1, (o c!"SPEC-RELATIONS" (by decide) (by decide) _).2,
      (o c!"SPEC-OBJECTS" (by decide) (by decide) _).1, (o c!"SPEC-OBJECTS" (by decide) (by decide) _).2]
    refine .common _ fun _ => .common _ fun _ => .common _ fun _ => .common _ fun _ => .common _ fun _ =>
      (items_own h (both_map parseRelationGroup)).part fun a b => ?_
    exact .done rfl

/-! ## The document -/

theorem core_both (c : Container) {x y z : Node} (h : Along Q [c!"CORE-CONTENT", c!"REQ-IF-CONTENT", c.tag] x y z) :
    ∃ p q r, Both (parts c) p q r ∧
      ((∃ v, (parseCore (none : Option (Callback Unit)) x ()).1 = .ok (v, Lookup.empty, []) ∧ (v = none ∨ v = some none) ∧
        (parseCore (none : Option (Callback Unit)) y ()).1 = .ok (v, Lookup.empty, []) ∧
        (parseCore (none : Option (Callback Unit)) z ()).1 = .ok (v, Lookup.empty, [])) ∨
       ((parseCore (none : Option (Callback Unit)) x ()).1 = pyMap (fun r => (some (some r.1), r.2.1, r.2.2)) p ∧
        (parseCore (none : Option (Callback Unit)) y ()).1 = pyMap (fun r => (some (some r.1), r.2.1, r.2.2)) q ∧
        (parseCore (none : Option (Callback Unit)) z ()).1 = pyMap (fun r => (some (some r.1), r.2.1, r.2.2)) r)) := by
  unfold parseCore
  rcases h.own (by decide) with ⟨h1, h2, h3⟩ | ⟨a, b, d, h1, h2, h3, h4⟩
  · rw [h1, h2, h3]
    exact ⟨.error .typeError, .error .typeError, .error .typeError, .fail _, .inl ⟨none, rfl, .inl rfl, rfl, rfl⟩⟩
  · rw [h1, h2, h3]
    dsimp only
    rcases h4.own (by decide) with ⟨g1, g2, g3⟩ | ⟨u, v, w, g1, g2, g3, g4⟩
    · rw [g1, g2, g3]
      exact ⟨.error .typeError, .error .typeError, .error .typeError, .fail _, .inl ⟨some none, rfl, .inr rfl, rfl, rfl⟩⟩
    · rw [g1, g2, g3]
      dsimp only
      have e : ∀ k : Node, (M.bind (parseContent (none : Option (Callback Unit)) k) (fun r => M.pure (some (some r.1), r.2.1, r.2.2)) ()).1 =
          pyMap (fun r => (some (some r.1), r.2.1, r.2.2)) (parseContent (none : Option (Callback Unit)) k ()).1 := by
        intro k
        simp only [M.bind, M.pure]
        generalize parseContent (none : Option (Callback Unit)) k () = r
        obtain ⟨r, _⟩ := r
        cases r <;> rfl
      exact ⟨_, _, _, content_both c g4, .inr ⟨e u, e v, e w⟩⟩

theorem document_both (c : Container) {d d' s : Doc} (hd : d'.decl = d.decl) (hs : s.decl = d.decl) (h : Together c d.root d'.root s.root) :
    Both (joined c) (parseReqif (none : Option (Callback Unit)) d ()).1 (parseReqif (none : Option (Callback Unit)) d' ()).1
      (parseReqif (none : Option (Callback Unit)) s ()).1 := by
  have hm : d'.root.nsmap = d.root.nsmap ∧ s.root.nsmap = d.root.nsmap ∧ tagDumpOf d'.root = tagDumpOf d.root ∧ tagDumpOf s.root = tagDumpOf d.root := by
    obtain ⟨i, as, bs, cs, h1, h2, h3⟩ := Along.elems h
    rw [h1, h2, h3]
    exact ⟨rfl, rfl, rfl, rfl⟩
  unfold parseReqif
  simp only [M.bind, M.lift]
  rcases root_along h with ⟨r, r', t, h1, h2, h3, h4⟩ | ⟨e, h1, h2 | h2⟩
  · rw [h1, h2, h3]
    dsimp only
    have hf := (h4.other (t' := c!"THE-HEADER") (by decide) (by decide))
    have ht := (h4.other (t' := c!"TOOL-EXTENSIONS") (by decide) (by decide))
    have hl : r'.len = r.len ∧ t.len = r.len := by
      obtain ⟨i, as, bs, cs, rfl, rfl, rfl, hb⟩ := h4
      exact beside_len hb
    have hn : namespaceInfoOf d' r' = namespaceInfoOf d r ∧ namespaceInfoOf s t = namespaceInfoOf d r := by
      obtain ⟨i, as, bs, cs, rfl, rfl, rfl⟩ := h4.elems
      unfold namespaceInfoOf
      simp only [hm.1, hm.2.1, hm.2.2.1, hm.2.2.2, hd, hs]
      exact ⟨rfl, rfl⟩
    rw [h4.tag.1, h4.tag.2, hl.1, hl.2, hf.1, hf.2, ht.1, ht.2, hn.1, hn.2, hm.1, hm.2.1]
    obtain ⟨p, q, u, hb, hc⟩ := core_both c h4
    split
    · split
      · exact .done rfl
      · cases optPy parseHeader (r.find c!"THE-HEADER") with
        | error e => exact .fail e
        | ok hdr =>
          simp only [M.bind, M.pure]
          rw [parseCore_state r, parseCore_state r', parseCore_state t]
          rcases hc with ⟨v, g1, gv, g2, g3⟩ | ⟨g1, g2, g3⟩
          · rw [g1, g2, g3]
            refine .done ?_
            rcases gv with rfl | rfl <;> rfl
          · rw [g1, g2, g3]
            cases u with
            | error e =>
              rcases hb with g | g
              · rw [g]; exact .inl rfl
              · rw [g]; exact .inr rfl
            | ok w =>
              obtain ⟨a, b, rfl, rfl, rfl⟩ := hb
              exact .done rfl
    · exact .fail _
  · rw [h1, h2]; exact .inl rfl
  · rw [h1, h2]; exact .inr rfl

end ReqIF.Items
