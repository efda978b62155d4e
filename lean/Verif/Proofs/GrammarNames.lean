import Verif.Spec.Namespaces
import Verif.Proofs.GrammarDecl
import Verif.Proofs.Final
/-! Namespace resolution is that of the specification. -/
set_option linter.unusedSimpArgs false
namespace ReqIF.Grammar

/-- Every prefix is declared once. -/
def Keys (m : NsMap) : Prop := (m.map (·.1)).Nodup

theorem splitColon (s : Str) : (':' ∉ s ∧ s.dropWhile (· != ':') = []) ∨
    ∃ p l, s = p ++ ':' :: l ∧ ':' ∉ p ∧ s.dropWhile (· != ':') = ':' :: l ∧ s.takeWhile (· != ':') = p := by
  induction s with
  | nil => left; simp
  | cons c s ih =>
    by_cases hc : c = ':'
    · right
      refine ⟨[], s, by rw [hc]; rfl, by simp, ?_, ?_⟩ <;> simp [hc]
    · have hb : (c != ':') = true := by simpa using hc
      rcases ih with ⟨h1, h2⟩ | ⟨p, l, h1, h2, h3, h4⟩
      · left
        refine ⟨?_, by rw [List.dropWhile_cons, hb]; exact h2⟩
        rw [List.mem_cons, not_or]; exact ⟨fun e => hc e.symm, h1⟩
      · right
        refine ⟨c :: p, l, by rw [h1]; rfl, ?_, by rw [List.dropWhile_cons, hb]; exact h3, by rw [List.takeWhile_cons, hb]; simp [h4]⟩
        rw [List.mem_cons, not_or]; exact ⟨fun e => hc e.symm, h2⟩

/-- The two cases of a qualified name. -/
theorem splitQName_cases (s : Str) : (':' ∉ s ∧ splitQName s = (none, s)) ∨
    ∃ p l, s = p ++ c!":" ++ l ∧ ':' ∉ p ∧ splitQName s = (some p, l) := by
  rcases splitColon s with ⟨h1, h2⟩ | ⟨p, l, h1, h2, h3, h4⟩
  · left; exact ⟨h1, by unfold splitQName; rw [h2]⟩
  · right; exact ⟨p, l, by rw [h1]; simp, h2, by unfold splitQName; rw [h3, h4]⟩

theorem splitQName_plain {s : Str} (h : ':' ∉ s) : splitQName s = (none, s) := by
  rcases splitQName_cases s with ⟨_, h2⟩ | ⟨p, l, rfl, _, _⟩
  · exact h2
  · exact absurd (by simp) h

theorem splitQName_prefixed {p l : Str} (h : ':' ∉ p) : splitQName (p ++ c!":" ++ l) = (some p, l) := by
  have h1 := takeWhile_stop (p := fun c : Char => c != ':') (a := p) (b := ':' :: l)
    (fun c hc => by simpa using fun e : c = ':' => h (e ▸ hc)) (by intro x hx; cases hx; decide)
  have e : p ++ c!":" ++ l = p ++ ':' :: l := by simp
  unfold splitQName
  rw [e, h1.1, h1.2]

theorem declares_iff {n : Str} {p : Option Str} : declaredPrefix n = some p ↔ Declares n p := by
  constructor
  · intro h
    unfold declaredPrefix at h
    split at h
    · rename_i e; cases h; rw [e]; exact .default
    · rcases splitQName_cases n with ⟨_, h2⟩ | ⟨q, l, hn, hq, h2⟩
      · rw [h2] at h; cases h
      · rw [h2] at h
        dsimp only at h
        split at h
        · rename_i e
          cases h
          rw [hn, e]
          exact .prefixed (p := l)
        · cases h
  · intro h
    cases h with
    | default => rfl
    | @prefixed p =>
      have h1 : splitQName (c!"xmlns:" ++ p) = (some c!"xmlns", p) := splitQName_prefixed (p := c!"xmlns") (l := p) (by decide)
      unfold declaredPrefix
      rw [if_neg (by simp), h1]
      simp

theorem sorted_iff : ∀ {attrs bs : List (Str × Str)} {ds : NsMap}, Sorted attrs ds bs ↔ ds = declsOf attrs ∧ bs = plainOf attrs := by
  intro attrs bs ds
  constructor
  · intro h
    induction h with
    | none => exact ⟨rfl, rfl⟩
    | decl hd _ ih =>
      have := declares_iff.2 hd
      simp [declsOf, plainOf, this] at ih ⊢
      exact ih
    | @other n v as bs ds hd _ ih =>
      have : declaredPrefix n = none := by
        cases hh : declaredPrefix n with
        | none => rfl
        | some p => exact absurd ⟨p, declares_iff.1 hh⟩ hd
      simp [declsOf, plainOf, this] at ih ⊢
      exact ih
  · rintro ⟨rfl, rfl⟩
    induction attrs with
    | nil => exact .none
    | cons a attrs ih =>
      obtain ⟨n, v⟩ := a
      cases hh : declaredPrefix n with
      | none =>
        have hn : ¬ ∃ p, Declares n p := by
          rintro ⟨p, hp⟩
          rw [declares_iff.2 hp] at hh
          cases hh
        have := Sorted.other (v := v) hn ih
        simpa [declsOf, plainOf, hh] using this
      | some p =>
        have := Sorted.decl (u := v) (declares_iff.1 hh) ih
        simpa [declsOf, plainOf, hh] using this

theorem allowed_iff {d : Option Str × Str} : declOk d = true ↔ Allowed d := by
  obtain ⟨p, u⟩ := d
  have hx : xmlNs = xmlUri := rfl
  have hy : xmlnsNs = xmlnsUri := rfl
  unfold declOk Allowed
  cases p with
  | none =>
    simp only [Bool.and_eq_true, bne_iff_ne, ne_eq, hx, hy]
    constructor
    · rintro ⟨h1, h2⟩
      exact ⟨by simp, h2, ⟨fun e => (by cases e), fun e => absurd e h1⟩, by simp⟩
    · rintro ⟨_, h2, h3, _⟩
      exact ⟨fun e => (by cases h3.2 e), h2⟩
  | some p =>
    simp only [Bool.and_eq_true, bne_iff_ne, ne_eq, hx, hy, Option.some.injEq, Bool.not_eq_true', List.isEmpty_eq_false_iff]
    constructor
    · rintro ⟨⟨⟨h1, h2⟩, h3⟩, h4⟩
      refine ⟨h1, h3, ?_, fun e => absurd e h2⟩
      have := Bool.eq_iff_iff.1 (beq_iff_eq.1 h4)
      simpa using this
    · rintro ⟨h1, h2, h3, h4⟩
      refine ⟨⟨⟨h1, fun e => (by cases h4 e)⟩, h2⟩, ?_⟩
      rw [beq_iff_eq, Bool.eq_iff_iff]
      simpa using h3

theorem get_iff {m : NsMap} (hk : Keys m) {p : Option Str} {u : Str} : m.get? p = some u ↔ (p, u) ∈ m := by
  induction m with
  | nil => simp [NsMap.get?]
  | cons d m ih =>
    obtain ⟨q, v⟩ := d
    unfold Keys at hk
    rw [List.map_cons, List.nodup_cons] at hk
    unfold NsMap.get? at ih ⊢
    by_cases hq : q = p
    · subst hq
      simp only [List.find?_cons, beq_self_eq_true, Option.map_some, Option.some.injEq, List.mem_cons, Prod.mk.injEq, true_and]
      constructor
      · intro e; exact .inl e.symm
      · rintro (e | e)
        · exact e.symm
        · exact absurd (List.mem_map_of_mem (f := (·.1)) e) hk.1
    · have : (q == p) = false := by simpa using hq
      simp only [List.find?_cons, this, List.mem_cons, Prod.mk.injEq]
      rw [ih hk.2]
      constructor
      · exact .inr
      · rintro (⟨e, _⟩ | e)
        · exact absurd e.symm hq
        · exact e

theorem push_inside (own m : NsMap) : NsMap.push own m = inside own m := by
  unfold NsMap.push inside
  congr 1
  apply List.filter_congr
  intro d _
  congr 1
  rw [Bool.eq_iff_iff]
  simp [List.any_eq_true]

theorem keys_inside {own m : NsMap} (h1 : Keys own) (h2 : Keys m) : Keys (inside own m) := by
  unfold Keys inside at *
  rw [List.map_append, List.nodup_append]
  refine ⟨h1, ?_, ?_⟩
  · exact List.Nodup.sublist (List.Sublist.map _ List.filter_sublist) h2
  · intro a ha b hb e
    subst e
    obtain ⟨d, hd, rfl⟩ := List.mem_map.1 hb
    have := (List.mem_filter.1 hd).2
    simp at this
    obtain ⟨d', hd', e'⟩ := List.mem_map.1 ha
    obtain ⟨q, v⟩ := d'
    exact this v (by
      have : q = d.1 := e'
      rw [← this]; exact hd')

theorem declares_unique {n n' : Str} {p : Option Str} (h : Declares n p) (h' : Declares n' p) : n = n' := by
  cases h <;> cases h' <;> rfl

theorem keys_decls {attrs : List (Str × Str)} (h : (attrs.map (·.1)).Nodup) : Keys (declsOf attrs) := by
  induction attrs with
  | nil => exact List.nodup_nil
  | cons a attrs ih =>
    obtain ⟨n, v⟩ := a
    rw [List.map_cons, List.nodup_cons] at h
    have ih := ih h.2
    cases hh : declaredPrefix n with
    | none => simpa [declsOf, hh] using ih
    | some p =>
      have e : declsOf ((n, v) :: attrs) = (p, v) :: declsOf attrs := by simp [declsOf, hh]
      rw [e]
      unfold Keys at *
      rw [List.map_cons, List.nodup_cons]
      refine ⟨?_, ih⟩
      intro hm
      obtain ⟨d, hd, hp⟩ := List.mem_map.1 hm
      obtain ⟨b, hb, hd'⟩ := List.mem_filterMap.1 hd
      rw [Option.map_eq_some_iff] at hd'
      obtain ⟨p', hp', rfl⟩ := hd'
      have hp : p' = p := hp
      subst hp
      have := declares_unique (declares_iff.1 hh) (declares_iff.1 hp')
      exact h.1 (by
        show n ∈ _
        rw [this]
        exact List.mem_map_of_mem hb)

theorem keys_filter {m : NsMap} {f : Option Str × Str → Bool} (h : Keys m) : Keys (m.filter f) :=
  List.Nodup.sublist (List.Sublist.map _ List.filter_sublist) h

theorem elemName_iff {m : NsMap} (hk : Keys m) {q l : Str} {ns pfx : Option Str} :
    resolveElemName m q = some (ns, pfx, l) ↔ ElemName m q ns pfx l := by
  constructor
  · intro h
    unfold resolveElemName at h
    rcases splitQName_cases q with ⟨h1, h2⟩ | ⟨p, l', hq, hp, h2⟩
    · rw [h2] at h
      dsimp only at h
      split at h
      · rename_i hg
        cases h
        refine .free h1 ?_
        intro u hu
        rw [(get_iff hk).2 hu] at hg
        cases hg
      · rename_i u hg
        split at h
        · rename_i he
          cases h
          refine .free h1 ?_
          intro u' hu
          rw [(get_iff hk).2 hu] at hg
          cases hg
          simpa using he
        · rename_i he
          cases h
          exact .default h1 ((get_iff hk).1 hg) (by simpa using he)
    · rw [h2] at h
      dsimp only at h
      split at h
      · rename_i e
        cases h
        rw [hq]
        exact .prefixed hp (.inl ⟨e, rfl⟩)
      · rename_i e
        split at h
        · cases h
        · rename_i u hg
          cases h
          rw [hq]
          exact .prefixed hp (.inr ⟨e, (get_iff hk).1 hg⟩)
  · intro h
    unfold resolveElemName
    cases h with
    | free h1 h2 =>
      rw [splitQName_plain h1]
      dsimp only
      split
      · rfl
      · rename_i u hg
        rw [h2 u ((get_iff hk).1 hg)]
        rfl
    | @default l u h1 h2 h3 =>
      rw [splitQName_plain h1, (get_iff hk).2 h2]
      dsimp only
      rw [if_neg (by simpa using h3)]
    | @prefixed p l u h1 h2 =>
      rw [splitQName_prefixed h1]
      dsimp only
      rcases h2 with ⟨h2, rfl⟩ | ⟨h2, h3⟩
      · rw [if_pos h2]; rfl
      · rw [if_neg h2, (get_iff hk).2 h3]

theorem attrName_iff {m : NsMap} (hk : Keys m) {n v : Str} {x : Attr} :
    resolveAttr m (n, v) = some x ↔ ∃ ns pfx l, AttrName m n ns pfx l ∧ x = ⟨ns, pfx, l, v⟩ := by
  constructor
  · intro h
    unfold resolveAttr at h
    rcases splitQName_cases n with ⟨h1, h2⟩ | ⟨p, l', hq, hp, h2⟩
    · rw [h2] at h
      cases h
      exact ⟨_, _, _, .free h1, rfl⟩
    · rw [h2] at h
      dsimp only at h
      split at h
      · rename_i e
        cases h
        rw [hq]
        exact ⟨_, _, _, .prefixed hp (.inl ⟨e, rfl⟩), rfl⟩
      · rename_i e
        split at h
        · cases h
        · rename_i u hg
          cases h
          rw [hq]
          exact ⟨_, _, _, .prefixed hp (.inr ⟨e, (get_iff hk).1 hg⟩), rfl⟩
  · rintro ⟨ns, pfx, l, h, rfl⟩
    unfold resolveAttr
    cases h with
    | free h1 => rw [splitQName_plain h1]
    | @prefixed p l u h1 h2 =>
      rw [splitQName_prefixed h1]
      dsimp only
      rcases h2 with ⟨h2, rfl⟩ | ⟨h2, h3⟩
      · rw [if_pos h2]; rfl
      · rw [if_neg h2, (get_iff hk).2 h3]

theorem attrNames_iff {m : NsMap} (hk : Keys m) : ∀ {as : List (Str × Str)} {xs : List Attr}, resolveAttrs m as = some xs ↔ AttrNames m as xs := by
  intro as
  induction as with
  | nil =>
    intro xs
    constructor
    · intro h; cases h; exact .none
    · intro h; cases h; rfl
  | cons a as ih =>
    intro xs
    obtain ⟨n, v⟩ := a
    constructor
    · intro h
      rw [resolveAttrs] at h
      split at h
      · rename_i y ys h1 h2
        cases h
        obtain ⟨ns, pfx, l, h3, rfl⟩ := (attrName_iff hk).1 h1
        exact .more h3 (ih.1 h2)
      · cases h
    · intro h
      cases h with
      | more h1 h2 => rw [resolveAttrs, (attrName_iff hk).2 ⟨_, _, _, h1, rfl⟩, ih.2 h2]

theorem resolveInfo_inv {m : NsMap} {name : Str} {attrs : List (Str × Str)} {i : Info} (h : resolveInfo m name attrs = some i) :
    (attrs.map (·.1)).Nodup ∧ (∀ d ∈ declsOf attrs, Allowed d) ∧ i.nsdefs = storedDecls (declsOf attrs) ∧ i.nsmap = inside (storedDecls (declsOf attrs)) m ∧
      resolveElemName i.nsmap name = some (i.ns, i.pfx, i.name) ∧ resolveAttrs i.nsmap (plainOf attrs) = some i.attrs ∧
      (i.attrs.map (fun a => (a.ns, a.name))).Nodup := by
  unfold resolveInfo at h
  dsimp only at h
  split at h
  · rename_i hc
    rw [Bool.and_eq_true, List.all_eq_true, noDup_iff] at hc
    split at h
    · rename_i ns pfx l as h1 h2
      split at h
      · rename_i h3
        cases h
        exact ⟨hc.1, fun d hd => allowed_iff.1 (hc.2 d hd), rfl, push_inside _ _, h1, h2, noDup_iff.1 h3⟩
      · cases h
    · cases h
  · cases h

mutual
theorem resolve_named {m : NsMap} (hk : Keys m) : ∀ {x : Xml} {n : Node}, resolve m x = some n → Named m x n
  | .elem name attrs kids, n, h => by
    rw [resolve] at h
    split at h
    · cases h
    · rename_i i hi
      split at h
      · cases h
      · rename_i ks hks
        cases h
        obtain ⟨h1, h2, h3, h4, h5, h6, h7⟩ := resolveInfo_inv hi
        obtain ⟨ns, pfx, l, own, m', xs⟩ := i
        dsimp only at h3 h4 h5 h6 h7 hks
        have hk' : Keys m' := by
          rw [h4]; exact keys_inside (keys_filter (keys_decls h1)) hk
        have hks' := resolveList_named hk' hks
        have e5 := (elemName_iff hk').1 h5
        have e6 := (attrNames_iff hk').1 h6
        subst h3 h4
        exact .elem h1 (sorted_iff.2 ⟨rfl, rfl⟩) h2 e5 e6 h7 hks'
  | .text s, n, h => by cases h; exact .text
  | .comment s, n, h => by cases h; exact .comment
  | .pi t d, n, h => by cases h; exact .inst

theorem resolveList_named {m : NsMap} (hk : Keys m) : ∀ {xs : List Xml} {ns : List Node}, resolveList m xs = some ns → NamedAll m xs ns
  | [], ns, h => by cases h; exact .none
  | x :: xs, ns, h => by
    rw [resolveList] at h
    split at h
    · rename_i n ns' h1 h2
      cases h
      exact .more (resolve_named hk h1) (resolveList_named hk h2)
    · cases h
end

mutual
theorem named_resolve {m : NsMap} (hk : Keys m) : ∀ {x : Xml} {n : Node}, Named m x n → resolve m x = some n
  | .elem name attrs kids, n, h => by
    cases h with
    | @elem m ds name l attrs as kids ns pfx xs ks h1 h2 h3 h4 h5 h6 h7 =>
      obtain ⟨rfl, rfl⟩ := sorted_iff.1 h2
      have hk' : Keys (inside (storedDecls (declsOf attrs)) m) := keys_inside (keys_filter (keys_decls h1)) hk
      have e4 := (elemName_iff hk').2 h4
      have e5 := (attrNames_iff hk').2 h5
      have e7 := namedAll_resolve hk' h7
      have hi : resolveInfo m name attrs = some ⟨ns, pfx, l, storedDecls (declsOf attrs), inside (storedDecls (declsOf attrs)) m, xs⟩ := by
        unfold resolveInfo
        dsimp only
        rw [if_pos]
        · rw [push_inside, e4, e5]
          dsimp only
          rw [if_pos (noDup_iff.2 h6)]
        · rw [Bool.and_eq_true, List.all_eq_true, noDup_iff]
          exact ⟨h1, fun d hd => allowed_iff.2 (h3 d hd)⟩
      rw [resolve, hi]
      dsimp only
      rw [e7]
      rfl
  | .text s, n, h => by cases h; rfl
  | .comment s, n, h => by cases h; rfl
  | .pi t d, n, h => by cases h; rfl

theorem namedAll_resolve {m : NsMap} (hk : Keys m) : ∀ {xs : List Xml} {ns : List Node}, NamedAll m xs ns → resolveList m xs = some ns
  | [], ns, h => by cases h; rfl
  | x :: xs, ns, h => by
    cases h with
    | more h1 h2 => rw [resolveList, named_resolve hk h1, namedAll_resolve hk h2]
end

theorem named_iff {m : NsMap} (hk : Keys m) {xs : List Xml} {ns : List Node} : resolveList m xs = some ns ↔ NamedAll m xs ns :=
  ⟨resolveList_named hk, namedAll_resolve hk⟩

end ReqIF.Grammar
