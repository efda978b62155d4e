import Verif.Proofs.PlainItems
import Verif.Proofs.RootInfo
/-! The root of a plain document. -/
set_option linter.unusedSimpArgs false
namespace ReqIF.Xsd
open Spec

/-- The attributes of the root as the tag is captured: declarations first, without one of `xml`. -/
def tidyAttrs (as : List (Str × Str)) : List (Str × Str) :=
  as.filter (fun a => isDecl a && a.1 != c!"xmlns:xml") ++ as.filter (fun a => !isDecl a)

theorem tidyAttrs_mem {as : List (Str × Str)} {a : Str × Str} (h : a ∈ tidyAttrs as) : a ∈ as ∧ a.1 ≠ c!"xmlns:xml" := by
  unfold tidyAttrs at h
  rw [List.mem_append, List.mem_filter, List.mem_filter] at h
  rcases h with ⟨h1, h2⟩ | ⟨h1, h2⟩
  · simp only [Bool.and_eq_true, bne_iff_ne] at h2
    exact ⟨h1, h2.2⟩
  · refine ⟨h1, ?_⟩
    intro e
    unfold isDecl at h2
    rw [e] at h2
    exact absurd h2 (by decide)

theorem decls_none {as : List (Str × Str)} (h : ∀ a ∈ as, isDecl a = false) : declsOf as = [] := by
  unfold declsOf
  rw [List.filterMap_eq_nil_iff]
  intro a ha
  have := h a ha
  unfold isDecl at this
  cases hd : declaredPrefix a.1 with
  | none => rfl
  | some q => rw [hd] at this; cases this

theorem decls_tidy (as : List (Str × Str)) : declsOf (tidyAttrs as) = storedDecls (declsOf as) := by
  have e : declsOf (tidyAttrs as) = declsOf (as.filter (fun a => isDecl a && a.1 != c!"xmlns:xml")) := by
    unfold tidyAttrs
    have h2 := decls_none (as := as.filter (fun a => !isDecl a)) (by
      intro a ha
      simpa using (List.mem_filter.1 ha).2)
    unfold declsOf at h2 ⊢
    rw [List.filterMap_append, h2, List.append_nil]
  rw [e]
  clear e
  induction as with
  | nil => rfl
  | cons a as ih =>
    unfold declsOf storedDecls at ih ⊢
    rw [List.filterMap_cons]
    cases hd : declaredPrefix a.1 with
    | none =>
      have : isDecl a = false := by unfold isDecl; rw [hd]; rfl
      rw [List.filter_cons, this]
      exact ih
    | some q =>
      have h1 : isDecl a = true := by unfold isDecl; rw [hd]; rfl
      dsimp only [Option.map_some]
      rw [List.filter_cons, h1, Bool.true_and, List.filter_cons]
      have hn := declaredPrefix_some hd
      have h2 : (a.1 != c!"xmlns:xml") = (q != some c!"xml") := by
        rw [hn]
        rw [Bool.eq_iff_iff, bne_iff_ne, bne_iff_ne]
        refine not_congr ⟨?_, ?_⟩
        · intro e
          have := congrArg declaredPrefix e
          rw [declaredPrefix_declName] at this
          exact Option.some.inj (this.trans (by decide))
        · rintro rfl
          rfl
      rw [h2]
      cases hq : (q != some c!"xml") with
      | true =>
        rw [if_pos rfl, if_pos rfl, List.filterMap_cons, hd, ih]
        rfl
      | false =>
        rw [if_neg (by decide), if_neg (by decide)]
        exact ih

theorem plain_tidy (as : List (Str × Str)) : plainOf (tidyAttrs as) = plainOf as := by
  unfold plainOf tidyAttrs
  rw [List.filter_append, List.filter_filter, List.filter_filter]
  have h1 : as.filter (fun a => (declaredPrefix a.1).isNone && (isDecl a && a.1 != c!"xmlns:xml")) = [] := by
    rw [List.filter_eq_nil_iff]
    intro a _
    unfold isDecl
    cases declaredPrefix a.1 <;> simp
  rw [h1, List.nil_append]
  apply List.filter_congr
  intro a _
  unfold isDecl
  cases declaredPrefix a.1 <;> simp

theorem tidy_nodup {as : List (Str × Str)} (h : (as.map (·.1)).Nodup) : ((tidyAttrs as).map (·.1)).Nodup := by
  unfold tidyAttrs
  rw [List.map_append, List.nodup_append]
  refine ⟨List.Sublist.nodup (List.Sublist.map _ List.filter_sublist) h, List.Sublist.nodup (List.Sublist.map _ List.filter_sublist) h, ?_⟩
  intro x hx y hy e
  obtain ⟨a, ha, rfl⟩ := List.mem_map.1 hx
  obtain ⟨b, hb, rfl⟩ := List.mem_map.1 hy
  have h1 := (List.mem_filter.1 ha).2
  have h2 := (List.mem_filter.1 hb).2
  rw [Bool.and_eq_true] at h1
  unfold isDecl at h1 h2
  rw [e] at h1
  rw [h1.1] at h2
  cases h2

theorem stored_stored (m : NsMap) : storedDecls (storedDecls m) = storedDecls m := by
  unfold storedDecls
  rw [List.filter_filter]
  simp

theorem resolveInfo_tidy {m : NsMap} {q : Str} {as : List (Str × Str)} {i : Info} (h : resolveInfo m q as = some i) :
    resolveInfo m q (tidyAttrs as) = some i := by
  unfold resolveInfo at h ⊢
  dsimp only at h ⊢
  split at h
  · rename_i hc
    rw [Bool.and_eq_true] at hc
    rw [decls_tidy, stored_stored, plain_tidy, if_pos]
    · exact h
    · rw [Bool.and_eq_true]
      refine ⟨noDup_iff.2 (tidy_nodup (noDup_iff.1 hc.1)), ?_⟩
      rw [List.all_eq_true] at hc ⊢
      intro d hd
      exact hc.2 d (List.mem_filter.1 hd).1
  · cases h

/-- The name of an element is split at the colon. -/
theorem resolveInfo_name {m : NsMap} {q : Str} {as : List (Str × Str)} {i : Info} (h : resolveInfo m q as = some i) :
    splitQName q = (i.pfx, i.name) := by
  unfold resolveInfo at h
  dsimp only at h
  split at h
  · split at h
    · rename_i ns pfx l xs he ha
      split at h
      · cases h
        dsimp only
        unfold resolveElemName at he
        split at he
        · rename_i l' hs
          split at he
          · cases he; exact hs
          · split at he <;> (cases he; exact hs)
        · rename_i p l' hs
          split at he
          · cases he; exact hs
          · split at he
            · cases he
            · cases he; exact hs
      · cases h
    · cases h
  · cases h

theorem resolveAttrs_get {m : NsMap} : ∀ {ps : List (Str × Str)} {xs : List Attr}, resolveAttrs m ps = some xs → ∀ a ∈ ps,
    ∃ x ∈ xs, resolveAttr m a = some x
  | [], _, _, a, ha => by cases ha
  | b :: ps, xs, h, a, ha => by
    unfold resolveAttrs at h
    cases hb : resolveAttr m b with
    | none => rw [hb] at h; cases h
    | some x =>
      cases hp : resolveAttrs m ps with
      | none => rw [hb, hp] at h; cases h
      | some ys =>
        rw [hb, hp] at h
        cases h
        rcases List.mem_cons.1 ha with rfl | ha
        · exact ⟨x, by simp, hb⟩
        · obtain ⟨y, hy, e⟩ := resolveAttrs_get hp a ha
          exact ⟨y, by simp [hy], e⟩

theorem decl_mem {as : List (Str × Str)} {a : Str × Str} {q : Option Str} (ha : a ∈ as) (hq : declaredPrefix a.1 = some q) :
    (q, a.2) ∈ declsOf as := by
  unfold declsOf
  rw [List.mem_filterMap]
  exact ⟨a, ha, by rw [hq]; rfl⟩

theorem first_decl (as : List (Str × Str)) (u : Str) :
    ((as.filter isDecl).find? (fun a => a.2 == u)).map (·.1) = ((declsOf as).find? (fun d => d.2 == u)).map (fun d => declName d.1) := by
  induction as with
  | nil => rfl
  | cons a as ih =>
    unfold declsOf at ih ⊢
    rw [List.filterMap_cons, List.filter_cons]
    cases hd : declaredPrefix a.1 with
    | none =>
      have : isDecl a = false := by unfold isDecl; rw [hd]; rfl
      rw [this]
      exact ih
    | some q =>
      have h1 : isDecl a = true := by unfold isDecl; rw [hd]; rfl
      rw [h1, if_pos rfl]
      dsimp only [Option.map_some]
      rw [List.find?_cons, List.find?_cons]
      dsimp only
      cases hu : (a.2 == u) with
      | true => simp [declaredPrefix_some hd]
      | false => exact ih

/-- The root of a plain document is reproduced. -/
theorem goodRoot_of {as : List (Str × Str)} {i : Info} (hs : AttrsSane as) (hr : resolveInfo [] c!"REQ-IF" as = some i)
    (hn : i.ns = some reqifNs) (hf : rootFits i = true) : GoodRoot (tidyAttrs as) := by
  have hr' := resolveInfo_tidy hr
  have hri := rootInfo_of hr'
  obtain ⟨-, -, hm, hns⟩ := resolveInfo_root hr'
  have hdef := hns _ hn
  have hmap : i.nsmap = declsOf (tidyAttrs as) := by rw [hri.nsmap, stored_eq (fun a ha => (tidyAttrs_mem ha).2)]
  unfold rootFits at hf
  rw [Bool.and_eq_true, Bool.and_eq_true, ← hm, hmap, List.all_eq_true] at hf
  obtain ⟨⟨-, hf1⟩, hf2⟩ := hf
  have alone : ∀ p, (p = c!"xsi" ∨ ∃ a ∈ i.attrs, a.ns.isSome = true ∧ a.pfx = some p) → Alone (tidyAttrs as) p := by
    intro p hp u hu a ha hd hau
    have h1 : ((some p, u) : Option Str × Str) ∈ declsOf (tidyAttrs as) := get_mem (by rw [get_declsOf]; exact hu)
    have h2 := hf2 _ h1
    unfold isPrefixDecl at hd
    cases hq : declaredPrefix a.1 with
    | none => rw [hq] at hd; cases hd
    | some q =>
      rw [hq] at hd
      cases q with
      | none => cases hd
      | some q =>
        have h3 := decl_mem ha hq
        have hused : (some p == some c!"xsi" || usedByAttrs i (some p, u)) = true := by
          rw [Bool.or_eq_true]
          rcases hp with rfl | ⟨b, hb, h4, h5⟩
          · exact .inl (by decide)
          · refine .inr ?_
            unfold usedByAttrs
            rw [List.any_eq_true]
            exact ⟨b, hb, by rw [h4, h5]; simp⟩
        dsimp only at h2
        rw [hused] at h2
        simp only [Option.isNone_some, Bool.not_true, Bool.false_or, List.all_eq_true] at h2
        have h4 := h2 _ h3
        simp only [Option.isNone_some, Bool.false_or, hau, bne_self_eq_false, beq_iff_eq, Option.some.injEq] at h4
        rw [declaredPrefix_some hq, h4]
        rfl
  refine ⟨?_, ⟨i, hr', ?_⟩, ?_, fun a ha => (tidyAttrs_mem ha).2, ?_, alone _ (.inl rfl), ?_⟩
  · intro a ha
    exact hs a (tidyAttrs_mem ha).1
  · intro u hu
    rw [hdef] at hu
    cases hu
    decide
  · unfold tidyAttrs
    rw [List.filter_append, List.filter_append, List.filter_filter, List.filter_filter, List.filter_filter, List.filter_filter]
    have e1 : as.filter (fun a => isDecl a && !isDecl a) = [] := by
      rw [List.filter_eq_nil_iff]
      intro a _
      cases isDecl a <;> simp
    have e2 : as.filter (fun a => !isDecl a && (isDecl a && a.1 != c!"xmlns:xml")) = [] := by
      rw [List.filter_eq_nil_iff]
      intro a _
      cases isDecl a <;> simp
    rw [e1, e2, List.append_nil, List.nil_append]
    congr 1
    · apply List.filter_congr
      intro a _
      cases isDecl a <;> simp
    · apply List.filter_congr
      intro a _
      cases isDecl a <;> simp
  · intro u hu
    have hu : NsMap.get? (declsOf (tidyAttrs as)) none = some u := by rw [get_declsOf]; exact hu
    rw [← hmap, hdef] at hu
    cases hu
    rw [first_decl]
    cases hx : (declsOf (tidyAttrs as)).find? (fun d => d.2 == reqifNs) with
    | none => rw [hx] at hf1; cases hf1
    | some d =>
      rw [hx] at hf1
      have : d.1 = none := by simpa using hf1
      rw [Option.map_some, this]
      rfl
  · intro a ha hd p l hq
    have hpl : a ∈ plainOf (tidyAttrs as) := by
      unfold plainOf
      rw [List.mem_filter]
      refine ⟨ha, ?_⟩
      unfold isDecl at hd
      cases hq : declaredPrefix a.1 with
      | none => rfl
      | some q => rw [hq] at hd; cases hd
    obtain ⟨x, hx, hxa⟩ := resolveAttrs_get hri.attrs a hpl
    rcases resolveAttr_cases hxa with ⟨e, -⟩ | ⟨l', -, e, -⟩ | ⟨p', l', u, -, e, -, -, rfl⟩
    · rw [hq] at e; cases e
    · rw [hq] at e
      cases e
      intro u hu
      obtain ⟨b, hb, hb2⟩ : ∃ b ∈ tidyAttrs as, b.1 = c!"xmlns:xml" := by
        unfold attrValue at hu
        rw [Option.map_eq_some_iff] at hu
        obtain ⟨b, hb, -⟩ := hu
        exact ⟨b, List.mem_of_find?_eq_some hb, by simpa using List.find?_some hb⟩
      exact absurd hb2 (tidyAttrs_mem hb).2
    · rw [hq] at e
      cases e
      exact alone p (.inr ⟨_, hx, rfl, rfl⟩)

theorem find_or {α : Type} {f g : α → Bool} {a : α} (hf : f a = true) : ∀ {l : List α}, l.find? (fun d => f d || g d) = some a →
    l.find? f = some a
  | [], h => by cases h
  | b :: l, h => by
    rw [List.find?_cons] at h ⊢
    cases hb : f b with
    | true => rw [hb, Bool.true_or] at h; exact h
    | false =>
      rw [hb, Bool.false_or] at h
      cases hg : g b with
      | true => rw [hg] at h; cases h; rw [hf] at hb; cases hb
      | false => rw [hg] at h; exact find_or hf h

theorem firstKey_filter {f : Option Str × Str → Bool} {m : NsMap} {d : Option Str × Str} (h : m.find? f = some d) :
    NsMap.firstKey (m.filter f) = d.1 := by
  rw [← List.head?_filter] at h
  cases hm : m.filter f with
  | nil => rw [hm] at h; cases h
  | cons a as => rw [hm] at h; cases h; rfl

end ReqIF.Xsd
