import Verif.Proofs.ReadSane
import Verif.Proofs.SmallDocs
import Verif.Proofs.Final
import Verif.Proofs.ParseInv
import Verif.Spec.Inside
/-! Elements inside a document that was read: their names and the namespaces they know. -/
namespace ReqIF.Spec

/-- Names, attributes and namespaces of an element inside a tree whose declarations satisfy `P`. -/
structure InfoFrom (P : Option Str × Str → Prop) (i : Info) : Prop where
  name : isNCName i.name = true
  attrs : ∀ a ∈ i.attrs, isNCName a.name = true ∧ (a.ns = none → a.name ≠ c!"xmlns") ∧
    (a.ns = none ∨ (a.ns = some xmlNs ∧ a.pfx = some c!"xml") ∨ ∃ p u, a.ns = some u ∧ a.pfx = some p ∧ P (some p, u))
  maps : ∀ d ∈ i.nsmap, P d
  defs : ∀ d ∈ i.nsdefs, P d

theorem get_in {m : NsMap} {p : Option Str} {u : Str} (h : m.get? p = some u) : (p, u) ∈ m := by
  unfold NsMap.get? at h
  cases hf : m.find? (fun d => d.1 == p) with
  | none => rw [hf] at h; cases h
  | some d =>
    rw [hf] at h
    cases h
    have h1 := List.find?_some hf
    simp only [beq_iff_eq] at h1
    rw [← h1]
    exact List.mem_of_find?_eq_some hf

theorem resolveAttr_from {P : Option Str × Str → Prop} {m : NsMap} (hm : ∀ d ∈ m, P d) {a : Str × Str} {b : Attr}
    (h : resolveAttr m a = some b) : b.ns = none ∨ (b.ns = some xmlNs ∧ b.pfx = some c!"xml") ∨ ∃ p u, b.ns = some u ∧ b.pfx = some p ∧ P (some p, u) := by
  unfold resolveAttr at h
  split at h
  · cases h; exact .inl rfl
  · split at h
    · rename_i hp; cases h; exact .inr (.inl ⟨rfl, by rw [hp]⟩)
    · split at h
      · cases h
      · rename_i u hu
        cases h
        exact .inr (.inr ⟨_, u, rfl, rfl, hm _ (get_in hu)⟩)

theorem resolveAttrs_from {P : Option Str × Str → Prop} {m : NsMap} (hm : ∀ d ∈ m, P d) : ∀ {as : List (Str × Str)} {bs : List Attr},
    resolveAttrs m as = some bs → ∀ b ∈ bs, b.ns = none ∨ (b.ns = some xmlNs ∧ b.pfx = some c!"xml") ∨ ∃ p u, b.ns = some u ∧ b.pfx = some p ∧ P (some p, u)
  | [], bs, h, b, hb => by cases h; cases hb
  | a :: as, bs, h, b, hb => by
    rw [resolveAttrs] at h
    split at h
    · rename_i x xs h1 h2
      cases h
      rcases List.mem_cons.1 hb with rfl | hb'
      · exact resolveAttr_from hm h1
      · exact resolveAttrs_from hm h2 b hb'
    · cases h

theorem resolveInfo_from {P : Option Str × Str → Prop} {m : NsMap} {q : Str} {as : List (Str × Str)} {i : Info} (hm : ∀ d ∈ m, P d)
    (hs : i.Sane) (hd : ∀ d ∈ i.nsdefs, P d) (h : resolveInfo m q as = some i) : InfoFrom P i := by
  unfold resolveInfo at h
  dsimp only at h
  split at h
  · split at h
    · rename_i ns pfx l bs hn hb
      split at h
      · cases h
        have hmap : ∀ d ∈ NsMap.push (storedDecls (declsOf as)) m, P d := by
          intro d hd'
          unfold NsMap.push at hd'
          rcases List.mem_append.1 hd' with hd' | hd'
          · exact hd d hd'
          · exact hm d (List.mem_filter.1 hd').1
        refine ⟨hs.name, ?_, hmap, hd⟩
        intro a ha
        obtain ⟨h1, -, -, -, h2⟩ := hs.attrs a ha
        exact ⟨h1, h2, resolveAttrs_from hmap hb a ha⟩
      · cases h
    · cases h
  · cases h

mutual
theorem resolve_from {P : Option Str × Str → Prop} : ∀ (m : NsMap) (x : Xml) (n : Node), (∀ d ∈ m, P d) → n.Sane →
    (∀ i ∈ infosOf n, ∀ d ∈ i.nsdefs, P d) → resolve m x = some n → ∀ i ∈ infosOf n, InfoFrom P i
  | m, .elem q as ks, n, hm, hs, hd, h => by
    rw [resolve] at h
    split at h
    · cases h
    · rename_i i hi
      split at h
      · cases h
      · rename_i ns hns
        cases h
        rw [Node.Sane] at hs
        rw [infosOf] at hd ⊢
        have h1 := resolveInfo_from hm hs.1 (hd i (by simp)) hi
        intro j hj
        rcases List.mem_cons.1 hj with rfl | hj'
        · exact h1
        · exact resolveList_from i.nsmap ks ns h1.maps hs.2.2 (fun j hj => hd j (by simp [hj])) hns j hj'
  | m, .text s, n, _, _, _, h => by rw [resolve] at h; cases h; intro i hi; cases hi
  | m, .comment s, n, _, _, _, h => by rw [resolve] at h; cases h; intro i hi; cases hi
  | m, .pi a b, n, _, _, _, h => by rw [resolve] at h; cases h; intro i hi; cases hi

theorem resolveList_from {P : Option Str × Str → Prop} : ∀ (m : NsMap) (xs : List Xml) (ns : List Node), (∀ d ∈ m, P d) → SaneNodes ns →
    (∀ i ∈ infosOfAll ns, ∀ d ∈ i.nsdefs, P d) → resolveList m xs = some ns → ∀ i ∈ infosOfAll ns, InfoFrom P i
  | m, [], ns, _, _, _, h => by rw [resolveList] at h; cases h; intro i hi; cases hi
  | m, x :: xs, ns, hm, hs, hd, h => by
    rw [resolveList] at h
    split at h
    · rename_i n ns' h1 h2
      cases h
      rw [SaneNodes] at hs
      rw [infosOfAll] at hd ⊢
      intro i hi
      rcases List.mem_append.1 hi with hi | hi
      · exact resolve_from m x n hm hs.1 (fun j hj => hd j (by simp [hj])) h1 i hi
      · exact resolveList_from m xs ns' hm hs.2 (fun j hj => hd j (by simp [hj])) h2 i hi
    · cases h
end

/-- No stored declaration is one of `xml`. -/
theorem resolveInfo_defs {m : NsMap} {q : Str} {as : List (Str × Str)} {i : Info} (h : resolveInfo m q as = some i) :
    ∀ d ∈ i.nsdefs, d.1 ≠ some c!"xml" := by
  unfold resolveInfo at h
  dsimp only at h
  split at h
  · split at h
    · split at h
      · cases h
        intro d hd
        have := (List.mem_filter.1 hd).2
        simpa using this
      · cases h
    · cases h
  · cases h

mutual
theorem resolve_defs : ∀ (m : NsMap) (x : Xml) (n : Node), resolve m x = some n → ∀ i ∈ infosOf n, ∀ d ∈ i.nsdefs, d.1 ≠ some c!"xml"
  | m, .elem q as ks, n, h => by
    rw [resolve] at h
    split at h
    · cases h
    · rename_i i hi
      split at h
      · cases h
      · rename_i ns hns
        cases h
        rw [infosOf]
        intro j hj
        rcases List.mem_cons.1 hj with rfl | hj'
        · exact resolveInfo_defs hi
        · exact resolveList_defs i.nsmap ks ns hns j hj'
  | m, .text s, n, h => by rw [resolve] at h; cases h; intro i hi; cases hi
  | m, .comment s, n, h => by rw [resolve] at h; cases h; intro i hi; cases hi
  | m, .pi a b, n, h => by rw [resolve] at h; cases h; intro i hi; cases hi

theorem resolveList_defs : ∀ (m : NsMap) (xs : List Xml) (ns : List Node), resolveList m xs = some ns →
    ∀ i ∈ infosOfAll ns, ∀ d ∈ i.nsdefs, d.1 ≠ some c!"xml"
  | m, [], ns, h => by rw [resolveList] at h; cases h; intro i hi; cases hi
  | m, x :: xs, ns, h => by
    rw [resolveList] at h
    split at h
    · rename_i n ns' h1 h2
      cases h
      rw [infosOfAll]
      intro i hi
      rcases List.mem_append.1 hi with hi | hi
      · exact resolve_defs m x n h1 i hi
      · exact resolveList_defs m xs ns' h2 i hi
    · cases h
end

mutual
/-- The maps of a sane tree are names. -/
theorem sane_infos : ∀ {n : Node}, n.Sane → ∀ i ∈ infosOf n, i.Sane
  | .elem i ks, h => by
    rw [Node.Sane] at h
    rw [infosOf]
    intro j hj
    rcases List.mem_cons.1 hj with rfl | hj'
    · exact h.1
    · exact saneNodes_infos h.2.2 j hj'
  | .text _, _ => by intro i hi; cases hi
  | .comment _, _ => by intro i hi; cases hi
  | .pi _ _, _ => by intro i hi; cases hi

theorem saneNodes_infos : ∀ {ns : List Node}, SaneNodes ns → ∀ i ∈ infosOfAll ns, i.Sane
  | [], _ => by intro i hi; cases hi
  | n :: ns, h => by
    rw [SaneNodes] at h
    rw [infosOfAll]
    intro i hi
    rcases List.mem_append.1 hi with hi | hi
    · exact sane_infos h.1 i hi
    · exact saneNodes_infos h.2 i hi
end

/-- The declarations of an element stand in its map. -/
theorem resolveInfo_defs_maps {m : NsMap} {q : Str} {as : List (Str × Str)} {i : Info} (h : resolveInfo m q as = some i) :
    ∀ d ∈ i.nsdefs, d ∈ i.nsmap := by
  unfold resolveInfo at h
  dsimp only at h
  split at h
  · split at h
    · split at h
      · cases h
        intro d hd
        exact List.mem_append_left _ hd
      · cases h
    · cases h
  · cases h

mutual
theorem resolve_defs_maps : ∀ (m : NsMap) (x : Xml) (n : Node), resolve m x = some n → ∀ i ∈ infosOf n, ∀ d ∈ i.nsdefs, d ∈ i.nsmap
  | m, .elem q as ks, n, h => by
    rw [resolve] at h
    split at h
    · cases h
    · rename_i i hi
      split at h
      · cases h
      · rename_i ns hns
        cases h
        rw [infosOf]
        intro j hj
        rcases List.mem_cons.1 hj with rfl | hj'
        · exact resolveInfo_defs_maps hi
        · exact resolveList_defs_maps i.nsmap ks ns hns j hj'
  | m, .text s, n, h => by rw [resolve] at h; cases h; intro i hi; cases hi
  | m, .comment s, n, h => by rw [resolve] at h; cases h; intro i hi; cases hi
  | m, .pi a b, n, h => by rw [resolve] at h; cases h; intro i hi; cases hi

theorem resolveList_defs_maps : ∀ (m : NsMap) (xs : List Xml) (ns : List Node), resolveList m xs = some ns →
    ∀ i ∈ infosOfAll ns, ∀ d ∈ i.nsdefs, d ∈ i.nsmap
  | m, [], ns, h => by rw [resolveList] at h; cases h; intro i hi; cases hi
  | m, x :: xs, ns, h => by
    rw [resolveList] at h
    split at h
    · rename_i n ns' h1 h2
      cases h
      rw [infosOfAll]
      intro i hi
      rcases List.mem_append.1 hi with hi | hi
      · exact resolve_defs_maps m x n h1 i hi
      · exact resolveList_defs_maps m xs ns' h2 i hi
    · cases h
end

theorem resolveList_first : ∀ {xs : List Xml} {ns : List Node} {r : Node}, resolveList [] xs = some ns → firstElem ns = some r → ∃ x, resolve [] x = some r
  | [], ns, r, h, hf => by rw [resolveList] at h; cases h; cases hf
  | x :: xs, ns, r, h, hf => by
    rw [resolveList] at h
    split at h
    · rename_i n ns' h1 h2
      cases h
      cases n with
      | elem j ks => simp only [firstElem] at hf; cases hf; exact ⟨x, h1⟩
      | text s => exact resolveList_first h2 hf
      | comment s => exact resolveList_first h2 hf
      | pi t d => exact resolveList_first h2 hf
    · cases h

theorem readDoc_resolve {t : Str} {d : Doc} (h : readDoc t = some d) : ∃ x, resolve [] x = some d.root := by
  unfold readDoc at h
  split at h
  · cases h
  · split at h
    · cases h
    · rename_i ns hns
      split at h
      · cases h
      · rename_i r hf
        cases h
        exact resolveList_first hns hf

/-- A declaration of a name other than `xml` for a namespace with property `Q`. -/
def DeclOf (Q : Str → Prop) (d : Option Str × Str) : Prop := (∀ p, d.1 = some p → isNCName p = true ∧ p ≠ c!"xml") ∧ Q d.2

theorem readDoc_from {t : Str} {d : Doc} (h : readDoc t = some d) {Q : Str → Prop} (hq : ∀ u ∈ namespaceNames d.root, Q u) :
    ∀ i ∈ infosOf d.root, InfoFrom (DeclOf Q) i := by
  obtain ⟨x, hx⟩ := readDoc_resolve h
  obtain ⟨hs, -⟩ := readDoc_sane h
  refine resolve_from [] x _ (by intro d hd; cases hd) hs ?_ hx
  intro i hi e he
  refine ⟨?_, hq _ (List.mem_flatMap.2 ⟨i, hi, List.mem_map.2 ⟨e, he, rfl⟩⟩)⟩
  intro p hp
  refine ⟨((sane_infos hs i hi).maps e (resolve_defs_maps [] x _ hx i hi e he)).1 p hp, ?_⟩
  rintro rfl
  exact resolve_defs [] x _ hx i hi e he hp

/-! ## The tree the parser looks at -/

theorem InfoFrom.bare {P : Option Str × Str → Prop} {i : Info} (h : InfoFrom P i) : InfoFrom P { i with ns := none, pfx := none } :=
  ⟨h.name, h.attrs, h.maps, h.defs⟩

mutual
theorem stripTags_from {P : Option Str × Str → Prop} (full : Bool) : ∀ {n n' : Node}, stripTags full n = .ok n' → (∀ i ∈ infosOf n, InfoFrom P i) →
    ∀ i ∈ infosOf n', InfoFrom P i
  | .text s, n', h, _ => by rw [stripTags] at h; cases h; intro i hi; cases hi
  | .comment s, n', h, _ => by rw [stripTags] at h; cases h; intro i hi; cases hi
  | .pi _ _, n', h, _ => by rw [stripTags] at h; split at h <;> cases h
  | .elem i ks, n', h, hp => by
    rw [stripTags] at h
    rw [infosOf] at hp
    split at h
    · cases h
    · rename_i ks' hk
      have ih := stripTagsList_from full hk (fun j hj => hp j (by simp [hj]))
      split at h
      · cases h
        rw [infosOf]
        intro j hj
        rcases List.mem_cons.1 hj with rfl | hj'
        · exact hp _ (by simp)
        · exact ih j hj'
      · cases h
        rw [infosOf]
        intro j hj
        rcases List.mem_cons.1 hj with rfl | hj'
        · exact (hp i (by simp)).bare
        · exact ih j hj'

theorem stripTagsList_from {P : Option Str × Str → Prop} (full : Bool) : ∀ {ns ns' : List Node}, stripTagsList full ns = .ok ns' →
    (∀ i ∈ infosOfAll ns, InfoFrom P i) → ∀ i ∈ infosOfAll ns', InfoFrom P i
  | [], ns', h, _ => by rw [stripTagsList] at h; cases h; intro i hi; cases hi
  | n :: ns, ns', h, hp => by
    rw [stripTagsList] at h
    rw [infosOfAll] at hp
    split at h
    · cases h
    · rename_i n' h1
      split at h
      · cases h
      · rename_i ns'' h2
        cases h
        rw [infosOfAll]
        intro i hi
        rcases List.mem_append.1 hi with hi | hi
        · exact stripTags_from full h1 (fun j hj => hp j (by simp [hj])) i hi
        · exact stripTagsList_from full h2 (fun j hj => hp j (by simp [hj])) i hi
end

mutual
theorem cleanup_from {P : Option Str × Str → Prop} : ∀ (m : NsMap) (n : Node), (∀ d ∈ m, P d) → (∀ i ∈ infosOf n, InfoFrom P i) →
    ∀ i ∈ infosOf (cleanup m n), InfoFrom P i
  | m, .elem i ks, hm, hp => by
    rw [infosOf] at hp
    rw [cleanup, infosOf]
    have h1 := hp i (by simp)
    have hown : ∀ d ∈ i.nsdefs.filter (fun d => Node.usesPfx d.1 false (.elem i ks)), P d := fun d hd => h1.defs d (List.mem_filter.1 hd).1
    have hmap : ∀ d ∈ NsMap.push (i.nsdefs.filter (fun d => Node.usesPfx d.1 false (.elem i ks))) m, P d := by
      intro d hd
      unfold NsMap.push at hd
      rcases List.mem_append.1 hd with hd | hd
      · exact hown d hd
      · exact hm d (List.mem_filter.1 hd).1
    intro j hj
    rcases List.mem_cons.1 hj with rfl | hj'
    · exact ⟨h1.name, h1.attrs, hmap, hown⟩
    · exact cleanupList_from _ ks hmap (fun k hk => hp k (by simp [hk])) j hj'
  | m, .text s, _, _ => by rw [cleanup]; intro i hi; cases hi; all_goals simp
  | m, .comment s, _, _ => by rw [cleanup]; intro i hi; cases hi; all_goals simp
  | m, .pi _ _, _, _ => by rw [cleanup]; intro i hi; cases hi; all_goals simp

theorem cleanupList_from {P : Option Str × Str → Prop} : ∀ (m : NsMap) (ns : List Node), (∀ d ∈ m, P d) → (∀ i ∈ infosOfAll ns, InfoFrom P i) →
    ∀ i ∈ infosOfAll (cleanupList m ns), InfoFrom P i
  | m, [], _, _ => by rw [cleanupList]; intro i hi; cases hi
  | m, n :: ns, hm, hp => by
    rw [infosOfAll] at hp
    rw [cleanupList, infosOfAll]
    intro i hi
    rcases List.mem_append.1 hi with hi | hi
    · exact cleanup_from m n hm (fun j hj => hp j (by simp [hj])) i hi
    · exact cleanupList_from m ns hm (fun j hj => hp j (by simp [hj])) i hi
end

theorem strippedRoot_from {P : Option Str × Str → Prop} {n r : Node} (h : strippedRoot n = .ok r) (hp : ∀ i ∈ infosOf n, InfoFrom P i) :
    ∀ i ∈ infosOf r, InfoFrom P i := by
  unfold strippedRoot at h
  split at h
  · unfold stripNamespace at h
    split at h
    · cases h
    · rename_i n' hn
      cases h
      exact cleanup_from [] _ (by intro d hd; cases hd) (stripTags_from false hn hp)
  · cases h; exact hp

/-! ## Nodes inside -/

theorem infosOfAll_mem : ∀ {ns : List Node} {n : Node}, n ∈ ns → ∀ i ∈ infosOf n, i ∈ infosOfAll ns
  | m :: ns, n, h, i, hi => by
    rw [infosOfAll]
    rcases List.mem_cons.1 h with rfl | h'
    · exact List.mem_append_left _ hi
    · exact List.mem_append_right _ (infosOfAll_mem h' i hi)

theorem Within.infos {n m : Node} (h : Within n m) : ∀ i ∈ infosOf m, i ∈ infosOf n := by
  induction h with
  | self => exact fun i hi => hi
  | down _ hk ih =>
    intro i hi
    apply ih
    rename_i m' _ _
    cases m' with
    | elem j ks => rw [infosOf]; exact List.mem_cons_of_mem _ (infosOfAll_mem hk i hi)
    | text _ => cases hk
    | comment _ => cases hk
    | pi _ _ => cases hk

theorem Within.trans {a b c : Node} (h : Within a b) (h' : Within b c) : Within a c := by
  induction h' with
  | self => exact h
  | down _ hk ih => exact Within.down ih hk

theorem Within.child {n m k : Node} (h : Within n m) (hk : k ∈ m.children) : Within n k :=
  Within.down h (List.mem_filter.1 hk).1

theorem Within.find {n m k : Node} {tag : Str} (h : Within n m) (hk : m.find tag = some k) : Within n k := by
  unfold Node.find at hk
  exact Within.down h (List.mem_of_find?_eq_some hk)

end ReqIF.Spec
