import Verif.Spec.Succeeds
import Verif.Proofs.Skeleton
import Verif.Proofs.Accepted
import Verif.Props.C78
import Verif.Props.C52_55
/-!
# Which trees can be anonymized
-/
set_option linter.unusedSimpArgs false
namespace ReqIF
open Spec Accept

theorem inside_kid {i : Info} {ks : List Node} {p : Node} : Inside p (.elem i ks) ↔ p = .elem i ks ∨ ∃ k ∈ ks, Inside p k := by
  constructor
  · intro h
    cases h with
    | self => exact .inl rfl
    | child hk h => exact .inr ⟨_, hk, h⟩
  · rintro (rfl | ⟨k, hk, h⟩)
    · exact .self _
    · exact .child hk h

theorem inSpace_elem {u name : Str} {i : Info} {ks : List Node} : InSpace u name (.elem i ks) ↔ inNs u name i = true := by
  unfold InSpace inNs
  constructor
  · rintro ⟨i', ks', e, h1, h2⟩
    cases e
    simp [h1, h2]
  · intro h
    simp only [Bool.and_eq_true, beq_iff_eq] at h
    exact ⟨i, ks, rfl, h.1, h.2⟩

/-- `Q` holds for every element `child` in an element `parent`; `b`: the node itself is in a
`parent`. -/
def EachIn (u parent child : Str) (Q : Node → Prop) (b : Bool) (n : Node) : Prop :=
  (b = true → InSpace u child n → Q n) ∧
  ∀ p c, Inside p n → InSpace u parent p → c ∈ p.kids → InSpace u child c → Q c

theorem eachIn_elem {u parent child : Str} {Q : Node → Prop} {b : Bool} {i : Info} {ks : List Node} :
    EachIn u parent child Q b (.elem i ks) ↔
      (b = true → inNs u child i = true → Q (.elem i ks)) ∧ ∀ k ∈ ks, EachIn u parent child Q (inNs u parent i) k := by
  unfold EachIn
  rw [inSpace_elem]
  refine and_congr_right fun _ => ?_
  constructor
  · intro h k hk
    exact ⟨fun hi hc => h _ k (.self _) (inSpace_elem.2 hi) hk hc, fun p c hp => h p c (.child hk hp)⟩
  · intro h p c hp hn hc hd
    rcases inside_kid.1 hp with rfl | ⟨k, hk, hp'⟩
    · exact (h c hc).1 (inSpace_elem.1 hn) hd
    · exact (h k hk).2 p c hp' hn hc hd

theorem eachIn_leaf {u parent child : Str} {Q : Node → Prop} {b : Bool} {n : Node} (h : ∀ i ks, n ≠ .elem i ks) :
    EachIn u parent child Q b n := by
  refine ⟨fun _ hc => ?_, fun p c hp hn => ?_⟩
  · obtain ⟨i, ks, e, -⟩ := hc
    exact absurd e (h i ks)
  · cases hp with
    | self => obtain ⟨i, ks, e, -⟩ := hn; exact absurd e (h i ks)
    | child => exact absurd rfl (h _ _)

def Begins (c : Node) : Prop := ∃ s rest, c.kids = .text s :: rest

theorem begins_textOf {i : Info} {ks : List Node} : Begins (.elem i ks) ↔ ∃ t, textOf ks = some t := by
  unfold Begins
  show (∃ s rest, ks = .text s :: rest) ↔ _
  constructor
  · rintro ⟨s, rest, rfl⟩; exact ⟨s, rfl⟩
  · rintro ⟨t, h⟩
    match ks, h with
    | .text s :: rest, _ => exact ⟨s, rest, rfl⟩

/-! ## Comments and titles -/

mutual
theorem anonText_ok (hash : Str → Nat) (u name : Str) : ∀ (b : Bool) (n : Node),
    Ok (anonText hash u name b n) ↔ EachIn u c!"REQ-IF-HEADER" name Begins b n
  | b, .elem i ks => by
    have ih := anonTextList_ok hash u name (inNs u c!"REQ-IF-HEADER" i) ks
    rw [eachIn_elem, ← ih, begins_textOf]
    simp only [anonText]
    by_cases hb : (b && inNs u name i) = true
    · rw [if_pos hb]
      simp only [Bool.and_eq_true] at hb
      simp only [hb.1, hb.2, true_implies]
      cases ht : textOf ks with
      | none => simp [ok_error]
      | some t =>
        cases anonTextList hash u name (inNs u c!"REQ-IF-HEADER" i) ks <;> simp [ok_error, ok_ok]
    · rw [if_neg hb]
      have : ∀ q : Prop, (b = true → inNs u name i = true → q) := by
        intro q h1 h2
        simp [h1, h2] at hb
      rw [and_iff_right (this _)]
      cases anonTextList hash u name (inNs u c!"REQ-IF-HEADER" i) ks <;> simp [ok_error, ok_ok]
  | b, .text s => by simp only [anonText, ok_ok, true_iff]; exact eachIn_leaf (by intro _ _ h; cases h)
  | b, .comment s => by simp only [anonText, ok_ok, true_iff]; exact eachIn_leaf (by intro _ _ h; cases h)
  | b, .pi s t => by simp only [anonText, ok_ok, true_iff]; exact eachIn_leaf (by intro _ _ h; cases h)

theorem anonTextList_ok (hash : Str → Nat) (u name : Str) : ∀ (b : Bool) (ns : List Node),
    Ok (anonTextList hash u name b ns) ↔ ∀ n ∈ ns, EachIn u c!"REQ-IF-HEADER" name Begins b n
  | b, [] => by simp [anonTextList, ok_ok]
  | b, n :: ns => by
    have h1 := anonText_ok hash u name b n
    have h2 := anonTextList_ok hash u name b ns
    simp only [List.forall_mem_cons]
    rw [← h1, ← h2]
    simp only [anonTextList]
    cases anonText hash u name b n with
    | error e => simp [ok_error]
    | ok v => cases anonTextList hash u name b ns <;> simp [ok_error, ok_ok]
end

/-! ## XHTML values -/

def Clean (c : Node) : Prop := hasComment c = false ∧ hasPI c = false

theorem clean_kid {i : Info} : ∀ {ks : List Node}, Clean (.elem i ks) → ∀ k ∈ ks, Clean k
  | [], _, k, hk => by cases hk
  | n :: ns, h, k, hk => by
    unfold Clean at h
    simp only [hasComment, hasComments, hasPI, hasPIs, Bool.or_eq_false_iff] at h
    rcases List.mem_cons.1 hk with rfl | hk'
    · exact ⟨h.1.1, h.2.1⟩
    · exact clean_kid (i := i) (ks := ns) ⟨by simp only [hasComment]; exact h.1.2, by simp only [hasPI]; exact h.2.2⟩ k hk'

theorem clean_inside {a b : Node} (h : Inside a b) : Clean b → Clean a := by
  induction h with
  | self => exact id
  | child hk _ ih => exact fun hc => ih (clean_kid hc _ hk)

theorem kid_inside {p c : Node} (h : c ∈ p.kids) : Inside c p := by
  cases p with
  | elem i ks => exact .child h (.self _)
  | _ => cases h

/-- Every element has a namespace in scope. -/
def Scoped (n : Node) : Prop := ∀ i ks, Inside (.elem i ks) n → i.nsmap ≠ []

theorem scoped_kid {i : Info} {ks : List Node} (h : Scoped (.elem i ks)) : ∀ k ∈ ks, Scoped k :=
  fun _ hk j ls hi => h j ls (.child hk hi)

mutual
theorem anonXhtml_ok (hash : Str → Nat) (u : Str) : ∀ (b : Bool) (n : Node), Scoped n →
    (Ok (anonXhtml hash u b n) ↔ EachIn u c!"ATTRIBUTE-VALUE-XHTML" c!"THE-VALUE" Clean b n)
  | b, .elem i ks, hs => by
    have ih := anonXhtmlList_ok hash u (inNs u c!"ATTRIBUTE-VALUE-XHTML" i) ks (scoped_kid hs)
    rw [eachIn_elem, ← ih]
    simp only [anonXhtml]
    by_cases hb : (b && inNs u c!"THE-VALUE" i) = true
    · rw [if_pos hb]
      simp only [Bool.and_eq_true] at hb
      simp only [hb.1, hb.2, true_implies]
      have hn : Ok (stringifyNamespacedChildren (.elem i ks)) ↔ Clean (.elem i ks) := by
        rw [namespaced_ok (t := i.tag) rfl]
        have := hs i ks (.self _)
        exact ⟨fun h => h.2, fun h => ⟨this, h⟩⟩
      have hk : Clean (.elem i ks) → Ok (anonXhtmlList hash u (inNs u c!"ATTRIBUTE-VALUE-XHTML" i) ks) := by
        intro hc
        rw [ih]
        intro k hk
        refine ⟨fun _ _ => clean_kid hc k hk, fun p c hp _ hc' _ => ?_⟩
        exact clean_inside (kid_inside hc') (clean_inside hp (clean_kid hc k hk))
      rw [and_iff_left_of_imp hk, ← hn]
      cases stringifyNamespacedChildren (.elem i ks) <;> simp [ok_error, ok_ok]
    · rw [if_neg hb]
      have : ∀ q : Prop, (b = true → inNs u c!"THE-VALUE" i = true → q) := by
        intro q h1 h2
        simp only [h1, h2, Bool.and_self, not_true] at hb
      rw [and_iff_right (this _)]
      cases anonXhtmlList hash u (inNs u c!"ATTRIBUTE-VALUE-XHTML" i) ks <;> simp [ok_error, ok_ok]
  | b, .text s, _ => by simp only [anonXhtml, ok_ok, true_iff]; exact eachIn_leaf (by intro _ _ h; cases h)
  | b, .comment s, _ => by simp only [anonXhtml, ok_ok, true_iff]; exact eachIn_leaf (by intro _ _ h; cases h)
  | b, .pi s t, _ => by simp only [anonXhtml, ok_ok, true_iff]; exact eachIn_leaf (by intro _ _ h; cases h)

theorem anonXhtmlList_ok (hash : Str → Nat) (u : Str) : ∀ (b : Bool) (ns : List Node), (∀ n ∈ ns, Scoped n) →
    (Ok (anonXhtmlList hash u b ns) ↔ ∀ n ∈ ns, EachIn u c!"ATTRIBUTE-VALUE-XHTML" c!"THE-VALUE" Clean b n)
  | b, [], _ => by simp [anonXhtmlList, ok_ok]
  | b, n :: ns, hs => by
    have h1 := anonXhtml_ok hash u b n (hs n List.mem_cons_self)
    have h2 := anonXhtmlList_ok hash u b ns (fun k hk => hs k (List.mem_cons_of_mem _ hk))
    simp only [List.forall_mem_cons]
    rw [← h1, ← h2]
    simp only [anonXhtmlList]
    cases anonXhtml hash u b n with
    | error e => simp [ok_error]
    | ok v => cases anonXhtmlList hash u b ns <;> simp [ok_error, ok_ok]
end

/-! ## The steps keep what the next ones need -/

mutual
theorem eachIn_skel {u parent child : Str} {Q : Node → Prop} (hq : ∀ n, Q (skeleton n) ↔ Q n) : ∀ (b : Bool) (n : Node),
    EachIn u parent child Q b (skeleton n) ↔ EachIn u parent child Q b n
  | b, .elem i ks => by
    have ih := eachIn_skels (u := u) (parent := parent) (child := child) hq (inNs u parent i) ks
    have hq' := hq (.elem i ks)
    simp only [skeleton] at hq' ⊢
    rw [eachIn_elem, eachIn_elem, hq']
    exact and_congr Iff.rfl ih
  | b, .text s => iff_of_true (eachIn_leaf (by intro _ _ h; cases h)) (eachIn_leaf (by intro _ _ h; cases h))
  | b, .comment s => iff_of_true (eachIn_leaf (by intro _ _ h; cases h)) (eachIn_leaf (by intro _ _ h; cases h))
  | b, .pi s t => iff_of_true (eachIn_leaf (by intro _ _ h; cases h)) (eachIn_leaf (by intro _ _ h; cases h))

theorem eachIn_skels {u parent child : Str} {Q : Node → Prop} (hq : ∀ n, Q (skeleton n) ↔ Q n) : ∀ (b : Bool) (ns : List Node),
    (∀ n ∈ skeletons ns, EachIn u parent child Q b n) ↔ ∀ n ∈ ns, EachIn u parent child Q b n
  | b, [] => by simp [skeletons]
  | b, n :: ns => by
    simp only [skeletons, List.forall_mem_cons]
    rw [eachIn_skel hq b n, eachIn_skels hq b ns]
end

theorem eachIn_same {u parent child : Str} {Q : Node → Prop} (hq : ∀ n, Q (skeleton n) ↔ Q n) {m n : Node}
    (h : skeleton m = skeleton n) (b : Bool) : EachIn u parent child Q b m ↔ EachIn u parent child Q b n := by
  rw [← eachIn_skel hq b m, ← eachIn_skel hq b n, h]

theorem begins_skel (n : Node) : Begins (skeleton n) ↔ Begins n := by
  unfold Begins
  rw [skel_kids]
  cases n.kids with
  | nil => simp
  | cons k ks => cases k <;> simp [skeleton]

theorem clean_skel (n : Node) : Clean (skeleton n) ↔ Clean n := by
  unfold Clean
  rw [skel_comment, skel_pi]

mutual
theorem anonText_skel (hash : Str → Nat) (u name : Str) : ∀ (b : Bool) (n n' : Node),
    anonText hash u name b n = .ok n' → skeleton n' = skeleton n
  | b, .elem i ks, n', h => by
    simp only [anonText] at h
    have ih := anonTextList_skel hash u name (inNs u c!"REQ-IF-HEADER" i) ks
    split at h
    · split at h
      · cases h
      · rename_i t ht
        split at h
        · cases h
        · rename_i ks' hk
          cases h
          have := ih ks' hk
          simp only [skeleton]
          congr 1
          match ks, ht with
          | .text s :: rest, _ =>
            match ks', this with
            | .text s' :: rest', e => simpa [setText, skeletons, skeleton] using e
            | .elem _ _ :: _, e => simp [skeletons, skeleton] at e
            | .comment _ :: _, e => simp [skeletons, skeleton] at e
            | .pi _ _ :: _, e => simp [skeletons, skeleton] at e
            | [], e => simp [skeletons] at e
    · split at h
      · cases h
      · rename_i ks' hk
        cases h
        simp only [skeleton]
        rw [ih ks' hk]
  | b, .text s, n', h => by cases h; rfl
  | b, .comment s, n', h => by cases h; rfl
  | b, .pi s t, n', h => by cases h; rfl

theorem anonTextList_skel (hash : Str → Nat) (u name : Str) : ∀ (b : Bool) (ns ns' : List Node),
    anonTextList hash u name b ns = .ok ns' → skeletons ns' = skeletons ns
  | b, [], ns', h => by cases h; rfl
  | b, n :: ns, ns', h => by
    simp only [anonTextList] at h
    split at h
    · cases h
    · rename_i n1 h1
      split at h
      · cases h
      · rename_i ns1 h2
        cases h
        simp only [skeletons]
        rw [anonText_skel hash u name b n n1 h1, anonTextList_skel hash u name b ns ns1 h2]
end

theorem mapAttr_blank {key : Str} {f : Str → Str} (hk : key ≠ c!"ACCURACY") (as : List Attr) :
    (mapAttr key f as).map blank = as.map blank := by
  unfold mapAttr
  rw [List.map_map]
  apply List.map_congr_left
  intro a _
  simp only [Function.comp]
  split
  · rename_i h
    have hn : ¬ (a.ns = none ∧ a.name = c!"ACCURACY") := by
      rintro ⟨h1, h2⟩
      apply hk
      have : a.key = key := by simpa using h
      rw [← this]
      unfold Attr.key
      rw [h1, h2]
      rfl
    unfold blank
    rw [if_neg hn, if_neg hn]
  · rfl

mutual
theorem anonAttr_skel (hash : Str → Nat) (u name : Str) {key : Str} (hk : key ≠ c!"ACCURACY") : ∀ n : Node,
    skeleton (anonAttr hash u name key n) = skeleton n
  | .elem i ks => by
    simp only [anonAttr, skeleton]
    rw [anonAttrList_skel hash u name hk ks]
    split
    · simp only [mapAttr_blank hk]
    · rfl
  | .text s => rfl
  | .comment s => rfl
  | .pi s t => rfl

theorem anonAttrList_skel (hash : Str → Nat) (u name : Str) {key : Str} (hk : key ≠ c!"ACCURACY") : ∀ ns : List Node,
    skeletons (anonAttrList hash u name key ns) = skeletons ns
  | [] => rfl
  | n :: ns => by
    simp only [anonAttrList, skeletons]
    rw [anonAttr_skel hash u name hk n, anonAttrList_skel hash u name hk ns]
end

mutual
theorem scoped_skel : ∀ n : Node, Scoped (skeleton n) ↔ Scoped n
  | .elem i ks => by
    have ih := scoped_skels ks
    have key : ∀ (j : Info) (ls : List Node), Scoped (.elem j ls) ↔ j.nsmap ≠ [] ∧ ∀ k ∈ ls, Scoped k := by
      intro j ls
      constructor
      · intro h
        exact ⟨h j ls (.self _), scoped_kid h⟩
      · rintro ⟨h1, h2⟩ j' ls' hi
        rcases inside_kid.1 hi with e | ⟨k, hk, hi'⟩
        · cases e; exact h1
        · exact h2 k hk j' ls' hi'
    simp only [skeleton]
    rw [key, key]
    exact and_congr Iff.rfl ih
  | .text s => iff_of_true (by intro i ks h; cases h) (by intro i ks h; cases h)
  | .comment s => iff_of_true (by intro i ks h; cases h) (by intro i ks h; cases h)
  | .pi s t => iff_of_true (by intro i ks h; cases h) (by intro i ks h; cases h)

theorem scoped_skels : ∀ ns : List Node, (∀ n ∈ skeletons ns, Scoped n) ↔ ∀ n ∈ ns, Scoped n
  | [] => by simp [skeletons]
  | n :: ns => by
    simp only [skeletons, List.forall_mem_cons]
    rw [scoped_skel n, scoped_skels ns]
end

/-- Which trees can be anonymized. -/
theorem anonymizeTree_ok (hash : Str → Nat) (root : Node) (hs : Scoped root) :
    Ok (anonymizeTree hash root) ↔ ∃ u, root.nsmap.get? none = some u ∧ HeaderFilled u root ∧ ValuesPlain u root := by
  unfold anonymizeTree
  cases hu : root.nsmap.get? none with
  | none => simp [ok_error]
  | some u =>
    simp only [Option.some.injEq, exists_eq_left']
    have hc := anonText_ok hash u c!"COMMENT" false root
    have ht := anonText_ok hash u c!"TITLE" false root
    have hh : HeaderFilled u root ↔ EachIn u c!"REQ-IF-HEADER" c!"COMMENT" Begins false root ∧
        EachIn u c!"REQ-IF-HEADER" c!"TITLE" Begins false root := by
      unfold HeaderFilled EachIn
      constructor
      · intro h
        exact ⟨⟨fun e => (by cases e), fun p c h1 h2 h3 h4 => h p c h1 h2 h3 (.inl h4)⟩,
          ⟨fun e => (by cases e), fun p c h1 h2 h3 h4 => h p c h1 h2 h3 (.inr h4)⟩⟩
      · rintro ⟨⟨-, h1⟩, ⟨-, h2⟩⟩ p c h3 h4 h5 (h6 | h6)
        · exact h1 p c h3 h4 h5 h6
        · exact h2 p c h3 h4 h5 h6
    have hv : ValuesPlain u root ↔ EachIn u c!"ATTRIBUTE-VALUE-XHTML" c!"THE-VALUE" Clean false root := by
      unfold ValuesPlain EachIn Clean
      simp
    rw [hh, hv, ← hc]
    cases h1 : anonText hash u c!"COMMENT" false root with
    | error e => simp [ok_error]
    | ok r1 =>
      have s1 := anonText_skel hash u _ _ _ _ h1
      dsimp only
      rw [← eachIn_same begins_skel s1, ← anonText_ok hash u c!"TITLE" false r1]
      cases h2 : anonText hash u c!"TITLE" false r1 with
      | error e => simp [ok_error]
      | ok r2 =>
        have s2 := (anonText_skel hash u _ _ _ _ h2).trans s1
        dsimp only
        simp only [ok_ok, true_and]
        have s3 : skeleton (anonAttr hash u c!"ATTRIBUTE-VALUE-STRING" c!"THE-VALUE"
            (anonAttr hash u c!"SPECIFICATION" c!"LONG-NAME" r2)) = skeleton root := by
          rw [anonAttr_skel _ _ _ (by decide), anonAttr_skel _ _ _ (by decide), s2]
        rw [← eachIn_same clean_skel s3]
        exact anonXhtml_ok hash u false _ (by rw [← scoped_skel, s3, scoped_skel]; exact hs)

/-! ## Namespaces in scope -/

theorem push_nonempty {own m : NsMap} (h : m ≠ []) : NsMap.push own m ≠ [] := by
  unfold NsMap.push
  cases own with
  | nil =>
    cases m with
    | nil => exact absurd rfl h
    | cons a l => simp
  | cons a l => simp

theorem resolveInfo_nonempty {m : NsMap} {q : Str} {as : List (Str × Str)} {i : Info} (hm : m ≠ [])
    (h : resolveInfo m q as = some i) : i.nsmap ≠ [] := by
  unfold resolveInfo at h
  dsimp only at h
  split at h
  · split at h
    · split at h
      · cases h; exact push_nonempty hm
      · cases h
    · cases h
  · cases h

mutual
theorem resolve_scoped : ∀ (m : NsMap) (x : Xml) (n : Node), m ≠ [] → resolve m x = some n → Scoped n
  | m, .elem q as ks, n, hm, h => by
    rw [resolve] at h
    split at h
    · cases h
    · rename_i i hi
      split at h
      · cases h
      · rename_i ns hns
        cases h
        have h1 := resolveInfo_nonempty hm hi
        have h2 := resolveList_scoped i.nsmap ks ns h1 hns
        intro j ls hin
        rcases inside_kid.1 hin with e | ⟨k, hk, hin'⟩
        · cases e; exact h1
        · exact h2 k hk j ls hin'
  | m, .text s, n, _, h => by rw [resolve] at h; cases h; intro i ks h; cases h
  | m, .comment s, n, _, h => by rw [resolve] at h; cases h; intro i ks h; cases h
  | m, .pi s t, n, _, h => by rw [resolve] at h; cases h; intro i ks h; cases h

theorem resolveList_scoped : ∀ (m : NsMap) (xs : List Xml) (ns : List Node), m ≠ [] → resolveList m xs = some ns → ∀ n ∈ ns, Scoped n
  | m, [], ns, _, h => by rw [resolveList] at h; cases h; intro n hn; cases hn
  | m, x :: xs, ns, hm, h => by
    rw [resolveList] at h
    split at h
    · rename_i n ns' h1 h2
      cases h
      rw [List.forall_mem_cons]
      exact ⟨resolve_scoped m x n hm h1, resolveList_scoped m xs ns' hm h2⟩
    · cases h
end

theorem resolve_root {m : NsMap} {x : Xml} {i : Info} {ks : List Node} (h : resolve m x = some (.elem i ks)) (hi : i.nsmap ≠ []) :
    Scoped (.elem i ks) := by
  cases x with
  | elem q as xs =>
    rw [resolve] at h
    split at h
    · cases h
    · split at h
      · cases h
      · rename_i ns hns
        cases h
        have h2 := resolveList_scoped i.nsmap xs ks hi hns
        intro j ls hin
        rcases inside_kid.1 hin with e | ⟨k, hk, hin'⟩
        · cases e; exact hi
        · exact h2 k hk j ls hin'
  | text s => rw [resolve] at h; cases h
  | comment s => rw [resolve] at h; cases h
  | pi s t => rw [resolve] at h; cases h

theorem resolveList_first : ∀ {xs : List Xml} {ns : List Node} {r : Node}, resolveList [] xs = some ns → firstElem ns = some r →
    ∃ x i ks, r = .elem i ks ∧ resolve [] x = some r
  | [], ns, r, h, hf => by rw [resolveList] at h; cases h; cases hf
  | x :: xs, ns, r, h, hf => by
    rw [resolveList] at h
    split at h
    · rename_i n ns' h1 h2
      cases h
      cases n with
      | elem i ks => cases hf; exact ⟨x, i, ks, rfl, h1⟩
      | text s => exact resolveList_first h2 hf
      | comment s => exact resolveList_first h2 hf
      | pi s t => exact resolveList_first h2 hf
    · cases h

/-- In a document whose root declares a namespace every element has one in scope. -/
theorem readDoc_scoped {t : Str} {d : Doc} (h : readDoc t = some d) (hn : d.root.nsmap ≠ []) : Scoped d.root := by
  unfold readDoc at h
  split at h
  · cases h
  · split at h
    · cases h
    · rename_i ns hns
      split at h
      · cases h
      · rename_i r hf
        cases h
        obtain ⟨x, i, ks, e, hx⟩ := resolveList_first hns hf
        subst e
        exact resolve_root hx hn

/-- Which texts can be anonymized. -/
theorem anonymize_ok (hash : Str → Nat) (print : Doc → Str) (src : ByteArray) :
    (∃ out, anonymize hash print (.ok src) = .ok out) ↔ ∃ s, decodeUtf8 src = .ok s ∧ Anonymizable (normEol s) := by
  unfold anonymize Anonymizable
  dsimp only
  cases decodeUtf8 src with
  | error e => simp
  | ok s =>
    simp only [Except.ok.injEq, exists_eq_left']
    cases hd : readDoc (normEol s) with
    | none => simp
    | some d =>
      simp only [Option.some.injEq, exists_and_left, exists_eq_left']
      by_cases hn : d.root.nsmap = []
      · have e : anonymizeTree hash d.root = .error .keyError := by
          unfold anonymizeTree
          rw [hn]
          rfl
        rw [e, hn]
        simp [NsMap.get?]
      · have := anonymizeTree_ok hash d.root (readDoc_scoped hd hn)
        rw [← this]
        cases anonymizeTree hash d.root <;> simp [ok_error, ok_ok]

end ReqIF
