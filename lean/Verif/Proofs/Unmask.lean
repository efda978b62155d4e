import Verif.Proofs.Disguise
/-! The anonymized tree is determined by the tree without its covered strings and by the replacements. -/
namespace ReqIF
open Spec

variable {u : Str}

theorem attrs_unmask (f : Str → Str) (c : Attr → Bool) (hc : ∀ (a : Attr) s, c { a with value := s } = c a) :
    ∀ (as bs : List Attr),
      as.map (fun a => if c a then { a with value := c!"*" } else a) =
        bs.map (fun a => if c a then { a with value := c!"*" } else a) →
      (as.filter c).length = (bs.filter c).length ∧
      (((as.filter c).map (fun a => (Except.ok (f a.value) : Py Str))) =
          ((bs.filter c).map (fun a => (Except.ok (f a.value) : Py Str))) →
        as.map (fun a => if c a then { a with value := f a.value } else a) =
          bs.map (fun a => if c a then { a with value := f a.value } else a))
  | [], [], _ => ⟨rfl, fun _ => rfl⟩
  | [], _ :: _, h => by cases h
  | _ :: _, [], h => by cases h
  | a :: as, b :: bs, h => by
    simp only [List.map_cons, List.cons.injEq] at h
    obtain ⟨h1, h2⟩ := h
    obtain ⟨hl, ih⟩ := attrs_unmask f c hc as bs h2
    have hcab : c a = c b := by
      have e : ∀ a : Attr, c (if c a then { a with value := c!"*" } else a) = c a := by
        intro a
        split
        · exact hc a _
        · rfl
      rw [← e a, ← e b, h1]
    by_cases ha : c a = true
    · have hb : c b = true := hcab ▸ ha
      rw [if_pos ha, if_pos hb] at h1
      refine ⟨by simp [ha, hb, hl], fun he => ?_⟩
      simp only [List.filter_cons, ha, hb, if_true, List.map_cons, List.cons.injEq, Except.ok.injEq] at he
      simp only [List.map_cons, ha, hb, if_true, ih he.2, he.1]
      congr 1
      cases a; cases b
      simp_all
    · have hb : ¬ c b = true := by rw [← hcab]; exact ha
      rw [if_neg ha, if_neg hb] at h1
      refine ⟨by simp [ha, hb, hl], fun he => ?_⟩
      simp only [List.filter_cons, if_neg ha, if_neg hb] at he
      simp only [List.map_cons, if_neg ha, if_neg hb, ih he, h1]

theorem coveredAttr_value (i : Info) (a : Attr) (s : Str) : coveredAttr u i { a with value := s } = coveredAttr u i a := rfl

theorem info_unmask (f : Str → Str) (i j : Info)
    (h : mapCovered u (fun _ => c!"*") i = mapCovered u (fun _ => c!"*") j) :
    (∀ n, isA u n i = isA u n j) ∧
    (i.attrs.filter (coveredAttr u i)).length = (j.attrs.filter (coveredAttr u j)).length ∧
    (((i.attrs.filter (coveredAttr u i)).map (fun a => (Except.ok (f a.value) : Py Str))) =
        ((j.attrs.filter (coveredAttr u j)).map (fun a => (Except.ok (f a.value) : Py Str))) →
      mapCovered u f i = mapCovered u f j) := by
  obtain ⟨n1, p1, m1, d1, k1, a1⟩ := i
  obtain ⟨n2, p2, m2, d2, k2, a2⟩ := j
  simp only [mapCovered, Info.mk.injEq] at h
  obtain ⟨rfl, rfl, rfl, rfl, rfl, h⟩ := h
  obtain ⟨hl, hm⟩ := attrs_unmask f (coveredAttr u ⟨n1, p1, m1, d1, k1, []⟩) (fun a s => rfl) a1 a2 h
  refine ⟨fun _ => rfl, hl, fun he => ?_⟩
  have := hm he
  simp only [mapCovered, Info.mk.injEq, true_and]
  exact this

theorem append_split {α} {a b c d : List α} (h : a ++ b = c ++ d) (hl : a.length = c.length) : a = c ∧ b = d :=
  List.append_inj h hl

mutual
/-- Trees that are equal without their covered strings have as many of them. -/
theorem unmask_length (f : Str → Str) : ∀ (p q : Option Info) (x y : Node), (∀ n, p.any (isA u n) = q.any (isA u n)) →
    mask u p x = mask u q y → (coveredAfter u f p x).length = (coveredAfter u f q y).length
  | p, q, .text _, y, hp, h => by cases y <;> first | rfl | (simp [mask] at h)
  | p, q, .comment _, y, hp, h => by cases y <;> first | rfl | (simp [mask] at h)
  | p, q, .pi _ _, y, hp, h => by cases y <;> first | rfl | (simp [mask] at h)
  | p, q, .elem i ks, .text _, hp, h => by simp [mask] at h
  | p, q, .elem i ks, .comment _, hp, h => by simp [mask] at h
  | p, q, .elem i ks, .pi _ _, hp, h => by simp [mask] at h
  | p, q, .elem i ks, .elem j ls, hp, h => by
    simp only [mask, Node.elem.injEq] at h
    obtain ⟨h1, h2⟩ := h
    obtain ⟨hi, hl, -⟩ := info_unmask f i j h1
    have hx : xhtmlValue u p i = xhtmlValue u q j := by simp only [xhtmlValue, hp, hi]
    have hh : headerText u p i = headerText u q j := by simp only [headerText, hp, hi]
    simp only [coveredAfter, List.length_append, List.length_map, hl]
    rw [← hx] at h2 ⊢
    rw [← hh] at h2 ⊢
    by_cases c1 : xhtmlValue u p i = true
    · simp [c1]
    · simp only [c1, Bool.false_eq_true, if_false] at h2 ⊢
      by_cases c2 : headerText u p i = true
      · simp only [c2, if_true] at h2 ⊢
        obtain ⟨e1, e2⟩ := unmask_leading f (some i) (some j) ks ls hi h2
        simp [e1, e2]
      · simp only [c2, Bool.false_eq_true, if_false] at h2 ⊢
        simp [unmask_lengths f (some i) (some j) ks ls hi h2]

theorem unmask_lengths (f : Str → Str) : ∀ (p q : Option Info) (xs ys : List Node), (∀ n, p.any (isA u n) = q.any (isA u n)) →
    maskList u p xs = maskList u q ys → (coveredAfterList u f p xs).length = (coveredAfterList u f q ys).length
  | p, q, [], [], hp, h => rfl
  | p, q, [], _ :: _, hp, h => by simp [maskList] at h
  | p, q, _ :: _, [], hp, h => by simp [maskList] at h
  | p, q, x :: xs, y :: ys, hp, h => by
    simp only [maskList, List.cons.injEq] at h
    simp only [coveredAfterList, List.length_append, unmask_length f p q x y hp h.1, unmask_lengths f p q xs ys hp h.2]

theorem unmask_leading (f : Str → Str) : ∀ (p q : Option Info) (xs ys : List Node), (∀ n, p.any (isA u n) = q.any (isA u n)) →
    mapLeading (fun _ => c!"*") (maskList u p xs) = mapLeading (fun _ => c!"*") (maskList u q ys) →
    (leadingText xs).length = (leadingText ys).length ∧
      (coveredAfterList u f p xs).length = (coveredAfterList u f q ys).length
  | p, q, [], [], hp, h => ⟨rfl, rfl⟩
  | p, q, [], y :: ys, hp, h => by cases y <;> simp [maskList, mask, mapLeading] at h
  | p, q, x :: xs, [], hp, h => by cases x <;> simp [maskList, mask, mapLeading] at h
  | p, q, x :: xs, y :: ys, hp, h => by
    have ht : maskList u p xs = maskList u q ys ∧ (leadingText (x :: xs)).length = (leadingText (y :: ys)).length ∧
        ((∃ s t, x = .text s ∧ y = .text t) ∨ mask u p x = mask u q y) := by
      cases x <;> cases y <;> simp_all [maskList, mask, mapLeading, leadingText]
    obtain ⟨h1, h2, h3⟩ := ht
    refine ⟨h2, ?_⟩
    rcases h3 with ⟨s, t, rfl, rfl⟩ | h3
    · simp only [coveredAfterList, coveredAfter, List.nil_append, unmask_lengths f p q xs ys hp h1]
    · simp only [coveredAfterList, List.length_append, unmask_length f p q x y hp h3, unmask_lengths f p q xs ys hp h1]
end

theorem anonXhtmlList_cons {hash : Str → Nat} {v : Bool} {x : Node} {xs rs : List Node}
    (h : anonXhtmlList hash u v (x :: xs) = .ok rs) :
    ∃ a as, rs = a :: as ∧ anonXhtml hash u v x = .ok a ∧ anonXhtmlList hash u v xs = .ok as := by
  rw [anonXhtmlList] at h
  cases k1 : anonXhtml hash u v x with
  | error e => rw [k1] at h; cases h
  | ok a =>
    rw [k1] at h
    dsimp only at h
    cases k2 : anonXhtmlList hash u v xs with
    | error e => rw [k2] at h; cases h
    | ok as =>
      rw [k2] at h
      cases h
      exact ⟨a, as, rfl, rfl, rfl⟩

mutual
/-- Trees that are equal without their covered strings, and whose strings have the same replacements, become equal. -/
theorem unmask_node (hash : Str → Nat) : ∀ (p q : Option Info) (x y r s : Node),
    (∀ n, p.any (isA u n) = q.any (isA u n)) → mask u p x = mask u q y →
    (coveredAfter u (anonymizeString hash) p x).map (pyMap (anonymizeString hash)) =
      (coveredAfter u (anonymizeString hash) q y).map (pyMap (anonymizeString hash)) →
    anonXhtml hash u (p.any (isA u c!"ATTRIBUTE-VALUE-XHTML")) (rewriteTexts u (anonymizeString hash) p x) = .ok r →
    anonXhtml hash u (q.any (isA u c!"ATTRIBUTE-VALUE-XHTML")) (rewriteTexts u (anonymizeString hash) q y) = .ok s →
    r = s
  | p, q, .text _, y, r, s, hp, h, hc, h1, h2 => by
    cases y <;> simp [mask] at h
    cases h1; cases h2; rw [h]; rfl
  | p, q, .comment _, y, r, s, hp, h, hc, h1, h2 => by
    cases y <;> simp [mask] at h
    cases h1; cases h2; rw [h]; rfl
  | p, q, .pi _ _, y, r, s, hp, h, hc, h1, h2 => by
    cases y <;> simp [mask] at h
    cases h1; cases h2; rw [h.1, h.2]; rfl
  | p, q, .elem i ks, .text _, r, s, hp, h, hc, h1, h2 => by simp [mask] at h
  | p, q, .elem i ks, .comment _, r, s, hp, h, hc, h1, h2 => by simp [mask] at h
  | p, q, .elem i ks, .pi _ _, r, s, hp, h, hc, h1, h2 => by simp [mask] at h
  | p, q, .elem i ks, .elem j ls, r, s, hp, h, hc, h1, h2 => by
    simp only [mask, Node.elem.injEq] at h
    obtain ⟨g1, g2⟩ := h
    obtain ⟨hi, hl, hm⟩ := info_unmask (anonymizeString hash) i j g1
    have hx : xhtmlValue u p i = xhtmlValue u q j := by simp only [xhtmlValue, hp, hi]
    have hh : headerText u p i = headerText u q j := by simp only [headerText, hp, hi]
    simp only [coveredAfter, List.map_append, List.map_map] at hc
    obtain ⟨hc1, hc2⟩ := append_split hc (by simp only [List.length_map]; exact hl)
    have hij := hm hc1
    rw [← hx, ← hh] at g2 hc2
    simp only [rewriteTexts, anonXhtml, inNs_eq, isA_mapCovered] at h1 h2
    by_cases c1 : xhtmlValue u p i = true
    · have c1' : xhtmlValue u q j = true := hx ▸ c1
      have hv : isA u c!"THE-VALUE" i = true := by
        simp only [xhtmlValue, Bool.and_eq_true] at c1; exact c1.2
      have hv' : isA u c!"THE-VALUE" j = true := by rw [← hi]; exact hv
      rw [if_pos (by simpa [xhtmlValue] using c1), mapCovered_value _ hv] at h1
      rw [if_pos (by simpa [xhtmlValue] using c1'), mapCovered_value _ hv'] at h2
      rw [mapCovered_value _ hv, mapCovered_value _ hv'] at hij
      simp only [c1, if_true, List.map_cons, List.map_nil, List.cons.injEq, and_true] at hc2
      have nh : headerText u p i = false := by
        rw [Bool.eq_false_iff]
        intro hn
        simp only [headerText, Bool.and_eq_true, Bool.or_eq_true, isA, decide_eq_true_eq] at hn hv
        rcases hn.2 with hn | hn
        · exact absurd (hv.2.symm.trans hn.2) (by decide)
        · exact absurd (hv.2.symm.trans hn.2) (by decide)
      rw [nh] at h1
      rw [← hh, nh] at h2
      simp only [Bool.false_eq_true, if_false] at h1 h2
      revert h1 h2 hc2
      generalize stringifyNamespacedChildren (.elem i (rewriteTextsList u (anonymizeString hash) (some i) ks)) = a
      generalize stringifyNamespacedChildren (.elem j (rewriteTextsList u (anonymizeString hash) (some j) ls)) = b
      intro hc2 h1 h2
      cases a <;> cases b <;> simp_all [pyMap]
    · have c1' : ¬ xhtmlValue u q j = true := hx ▸ c1
      rw [if_neg (by simpa [xhtmlValue] using c1)] at h1
      rw [if_neg (by simpa [xhtmlValue] using c1')] at h2
      simp only [c1, Bool.false_eq_true, if_false, List.map_append] at g2 hc2
      by_cases c2 : headerText u p i = true
      · have c2' : headerText u q j = true := hh ▸ c2
        rw [if_pos c2, anonXhtmlList_mapLeading] at h1
        rw [if_pos c2', anonXhtmlList_mapLeading] at h2
        simp only [c2, if_true] at g2 hc2
        obtain ⟨l1, l2⟩ := unmask_leading (anonymizeString hash) (some i) (some j) ks ls hi g2
        obtain ⟨e1, e2⟩ := append_split hc2 (by simp only [List.length_map]; exact l1)
        cases k1 : anonXhtmlList hash u (isA u c!"ATTRIBUTE-VALUE-XHTML" i)
            (rewriteTextsList u (anonymizeString hash) (some i) ks) with
        | error e => rw [k1] at h1; cases h1
        | ok a =>
          cases k2 : anonXhtmlList hash u (isA u c!"ATTRIBUTE-VALUE-XHTML" j)
              (rewriteTextsList u (anonymizeString hash) (some j) ls) with
          | error e => rw [k2] at h2; cases h2
          | ok b =>
            rw [k1] at h1
            rw [k2] at h2
            cases h1
            cases h2
            rw [hij, unmask_led hash (some i) (some j) ks ls a b hi g2 e1 e2 k1 k2]
      · have c2' : ¬ headerText u q j = true := hh ▸ c2
        rw [if_neg c2] at h1
        rw [if_neg c2'] at h2
        simp only [c2, Bool.false_eq_true, if_false, List.map_nil, List.nil_append] at g2 hc2
        cases k1 : anonXhtmlList hash u (isA u c!"ATTRIBUTE-VALUE-XHTML" i)
            (rewriteTextsList u (anonymizeString hash) (some i) ks) with
        | error e => rw [k1] at h1; cases h1
        | ok a =>
          cases k2 : anonXhtmlList hash u (isA u c!"ATTRIBUTE-VALUE-XHTML" j)
              (rewriteTextsList u (anonymizeString hash) (some j) ls) with
          | error e => rw [k2] at h2; cases h2
          | ok b =>
            rw [k1] at h1
            rw [k2] at h2
            cases h1
            cases h2
            rw [hij, unmask_list hash (some i) (some j) ks ls a b hi g2 hc2 k1 k2]

theorem unmask_list (hash : Str → Nat) : ∀ (p q : Option Info) (xs ys rs ss : List Node),
    (∀ n, p.any (isA u n) = q.any (isA u n)) → maskList u p xs = maskList u q ys →
    (coveredAfterList u (anonymizeString hash) p xs).map (pyMap (anonymizeString hash)) =
      (coveredAfterList u (anonymizeString hash) q ys).map (pyMap (anonymizeString hash)) →
    anonXhtmlList hash u (p.any (isA u c!"ATTRIBUTE-VALUE-XHTML")) (rewriteTextsList u (anonymizeString hash) p xs) = .ok rs →
    anonXhtmlList hash u (q.any (isA u c!"ATTRIBUTE-VALUE-XHTML")) (rewriteTextsList u (anonymizeString hash) q ys) = .ok ss →
    rs = ss
  | p, q, [], [], rs, ss, hp, h, hc, h1, h2 => by cases h1; cases h2; rfl
  | p, q, [], _ :: _, rs, ss, hp, h, hc, h1, h2 => by simp [maskList] at h
  | p, q, _ :: _, [], rs, ss, hp, h, hc, h1, h2 => by simp [maskList] at h
  | p, q, x :: xs, y :: ys, rs, ss, hp, h, hc, h1, h2 => by
    simp only [maskList, List.cons.injEq] at h
    simp only [coveredAfterList, List.map_append] at hc
    obtain ⟨e1, e2⟩ := append_split hc (by simp only [List.length_map]; exact unmask_length _ p q x y hp h.1)
    rw [rewriteTextsList] at h1 h2
    obtain ⟨a, as, rfl, k1, k2⟩ := anonXhtmlList_cons h1
    obtain ⟨b, bs, rfl, k3, k4⟩ := anonXhtmlList_cons h2
    rw [unmask_node hash p q x y a b hp h.1 e1 k1 k3, unmask_list hash p q xs ys as bs hp h.2 e2 k2 k4]

theorem unmask_led (hash : Str → Nat) : ∀ (p q : Option Info) (xs ys rs ss : List Node),
    (∀ n, p.any (isA u n) = q.any (isA u n)) →
    mapLeading (fun _ => c!"*") (maskList u p xs) = mapLeading (fun _ => c!"*") (maskList u q ys) →
    (leadingText xs).map (pyMap (anonymizeString hash)) = (leadingText ys).map (pyMap (anonymizeString hash)) →
    (coveredAfterList u (anonymizeString hash) p xs).map (pyMap (anonymizeString hash)) =
      (coveredAfterList u (anonymizeString hash) q ys).map (pyMap (anonymizeString hash)) →
    anonXhtmlList hash u (p.any (isA u c!"ATTRIBUTE-VALUE-XHTML")) (rewriteTextsList u (anonymizeString hash) p xs) = .ok rs →
    anonXhtmlList hash u (q.any (isA u c!"ATTRIBUTE-VALUE-XHTML")) (rewriteTextsList u (anonymizeString hash) q ys) = .ok ss →
    mapLeading (anonymizeString hash) rs = mapLeading (anonymizeString hash) ss
  | p, q, [], [], rs, ss, hp, h, hl, hc, h1, h2 => by cases h1; cases h2; rfl
  | p, q, [], y :: ys, rs, ss, hp, h, hl, hc, h1, h2 => by cases y <;> simp [maskList, mask, mapLeading] at h
  | p, q, x :: xs, [], rs, ss, hp, h, hl, hc, h1, h2 => by cases x <;> simp [maskList, mask, mapLeading] at h
  | p, q, x :: xs, y :: ys, rs, ss, hp, h, hl, hc, h1, h2 => by
    have ht : maskList u p xs = maskList u q ys ∧
        ((∃ s t, x = .text s ∧ y = .text t ∧ anonymizeString hash s = anonymizeString hash t) ∨ mask u p x = mask u q y) := by
      cases x <;> cases y <;> simp_all [maskList, mask, mapLeading, leadingText, pyMap]
    obtain ⟨g1, g2⟩ := ht
    rw [rewriteTextsList] at h1 h2
    obtain ⟨a, as, rfl, k1, k2⟩ := anonXhtmlList_cons h1
    obtain ⟨b, bs, rfl, k3, k4⟩ := anonXhtmlList_cons h2
    simp only [coveredAfterList, List.map_append] at hc
    rcases g2 with ⟨s, t, rfl, rfl, g2⟩ | g2
    · simp only [coveredAfter, List.map_nil, List.nil_append] at hc
      cases k1
      cases k3
      simp only [rewriteTexts, mapLeading, g2, unmask_list hash p q xs ys as bs hp g1 hc k2 k4]
    · obtain ⟨e1, e2⟩ := append_split hc (by simp only [List.length_map]; exact unmask_length _ p q x y hp g2)
      rw [unmask_node hash p q x y a b hp g2 e1 k1 k3, unmask_list hash p q xs ys as bs hp g1 e2 k2 k4]
end

end ReqIF
