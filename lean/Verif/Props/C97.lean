import Verif.Proofs.Unmask
import Verif.Props.C94
/-! # C97: what an anonymized document tells about the original -/
namespace ReqIF
open Spec

namespace Spec

/-- The file holds the document `d`. -/
def ReadAs (bytes : ByteArray) (d : Doc) : Prop := ∃ s, decodeUtf8 bytes = .ok s ∧ readDoc (normEol s) = some d

/-- The document with a star in place of each covered string, with all that stands before and after the root. -/
def starred (u : Str) (d : Doc) : Doc := d.withRoot (mask u none d.root)

/-- The ten digits taken from the hash of each covered string, in document order. -/
def numbers (hash : Str → Nat) (u : Str) (d : Doc) : List (Py Nat) :=
  (covered u none d.root).map (pyMap (fun s => hash s % 10 ^ 10))

end Spec

theorem mask_nsmap {u : Str} (p : Option Info) (x : Node) : (mask u p x).nsmap = x.nsmap := by
  cases x <;> rfl

theorem anonymizeTree_last {hash : Str → Nat} {u : Str} {root r : Node} (h : anonymizeTree hash root = .ok r)
    (hu : root.nsmap.get? none = some u) :
    anonXhtml hash u false (rewriteTexts u (anonymizeString hash) none root) = .ok r := by
  unfold anonymizeTree at h
  rw [hu] at h
  dsimp only at h
  cases h1 : anonText hash u c!"COMMENT" false root with
  | error e => rw [h1] at h; cases h
  | ok r1 =>
    rw [h1] at h
    dsimp only at h
    cases h2 : anonText hash u c!"TITLE" false r1 with
    | error e => rw [h2] at h; cases h
    | ok r2 =>
      rw [h2] at h
      dsimp only at h
      rw [texts_node (u := u) hash none root r1 r2 h1 h2] at h
      exact h

theorem withRoot_same {d e : Doc} {m n r : Node} (hm : ∃ i ks, m = .elem i ks) (h : d.withRoot m = e.withRoot n) :
    d.withRoot r = e.withRoot r ∧ m = n := by
  obtain ⟨i, ks, rfl⟩ := hm
  simp only [Doc.withRoot, Doc.mk.injEq] at h ⊢
  obtain ⟨h1, h2, h3⟩ := h
  subst h3
  refine ⟨⟨h1, ?_, trivial⟩, rfl⟩
  revert h2
  generalize d.nodes = xs
  generalize e.nodes = ys
  intro h2
  induction xs generalizing ys with
  | nil => cases ys with
    | nil => rfl
    | cons y ys => cases h2
  | cons x xs ih =>
    cases ys with
    | nil => cases h2
    | cons y ys =>
      simp only [List.map_cons, List.cons.injEq] at h2 ⊢
      refine ⟨?_, ih ys h2.2⟩
      have := h2.1
      cases x <;> cases y <;> first | rfl | exact this | cases this

/-- The printed text depends on the covered strings only through the digits. -/
theorem trees_agree {hash : Str → Nat} {u : Str} {x y r s : Node} (hu : x.nsmap.get? none = some u)
    (hm : mask u none x = mask u none y) (hx : NoNesting u none x) (hy : NoNesting u none y)
    (hn : (covered u none x).map (pyMap (fun s => hash s % 10 ^ 10)) = (covered u none y).map (pyMap (fun s => hash s % 10 ^ 10)))
    (h1 : anonymizeTree hash x = .ok r) (h2 : anonymizeTree hash y = .ok s) : r = s := by
  have hu' : y.nsmap.get? none = some u := by
    rw [← mask_nsmap (u := u) none y, ← hm, mask_nsmap]; exact hu
  refine unmask_node hash none none x y r s (fun _ => rfl) hm ?_ (anonymizeTree_last h1 hu) (anonymizeTree_last h2 hu')
  rw [coveredAfter_noNesting _ _ _ hx, coveredAfter_noNesting _ _ _ hy]
  have e : ∀ l : List (Py Str), l.map (pyMap (anonymizeString hash)) =
      (l.map (pyMap (fun s => hash s % 10 ^ 10))).map (pyMap (fun n => c!"...Anonymized-" ++ Nat.toDigits 10 n ++ c!"...")) := by
    intro l
    rw [List.map_map]
    apply List.map_congr_left
    intro a _
    cases a <;> rfl
  rw [e, e, hn]

/-- **C97.** Two files that hold the same document apart from covered strings, and whose covered strings have hashes with
the same last ten digits, are anonymized to the same text: nothing else about the covered strings, such as their length,
gets into it. -/
theorem C97_same (hash : Str → Nat) (print : Doc → Str) (bytes bytes' : ByteArray) (text text' : Str) (d d' : Doc) (u : Str)
    (hd : ReadAs bytes d) (hd' : ReadAs bytes' d') (hu : d.root.nsmap.get? none = some u)
    (hs : starred u d = starred u d') (hx : NoNesting u none d.root) (hy : NoNesting u none d'.root)
    (hn : numbers hash u d = numbers hash u d')
    (h : anonymize hash print (.ok bytes) = .ok text) (h' : anonymize hash print (.ok bytes') = .ok text') : text = text' := by
  have key : ∀ {b : ByteArray} {e : Doc} {t : Str}, ReadAs b e → anonymize hash print (.ok b) = .ok t →
      ∃ r, anonymizeTree hash e.root = .ok r ∧ t = print (e.withRoot r) := by
    intro b e t ⟨s, h1, h2⟩ h3
    simp only [anonymize, h1, h2] at h3
    cases hr : anonymizeTree hash e.root with
    | error x => rw [hr] at h3; cases h3
    | ok r => rw [hr] at h3; cases h3; exact ⟨r, rfl, rfl⟩
  obtain ⟨r, hr, rfl⟩ := key hd h
  obtain ⟨r', hr', rfl⟩ := key hd' h'
  have he : ∃ i ks, mask u none d.root = .elem i ks := by
    cases hk : d.root with
    | elem i ks => exact ⟨_, _, rfl⟩
    | text s => rw [hk] at hu; cases hu
    | comment s => rw [hk] at hu; cases hu
    | pi a b => rw [hk] at hu; cases hu
  obtain ⟨e1, e2⟩ := withRoot_same (r := r) he hs
  rw [e1, trees_agree hu e2 hx hy hn hr hr']

/-- **C97.** Whatever the hash, there are two different documents with the same anonymized text: the covered strings
cannot be had back from it. -/
theorem C97_not_unique (hash : Str → Nat) (print : Doc → Str) :
    ∃ (bytes bytes' : ByteArray) (d d' : Doc) (u s t : Str) (text : Str), ReadAs bytes d ∧ ReadAs bytes' d' ∧ s ≠ t ∧
      covered u none d.root = [.ok s, .ok s] ∧ covered u none d'.root = [.ok t, .ok t] ∧
      d.root.nsmap.get? none = some u ∧ starred u d = starred u d' ∧ NoNesting u none d.root ∧ NoNesting u none d'.root ∧
      numbers hash u d = numbers hash u d' ∧
      anonymize hash print (.ok bytes) = .ok text ∧ anonymize hash print (.ok bytes') = .ok text := by
  obtain ⟨m, n, hne, hh⟩ := collision (10 ^ 10) (by decide) hash
  have hx := anonymizeString_inj.mpr hh
  have hst : List.replicate m 'a' ≠ List.replicate n 'a' := by
    intro h
    have := congrArg List.length h
    simp only [List.length_replicate] at this
    exact hne this
  have hr : ∀ s, PlainAttr s → '\r' ∉ s → ReadAs (declText ++ (twoSpecs s s).render ++ c!"\n").utf8Encode
      ⟨some ⟨some c!"UTF-8"⟩, [twoSpecsTree s s], twoSpecsTree s s⟩ ∧
      anonymize hash print (.ok (declText ++ (twoSpecs s s).render ++ c!"\n").utf8Encode) =
        .ok (print ⟨some ⟨some c!"UTF-8"⟩, [twoSpecsTree (anonymizeString hash s) (anonymizeString hash s)],
          twoSpecsTree (anonymizeString hash s) (anonymizeString hash s)⟩) := by
    intro s hs hc
    have hn : '\r' ∉ declText ++ (twoSpecs s s).render ++ c!"\n" := by
      simp [declText, twoSpecs, Src.render, renderList, attrsText, hc]
    have hd := readDoc_twoSpecs hs hs
    have ht : anonymizeTree hash (twoSpecsTree s s) =
      .ok (twoSpecsTree (anonymizeString hash s) (anonymizeString hash s)) := rfl
    refine ⟨⟨_, decodeUtf8_encode _, ?_⟩, ?_⟩
    · rw [normEol_of_noCr hn, hd]
    · simp only [anonymize, decodeUtf8_encode, normEol_of_noCr hn, hd, ht]
      rfl
  have hc : ∀ k, '\r' ∉ List.replicate k 'a' := fun k h => absurd (List.eq_of_mem_replicate h) (by decide)
  have h1 := hr _ (plainAttr_replicate m) (hc m)
  have h2 := hr _ (plainAttr_replicate n) (hc n)
  generalize List.replicate m 'a' = s at *
  generalize List.replicate n 'a' = t at *
  refine ⟨_, _, _, _, c!"u", s, t, _, h1.1, h2.1, hst, rfl, rfl, rfl, rfl, ?_, ?_, ?_, h1.2, ?_⟩
  · simp [twoSpecsTree, NoNesting, NoNestingList, xhtmlValue, isA]
  · simp [twoSpecsTree, NoNesting, NoNestingList, xhtmlValue, isA]
  · show [Except.ok (hash s % 10 ^ 10), Except.ok (hash s % 10 ^ 10)] = [Except.ok (hash t % 10 ^ 10), Except.ok (hash t % 10 ^ 10)]
    rw [hh]
  · rw [hx]
    exact h2.2

end ReqIF
