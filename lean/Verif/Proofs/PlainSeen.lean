import Verif.Spec.Plain
import Verif.Proofs.ReadSane
import Verif.Proofs.XsdTools
import Verif.Proofs.Final
/-! Plain documents as the parser sees them. -/
set_option linter.unusedSimpArgs false
namespace ReqIF.Xsd
open Spec

/-- An element as the parser sees it, below the root: the declarations kept are `K`. -/
structure TidyInfo (K : NsMap) (p : Str) (i : Info) : Prop where
  nsmap : i.nsmap = K
  name : isNCName i.name = true
  attrs : ∀ a ∈ i.attrs, a.ns = none ∧ isNCName a.name = true ∧ a.name ≠ c!"xmlns"
  nodup : (i.attrs.map (·.name)).Nodup
  pfx : i.ns.isSome = true → i.pfx = some p

mutual
def Neat (K : NsMap) (p : Str) : Node → Prop
  | .elem i ks => TidyInfo K p i ∧ noTextTwice ks = true ∧ NeatAll K p ks
  | .text _ => True
  | _ => False

def NeatAll (K : NsMap) (p : Str) : List Node → Prop
  | [] => True
  | n :: ns => Neat K p n ∧ NeatAll K p ns
end

theorem neatAll_mem {K : NsMap} {p : Str} : ∀ {ns : List Node}, NeatAll K p ns → ∀ n ∈ ns, Neat K p n
  | [], _ => by intro n hn; cases hn
  | n :: ns, h => by
    rw [NeatAll] at h
    intro n' hn
    rcases List.mem_cons.1 hn with rfl | hn
    · exact h.1
    · exact neatAll_mem h.2 n' hn

theorem Neat.kids {K : NsMap} {p : Str} {n : Node} (h : Neat K p n) : NeatAll K p n.kids ∧ noTextTwice n.kids = true := by
  cases n with
  | elem i ks => rw [Neat] at h; exact ⟨h.2.2, h.2.1⟩
  | text s => exact ⟨trivial, rfl⟩
  | comment s => rw [Neat] at h; exact h.elim; all_goals simp
  | pi a b => rw [Neat] at h; exact h.elim; all_goals simp

theorem isText_seen (m : NsMap) (n : Node) : (seen m n).isText = n.isText := by
  cases n with
  | elem i ks => rw [seen_elem]; rfl
  | text s => rw [seen_text]
  | comment s => simp [seen, stripN, cleanup, Node.isText]
  | pi a b => simp [seen, stripN, cleanup, Node.isText]

theorem noTextTwice_seen (m : NsMap) : ∀ ns : List Node, noTextTwice (seenAll m ns) = noTextTwice ns
  | [] => by rw [seenAll_nil]
  | [a] => by rw [seenAll_cons, seenAll_nil]; rfl
  | a :: b :: ns => by
    have ih := noTextTwice_seen m (b :: ns)
    rw [seenAll_cons] at ih
    rw [seenAll_cons, seenAll_cons, noTextTwice, noTextTwice, isText_seen, isText_seen, ih]

mutual
theorem neat_seen (K : NsMap) {p : Str} : ∀ n : Node, n.Sane → noSpecials n = true → tidy p n = true → Neat K p (seen K n)
  | .text s, _, _, _ => by rw [seen_text, Neat]; trivial
  | .comment s, _, h, _ => by simp [noSpecials] at h
  | .pi t d, _, h, _ => by simp [noSpecials] at h
  | .elem i ks, hs, h, ht => by
    rw [Node.Sane] at hs
    rw [noSpecials] at h
    rw [tidy, Bool.and_eq_true, Bool.and_eq_true, Bool.and_eq_true, List.isEmpty_iff] at ht
    obtain ⟨⟨⟨h1, h2⟩, h3⟩, h4⟩ := ht
    have hu : usedDefs i ks = [] := by unfold usedDefs; rw [h1]; rfl
    rw [seen_elem, hu, push_nil, Neat, noTextTwice_seen]
    refine ⟨⟨rfl, ?_, ?_, ?_, ?_⟩, hs.2.1, neatAll_seen K ks hs.2.2 h h4⟩
    · dsimp only; rw [stripInfo_name]; exact hs.1.name
    · dsimp only
      rw [stripInfo_attrs]
      intro a ha
      have e : a.ns = none := by simpa using List.all_eq_true.1 h2 a ha
      have := hs.1.attrs a ha
      exact ⟨e, this.1, this.2.2.2.2 e⟩
    · dsimp only
      rw [stripInfo_attrs]
      have hd := hs.1.nodup
      have e : i.attrs.map (fun a => (a.ns, a.name)) = (i.attrs.map (·.name)).map (fun n => ((none : Option Str), n)) := by
        rw [List.map_map]
        apply List.map_congr_left
        intro a ha
        have e : a.ns = none := by simpa using List.all_eq_true.1 h2 a ha
        simp [e]
      rw [e] at hd
      exact (List.Pairwise.of_map (S := fun a b => a ≠ b) _ (fun a b hab hh => hab (by rw [hh])) hd)
    · dsimp only
      unfold stripInfo
      split
      · rename_i hc
        rw [hc] at h3
        intro _
        simpa using h3
      · intro hh; cases hh

theorem neatAll_seen (K : NsMap) {p : Str} : ∀ ns : List Node, SaneNodes ns → noSpecialsAll ns = true → tidyAll p ns = true → NeatAll K p (seenAll K ns)
  | [], _, _, _ => by rw [seenAll_nil, NeatAll]; trivial
  | n :: ns, hs, h, ht => by
    rw [SaneNodes] at hs
    rw [noSpecialsAll, Bool.and_eq_true] at h
    rw [tidyAll, Bool.and_eq_true] at ht
    rw [seenAll_cons, NeatAll]
    exact ⟨neat_seen K n hs.1 h.1 ht.1, neatAll_seen K ns hs.2 h.2 ht.2⟩
end

/-! ## Strings -/

mutual
theorem xhtmlFits_seen (m : NsMap) : ∀ n : Node, noSpecials n = true → xhtmlFits (seen m n) = xhtmlFits n
  | .text s, _ => by rw [seen_text]
  | .comment s, h => by simp [noSpecials] at h
  | .pi t d, h => by simp [noSpecials] at h
  | .elem i ks, h => by
    rw [noSpecials] at h
    rw [seen_elem, xhtmlFits, xhtmlFits]
    dsimp only
    rw [stripInfo_attrs, xhtmlFitsAll_seen _ ks h]

theorem xhtmlFitsAll_seen (m : NsMap) : ∀ ns : List Node, noSpecialsAll ns = true → xhtmlFitsAll (seenAll m ns) = xhtmlFitsAll ns
  | [], _ => by rw [seenAll_nil]
  | n :: ns, h => by
    rw [noSpecialsAll, Bool.and_eq_true] at h
    rw [seenAll_cons, xhtmlFitsAll, xhtmlFitsAll, xhtmlFits_seen m n h.1, xhtmlFitsAll_seen m ns h.2]
end

theorem anyElement_seen (m : NsMap) : ∀ ns : List Node, noSpecialsAll ns = true → (seenAll m ns).any isElement = ns.any isElement
  | [], _ => by rw [seenAll_nil]
  | n :: ns, h => by
    rw [noSpecialsAll, Bool.and_eq_true] at h
    rw [seenAll_cons, List.any_cons, List.any_cons, anyElement_seen m ns h.2]
    cases n with
    | elem i ks => rw [seen_elem]; rfl
    | text s => rw [seen_text]
    | comment s => simp [noSpecials] at h
    | pi a b => simp [noSpecials] at h

theorem contentFits_seen (m : NsMap) {ks : List Node} (h : noSpecialsAll ks = true) : contentFits (seenAll m ks) = contentFits ks := by
  unfold contentFits
  rw [xhtmlFitsAll_seen m ks h, anyElement_seen m ks h, textOf_seen m ks h]

theorem textAll_seen (m : NsMap) (f : Node → Bool) (hf : ∀ i ks, f (.elem i ks) = true) : ∀ ns : List Node, noSpecialsAll ns = true →
    (seenAll m ns).all f = ns.all f
  | [], _ => by rw [seenAll_nil]
  | n :: ns, h => by
    rw [noSpecialsAll, Bool.and_eq_true] at h
    rw [seenAll_cons, List.all_cons, List.all_cons, textAll_seen m f hf ns h.2]
    cases n with
    | elem i ks => rw [seen_elem, hf, hf]
    | text s => rw [seen_text]
    | comment s => simp [noSpecials] at h
    | pi a b => simp [noSpecials] at h

theorem textFits_seen (m : NsMap) (name : Str) {ks : List Node} (h : noSpecialsAll ks = true) : textFits name (seenAll m ks) = textFits name ks := by
  unfold textFits
  rw [seenAll_isEmpty, textAll_seen m _ (fun _ _ => rfl) ks h]

mutual
theorem fits_seen (m : NsMap) : ∀ (t : TypeName) (n : Node), noSpecials n = true → fits t (seen m n) = fits t n
  | t, .text s, _ => by rw [seen_text]
  | t, .comment s, h => by simp [noSpecials] at h
  | t, .pi _ d, h => by simp [noSpecials] at h
  | t, .elem i ks, h => by
    rw [noSpecials] at h
    rw [seen_elem, fits.eq_def, fits.eq_def t (.elem i ks)]
    dsimp only
    rw [stripInfo_attrs]
    cases t <;> (try dsimp only) <;> (try rw [stripInfo_name]) <;>
      first
      | rw [textFits_seen _ _ h]
      | rw [contentFits_seen _ h]
      | rw [fitsAll_seen _ _ ks h]

theorem fitsAll_seen (m : NsMap) : ∀ (t : TypeName) (ns : List Node), noSpecialsAll ns = true → fitsAll t (seenAll m ns) = fitsAll t ns
  | t, [], _ => by rw [seenAll_nil]
  | t, .text s :: ns, h => by
    rw [noSpecialsAll, Bool.and_eq_true] at h
    rw [seenAll_cons, seen_text, fitsAll, fitsAll, fitsAll_seen m t ns h.2] <;> simp
  | t, .comment s :: ns, h => by simp [noSpecialsAll, noSpecials] at h
  | t, .pi _ _ :: ns, h => by simp [noSpecialsAll, noSpecials] at h
  | t, .elem i ks :: ns, h => by
    rw [noSpecialsAll, Bool.and_eq_true] at h
    have ih : ∀ t', fits t' (seen m (.elem i ks)) = fits t' (.elem i ks) := fun t' => fits_seen m t' (.elem i ks) h.1
    rw [seen_elem] at ih
    rw [seenAll_cons, seen_elem, fitsAll, fitsAll, fitsAll_seen m t ns h.2]
    have e : ({ stripInfo i with nsdefs := usedDefs i ks, nsmap := (usedDefs i ks).push m } : Info).name = i.name := stripInfo_name i
    rw [e]
    cases (schema .lenient t).model.typeOf i.name with
    | none => rfl
    | some t' => dsimp only at ih ⊢; rw [ih t']
end

/-! ## The declarations kept -/

mutual
theorem uses_xhtml {p : Str} (q : Option Str) : ∀ n : Node, tidy p n = true →
    (stripN n).usesPfx q true = (q == some p && hasXhtml n)
  | .text s, _ => by simp [stripN, Node.usesPfx, hasXhtml]
  | .comment s, _ => by simp [stripN, Node.usesPfx, hasXhtml]
  | .pi t d, _ => by simp [stripN, Node.usesPfx, hasXhtml]
  | .elem i ks, ht => by
    rw [tidy, Bool.and_eq_true, Bool.and_eq_true, Bool.and_eq_true, List.isEmpty_iff] at ht
    obtain ⟨⟨⟨h1, h2⟩, h3⟩, h4⟩ := ht
    have hd : (stripInfo i).declares q = false := by
      rw [stripInfo_declares]; unfold Info.declares; rw [h1]; rfl
    have ha : (stripInfo i).attrs.any (fun a => a.ns.isSome && a.pfx == q) = false := by
      rw [stripInfo_attrs, Bool.eq_false_iff]
      intro hh
      obtain ⟨a, ha1, ha2⟩ := List.any_eq_true.1 hh
      have e : a.ns = none := by simpa using List.all_eq_true.1 h2 a ha1
      rw [e] at ha2
      cases ha2
    rw [stripN, Node.usesPfx, hd, useList_xhtml q ks h4, hasXhtml, Info.usesPfx, ha]
    unfold stripInfo
    by_cases hc : containsStr xhtmlNs i.tag = true
    · rw [if_pos hc]
      rw [hc] at h3
      have h3 : i.pfx = some p := by simpa using h3
      rw [h3, hc]
      cases hq : (q == some p) with
      | true =>
        have : q = some p := by simpa using hq
        subst this
        simp
      | false =>
        have : (some p == q) = false := by
          rw [Bool.eq_false_iff] at hq ⊢
          intro e
          exact hq (by simpa using (by simpa using e : some p = q).symm)
        simp [this]
    · rw [if_neg hc, Bool.eq_false_iff.2 hc]
      simp

theorem useList_xhtml {p : Str} (q : Option Str) : ∀ ns : List Node, tidyAll p ns = true →
    usesPfxList q (stripNs ns) = (q == some p && haveXhtml ns)
  | [], _ => by simp [stripNs, usesPfxList, haveXhtml]
  | n :: ns, h => by
    rw [tidyAll, Bool.and_eq_true] at h
    rw [stripNs, usesPfxList, haveXhtml, uses_xhtml q n h.1, useList_xhtml q ns h.2, Bool.and_or_distrib_left]
end

theorem usedDefs_root {p : Str} {i : Info} {ks : List Node} (hn : (stripInfo i).ns = none) (ht : tidyAll p ks = true) :
    usedDefs i ks = i.nsdefs.filter (fun d => usedByAttrs i d || (haveXhtml ks && d.1 == some p)) := by
  unfold usedDefs
  apply List.filter_congr
  intro d _
  rw [Node.usesPfx, useList_xhtml d.1 ks ht, Info.usesPfx, hn, stripInfo_attrs]
  unfold usedByAttrs
  simp [Bool.and_comm]

end ReqIF.Xsd
