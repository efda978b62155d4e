import Verif.Spec.Renamed
import Verif.Model.Parser
/-!
# Documents that differ in namespaces and prefixes: proofs

Without namespaces, and after the declarations without use are dropped, the trees are equal.
-/
set_option linter.unusedSimpArgs false
namespace ReqIF
open Spec

mutual
/-- What remains different once the namespaces are removed: declarations without use. -/
inductive Close (free : Option Str → Bool) : Node → Node → Prop
  | text (s : Str) : Close free (.text s) (.text s)
  | comment (s : Str) : Close free (.comment s) (.comment s)
  | elem {i j : Info} {ks ls : List Node} (ns : i.ns = j.ns) (pfx : i.pfx = j.pfx) (name : i.name = j.name)
      (attrs : i.attrs = j.attrs) (used : ∀ p, free p = true → i.usesPfx p = false)
      (decls : SameDecls free i.nsdefs j.nsdefs) (kids : CloseKids free ks ls) : Close free (.elem i ks) (.elem j ls)

inductive CloseKids (free : Option Str → Bool) : List Node → List Node → Prop
  | nil : CloseKids free [] []
  | cons {k k' : Node} {ks ks' : List Node} (h : Close free k k') (hk : CloseKids free ks ks') :
      CloseKids free (k :: ks) (k' :: ks')
end

variable {free : Option Str → Bool}

theorem usesPfx_free {i : Info} (hp : i.ns ≠ none → free i.pfx = false) (used : ∀ a ∈ i.attrs, a.ns ≠ none → free a.pfx = false)
    (p : Option Str) (h : free p = true) : i.usesPfx p = false := by
  simp only [Info.usesPfx, Bool.or_eq_false_iff, List.any_eq_false, Bool.and_eq_true, not_and]
  constructor
  · by_cases hn : i.ns = none
    · simp [hn]
    · have := hp hn
      cases he : (i.pfx == p)
      · simp
      · rw [beq_iff_eq] at he
        rw [he, h] at this
        cases this
  · intro a ha hs he
    rw [beq_iff_eq] at he
    have := used a ha (by intro e; rw [e] at hs; cases hs)
    rw [he, h] at this
    cases this

mutual
theorem strip_renamed : ∀ {n n' : Node}, Renamed free n n' →
    (∃ e, stripTags false n = .error e ∧ stripTags false n' = .error e) ∨
    ∃ m m', stripTags false n = .ok m ∧ stripTags false n' = .ok m' ∧ Close free m m'
  | _, _, .text s => .inr ⟨_, _, rfl, rfl, .text s⟩
  | _, _, .comment s => .inr ⟨_, _, rfl, rfl, .comment s⟩
  | _, _, .pi t d => .inl ⟨.typeError, rfl, rfl⟩
  | .elem i ks, .elem j ls, .elem hi hj name attrs used decls kids => by
    unfold inXhtml at hi hj
    simp only [stripTags, hi, hj]
    rcases stripKids_renamed kids with ⟨e, h1, h2⟩ | ⟨m, m', h1, h2, h⟩
    · simp only [h1, h2]
      exact .inl ⟨e, rfl, rfl⟩
    · simp only [h1, h2, Bool.not_false, Bool.and_false, Bool.false_eq_true, if_false]
      exact .inr ⟨_, _, rfl, rfl, .elem rfl rfl name attrs (usesPfx_free (fun h => absurd rfl h) used) decls h⟩
  | .elem i ks, .elem _ ls, .xhtml (m := c) hi hp used kids => by
    unfold inXhtml at hi
    have hi' : containsStr xhtmlNs (Info.tag { i with nsmap := c }) = true := hi
    simp only [stripTags, hi, hi']
    rcases stripKids_renamed kids with ⟨e, h1, h2⟩ | ⟨m, m', h1, h2, h⟩
    · simp only [h1, h2]
      exact .inl ⟨e, rfl, rfl⟩
    · simp only [h1, h2, Bool.not_false, Bool.and_true, if_true]
      exact .inr ⟨_, _, rfl, rfl, .elem rfl rfl rfl rfl (usesPfx_free (fun _ => hp) used) rfl h⟩

theorem stripKids_renamed : ∀ {ks ls : List Node}, RenamedKids free ks ls →
    (∃ e, stripTagsList false ks = .error e ∧ stripTagsList false ls = .error e) ∨
    ∃ m m', stripTagsList false ks = .ok m ∧ stripTagsList false ls = .ok m' ∧ CloseKids free m m'
  | _, _, .nil => .inr ⟨_, _, rfl, rfl, .nil⟩
  | k :: ks, l :: ls, .cons h hk => by
    simp only [stripTagsList]
    rcases strip_renamed h with ⟨e, h1, h2⟩ | ⟨m, m', h1, h2, h⟩
    · simp only [h1, h2]
      exact .inl ⟨e, rfl, rfl⟩
    · simp only [h1, h2]
      rcases stripKids_renamed hk with ⟨e, h1, h2⟩ | ⟨ms, ms', h1, h2, hk⟩
      · simp only [h1, h2]
        exact .inl ⟨e, rfl, rfl⟩
      · simp only [h1, h2]
        exact .inr ⟨_, _, rfl, rfl, .cons h hk⟩
end

theorem declares_same {p : Option Str} (hp : free p = false) {i j : Info} (h : SameDecls free i.nsdefs j.nsdefs) :
    i.declares p = j.declares p := by
  have key : ∀ l : NsMap, l.any (fun d => d.1 == p) = (l.filter (fun d => !free d.1)).any (fun d => d.1 == p) := by
    intro l
    rw [Bool.eq_iff_iff]
    simp only [List.any_eq_true, List.mem_filter, beq_iff_eq]
    constructor
    · rintro ⟨d, hd, e⟩
      exact ⟨d, ⟨hd, by rw [e, hp]; rfl⟩, e⟩
    · rintro ⟨d, ⟨hd, -⟩, e⟩
      exact ⟨d, hd, e⟩
  unfold Info.declares
  rw [key, key j.nsdefs, show i.nsdefs.filter _ = _ from h]

theorem usesInfo_same {p : Option Str} {i j : Info} (h1 : i.ns = j.ns) (h2 : i.pfx = j.pfx) (h3 : i.attrs = j.attrs) :
    i.usesPfx p = j.usesPfx p := by
  simp only [Info.usesPfx, h1, h2, h3]

mutual
theorem close_uses (p : Option Str) (b : Bool) : ∀ {n n' : Node}, Close free n n' →
    n.usesPfx p b = n'.usesPfx p b ∧ (free p = true → n.usesPfx p b = false)
  | _, _, .text s => ⟨rfl, fun _ => rfl⟩
  | _, _, .comment s => ⟨rfl, fun _ => rfl⟩
  | .elem i ks, .elem j ls, .elem ns pfx name attrs used decls kids => by
    have hk := closeKids_uses p kids
    simp only [Node.usesPfx]
    rw [← usesInfo_same ns pfx attrs, ← hk.1]
    cases hf : free p with
    | false => exact ⟨by rw [declares_same hf decls], fun h => by cases h⟩
    | true =>
      rw [used p hf, hk.2 hf]
      simp

theorem closeKids_uses (p : Option Str) : ∀ {ks ls : List Node}, CloseKids free ks ls →
    usesPfxList p ks = usesPfxList p ls ∧ (free p = true → usesPfxList p ks = false)
  | _, _, .nil => ⟨rfl, fun _ => rfl⟩
  | k :: ks, l :: ls, .cons h hk => by
    have h1 := close_uses p true h
    have h2 := closeKids_uses p hk
    simp only [usesPfxList]
    rw [← h1.1, ← h2.1]
    exact ⟨rfl, fun hf => by rw [h1.2 hf, h2.2 hf]; rfl⟩
end

theorem filter_same {q q' : Option Str × Str → Bool} {l l' : NsMap} (h : SameDecls free l l')
    (hq : ∀ d, q d = q' d) (hf : ∀ d, free d.1 = true → q d = false) : l.filter q = l'.filter q' := by
  have key : ∀ l : NsMap, l.filter q = (l.filter (fun d => !free d.1)).filter q := by
    intro l
    rw [List.filter_filter]
    congr 1
    funext d
    cases h : free d.1 with
    | true => rw [hf d h]; rfl
    | false => simp
  have : q = q' := funext hq
  rw [← this, key, key l', show l.filter _ = _ from h]

mutual
theorem close_cleanup : ∀ (m : NsMap) {n n' : Node}, Close free n n' → cleanup m n = cleanup m n'
  | m, _, _, .text s => rfl
  | m, _, _, .comment s => rfl
  | m, .elem i ks, .elem j ls, .elem ns pfx name attrs used decls kids => by
    have hu := fun (d : Option Str × Str) => close_uses d.1 false (Close.elem ns pfx name attrs used decls kids)
    have e := filter_same decls (q := fun d => Node.usesPfx d.1 false (.elem i ks)) (q' := fun d => Node.usesPfx d.1 false (.elem j ls))
      (fun d => (hu d).1) (fun d => (hu d).2)
    simp only [cleanup, e, closeKids_cleanup _ kids, ns, pfx, name, attrs]

theorem closeKids_cleanup : ∀ (m : NsMap) {ks ls : List Node}, CloseKids free ks ls → cleanupList m ks = cleanupList m ls
  | m, _, _, .nil => rfl
  | m, k :: ks, l :: ls, .cons h hk => by
    simp only [cleanupList, close_cleanup m h, closeKids_cleanup m hk]
end

/-- Once the namespaces are removed the roots are the same. -/
theorem Spec.Renamed.stripped_ {n n' : Node} (h : Renamed free n n') (hn : declaresDefault n) (hn' : declaresDefault n') :
    strippedRoot n = strippedRoot n' := by
  obtain ⟨u, hu⟩ := hn
  obtain ⟨u', hu'⟩ := hn'
  simp only [strippedRoot, hu, hu', stripNamespace]
  rcases strip_renamed h with ⟨e, h1, h2⟩ | ⟨m, m', h1, h2, h⟩
  · simp only [h1, h2]
  · simp only [h1, h2, close_cleanup [] h]

end ReqIF
