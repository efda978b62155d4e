import Verif.Proofs.PlainRoot
import Verif.Proofs.XsdDoc
import Verif.Proofs.ParseInv
import Verif.Props.C42_45
/-! What the parser makes of a plain document survives. -/
set_option linter.unusedSimpArgs false
namespace ReqIF.Xsd
open Spec

variable {X : Prop} {K : NsMap} {p : Str} {Γ : Ctx} {x : Node}

theorem parsedItems_some {β : Type} {tag : Str} {f : List Node → Py β} {l : β} (h : parsedItems x tag f = .ok (some l)) :
    ∃ c, x.find tag = some c ∧ f c.children = .ok l := by
  unfold parsedItems at h
  cases hf : x.find tag with
  | none => rw [hf] at h; cases h
  | some c =>
    rw [hf] at h
    dsimp only at h
    cases hc : f c.children with
    | error e => rw [hc] at h; cases h
    | ok b => rw [hc] at h; cases h; exact ⟨c, rfl, hc⟩

theorem any_getD {α : Type} {o : Option (List α)} {l : List α} {f : α → Bool} {a : α} (ho : o = some l) (ha : a ∈ l) (hf : f a = true) :
    (o.getD []).any f = true := by
  rw [ho]
  exact List.any_eq_true.2 ⟨a, ha, hf⟩

theorem goodRelations_mem {rs : List (Except MissingTag SpecRelation)} {r : SpecRelation} (h : r ∈ goodRelations rs) : .ok r ∈ rs := by
  unfold goodRelations at h
  rw [List.mem_filterMap] at h
  obtain ⟨a, ha, e⟩ := h
  cases a with
  | ok b => cases e; exact ha
  | error m => cases e

theorem content_safe (hE : Env K p) (hΓ : Γ.pfx = p) (h : PSeen X K p .content x) {c : Content} {l : Lookup} {errs : List MissingTag}
    (hc : (parseContent (none : Option (Callback Unit)) x ()).1 = .ok (c, l, errs)) (hu : contentUses c = true → X → XOk Γ) : SafeContent Γ c := by
  obtain ⟨rels, h1, h2, h3, h4, h5, h6, h7, -⟩ := parseContent_inv hc
  have uses : ∀ {b : Bool}, b = true → (b = true → contentUses c = true) → X → XOk Γ := fun hb hh => hu (hh hb)
  refine ⟨?_, ?_, ?_, ?_, ?_, ?_⟩
  · intro l hl a ha
    rw [hl] at h1
    obtain ⟨n, hf, hm⟩ := parsedItems_some h1
    obtain ⟨k, hk, hp⟩ := mapPy_mem hm ha
    obtain ⟨hn, -⟩ := h.find (t' := .datatypes) rfl rfl hf
    obtain ⟨nm, t', e1, e2, e3⟩ := hn.child rfl hk
    obtain ⟨kd, -, hkd⟩ := kind_choice e2
    simp only [Prod.mk.injEq] at hkd
    rw [← hkd.2] at e3
    have e1 := e1.tag
    rw [← hkd.1] at e1
    exact dataType_safe e3 e1 hp
  · intro l hl a ha
    rw [hl] at h2
    obtain ⟨n, hf, hm⟩ := parsedItems_some h2
    obtain ⟨k, hk, hp⟩ := filterMapPy_mem hm ha
    obtain ⟨hn, -⟩ := h.find (t' := .specTypes) rfl rfl hf
    obtain ⟨nm, t', e1, e2, e3⟩ := hn.child rfl hk
    have hs : ∃ s, t' = .specType s ∧ nm = specTag s := by
      have := typeOf_choice e2
      simp only [List.mem_cons, Prod.mk.injEq, List.not_mem_nil, or_false] at this
      rcases this with ⟨a, b⟩ | ⟨a, b⟩ | ⟨a, b⟩ | ⟨a, b⟩
      · exact ⟨_, b, a⟩
      · exact ⟨_, b, a⟩
      · exact ⟨_, b, a⟩
      · exact ⟨_, b, a⟩
    obtain ⟨s, rfl, rfl⟩ := hs
    refine specType_safe hE hΓ e3 e1.tag hp ?_
    intro hb
    exact uses (any_getD (f := specTypeUses) hl ha hb) (fun hh => by unfold contentUses; rw [hh]; rfl)
  · intro l hl a ha
    rw [hl] at h5
    obtain ⟨n, hf, hm⟩ := parsedItems_some h5
    obtain ⟨k, hk, hp⟩ := filterMapPy_mem hm ha
    obtain ⟨hn, -⟩ := h.find (t' := .specObjects) rfl rfl hf
    obtain ⟨nm, t', e1, e2, e3⟩ := hn.child rfl hk
    have := typeOf_choice e2
    simp only [List.mem_singleton, Prod.mk.injEq] at this
    rw [this.2] at e3
    have hp : parseSpecObject k = .ok a := by
      unfold objectItem someItem at hp
      split at hp
      · cases hp
      · cases ho : parseSpecObject k with
        | error e => rw [ho] at hp; cases hp
        | ok o => rw [ho] at hp; cases hp; rfl
    refine specObject_safe hE hΓ e3 hp ?_
    intro hb
    exact uses (any_getD (f := fun o => o.attributes.any usesXhtml) hl ha hb) (fun hh => by unfold contentUses; rw [hh]; simp)
  · intro l hl a ha
    rw [h7, Option.map_eq_some_iff] at hl
    obtain ⟨rs, hrs, rfl⟩ := hl
    rw [hrs] at h4
    obtain ⟨n, hf, hm⟩ := parsedItems_some h4
    obtain ⟨k, hk, hp⟩ := mapPy_mem hm (goodRelations_mem ha)
    obtain ⟨hn, -⟩ := h.find (t' := .specRelations) rfl rfl hf
    obtain ⟨nm, t', e1, e2, e3⟩ := hn.child rfl hk
    have := typeOf_choice e2
    simp only [List.mem_singleton, Prod.mk.injEq] at this
    rw [this.2] at e3
    have e1 := e1.tag
    rw [this.1] at e1
    have hp : parseSpecRelation k = .ok (.ok a) := by
      unfold relationItem at hp
      cases ho : parseSpecRelation k with
      | error e => rw [ho] at hp; cases hp
      | ok o =>
        rw [ho] at hp
        cases o with
        | ok r => cases hp; rfl
        | error m =>
          dsimp only at hp
          cases hs : stringifyNode false m.node with
          | error e => rw [hs] at hp; cases hp
          | ok s => rw [hs] at hp; cases hp
    refine specRelation_safe hE hΓ e3 e1 hp ?_
    intro hb
    exact uses (any_getD (o := c.specRelations) (f := relationHasXhtml) (by rw [h7, hrs]; rfl) ha hb) (fun hh => by unfold contentUses; rw [hh]; simp)
  · intro l hl a ha
    rw [hl] at h3
    obtain ⟨n, hf, hm⟩ := parsedItems_some h3
    obtain ⟨k, hk, hp⟩ := mapPy_mem hm ha
    obtain ⟨hn, -⟩ := h.find (t' := .specifications) rfl rfl hf
    obtain ⟨nm, t', e1, e2, e3⟩ := hn.child rfl hk
    have := typeOf_choice e2
    simp only [List.mem_singleton, Prod.mk.injEq] at this
    rw [this.2] at e3
    refine specification_safe hE hΓ e3 hp ?_
    intro hb
    exact uses (any_getD (f := fun s => (s.values.getD []).any usesXhtml) hl ha hb) (fun hh => by unfold contentUses; rw [hh]; simp)
  · intro l hl a ha
    rw [hl] at h6
    obtain ⟨n, hf, hm⟩ := parsedItems_some h6
    obtain ⟨k, hk, hp⟩ := mapPy_mem hm ha
    obtain ⟨hn, -⟩ := h.find (t' := .relationGroups) rfl rfl hf
    obtain ⟨nm, t', e1, e2, e3⟩ := hn.child rfl hk
    have := typeOf_choice e2
    simp only [List.mem_singleton, Prod.mk.injEq] at this
    rw [this.2] at e3
    exact relationGroup_safe e3 hp

/-- The parts of a plain valid document as the parser sees them, and what it makes of them. -/
structure PlainParts (p : Str) (doc : Doc) (b : Bundle) (X : Prop) (K : NsMap) (r : Node) : Prop where
  env : Env K p
  seen : Seen .lenient .reqIf r
  kids : ∃ m, r.kids = seenAll m doc.root.kids
  strip : strippedRoot doc.root = .ok r
  kid : ∀ {c : Node}, c ∈ r.children → ∃ nm t', Named nm c ∧ (schema .lenient .reqIf).model.typeOf nm = some t' ∧ PSeen X K p t' c
  header : (r.find c!"THE-HEADER" = none ∧ b.header = none) ∨
    ∃ hn v, r.find c!"THE-HEADER" = some hn ∧ parseHeader hn = .ok v ∧ b.header = some v
  core : CoreOf r b.coreContent b.lookup []
  tool : b.toolExtensionsTagExists = (r.find c!"TOOL-EXTENSIONS").isSome

theorem plain_parts {text : Str} {doc : Doc} (hr : readDoc text = some doc) (hv : validRoot .lenient doc.root = true)
    (hs : noSpecials doc.root = true) (hp : plainDocument p doc.root = true) (hk : childNames doc.root.kids ≠ []) :
    ∃ b as i ks, doc.root = .elem i ks ∧ parseString text = .ok b ∧ SafeBundle as p b ∧ resolveInfo [] c!"REQ-IF" as = some i ∧
      b.exceptions = [] ∧ b.namespaceInfo.originalReqifTagDump = some (capturedTag as) ∧
      (∀ h, b.header = some h → readHeader h = h ∧ h.repositoryId ≠ .text []) ∧ ∃ X K r, PlainParts p doc b X K r := by
  obtain ⟨hsane, q, as, i, ks, -, has, hres, hroot⟩ := readDoc_sane hr
  have hv' := hv
  rw [hroot] at hv' hp hs hsane
  simp only [validRoot, Bool.and_eq_true, beq_iff_eq] at hv'
  simp only [plainDocument, Bool.and_eq_true, bne_iff_ne] at hp
  obtain ⟨⟨⟨⟨⟨p1, p2⟩, p3⟩, p4⟩, p5⟩, p6⟩ := hp
  have hns := hv'.1.1
  have hpf : i.pfx = none := by
    unfold rootFits at p3
    rw [Bool.and_eq_true, Bool.and_eq_true] at p3
    simpa using p3.1.1
  have hq : q = c!"REQ-IF" := by
    have e := resolveInfo_name hres
    rw [hpf, hv'.1.2] at e
    rcases splitQName_eq q with e2 | ⟨a, b, e2, -⟩
    · rw [e2] at e; injection e
    · rw [e2] at e; cases e
  subst hq
  have hres' := resolveInfo_tidy hres
  have hgood := goodRoot_of has hres hns p3
  obtain ⟨-, -, hmap, hdef⟩ := resolveInfo_root hres
  have hdef := hdef _ hns
  have hstrip : (stripInfo i).ns = none := stripInfo_reqif hns (by rw [hv'.1.2]; rfl)
  have hK := usedDefs_root (p := p) (ks := ks) hstrip p5
  obtain ⟨b, g1, g2, -, r, hseen, hrs, hlen, g5, g6, g7, g8⟩ :=
    document_parses (d := .lenient) (by decide) hr (by rw [hroot]; show (NsMap.get? i.nsmap none).isSome = true; rw [hdef]; rfl) hv (by rw [hroot]; exact hs) hk
  have hstripped : strippedRoot doc.root = .ok r := by
    obtain ⟨r', e1, -, -, e2⟩ := strippedRoot_seen hr
      (by rw [hroot]; show (NsMap.get? i.nsmap none).isSome = true; rw [hdef]; rfl) hv (by rw [hroot]; exact hs)
    rw [e1, e2, hrs]
  rw [hroot, seen_elem, show NsMap.push (usedDefs i ks) [] = usedDefs i ks by simp [NsMap.push]] at hrs
  generalize hKK : usedDefs i ks = K at hK hrs
  rw [Node.Sane] at hsane
  rw [noSpecials] at hs
  have hE : Env K p := by
    refine ⟨p1, ?_⟩
    intro d hd hnone
    rw [hK, List.mem_filter, hnone] at hd
    have := hd.2
    rw [show ((none : Option Str) == some p) = false from rfl, Bool.and_false, Bool.or_false] at this
    unfold usedByAttrs at this
    rw [List.any_eq_true] at this
    obtain ⟨a, ha, e⟩ := this
    rw [Bool.and_eq_true, beq_iff_eq, hnone] at e
    have := (hsane.1.attrs a ha).2.2.2.1
    rw [e.1, e.2] at this
    cases this
  have hfind : haveXhtml ks = true → i.nsdefs.find? (fun d => d.1 == some p || usedByAttrs i d) = some (some p, xhtmlUri) := by
    intro hx
    rw [hx] at p4
    have p4 : xhtmlFirst p i = true := by simpa using p4
    unfold xhtmlFirst at p4
    simpa using p4
  have hfirst : ∀ u : Bool, u = true → haveXhtml ks = true →
      NsMap.firstKey (i.nsdefs.filter (fun d => usedByAttrs i d || (u && d.1 == some p))) = some p := by
    rintro u rfl hx
    have e : (fun d : Option Str × Str => usedByAttrs i d || (true && d.1 == some p)) = (fun d => d.1 == some p || usedByAttrs i d) := by
      funext d
      rw [Bool.true_and, Bool.or_comm]
    rw [e]
    exact firstKey_filter (hfind hx)
  have hkids : r.kids = seenAll K ks := by rw [hrs]; rfl
  have hx : haveXhtml r.kids = true → NsMap.firstKey K = some p ∧ haveXhtml ks = true := by
    intro hh
    rw [hkids, haveXhtml_seen K ks hs] at hh
    refine ⟨?_, hh⟩
    rw [hK]
    exact hfirst _ hh hh
  have kid : ∀ {c : Node}, c ∈ r.children → ∃ nm t', Named nm c ∧ (schema .lenient .reqIf).model.typeOf nm = some t' ∧
      PSeen (haveXhtml ks = true) K p t' c := by
    intro c hc
    refine kid_pseen hseen rfl ?_ ?_ hx hc
    · rw [hkids]; exact neatAll_seen K ks hsane.2.2 hs p5
    · rw [hkids, fitsAll_seen K .reqIf ks hs]; exact p6
  have kidOf : ∀ {c : Node} {nm : Str} {t' : TypeName}, r.find nm = some c → (schema .lenient .reqIf).model.typeOf nm = some t' →
      PSeen (haveXhtml ks = true) K p t' c := by
    intro c nm t' hf ht
    obtain ⟨h1, h2⟩ := find_children hf
    obtain ⟨nm', t'', e1, e2, e3⟩ := kid h1
    have e := e1.tag
    rw [h2] at e
    have e : nm = nm' := by injection e
    subst e
    rw [ht] at e2
    cases e2
    exact e3
  have hhead : ∀ h, b.header = some h → SafeHeader h ∧ readHeader h = h := by
    intro h hh
    rcases g6 with ⟨-, e⟩ | ⟨hn, v, e1, e2, e3⟩
    · rw [e] at hh; cases hh
    · rw [e3] at hh
      cases hh
      exact header_safe (kidOf (t' := .theHeader) e1 rfl) e2
  have hdump : b.namespaceInfo.originalReqifTagDump = some (capturedTag (tidyAttrs as)) := by
    rw [g5]
    unfold namespaceInfoOf tagDumpOf
    dsimp only
    rw [hroot]
    exact congrArg some (rootTagDump_eq hgood hres')
  refine ⟨b, tidyAttrs as, i, ks, hroot, g1, ⟨⟨hgood, ?_⟩, fun h hh => (hhead h hh).1, ?_, ?_⟩, hres', g2, hdump, ?_, haveXhtml ks = true, K, r,
    ⟨hE, hseen, ⟨K, by rw [hroot]; exact hkids⟩, hstripped, kid, g6, g7, g8⟩⟩
  · rw [hdump]
    dsimp only
    refine ⟨rfl, ?_⟩
    rw [g5]
    refine describes_of hgood hres' hroot ?_
    rw [hrs]
    exact stripInfo_attrs i
  · intro c hc' Δ hΔ
    obtain ⟨cn, xn, l, k1, k2, k3⟩ : ∃ cn xn l, r.find c!"CORE-CONTENT" = some cn ∧ cn.find c!"REQ-IF-CONTENT" = some xn ∧
        (parseContent (none : Option (Callback Unit)) xn ()).1 = .ok (c, l, []) := by
      rw [hc'] at g7
      generalize b.lookup = lk at g7
      cases g7 with
      | some e1 e2 e3 => exact ⟨_, _, _, e1, e2, e3⟩
    have hcore := kidOf (t' := .coreContent) k1 rfl
    obtain ⟨hcont, -⟩ := hcore.find (t' := .content) rfl rfl k2
    obtain ⟨j, hj, rfl⟩ := hΔ
    rw [hres'] at hj
    cases hj
    refine content_safe (Γ := rootCtx i p (contentUses c)) hE rfl hcont k3 ?_
    intro hu hX
    rw [hu]
    have hget : NsMap.get? i.nsmap (some p) = some xhtmlUri := by
      unfold NsMap.get?
      rw [hmap, find_or (f := fun d : Option Str × Str => d.1 == some p) (by simp) (hfind hX)]
      rfl
    refine ⟨⟨p2, xhtmlUri, hget, by decide⟩, ?_⟩
    show NsMap.firstKey (keptDecls i p true) = some p
    unfold keptDecls
    rw [hdef]
    exact hfirst true rfl hX
  · obtain ⟨c, hc⟩ : ∃ c, c ∈ r.children := by
      cases hcs : r.children with
      | nil => exact absurd (by unfold Node.len; rw [hcs]; rfl) hlen
      | cons c cs => exact ⟨c, by simp⟩
    obtain ⟨nm, t', e1, e2, -⟩ := hseen.child rfl hc
    have hf : (r.find nm).isSome = true := by
      unfold Node.find
      rw [List.find?_isSome]
      unfold Node.children at hc
      rw [List.mem_filter] at hc
      exact ⟨c, hc.1, by rw [e1]; simpa using hc.2⟩
    have hnm : nm = c!"THE-HEADER" ∨ nm = c!"CORE-CONTENT" ∨ nm = c!"TOOL-EXTENSIONS" := by
      have := typeOf_mem e2
      simpa [modelNames, schema] using this
    rcases hnm with rfl | rfl | rfl
    · refine .inl ?_
      rcases g6 with ⟨e, -⟩ | ⟨hn, v, -, -, e3⟩
      · rw [e] at hf; cases hf
      · rw [e3]; rfl
    · refine .inr (.inl ?_)
      cases hcc : b.coreContent with
      | some o => rfl
      | none =>
        rw [hcc] at g7
        generalize b.lookup = lk at g7
        cases g7 with
        | none e => rw [e] at hf; cases hf
    · exact .inr (.inr (by rw [g8]; exact hf))
  · intro h hh
    refine ⟨(hhead h hh).2, ?_⟩
    intro e
    have := congrArg Header.repositoryId (hhead h hh).2
    unfold readHeader at this
    dsimp only at this
    rw [e] at this
    cases this

/-- What the parser makes of a plain valid document survives. -/
theorem plain_safe {text : Str} {doc : Doc} (hr : readDoc text = some doc) (hv : validRoot .lenient doc.root = true)
    (hs : noSpecials doc.root = true) (hp : plainDocument p doc.root = true) (hk : childNames doc.root.kids ≠ []) :
    ∃ b as i ks, doc.root = .elem i ks ∧ parseString text = .ok b ∧ SafeBundle as p b ∧ resolveInfo [] c!"REQ-IF" as = some i ∧
      b.exceptions = [] ∧ b.namespaceInfo.originalReqifTagDump = some (capturedTag as) ∧
      ∀ h, b.header = some h → readHeader h = h ∧ h.repositoryId ≠ .text [] := by
  obtain ⟨b, as, i, ks, h1, h2, h3, h4, h5, h6, h7, -⟩ := plain_parts hr hv hs hp hk
  exact ⟨b, as, i, ks, h1, h2, h3, h4, h5, h6, h7⟩

end ReqIF.Xsd
