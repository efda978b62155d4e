import Verif.Props.C36
/-!
# C37: spec relations survive write and read
-/
set_option linter.unusedSimpArgs false
namespace ReqIF
open Spec

/-- The value of a relation. -/
theorem relationValue_survives {Γ : Ctx} (hc : Γ.Clean) {a : SpecObjectAttribute} (h : SafeValue Γ a)
    (hk : a.type = .string ∨ a.type = .integer ∨ a.type = .xhtml) :
    ∃ t n a', unparseAttributeValues (some [a]) = .ok t ∧ Shows Γ (usesXhtml a) t [n] ∧ n.tag = .name c!"VALUES" ∧
      parseRelationValues (some n) = .ok (some a') ∧ bareValue a' = bareValue a ∧
      unparseAttributeValues (some [a']) = .ok t ∧ Xsd.said n = Xsd.valuesSaid Γ.pfx [a] := by
  suffices ∃ t n a', unparseAttributeValue a = .ok t ∧ Shows Γ (usesXhtml a) t [n] ∧
      (∀ v, v.children = [n] → parseRelationValues (some v) = .ok (some a')) ∧ bareValue a' = bareValue a ∧
      unparseAttributeValue a' = .ok t ∧ Xsd.said n = Xsd.valueSaid Γ.pfx a by
    obtain ⟨t, n, a', h1, h2, h3, h4, h5, h6⟩ := this
    obtain ⟨v, v1, -, v2⟩ := Shows.block 10 (tag := c!"VALUES") (by decide) h2
    refine ⟨_, v, a', ?_, v2, v1.tag, h3 v v1.children, h4, ?_, by rw [v1.saysList (by decide), List.map_cons, List.map_nil, h6]; rfl⟩
    · simp [unparseAttributeValues, concatPy, h1, py_bind_ok, py_pure]
    · simp [unparseAttributeValues, concatPy, h5, py_bind_ok, py_pure]
  obtain ⟨ty, ref, val, sx, nd⟩ := a
  obtain ⟨href, hval⟩ := h
  dsimp only at href hval hk
  rcases hk with rfl | rfl | rfl
  · cases val with
    | list l => exact hval.elim
    | str v =>
      obtain ⟨n, d, r, n1, d1, r1, r2, n2⟩ := simpleValue_shows (Γ := Γ) (name := c!"STRING") (by decide) (by decide) (attrRaw_html hval) href
      refine ⟨_, n, ⟨.string, ref, .str v, none, some n⟩, rfl, n2, ?_, rfl, rfl, simple_said (name := c!"STRING") n1 d1 r1 r2 (by decide) (by decide)⟩
      intro w hw
      unfold parseRelationValues
      dsimp only
      rw [hw]
      dsimp only
      have e : n.tag = .name c!"ATTRIBUTE-VALUE-STRING" := n1.tag
      rw [if_pos e]
      have h1 : attrReq n c!"THE-VALUE" = .ok v := by
        unfold attrReq
        rw [n1.attr]; rfl
      have h2 : firstChild n = .ok d := by unfold firstChild; rw [n1.children]
      have h3 : firstChild d = .ok r := by unfold firstChild; rw [d1.children]
      rw [h1, py_bind_ok, h2, py_bind_ok, h3, py_bind_ok, py_pure, r2]
  · cases val with
    | list l => exact hval.elim
    | str v =>
      obtain ⟨n, d, r, n1, d1, r1, r2, n2⟩ := simpleValue_shows (Γ := Γ) (name := c!"INTEGER") (by decide) (by decide) (attrRaw_plain hval) href
      refine ⟨_, n, ⟨.integer, ref, .str v, none, some n⟩, rfl, n2, ?_, rfl, rfl, simple_said (name := c!"INTEGER") n1 d1 r1 r2 (by decide) (by decide)⟩
      intro w hw
      unfold parseRelationValues
      dsimp only
      rw [hw]
      dsimp only
      have e : n.tag = .name c!"ATTRIBUTE-VALUE-INTEGER" := n1.tag
      rw [e, if_neg (by decide), if_neg (by decide), if_pos rfl]
      have h1 : attrReq n c!"THE-VALUE" = .ok v := by
        unfold attrReq
        rw [n1.attr]; rfl
      have h2 : firstChild n = .ok d := by unfold firstChild; rw [n1.children]
      have h3 : firstChild d = .ok r := by unfold firstChild; rw [d1.children]
      rw [h1, py_bind_ok, h2, py_bind_ok, h3, py_bind_ok, py_pure, r2]
  · cases val with
    | list l => exact hval.elim
    | str v =>
      obtain ⟨n, n1, n2, ⟨s, n3⟩, n4⟩ := xhtmlTemplate_shows hc hval href
      refine ⟨_, n, ⟨.xhtml, ref, .str v, some s, some n⟩, rfl, n1, ?_, rfl, rfl, n4⟩
      intro w hw
      unfold parseRelationValues
      dsimp only
      rw [hw]
      dsimp only
      rw [n2, if_neg (by decide), if_pos rfl, n3, py_bind_ok, py_pure]

/-- Reading a relation that has all its tags. -/
def parseRelation (n : Node) : Py SpecRelation :=
  match parseSpecRelation n with
  | .error e => .error e
  | .ok (.error _) => .error .assertion
  | .ok (.ok r) => .ok r

theorem parseRelation_ok {n : Node} {r : SpecRelation} : parseRelation n = .ok r ↔ parseSpecRelation n = .ok (.ok r) := by
  unfold parseRelation
  cases h : parseSpecRelation n with
  | error e => simp
  | ok o => cases o <;> simp

def relationUses (r : SpecRelation) : Bool :=
  match r.valuesAttribute with
  | none => false
  | some a => usesXhtml a

theorem relation_survives {Γ : Ctx} (hc : Γ.Clean) {o : SpecRelation} (h : SafeRelation Γ o) :
    Survives Γ (relationUses o) (fun n => (n.tag = .name c!"SPEC-RELATION" ∧ childTags n = relationOrder o) ∧
        Xsd.said n = Xsd.relationSaid Γ.pfx o)
      unparseSpecRelation parseRelation bareRelation bareRelation o := by
  obtain ⟨i, ty, sr, tg, nd, desc, lc, ln, va⟩ := o
  obtain ⟨h1, h2, h3, h4, h5, h6, h7, h8, h9⟩ := h
  dsimp only at h1 h2 h3 h4 h5 h6 h7 h8 h9
  obtain ⟨d, dr, d1, dr1, d2, d3⟩ := Shows.ref (Γ := Γ) 10 12 (outer := c!"TYPE") (inner := c!"SPEC-RELATION-TYPE-REF")
    (by decide) (by decide) h5
  obtain ⟨s, r, s1, r1, s2, s3⟩ := Shows.ref (Γ := Γ) 10 12 (outer := c!"SOURCE") (inner := c!"SPEC-OBJECT-REF")
    (by decide) (by decide) h6
  obtain ⟨g, gr, g1, gr1, g2, g3⟩ := Shows.ref (Γ := Γ) 10 12 (outer := c!"TARGET") (inner := c!"SPEC-OBJECT-REF")
    (by decide) (by decide) h7
  have hv : ∃ (vt : Str) (vn : Option Node) (va' : Option SpecObjectAttribute),
      (∀ r' : SpecRelation, r'.valuesAttribute = va ∨ r'.valuesAttribute = va' →
        unparseSpecRelationChild r' (.name c!"VALUES") = .ok vt) ∧
      ((vn = none ∧ vt = [] ∧ va = none) ∨ ∃ n, vn = some n ∧ n.tag = .name c!"VALUES" ∧
        Shows Γ (relationUses ⟨i, ty, sr, tg, nd, desc, lc, ln, va⟩) vt [n] ∧ va.isSome = true) ∧
      parseRelationValues vn = .ok va' ∧ va'.map bareValue = va.map bareValue ∧
      vn.map Xsd.said = va.map (fun a => Xsd.valuesSaid Γ.pfx [a]) := by
    cases va with
    | none =>
      refine ⟨[], none, none, ?_, .inl ⟨rfl, rfl, rfl⟩, rfl, rfl, rfl⟩
      intro r' hr'
      have : r'.valuesAttribute = none := by simpa using hr'
      simp only [unparseSpecRelationChild, this]
      rfl
    | some a =>
      obtain ⟨ha, hk⟩ := h8 a rfl
      obtain ⟨t, n, a', e1, e2, e3, e4, e5, e6, e7⟩ := relationValue_survives hc ha hk
      refine ⟨t, some n, some a', ?_, .inr ⟨n, rfl, e3, e2, rfl⟩, e4, by simp [e5], by rw [Option.map_some, e7]; rfl⟩
      intro r' hr'
      rcases hr' with hr' | hr'
      · simp only [unparseSpecRelationChild, hr']
        exact e1
      · simp only [unparseSpecRelationChild, hr']
        exact e6
  obtain ⟨vt, vn, va', v1, v2, v3, v4, v5⟩ := hv
  obtain ⟨h9, hT, hS, hG, hV⟩ := h9
  generalize hts : sourceOrder nd relationTags = ts at h9 hT hS hG hV
  let node : Tag → Option Node := fun t => if t = .name c!"TYPE" then some d else if t = .name c!"SOURCE" then some s
    else if t = .name c!"TARGET" then some g else if t = .name c!"VALUES" then vn else none
  let use : Tag → Bool := fun t => if t = .name c!"VALUES" then relationUses ⟨i, ty, sr, tg, nd, desc, lc, ln, va⟩ else false
  have htag : ∀ t n, node t = some n → n.tag = t := by
    intro t n hn
    simp only [node] at hn
    repeat' split at hn
    · rename_i e; cases hn; rw [e]; exact d1.tag
    · rename_i e; cases hn; rw [e]; exact s1.tag
    · rename_i e; cases hn; rw [e]; exact g1.tag
    · rename_i e
      rcases v2 with ⟨rfl, -, -⟩ | ⟨m, rfl, hm, -, -⟩
      · cases hn
      · cases hn; rw [e]; exact hm
    · cases hn
  have hsome : ∀ t ∈ ts, (node t).isSome = !(t == .name c!"VALUES" && va.isNone) := by
    intro t ht
    have hk := h9 t ht
    simp only [relationTags, List.map_cons, List.map_nil, List.mem_cons, List.not_mem_nil, or_false] at hk
    rcases hk with rfl | rfl | rfl | rfl
    · rfl
    · rfl
    · rfl
    · rcases v2 with ⟨rfl, -, rfl⟩ | ⟨m, rfl, hm, -, hs⟩
      · rfl
      · cases va with
        | none => cases hs
        | some a => rfl
  obtain ⟨body, b1, b2, b3⟩ := childLoop (Γ := Γ) (g := unparseSpecRelationChild ⟨i, ty, sr, tg, nd, desc, lc, ln, va⟩) (node := node)
    (use := use) ts (by
      intro t ht
      have hk := h9 t ht
      simp only [relationTags, List.map_cons, List.map_nil, List.mem_cons, List.not_mem_nil, or_false] at hk
      rcases hk with rfl | rfl | rfl | rfl
      · exact ⟨_, rfl, .inr ⟨d, rfl, d1.tag, d3⟩⟩
      · exact ⟨_, rfl, .inr ⟨s, rfl, s1.tag, s3⟩⟩
      · exact ⟨_, rfl, .inr ⟨g, rfl, g1.tag, g3⟩⟩
      · refine ⟨vt, v1 _ (.inl rfl), ?_⟩
        rcases v2 with ⟨rfl, rfl, rfl⟩ | ⟨m, rfl, hm, hs, -⟩
        · exact .inl ⟨rfl, rfl, rfl⟩
        · exact .inr ⟨m, rfl, hm, hs⟩)
  have hu : ts.any use = relationUses ⟨i, ty, sr, tg, nd, desc, lc, ln, va⟩ := by
    cases va with
    | none => simp [use, relationUses]
    | some a => exact any_use (hV rfl)
  rw [hu] at b2
  obtain ⟨n, n1, -, -, n3⟩ := Shows.elem 8 (tag := c!"SPEC-RELATION") (by decide)
    (as := optA c!"DESC" id desc ++ [(c!"IDENTIFIER", i)] ++ optA c!"LAST-CHANGE" id lc ++ optA c!"LONG-NAME" htmlEscape ln)
    (vs := optA c!"DESC" id desc ++ [(c!"IDENTIFIER", i)] ++ optA c!"LAST-CHANGE" id lc ++ optA c!"LONG-NAME" id ln)
    (by attributes; exact AttrsRead.optHtml _ h4) b2
  have hct : childTags n = ts.filter (fun t => (node t).isSome) := by
    unfold childTags; rw [n1.children]; exact b3
  have fd : n.find c!"TYPE" = some d := by
    rw [find_eq, n1.children, find_loop (fun t _ => htag t), if_pos hT]; rfl
  have fs : n.find c!"SOURCE" = some s := by
    rw [find_eq, n1.children, find_loop (fun t _ => htag t), if_pos hS]; rfl
  have fg : n.find c!"TARGET" = some g := by
    rw [find_eq, n1.children, find_loop (fun t _ => htag t), if_pos hG]; rfl
  have fv : n.find c!"VALUES" = vn := by
    rw [find_eq, n1.children, find_loop (fun t _ => htag t)]
    split
    · rfl
    · rename_i hn
      rcases v2 with ⟨rfl, -, -⟩ | ⟨m, -, -, -, hs⟩
      · rfl
      · exact absurd (hV hs) hn
  have hmem : ∀ t ∈ ts, (node t).isSome = true → (childTags n).contains t = true := by
    intro t ht hn
    rw [hct]
    simp [ht, hn]
  have order : specRelationChildTags ⟨i, ty, sr, tg, nd, desc, lc, ln, va⟩ = ts := by
    rw [← hts]
    cases nd <;> rfl
  refine ⟨_, n, ⟨i, ty, sr, tg, some n, desc, lc, ln, va'⟩, ?_, n3, ⟨⟨n1.tag, ?_⟩, ?_⟩, ?_, ?_, ?_⟩
  · unfold unparseSpecRelation
    rw [order, b1, py_bind_ok, py_pure]
    congr 1
    attrs_text
  · rw [hct]
    unfold relationOrder
    dsimp only
    rw [hts]
    exact List.filter_congr hsome
  · rw [n1.saysRecord (by decide)]
    unfold Xsd.relationSaid
    dsimp only
    rw [hts]
    congr 1
    refine Xsd.filterMap_said ts (fun t _ => ?_)
    simp only [node]
    split
    · rw [Option.map_some, d1.saysRef dr1 d2 (by decide) (by decide)]
    · split
      · rw [Option.map_some, s1.saysRef r1 s2 (by decide) (by decide)]
      · split
        · rw [Option.map_some, g1.saysRef gr1 g2 (by decide) (by decide)]
        · split
          · exact v5
          · rfl
  · rw [parseRelation_ok]
    have a2 : attrReq n c!"IDENTIFIER" = .ok i := by
      unfold attrReq
      rw [n1.attr]
      simp [look_append, look_opt, look_cons, look_truthy, look_nil, orKey, orNotImpl]
    have a2' : (n.attr? c!"IDENTIFIER").isSome = true := by
      rw [n1.attr]
      simp [look_append, look_opt, look_cons, look_truthy, look_nil, orKey, orNotImpl]
    have a3 : findReq n c!"TYPE" = .ok d := by unfold findReq; rw [fd]; rfl
    have a4 : findReq d c!"SPEC-RELATION-TYPE-REF" = .ok dr := by unfold findReq; rw [find_one d1 dr1.tag]; rfl
    have a5 : findReq n c!"SOURCE" = .ok s := by unfold findReq; rw [fs]; rfl
    have a6 : findReq s c!"SPEC-OBJECT-REF" = .ok r := by unfold findReq; rw [find_one s1 r1.tag]; rfl
    have a7 : findReq n c!"TARGET" = .ok g := by unfold findReq; rw [fg]; rfl
    have a8 : findReq g c!"SPEC-OBJECT-REF" = .ok gr := by unfold findReq; rw [find_one g1 gr1.tag]; rfl
    have a0 : pyAssert true = .ok () := rfl
    unfold parseSpecRelation
    rw [hmem _ hT rfl, hmem _ hS rfl, hmem _ hG rfl, a2', n1.tag]
    simp only [Bool.not_true, Bool.false_eq_true, if_false, beq_self_eq_true]
    rw [a0, py_bind_ok, py_bind_ok, py_bind_ok, a2, py_bind_ok, a3, py_bind_ok, a4, py_bind_ok, a5, py_bind_ok, a6, py_bind_ok, a7, py_bind_ok,
      a8, py_bind_ok, fv, v3, py_bind_ok, py_pure, d2, s2, g2]
    simp [n1.attr, look_append, look_opt, look_cons, look_truthy, look_nil, dropEmpty]
  · simp only [bareRelation, v4]
  · unfold unparseSpecRelation
    have : specRelationChildTags ⟨i, ty, sr, tg, some n, desc, lc, ln, va'⟩ = ts.filter (fun t => (node t).isSome) := hct
    rw [this, concat_filter (g := unparseSpecRelationChild ⟨i, ty, sr, tg, nd, desc, lc, ln, va⟩), b1, py_bind_ok, py_pure]
    · congr 1
      attrs_text
    · intro t ht
      have hk := h9 t ht
      simp only [relationTags, List.map_cons, List.map_nil, List.mem_cons, List.not_mem_nil, or_false] at hk
      rcases hk with rfl | rfl | rfl | rfl
      · exact ⟨fun _ => rfl, fun hn => by cases hn⟩
      · exact ⟨fun _ => rfl, fun hn => by cases hn⟩
      · exact ⟨fun _ => rfl, fun hn => by cases hn⟩
      · refine ⟨fun _ => by rw [v1 _ (.inr rfl), v1 _ (.inl rfl)], fun hn => ?_⟩
        rcases v2 with ⟨-, rfl, -⟩ | ⟨m, rfl, -, -, -⟩
        · exact v1 _ (.inl rfl)
        · cases hn

/-- **C37.**  Every safe spec relation is printed, and read back, in a document with any
ordinary root tag, as a relation with the same identifier, references, optional
fields and value.  Its children come in the order of the document it was read from,
or in the default order; and it is printed the same way again. -/
theorem C37_roundtrip {as : List (Str × Str)} (hr : RootAttrs as) {p : Str} {r : SpecRelation} {Γ : Ctx}
    (hΓ : IsCtx as p (r.valuesAttribute.any usesXhtml) Γ) (h : SafeRelation Γ r) :
    ∃ t n r', unparseSpecRelation r = .ok t ∧ ReadsAs as t [n] ∧ childTags n = relationOrder r ∧
      parseSpecRelation n = .ok (.ok r') ∧ bareRelation r' = bareRelation r ∧ unparseSpecRelation r' = .ok t := by
  obtain ⟨hc, hs⟩ := IsCtx.spec hΓ hr
  obtain ⟨t, n, o', h1, h2, h3, h4, h5, h6⟩ := relation_survives hc h
  have e : relationUses r = r.valuesAttribute.any usesXhtml := by
    unfold relationUses
    cases r.valuesAttribute <;> rfl
  rw [e] at h2
  exact ⟨t, n, o', h1, hs _ _ h2, h3.1.2, parseRelation_ok.1 h4, h5, h6⟩

/-- A relation with an XHTML value. -/
def exampleRelation : SpecRelation :=
  ⟨c!"r-1", some c!"rt", some c!"o-1", some c!"o-2", none, some c!"d", some [], some c!"a & \"b\"",
    some ⟨.xhtml, some c!"d7", .str c!"<xhtml:p>x</xhtml:p>", none, none⟩⟩

/-- A relation read from an element with another order of children and no value. -/
def exampleRelationRead : SpecRelation :=
  { exampleRelation with
    valuesAttribute := none, xmlNode := some (.elem ⟨none, none, c!"SPEC-RELATION", [], [], []⟩
      [.elem ⟨none, none, c!"TARGET", [], [], []⟩ [], .elem ⟨none, none, c!"SOURCE", [], [], []⟩ [],
       .elem ⟨none, none, c!"TYPE", [], [], []⟩ []]) }

/-- Non-vacuity. -/
theorem exampleRelation_safe : (∃ Γ, IsCtx usualRoot c!"xhtml" true Γ ∧ SafeRelation Γ exampleRelation) ∧
    ∃ Γ, IsCtx usualRoot c!"xhtml" false Γ ∧ SafeRelation Γ exampleRelationRead := by
  refine ⟨⟨_, ⟨_, rfl, rfl⟩, by decide, by decide, by decide, by decide, by decide, by decide, by decide, ?_, by decide⟩,
    ⟨_, ⟨_, rfl, rfl⟩, by decide, by decide, by decide, by decide, by decide, by decide, by decide, ?_, by decide⟩⟩
  · rintro a ⟨⟩
    refine ⟨⟨by decide, ?_⟩, .inr (.inr rfl)⟩
    show SafeXhtml _ _
    refine ⟨rfl, [.elem c!"p" [] [.text c!"x"]], ?_, rfl, rfl, fun _ => ⟨⟨by decide, _, rfl, by decide⟩, rfl⟩, fun h => absurd h (by decide)⟩
    simp only [AllWF, XTree.WF]
    decide
  · rintro a ⟨⟩

/-- **C37**, several values: only the first is kept. -/
theorem C37_first_only {x v c : Node} {cs : List Node} {r : SpecRelation} (h : parseSpecRelation x = .ok (.ok r))
    (hv : x.find c!"VALUES" = some v) (hc : v.children = c :: cs) :
    ∃ a, r.valuesAttribute = some a ∧ a.xmlNode = some c := by
  unfold parseSpecRelation at h
  obtain ⟨-, -, h⟩ := py_bind_inv h
  obtain ⟨-, -, h⟩ := py_bind_inv h
  split at h
  · cases h
  split at h
  · cases h
  obtain ⟨-, -, h⟩ := py_bind_inv h
  obtain ⟨i, -, h⟩ := py_bind_inv h
  obtain ⟨t, -, h⟩ := py_bind_inv h
  obtain ⟨tr, -, h⟩ := py_bind_inv h
  obtain ⟨s, -, h⟩ := py_bind_inv h
  obtain ⟨sr, -, h⟩ := py_bind_inv h
  obtain ⟨g, -, h⟩ := py_bind_inv h
  obtain ⟨gr, -, h⟩ := py_bind_inv h
  obtain ⟨va, hva, h⟩ := py_bind_inv h
  cases h
  rw [hv] at hva
  unfold parseRelationValues at hva
  dsimp only at hva
  rw [hc] at hva
  dsimp only at hva
  split at hva
  · obtain ⟨w, -, hva⟩ := py_bind_inv hva
    obtain ⟨d, -, hva⟩ := py_bind_inv hva
    obtain ⟨e, -, hva⟩ := py_bind_inv hva
    cases hva
    exact ⟨_, rfl, rfl⟩
  · split at hva
    · obtain ⟨a, ha, hva⟩ := py_bind_inv hva
      cases hva
      refine ⟨a, rfl, ?_⟩
      unfold parseXhtmlAttributeValue at ha
      obtain ⟨w, -, ha⟩ := py_bind_inv ha
      split at ha
      · obtain ⟨v1, -, ha⟩ := py_bind_inv ha
        obtain ⟨v2, -, ha⟩ := py_bind_inv ha
        obtain ⟨d, -, ha⟩ := py_bind_inv ha
        obtain ⟨e, -, ha⟩ := py_bind_inv ha
        cases ha
        rfl
      · obtain ⟨v1, -, ha⟩ := py_bind_inv ha
        obtain ⟨d, -, ha⟩ := py_bind_inv ha
        obtain ⟨e, -, ha⟩ := py_bind_inv ha
        cases ha
        rfl
    · split at hva
      · obtain ⟨w, -, hva⟩ := py_bind_inv hva
        obtain ⟨d, -, hva⟩ := py_bind_inv hva
        obtain ⟨e, -, hva⟩ := py_bind_inv hva
        cases hva
        exact ⟨_, rfl, rfl⟩
      · cases hva

/-! ## Relations that do not survive -/

/-- An element of a relation with the given extra children. -/
def relationElem (extra : List Node) : Node :=
  .elem ⟨none, none, c!"SPEC-RELATION", [], [], [⟨none, none, c!"IDENTIFIER", c!"r"⟩]⟩
    ([.elem ⟨none, none, c!"TYPE", [], [], []⟩ [.elem ⟨none, none, c!"SPEC-RELATION-TYPE-REF", [], [], []⟩ [.text c!"t"]],
      .elem ⟨none, none, c!"SOURCE", [], [], []⟩ [.elem ⟨none, none, c!"SPEC-OBJECT-REF", [], [], []⟩ [.text c!"a"]],
      .elem ⟨none, none, c!"TARGET", [], [], []⟩ [.elem ⟨none, none, c!"SPEC-OBJECT-REF", [], [], []⟩ [.text c!"b"]]] ++ extra)

/-- An attribute value of a relation. -/
def stringValueElem (v : Str) : Node :=
  .elem ⟨none, none, c!"ATTRIBUTE-VALUE-STRING", [], [], [⟨none, none, c!"THE-VALUE", v⟩]⟩
    [.elem ⟨none, none, c!"DEFINITION", [], [], []⟩
      [.elem ⟨none, none, c!"ATTRIBUTE-DEFINITION-STRING-REF", [], [], []⟩ [.text c!"d"]]]

/-- **C37**, the opposite: of two values, the second is gone. -/
theorem C37_two_values : ∃ r r' : SpecRelation,
    parseSpecRelation (relationElem [.elem ⟨none, none, c!"VALUES", [], [], []⟩ [stringValueElem c!"1", stringValueElem c!"2"]]) = .ok (.ok r) ∧
    parseSpecRelation (relationElem [.elem ⟨none, none, c!"VALUES", [], [], []⟩ [stringValueElem c!"1"]]) = .ok (.ok r') ∧
    bareRelation r = bareRelation r' := ⟨_, _, rfl, rfl, rfl⟩

/-- **C37**, the opposite: a relation with a comment inside is read, but cannot be printed. -/
theorem C37_comment : ∃ r, parseSpecRelation (relationElem [.comment c!"x"]) = .ok (.ok r) ∧
    unparseSpecRelation r = .error .notImplemented := ⟨_, rfl, rfl⟩

/-- **C37**, the opposite: an enumeration value of a relation is printed, but cannot be read. -/
theorem C37_enum_value : ∃ t, unparseAttributeValues (some [⟨.enumeration, some c!"d", .list [some c!"v"], none, none⟩]) = .ok t ∧
    ∀ v c, v.children = [c] → c.tag = .name c!"ATTRIBUTE-VALUE-ENUMERATION" → parseRelationValues (some v) = .error .notImplemented := by
  refine ⟨_, rfl, ?_⟩
  intro v c hv hc
  unfold parseRelationValues
  dsimp only
  rw [hv]
  dsimp only
  rw [hc, if_neg (by decide), if_neg (by decide), if_neg (by decide)]

end ReqIF
