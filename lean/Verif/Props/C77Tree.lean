import Verif.Props.C77
/-!
# C77: edits of hierarchies are local
-/
namespace ReqIF
open Spec

theorem unparseHierarchies_join (hs : List Hierarchy) : unparseHierarchies hs = joinPy (hs.map unparseHierarchy) := by
  induction hs with
  | nil => rfl
  | cons h hs ih =>
    rw [unparseHierarchies, ih, List.map_cons]
    cases unparseHierarchy h <;> rfl

theorem joinPy_one (p : Py Str) : joinPy [p] = p := by
  cases p <;> simp [joinPy]

/-- The text of a node around the text of its children. -/
theorem node_around {i : HInfo} {cs : List Hierarchy} {t : Str} (h : unparseHierarchy (.node i cs) = .ok t)
    (ho : cs ≠ [] ∨ i.isSelfClosed = false) : ∃ x y z, t = x ++ y ++ z ∧ unparseHierarchies cs = .ok y ∧
      ∀ cs', cs' ≠ [] ∨ i.isSelfClosed = false → unparseHierarchy (.node i cs') = match unparseHierarchies cs' with
        | .error e => .error e
        | .ok u => .ok (x ++ u ++ z) := by
  have hb : ∀ cs', (Hierarchy.node i cs').baseLevel = (Hierarchy.node i cs).baseLevel := fun _ => rfl
  have hno : ∀ cs' : List Hierarchy, cs' ≠ [] ∨ i.isSelfClosed = false → (cs'.isEmpty && i.isSelfClosed) = false := by
    rintro cs' (h | h)
    · cases cs' with
      | nil => exact absurd rfl h
      | cons => rfl
    · rw [h, Bool.and_false]
  rw [unparseHierarchy] at h
  cases hbase : (Hierarchy.node i cs).baseLevel with
  | error e => rw [hbase] at h; cases h
  | ok base =>
    rw [hbase] at h
    dsimp only at h
    cases hy : unparseHierarchies cs with
    | error e => rw [hy] at h; cases h
    | ok y =>
      rw [hy, hno cs ho] at h
      have h := Except.ok.inj h
      subst h
      cases ho : i.refThenChildrenOrder with
      | true =>
        refine ⟨unparseHierarchyHead base i ++ unparseHierarchyObject base i ++ lineOpen (base + 2) c!"CHILDREN", y,
          lineClose (base + 2) c!"CHILDREN" ++ lineClose base c!"SPEC-HIERARCHY", ?_, rfl, ?_⟩
        · simp [List.append_assoc]
        · intro cs' h'
          rw [unparseHierarchy, hb, hbase]
          dsimp only
          cases unparseHierarchies cs' with
          | error e => rfl
          | ok u => simp [hno cs' h', ho, List.append_assoc]
      | false =>
        refine ⟨unparseHierarchyHead base i ++ lineOpen (base + 2) c!"CHILDREN", y,
          lineClose (base + 2) c!"CHILDREN" ++ unparseHierarchyObject base i ++ lineClose base c!"SPEC-HIERARCHY", ?_, rfl, ?_⟩
        · simp [List.append_assoc]
        · intro cs' h'
          rw [unparseHierarchy, hb, hbase]
          dsimp only
          cases unparseHierarchies cs' with
          | error e => rfl
          | ok u => simp [hno cs' h', ho, List.append_assoc]

/-- **C77.** Editing a tree is local: replacing some nodes at any depth by others changes the
text exactly where these nodes were printed. -/
theorem C77_hierarchy {g : Gap} {mid : List Hierarchy} {out : Str} (ho : g.Open mid) (hout : unparseHierarchies (g.fill mid) = .ok out) :
    ∃ before here after, out = before ++ here ++ after ∧ unparseHierarchies mid = .ok here ∧
      ∀ mid', g.Open mid' → unparseHierarchies (g.fill mid') = match unparseHierarchies mid' with
        | .error e => .error e
        | .ok t => .ok (before ++ t ++ after) := by
  induction g generalizing out with
  | here pre post =>
    rw [unparseHierarchies_join] at hout
    simp only [Gap.fill, List.map_append] at hout
    obtain ⟨x, y, z, h1, h2, h3⟩ := joinPy_three hout
    refine ⟨x, y, z, h1, by rw [unparseHierarchies_join]; exact h2, ?_⟩
    intro mid' _
    rw [unparseHierarchies_join, unparseHierarchies_join]
    simp only [Gap.fill, List.map_append]
    exact h3 _
  | under pre i inner post ih =>
    obtain ⟨ho1, ho2⟩ := ho
    rw [unparseHierarchies_join] at hout
    have e : ∀ cs, (pre ++ Hierarchy.node i cs :: post).map unparseHierarchy =
        pre.map unparseHierarchy ++ [unparseHierarchy (.node i cs)] ++ post.map unparseHierarchy := by
      intro cs; simp
    rw [Gap.fill, e] at hout
    obtain ⟨x, y, z, h1, h2, h3⟩ := joinPy_three hout
    rw [joinPy_one] at h2
    obtain ⟨p, q, r, g1, g2, g3⟩ := node_around h2 ho1
    obtain ⟨u, v, w, f1, f2, f3⟩ := ih ho2 g2
    refine ⟨x ++ (p ++ u), v, w ++ r ++ z, ?_, f2, ?_⟩
    · rw [h1, g1, f1]; simp only [List.append_assoc]
    · intro mid' ho'
      rw [unparseHierarchies_join, Gap.fill, e, h3, joinPy_one, g3 _ ho'.1, f3 _ ho'.2]
      cases unparseHierarchies mid' with
      | error e => rfl
      | ok t => simp only [List.append_assoc]

/-- The specification has one place for its children. -/
def OneChildren (s : Specification) : Prop := (specificationChildTags s).count (.name c!"CHILDREN") = 1

/-- The start tag of a specification. -/
def specificationTag (s : Specification) : Str :=
  spaces 8 ++ c!"<SPECIFICATION" ++ attrOpt c!"DESC" lxmlEscapeForHtml s.description ++ attrOut c!"IDENTIFIER" s.identifier ++
    attrOpt c!"LAST-CHANGE" id s.lastChange ++ attrOpt c!"LONG-NAME" lxmlEscapeForHtml s.longName ++ c!">\n"

theorem specification_join (s : Specification) : unparseSpecification s =
    joinPy ([.ok (specificationTag s)] ++ (specificationChildTags s).map (unparseSpecificationChild s) ++ [.ok (lineClose 8 c!"SPECIFICATION")]) := by
  unfold unparseSpecification
  rw [concatPy_join, List.singleton_append, List.cons_append, joinPy, joinPy_append]
  cases joinPy ((specificationChildTags s).map (unparseSpecificationChild s)) with
  | error e => rfl
  | ok t => simp only [joinPy, py_bind_ok, py_pure, List.append_nil, List.append_assoc, specificationTag]

theorem specificationChild_other {s : Specification} {t : Tag} (h : t ≠ .name c!"CHILDREN") (hs : Option (List Hierarchy)) :
    unparseSpecificationChild { s with children := hs } t = unparseSpecificationChild s t := by
  unfold unparseSpecificationChild
  by_cases h1 : t = .name c!"TYPE"
  · rw [if_pos h1, if_pos h1]
  · rw [if_neg h1, if_neg h1, if_neg h, if_neg h]

/-- **C77.** Editing the tree of a specification is local. -/
theorem C77_specification {s : Specification} {g : Gap} {mid : List Hierarchy} {out : Str} (h1 : OneChildren s)
    (hc : s.children = some (g.fill mid)) (ho : g.Open mid) (hout : unparseSpecification s = .ok out) :
    ∃ before here after, out = before ++ here ++ after ∧ unparseHierarchies mid = .ok here ∧
      ∀ mid', g.Open mid' → unparseSpecification { s with children := some (g.fill mid') } = match unparseHierarchies mid' with
        | .error e => .error e
        | .ok t => .ok (before ++ t ++ after) := by
  unfold OneChildren at h1
  have hm : Tag.name c!"CHILDREN" ∈ specificationChildTags s := List.count_pos_iff.1 (by omega)
  obtain ⟨l, r, htags⟩ := List.append_of_mem hm
  rw [htags, List.count_append, List.count_cons_self] at h1
  have hl : ∀ t ∈ l, t ≠ .name c!"CHILDREN" := by
    rintro t ht rfl
    have := List.count_pos_iff.2 ht
    omega
  have hr : ∀ t ∈ r, t ≠ .name c!"CHILDREN" := by
    rintro t ht rfl
    have := List.count_pos_iff.2 ht
    omega
  have e : ∀ hs, unparseSpecification { s with children := some hs } =
      joinPy (([.ok (specificationTag s)] ++ l.map (unparseSpecificationChild s) ++ [.ok (lineOpen 10 c!"CHILDREN")]) ++
        [unparseHierarchies hs] ++
        ([.ok (lineClose 10 c!"CHILDREN")] ++ r.map (unparseSpecificationChild s) ++ [.ok (lineClose 8 c!"SPECIFICATION")])) := by
    intro hs
    rw [specification_join]
    have et : specificationChildTags { s with children := some hs } = l ++ .name c!"CHILDREN" :: r := htags
    rw [et, List.map_append, List.map_cons]
    have el : l.map (unparseSpecificationChild { s with children := some hs }) = l.map (unparseSpecificationChild s) :=
      List.map_congr_left fun t h => specificationChild_other (hl t h) _
    have er : r.map (unparseSpecificationChild { s with children := some hs }) = r.map (unparseSpecificationChild s) :=
      List.map_congr_left fun t h => specificationChild_other (hr t h) _
    have ev : unparseSpecificationChild { s with children := some hs } (.name c!"CHILDREN") =
        joinPy ([.ok (lineOpen 10 c!"CHILDREN")] ++ [unparseHierarchies hs] ++ [.ok (lineClose 10 c!"CHILDREN")]) := by
      show (unparseHierarchies hs >>= fun body => pure (lineOpen 10 c!"CHILDREN" ++ body ++ lineClose 10 c!"CHILDREN")) = _
      cases unparseHierarchies hs with
      | error e => rfl
      | ok t => simp [joinPy, py_bind_ok, py_pure]
    rw [el, er, ev]
    have := joinPy_flat ([.ok (specificationTag s)] ++ l.map (unparseSpecificationChild s))
      ([.ok (lineOpen 10 c!"CHILDREN")] ++ [unparseHierarchies hs] ++ [.ok (lineClose 10 c!"CHILDREN")])
      (r.map (unparseSpecificationChild s) ++ [.ok (lineClose 8 c!"SPECIFICATION")])
    simp only [List.append_assoc, List.cons_append] at this ⊢
    exact this
  have es : s = { s with children := some (g.fill mid) } := by cases s; cases hc; rfl
  rw [es, e] at hout
  obtain ⟨x, y, z, g1, g2, g3⟩ := joinPy_three hout
  rw [joinPy_one] at g2
  obtain ⟨u, v, w, f1, f2, f3⟩ := C77_hierarchy ho g2
  refine ⟨x ++ u, v, w ++ z, ?_, f2, ?_⟩
  · rw [g1, f1]; simp only [List.append_assoc]
  · intro mid' ho'
    rw [e, g3, joinPy_one, f3 _ ho']
    cases unparseHierarchies mid' with
    | error e => rfl
    | ok t => simp only [List.append_assoc]

/-- **C77.** Editing the tree of a specification in a document is local. -/
theorem C77_tree {b : Bundle} {c : Content} {ss ss' : List Specification} {s : Specification} {g : Gap} {mid : List Hierarchy} {out : Str}
    (hb : b.coreContent = some (some c)) (hss : c.specifications = some (ss ++ s :: ss')) (h1 : OneChildren s)
    (hc : s.children = some (g.fill mid)) (ho : g.Open mid) (hout : unparse b = .ok out) :
    ∃ before here after, out = before ++ here ++ after ∧ unparseHierarchies mid = .ok here ∧
      ∀ mid', g.Open mid' → unparse { b with coreContent := some (some { c with
          specifications := some (ss ++ { s with children := some (g.fill mid') } :: ss') }) } = match unparseHierarchies mid' with
        | .error e => .error e
        | .ok t => .ok (before ++ t ++ after) := by
  obtain ⟨x, y, z, e1, e2, e3⟩ := C77_local (k := .specifications) (pre := ss) (mid := [s]) (post := ss') hb
    (by rw [List.append_assoc ss [s] ss']; exact hss) hout
  have e2 : unparseSpecification s = .ok y := (joinPy_one _).symm.trans e2
  obtain ⟨u, v, w, f1, f2, f3⟩ := C77_specification h1 hc ho e2
  refine ⟨x ++ u, v, w ++ z, ?_, f2, ?_⟩
  · rw [e1, f1]; simp only [List.append_assoc]
  · intro mid' ho'
    have ew : withItems b .specifications (ss ++ [{ s with children := some (g.fill mid') }] ++ ss') =
        { b with coreContent := some (some { c with
          specifications := some (ss ++ { s with children := some (g.fill mid') } :: ss') }) } := by
      unfold withItems
      rw [hb, List.append_assoc]
      rfl
    rw [← ew]
    refine (e3 _).trans ?_
    have : joinPy ([{ s with children := some (g.fill mid') }].map (Container.print .specifications)) =
        match unparseHierarchies mid' with
        | .error e => .error e
        | .ok t => .ok (u ++ t ++ w) := (joinPy_one _).trans (f3 mid' ho')
    rw [this]
    cases unparseHierarchies mid' with
    | error e => rfl
    | ok t => simp only [List.append_assoc]

/-! ## Edited trees are read back -/

theorem safeHierarchies_append {l : Nat} {hs ks : List Hierarchy} : SafeHierarchies l (hs ++ ks) ↔ SafeHierarchies l hs ∧ SafeHierarchies l ks := by
  induction hs with
  | nil => exact ⟨fun h => ⟨trivial, h⟩, fun h => h.2⟩
  | cons h hs ih =>
    rw [List.cons_append, SafeHierarchies, SafeHierarchies, ih, and_assoc]

theorem safe_fill {g : Gap} {l : Nat} {mid mid' : List Hierarchy} (h : SafeHierarchies l (g.fill mid)) (hm : SafeHierarchies (l + g.depth) mid') :
    SafeHierarchies l (g.fill mid') := by
  induction g generalizing l with
  | here pre post =>
    rw [Gap.fill, safeHierarchies_append, safeHierarchies_append] at h ⊢
    exact ⟨⟨h.1.1, hm⟩, h.2⟩
  | under pre i inner post ih =>
    rw [Gap.fill, safeHierarchies_append, SafeHierarchies, SafeHierarchy] at h ⊢
    refine ⟨h.1, ⟨h.2.1.1, ih h.2.1.2 ?_⟩, h.2.2⟩
    rw [Gap.depth, Nat.add_comm inner.depth, ← Nat.add_assoc] at hm
    exact hm

end ReqIF

namespace ReqIF.Xsd
open Spec

/-- **C77.** A plain document is read, some nodes of the tree of a specification are replaced, at any
depth, by safe ones of the same level, and it is written and read again: the printed text
differs exactly where these nodes are printed, and the tree read back is the edited one. -/
theorem C77_set_tree {text : Str} {doc : Doc} {p : Str} (hr : readDoc text = some doc) (hv : validRoot .lenient doc.root = true)
    (hs : noSpecials doc.root = true) (hp : plainDocument p doc.root = true) (hk : childNames doc.root.kids ≠ []) :
    ∃ b, parseString text = .ok b ∧ ∀ c ss s ss' g mid mid', b.coreContent = some (some c) → c.specifications = some (ss ++ s :: ss') →
      OneChildren s → s.children = some (Gap.fill mid g) → g.Open mid → g.Open mid' → SafeHierarchies (1 + g.depth) mid' →
      ∃ before here after t b' c', unparse b = .ok (before ++ here ++ after) ∧ unparseHierarchies mid = .ok here ∧
        unparseHierarchies mid' = .ok t ∧
        unparse { b with coreContent := some (some { c with
          specifications := some (ss ++ { s with children := some (g.fill mid') } :: ss') }) } = .ok (before ++ t ++ after) ∧
        parseString (before ++ t ++ after) = .ok b' ∧ b'.header = b.header ∧ b'.coreContent = some (some c') ∧
        bareContent c' = readContent { c with
          specifications := some (ss ++ { s with children := some (g.fill mid') } :: ss') } ∧
        b'.exceptions = [] := by
  obtain ⟨b, as0, i, ks, -, g1, g2, -, -, g4, g5⟩ := plain_safe hr hv hs hp hk
  refine ⟨b, g1, ?_⟩
  intro c ss s ss' g mid mid' hc hss h1 hch ho ho' hm
  have hsafe : ∀ Γ, IsCtx as0 p (contentUses c) Γ → ∀ x ∈ [{ s with children := some (g.fill mid') }], SafeSpecification Γ x := by
    intro Γ hΓ x hx
    rw [List.mem_singleton.1 hx]
    obtain ⟨q1, q2, q3, q4, q5, q6, q7, q8⟩ := (g2.content c hc Γ hΓ).specifications _ hss s (by simp)
    refine ⟨q1, q2, q3, q4, q5, q6, ?_, ?_⟩
    · rintro hs ⟨⟩
      exact safe_fill (q7 _ hch) hm
    · intro t ht
      refine q8 t ?_
      rw [← ht]
      unfold specificationHas
      dsimp only
      rw [hch]
      rfl
  have hu : contentUses { c with specifications := some (ss ++ [{ s with children := some (g.fill mid') }] ++ ss') } = contentUses c := by
    unfold contentUses
    dsimp only
    rw [hss, List.append_assoc]
    have : ((ss ++ ([{ s with children := some (g.fill mid') }] ++ ss')).any fun s => (s.values.getD []).any usesXhtml) =
        (ss ++ s :: ss').any fun s => (s.values.getD []).any usesXhtml := any_edit rfl
    rw [Option.getD_some, Option.getD_some, this]
  obtain ⟨x, y, z, t, b', c', e1, -, -, e2, e3, e4, -, -, e5, e6, e7⟩ := edited_back g2 g4 g5 c .specifications ss [s] ss'
    [{ s with children := some (g.fill mid') }] hc (by rw [List.append_assoc ss [s] ss']; exact hss) hsafe hu
  obtain ⟨u, v, w, f1, f2, f3⟩ := C77_tree hc hss h1 hch ho e1
  have ew : withItems b .specifications (ss ++ [{ s with children := some (g.fill mid') }] ++ ss') =
      { b with coreContent := some (some { c with
        specifications := some (ss ++ { s with children := some (g.fill mid') } :: ss') }) } := by
    unfold withItems
    rw [hc, List.append_assoc]
    rfl
  have f3 := f3 mid' ho'
  rw [ew] at e2
  cases ht : unparseHierarchies mid' with
  | error e => rw [ht, e2] at f3; cases f3
  | ok t' =>
    rw [ht] at f3
    have : x ++ t ++ z = u ++ t' ++ w := Except.ok.inj (e2.symm.trans f3)
    rw [this] at e3
    refine ⟨u, v, w, t', b', c', f1 ▸ e1, f2, rfl, f3, e3, e4, e5, ?_, e7⟩
    rw [e6, List.append_assoc ss]
    rfl

/-- Are the hypotheses of C77_set_tree met, and how many nodes are there at the top? -/
def editableTrees (p text : Str) : Option (Bool × List (Nat × Nat)) :=
  match readDoc text, parseString text with
  | some d, .ok b => some (validRoot .lenient d.root && noSpecials d.root && plainDocument p d.root && !(childNames d.root.kids).isEmpty,
      (specificationsOf b).map fun s => ((specificationChildTags s).count (.name c!"CHILDREN"), (s.children.getD []).length))
  | _, _ => none

set_option maxRecDepth 20000 in
/-- Non-vacuity of C77_set_tree: a document with a specification and one node. -/
example : editableTrees c!"h" (wellReferencedDoc c!"a") = some (true, [(1, 1)]) := by
  decide +kernel

/-- Non-vacuity: two nodes are put in place of one, below the third node of the example tree. -/
example : ∃ g : Gap, ∃ mid mid', some (g.fill mid) = exampleSpecification.children ∧ g.depth = 2 ∧ mid.length = 1 ∧ mid'.length = 2 ∧
    g.Open mid ∧ g.Open mid' ∧ SafeHierarchies (1 + g.depth) mid' :=
  ⟨.under [] ⟨c!"h-1", some c!"o-1", 1, some c!"name", true, some c!"2020", some true, none, false, none⟩
      (.under [.leaf ⟨c!"h-2", some c!"o-2", 2, none, false, none, none, some false, false, none⟩,
        .node ⟨c!"h-3", some c!"o-1", 2, none, false, none, none, none, true, none⟩ []]
        ⟨c!"h-4", some c!"o-3", 2, none, true, none, none, none, false, none⟩ (.here [] []) []) [],
    [.leaf ⟨c!"h-5", some c!"o-4", 3, none, false, none, none, none, false, none⟩],
    [.leaf ⟨c!"h-6", some c!"o-4", 3, none, false, none, none, none, false, none⟩,
     .leaf ⟨c!"h-7", some c!"o-1", 3, none, false, none, none, none, false, none⟩],
    rfl, rfl, rfl, rfl, ⟨.inl (by simp [Gap.fill]), .inr rfl, trivial⟩, ⟨.inl (by simp [Gap.fill]), .inr rfl, trivial⟩,
    ⟨⟨rfl, by decide, by decide, by decide, by decide⟩, ⟨rfl, by decide, by decide, by decide, by decide⟩, trivial⟩⟩

end ReqIF.Xsd
