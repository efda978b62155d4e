import Verif.Proofs.Hierarchy
import Verif.Proofs.ParseInv
/-!
# C13-C17: specification hierarchies
-/
namespace ReqIF
open Spec

/-- **C13.** The iteration over a specification of the bundle yields the nodes of its
hierarchy in pre-order (none if it has no children list). -/
theorem C13_preorder (b : Bundle) (i : Nat) (ss : List Specification) (s : Specification)
    (hss : b.specifications? = some ss) (hs : ss[i]? = some s) :
    b.iterate i = .ok (preorderList (s.children.getD [])) := by
  unfold Bundle.iterate
  rw [hss]
  dsimp only
  rw [hs]
  dsimp only
  cases s.children with
  | none => rfl
  | some hs => exact congrArg _ (iterLoop_eq hs)

mutual
theorem preorder_length (h : Hierarchy) : (preorder h).length = h.size := by
  match h with
  | .leaf i => rfl
  | .node i cs => simp [preorder, Hierarchy.size, preorderList_length cs, Nat.add_comm]
theorem preorderList_length (hs : List Hierarchy) : (preorderList hs).length = Hierarchy.sizeList hs := by
  match hs with
  | [] => rfl
  | h :: hs => simp [preorderList, Hierarchy.sizeList, preorder_length h, preorderList_length hs]
end

/-- **C13**, each node once: as many items as the tree has nodes. -/
theorem C13_count (b : Bundle) (i : Nat) (ss : List Specification) (s : Specification) (hs : List Hierarchy)
    (hss : b.specifications? = some ss) (hi : ss[i]? = some s) (hc : s.children = some hs) :
    ∃ l, b.iterate i = .ok l ∧ l.length = Hierarchy.sizeList hs := by
  refine ⟨_, C13_preorder b i ss s hss hi, ?_⟩
  rw [hc]
  exact preorderList_length hs

/-- **C14.** For a specification with a children list both iterators give the same
sequence; for one without, the first raises and the second yields nothing. -/
theorem C14_agree (b : Bundle) (i : Nat) (ss : List Specification) (s : Specification)
    (hss : b.specifications? = some ss) (hi : ss[i]? = some s) :
    (s.children ≠ none → iterateSpecification s = b.iterate i) ∧
    (s.children = none → iterateSpecification s = .error .typeError ∧ b.iterate i = .ok []) := by
  unfold iterateSpecification Bundle.iterate
  rw [hss]
  dsimp only
  rw [hi]
  dsimp only
  cases s.children with
  | none => exact ⟨fun h => absurd rfl h, fun _ => ⟨rfl, rfl⟩⟩
  | some hs => exact ⟨fun _ => rfl, fun h => by cases h⟩

/-! ## Levels -/

theorem LevelsFromList_iff {n : Nat} {hs : List Hierarchy} :
    LevelsFromList n hs ↔ ∀ h ∈ hs, LevelsFrom n h := by
  induction hs with
  | nil => simp [LevelsFromList]
  | cons h t ih => simp [LevelsFromList, ih]

mutual
theorem parseHierarchy_levels (n : Nat) (x : Node) (h : Hierarchy) (hp : parseHierarchy n x = .ok h) :
    LevelsFrom n h := by
  match x with
  | .text _ => cases hp
  | .comment _ => cases hp
  | .pi _ _ => cases hp
  | .elem i ks =>
    simp only [parseHierarchy] at hp
    split at hp
    · split at hp
      · cases hp
      · split at hp
        · cases hp
        · split at hp
          · cases hp
          · split at hp
            · cases hp; rfl
            · cases hp
            · rename_i hc
              cases hp
              exact ⟨rfl, parseFirstChildren_levels (n + 1) ks _ _ hc⟩
    · cases hp

theorem parseFirstChildren_levels (n : Nat) (ns : List Node) (sc : Bool) (hs : List Hierarchy)
    (hp : parseFirstChildren n ns = some (.ok (sc, hs))) : LevelsFromList n hs := by
  match ns with
  | [] => cases hp
  | .elem i ks :: ns =>
    simp only [parseFirstChildren] at hp
    split at hp
    · split at hp
      · cases hp
      · rename_i hc
        cases hp
        exact parseHierarchies_levels n ks _ hc
    · exact parseFirstChildren_levels n ns sc hs hp
  | .text _ :: ns => exact parseFirstChildren_levels n ns sc hs (by simpa [parseFirstChildren] using hp)
  | .comment _ :: ns => exact parseFirstChildren_levels n ns sc hs (by simpa [parseFirstChildren] using hp)
  | .pi _ _ :: ns => exact parseFirstChildren_levels n ns sc hs (by simpa [parseFirstChildren] using hp)

theorem parseHierarchies_levels (n : Nat) (ns : List Node) (hs : List Hierarchy)
    (hp : parseHierarchies n ns = .ok hs) : LevelsFromList n hs := by
  match ns with
  | [] => cases hp; trivial
  | .text _ :: ns => exact parseHierarchies_levels n ns hs (by simpa [parseHierarchies] using hp)
  | .elem i ks :: ns =>
    simp only [parseHierarchies] at hp
    split at hp
    · cases hp
    · rename_i h1
      split at hp
      · cases hp
      · rename_i h2
        cases hp
        exact ⟨parseHierarchy_levels n _ _ h1, parseHierarchies_levels n ns _ h2⟩
  | .comment _ :: ns => simp [parseHierarchies, parseHierarchy] at hp
  | .pi _ _ :: ns => simp [parseHierarchies, parseHierarchy] at hp
end

theorem parseSpecification_levels {x : Node} {s : Specification} (h : parseSpecification x = .ok s) :
    LevelsFromList 1 (s.children.getD []) := by
  unfold parseSpecification at h
  obtain ⟨_, _, h⟩ := py_bind_inv h
  obtain ⟨_, _, h⟩ := py_bind_inv h
  obtain ⟨_, _, h⟩ := py_bind_inv h
  obtain ⟨ch, hch, h⟩ := py_bind_inv h
  obtain ⟨_, _, h⟩ := py_bind_inv h
  cases h
  dsimp only
  split at hch
  · cases hch; trivial
  · obtain ⟨hs, h1, h2⟩ := py_bind_inv hch
    cases h2
    rw [LevelsFromList_iff]
    intro y hy
    obtain ⟨x, _, hx⟩ := mapPy_mem h1 hy
    exact parseHierarchy_levels 1 x y hx

/-- **C15.** In every parsed specification the top-level nodes have level 1 and every
child has the level of its parent plus one. -/
theorem C15_levels (text : Str) (b : Bundle) (h : parseString text = .ok b) (ss : List Specification)
    (hss : b.specifications? = some ss) (s : Specification) (hs : s ∈ ss) :
    LevelsFromList 1 (s.children.getD []) := by
  rcases parseString_inv h with ⟨_, h1, _⟩ | ⟨x, c, _, hc, hp⟩
  · unfold Bundle.specifications? at hss
    split at hss
    · rename_i c hc; exact absurd hc (h1 c)
    · cases hss
  · obtain ⟨_, _, _, h3, _⟩ := parseContent_inv hp
    unfold Bundle.specifications? at hss
    rw [hc] at hss
    dsimp only at hss
    unfold parsedItems at h3
    rw [hss] at h3
    split at h3
    · cases h3
    · split at h3
      · cases h3
      · rename_i hm
        cases h3
        obtain ⟨y, _, hy⟩ := mapPy_mem hm hs
        exact parseSpecification_levels hy

/-! ## Conversion -/

/-- **C16.** The conversion iteration equals the recursive conversion that hands every
node the nearest enclosing section (the root node if there is none), when
levels are consistent, the answers of `node_lambda` follow a fixed choice of sections
in which no section lies below a non-section, and converted sections have the level
of their node. -/
theorem C16_conversion {σ ν : Type} (b : Bundle) (i : Nat) (ss : List Specification) (s : Specification)
    (root : ν) (getLevel : ν → Int) (f : Hierarchy → ν → M σ (ν × Bool)) (isSection : Hierarchy → Bool) (t : σ)
    (hss : b.specifications? = some ss) (hi : ss[i]? = some s)
    (hlev : LevelsFromList 1 (s.children.getD []))
    (hsec : SectionsOnTopList isSection (s.children.getD []))
    (hroot : getLevel root = 0)
    (hf : ∀ h sec s n b s', f h sec s = (.ok (n, b), s') →
      b = isSection h ∧ (b = true → getLevel n = (h.info.level : Int))) :
    b.iterateForConversion i root getLevel f t = convertForest f root (s.children.getD []) t := by
  unfold Bundle.iterateForConversion
  rw [C13_preorder b i ss s hss hi]
  exact convertLoop_eq hf _ hlev hsec root hroot t

/-- A hierarchy node with a given level. -/
def plainInfo (identifier : Str) (level : Nat) : HInfo :=
  ⟨identifier, none, level, none, true, none, none, none, false, none⟩

/-- A specification with the given hierarchy, as the only one of a bundle. -/
def bundleWith (hs : List Hierarchy) : Bundle :=
  { Bundle.createEmpty none none with
    coreContent := some (some ⟨none, none, none, none,
      some [⟨c!"s", none, none, none, none, none, some hs, none⟩], none⟩) }

/-- A section (level 2) below a node that is not a section, and a node after it. -/
def buriedSection : List Hierarchy :=
  [.node (plainInfo c!"a" 1) [.leaf (plainInfo c!"b" 2)], .leaf (plainInfo c!"c" 1)]

/-- Converts a node to its level; only the node `b` is a section. -/
def levelLambda : Hierarchy → Int → M Unit (Int × Bool) :=
  fun h _ => M.pure ((h.info.level : Int), h.info.identifier == c!"b")

/-- **C16**, the condition is needed: with a section below a non-section the iteration
raises `IndexError`. -/
theorem C16_buried_section :
    ((bundleWith buriedSection).iterateForConversion 0 (0 : Int) id levelLambda ()).1 = .error .indexError := by
  have h := C13_preorder (bundleWith buriedSection) 0 _ _ rfl rfl
  unfold Bundle.iterateForConversion
  rw [h]
  rfl

/-- The hypotheses of `C16_conversion` can be met: sections on two levels. -/
def twoSections : List Hierarchy :=
  [.node (plainInfo c!"a" 1) [.node (plainInfo c!"b" 2) [.leaf (plainInfo c!"x" 3)], .leaf (plainInfo c!"y" 2)],
   .leaf (plainInfo c!"c" 1)]

def notLeaf (h : Hierarchy) : Bool := h.children.isSome

/-- Records which section each node was given. -/
def recordSections : Hierarchy → (Str × Int) → M (List (Str × Str)) ((Str × Int) × Bool) :=
  fun h sec log => (.ok ((h.info.identifier, (h.info.level : Int)), notLeaf h),
    log ++ [(h.info.identifier, sec.1)])

example : LevelsFromList 1 twoSections ∧ SectionsOnTopList notLeaf twoSections := by
  simp [twoSections, LevelsFromList, LevelsFrom, SectionsOnTopList, SectionsOnTop, plainInfo, notLeaf,
    Hierarchy.children]

example (h : Hierarchy) (sec : Str × Int) (s s' : List (Str × Str)) (n : Str × Int) (b : Bool)
    (hh : recordSections h sec s = (.ok (n, b), s')) :
    b = notLeaf h ∧ (b = true → n.2 = (h.info.level : Int)) := by
  simp only [recordSections, Prod.mk.injEq, Except.ok.injEq] at hh
  obtain ⟨⟨rfl, rfl⟩, -⟩ := hh
  exact ⟨rfl, fun _ => rfl⟩

example : ((bundleWith twoSections).iterateForConversion 0 (c!"root", (0 : Int)) (·.2) recordSections []).2 =
    [(c!"a", c!"root"), (c!"b", c!"a"), (c!"x", c!"b"), (c!"y", c!"a"), (c!"c", c!"root")] := by
  unfold Bundle.iterateForConversion
  rw [C13_preorder (bundleWith twoSections) 0 _ _ rfl rfl]
  decide +kernel

/-! ## Adding children, printing -/

/-- **C17.** `add_child` succeeds exactly when the child's level is one more, and then
the child comes last and nothing else changes. -/
theorem C17_add_child (h child : Hierarchy) :
    (child.info.level = h.info.level + 1 →
      ∃ h', h.addChild child = .ok h' ∧ h'.info = h.info ∧ h'.children = some (h.childList ++ [child])) ∧
    (child.info.level ≠ h.info.level + 1 → h.addChild child = .error .assertion) := by
  unfold Hierarchy.addChild
  constructor
  · intro hl
    rw [if_pos hl.symm]
    exact ⟨_, rfl, rfl, rfl⟩
  · intro hl
    rw [if_neg (fun h => hl h.symm)]

/-- **C17**: adding a child keeps consistent levels consistent. -/
theorem C17_add_child_levels (h child h' : Hierarchy) (n : Nat) (hl : LevelsFrom n h)
    (hc : LevelsFrom (n + 1) child) (ha : h.addChild child = .ok h') : LevelsFrom n h' := by
  unfold Hierarchy.addChild at ha
  split at ha
  · cases ha
    cases h with
    | leaf i => exact ⟨hl, hc, trivial⟩
    | node i cs =>
      refine ⟨hl.1, LevelsFromList_iff.mpr ?_⟩
      intro x hx
      rcases List.mem_append.mp hx with hx | hx
      · exact LevelsFromList_iff.mp hl.2 x hx
      · rw [List.mem_singleton.mp hx]; exact hc
  · cases ha

theorem baseLevel_leaf (i : HInfo) : (Hierarchy.leaf i).baseLevel =
    if i.level > 0 then .ok (12 + (i.level - 1) * 4) else .error .assertion := rfl

theorem baseLevel_node (i : HInfo) (cs : List Hierarchy) : (Hierarchy.node i cs).baseLevel =
    if i.level > 0 then .ok (12 + (i.level - 1) * 4) else .error .assertion := rfl

theorem info_leaf (i : HInfo) : (Hierarchy.leaf i).info = i := rfl
theorem info_node (i : HInfo) (cs : List Hierarchy) : (Hierarchy.node i cs).info = i := rfl

mutual
theorem unparseHierarchy_isOk (h : Hierarchy) :
    (unparseHierarchy h).isOk = (preorder h).all (fun x => decide (0 < x.info.level)) := by
  match h with
  | .leaf i =>
    simp only [unparseHierarchy, preorder, baseLevel_leaf, info_leaf, List.all_cons, List.all_nil]
    by_cases hi : i.level > 0
    · simp [hi, Except.isOk, Except.toBool]
    · simp [hi, Except.isOk, Except.toBool]
  | .node i cs =>
    simp only [unparseHierarchy, preorder, baseLevel_node, info_node, List.all_cons]
    rw [← unparseHierarchies_isOk cs]
    by_cases hi : i.level > 0
    · simp only [hi, if_true, decide_true, Bool.true_and]
      cases unparseHierarchies cs <;> rfl
    · simp [hi, Except.isOk, Except.toBool]

theorem unparseHierarchies_isOk (hs : List Hierarchy) :
    (unparseHierarchies hs).isOk = (preorderList hs).all (fun x => decide (0 < x.info.level)) := by
  match hs with
  | [] => rfl
  | h :: hs =>
    simp only [unparseHierarchies, preorderList, List.all_append]
    rw [← unparseHierarchy_isOk h, ← unparseHierarchies_isOk hs]
    cases unparseHierarchy h with
    | error e => rfl
    | ok a => cases unparseHierarchies hs <;> rfl
end

/-- **C17**: a hierarchy can be printed exactly when no node in it has level 0. -/
theorem C17_refuses_level_zero (h : Hierarchy) :
    (∃ s, unparseHierarchy h = .ok s) ↔ ∀ x ∈ preorder h, x.info.level ≠ 0 := by
  have := unparseHierarchy_isOk h
  constructor
  · rintro ⟨s, hs⟩ x hx
    rw [hs] at this
    have h2 := List.all_eq_true.mp this.symm x hx
    simp at h2
    omega
  · intro hx
    have h2 : (preorder h).all (fun x => decide (0 < x.info.level)) = true := by
      rw [List.all_eq_true]
      intro x hm
      simpa using Nat.pos_of_ne_zero (hx x hm)
    rw [h2] at this
    cases hu : unparseHierarchy h with
    | error e => rw [hu] at this; cases this
    | ok s => exact ⟨s, rfl⟩

/-- **C17**: a node of level `n` is printed with `12 + 4 (n - 1)` spaces before its tag. -/
theorem C17_indentation (h : Hierarchy) (s : Str) (hs : unparseHierarchy h = .ok s) :
    ∃ rest, s = List.replicate (12 + 4 * (h.info.level - 1)) ' ' ++ c!"<SPEC-HIERARCHY" ++ rest := by
  have key : ∀ i : HInfo, ∃ r, unparseHierarchyHead (12 + (i.level - 1) * 4) i =
      List.replicate (12 + 4 * (i.level - 1)) ' ' ++ c!"<SPEC-HIERARCHY" ++ r := by
    intro i
    unfold unparseHierarchyHead spaces
    rw [Nat.mul_comm]
    simp only [List.append_assoc]
    exact ⟨_, rfl⟩
  cases h with
  | leaf i =>
    simp only [unparseHierarchy, baseLevel_leaf] at hs
    split at hs
    · cases hs
    · rename_i hb
      split at hb
      · cases hb; cases hs
        obtain ⟨r, hr⟩ := key i
        rw [hr]
        simp only [List.append_assoc, info_leaf]
        exact ⟨_, rfl⟩
      · cases hb
  | node i cs =>
    simp only [unparseHierarchy, baseLevel_node] at hs
    split at hs
    · cases hs
    · rename_i hb
      split at hb
      · cases hb
        split at hs
        · cases hs
        · cases hs
          obtain ⟨r, hr⟩ := key i
          rw [hr]
          simp only [List.append_assoc, info_node]
          exact ⟨_, rfl⟩
      · cases hb

example : (unparseHierarchy (.leaf (plainInfo c!"a" 2))).isOk = true ∧
    (unparseHierarchy (.leaf (plainInfo c!"a" 0))).isOk = false := by decide

/-- Text made of whole lines: it is empty or ends with a line feed. -/
def WholeLines (s : Str) : Prop := s = [] ∨ ∃ p, s = p ++ c!"\n"

theorem whole_append {a b : Str} (ha : WholeLines a) (hb : WholeLines b) : WholeLines (a ++ b) := by
  rcases hb with rfl | ⟨p, rfl⟩
  · rw [List.append_nil]; exact ha
  · exact .inr ⟨a ++ p, by rw [List.append_assoc]⟩

theorem whole_end (a : Str) : WholeLines (a ++ c!">\n") := .inr ⟨a ++ c!">", by rw [List.append_assoc]; rfl⟩

theorem whole_object (base : Nat) (i : HInfo) : WholeLines (unparseHierarchyObject base i) :=
  whole_append (whole_append (whole_end _) (whole_end _)) (whole_end _)

mutual
theorem printed_part : ∀ (h : Hierarchy) (s : Str), unparseHierarchy h = .ok s → WholeLines s ∧ ∀ x ∈ preorder h,
    ∃ before t after, WholeLines before ∧ unparseHierarchy x = .ok t ∧ s = before ++ t ++ after
  | .leaf i, s, hs => by
    refine ⟨?_, ?_⟩
    · rw [unparseHierarchy] at hs
      split at hs
      · cases hs
      · cases hs
        exact whole_append (whole_append (whole_end _) (whole_object _ _)) (whole_end _)
    · intro x hx
      rw [preorder, List.mem_singleton] at hx
      subst hx
      exact ⟨[], s, [], .inl rfl, hs, by simp⟩
  | .node i cs, s, hs => by
    have hs0 := hs
    rw [unparseHierarchy] at hs
    split at hs
    · cases hs
    · rename_i base hb
      split at hs
      · cases hs
      · rename_i body hbody
        have ih := printed_parts cs body hbody
        injection hs with hs
        generalize hch : (if (cs.isEmpty && i.isSelfClosed) = true then spaces (base + 2) ++ c!"<CHILDREN/>\n"
          else lineOpen (base + 2) c!"CHILDREN" ++ body ++ lineClose (base + 2) c!"CHILDREN") = children at hs
        have hw : WholeLines children := by
          rw [← hch]
          split
          · exact .inr ⟨spaces (base + 2) ++ c!"<CHILDREN/>", by rw [List.append_assoc]; rfl⟩
          · exact whole_append (whole_append (whole_end _) ih.1) (whole_end _)
        refine ⟨?_, ?_⟩
        · rw [← hs]
          refine whole_append (whole_append (whole_end _) ?_) (whole_end _)
          split
          · exact whole_append (whole_object _ _) hw
          · exact whole_append hw (whole_object _ _)
        · intro x hx
          rw [preorder] at hx
          rcases List.mem_cons.mp hx with rfl | hx
          · exact ⟨[], s, [], .inl rfl, hs0, by simp⟩
          · obtain ⟨b, t, a, h1, h2, h3⟩ := ih.2 x hx
            have hne : (cs.isEmpty && i.isSelfClosed) ≠ true := by
              cases cs with
              | nil => cases hx
              | cons c cs => simp
            rw [if_neg hne] at hch
            by_cases ho : i.refThenChildrenOrder = true
            · rw [if_pos ho] at hs
              refine ⟨unparseHierarchyHead base i ++ unparseHierarchyObject base i ++ lineOpen (base + 2) c!"CHILDREN" ++ b, t,
                a ++ lineClose (base + 2) c!"CHILDREN" ++ lineClose base c!"SPEC-HIERARCHY",
                whole_append (whole_append (whole_append (whole_end _) (whole_object _ _)) (whole_end _)) h1, h2, ?_⟩
              rw [← hs, ← hch, h3]
              simp only [List.append_assoc]
            · rw [if_neg ho] at hs
              refine ⟨unparseHierarchyHead base i ++ lineOpen (base + 2) c!"CHILDREN" ++ b, t,
                a ++ lineClose (base + 2) c!"CHILDREN" ++ unparseHierarchyObject base i ++ lineClose base c!"SPEC-HIERARCHY",
                whole_append (whole_append (whole_end _) (whole_end _)) h1, h2, ?_⟩
              rw [← hs, ← hch, h3]
              simp only [List.append_assoc]

theorem printed_parts : ∀ (hs : List Hierarchy) (s : Str), unparseHierarchies hs = .ok s → WholeLines s ∧ ∀ x ∈ preorderList hs,
    ∃ before t after, WholeLines before ∧ unparseHierarchy x = .ok t ∧ s = before ++ t ++ after
  | [], s, hu => by
    rw [unparseHierarchies] at hu
    cases hu
    exact ⟨.inl rfl, fun x hx => by cases hx⟩
  | h :: hs, s, hu => by
    rw [unparseHierarchies] at hu
    split at hu
    · cases hu
    · rename_i a ha
      split at hu
      · cases hu
      · rename_i b hb
        cases hu
        have h1 := printed_part h a ha
        have h2 := printed_parts hs b hb
        refine ⟨whole_append h1.1 h2.1, ?_⟩
        intro x hx
        rw [preorderList] at hx
        rcases List.mem_append.mp hx with hx | hx
        · obtain ⟨b1, t, a1, g1, g2, g3⟩ := h1.2 x hx
          exact ⟨b1, t, a1 ++ b, g1, g2, by rw [g3]; simp only [List.append_assoc]⟩
        · obtain ⟨b1, t, a1, g1, g2, g3⟩ := h2.2 x hx
          exact ⟨a ++ b1, t, a1, whole_append h1.1 g1, g2, by rw [g3]; simp only [List.append_assoc]⟩
end

/-- **C17**: in a printed tree every node of the tree begins a line: before it are whole lines, then `12 + 4 (n - 1)`
spaces, where `n` is its level, then its tag; and what follows is the rest of its own printed text. -/
theorem C17_every_node (h : Hierarchy) (s : Str) (hs : unparseHierarchy h = .ok s) :
    ∀ x ∈ preorder h, ∃ before rest after, (before = [] ∨ ∃ p, before = p ++ c!"\n") ∧
      unparseHierarchy x = .ok (List.replicate (12 + 4 * (x.info.level - 1)) ' ' ++ c!"<SPEC-HIERARCHY" ++ rest) ∧
      s = before ++ (List.replicate (12 + 4 * (x.info.level - 1)) ' ' ++ c!"<SPEC-HIERARCHY" ++ rest) ++ after := by
  intro x hx
  obtain ⟨b, t, a, h1, h2, h3⟩ := (printed_part h s hs).2 x hx
  obtain ⟨r, hr⟩ := C17_indentation x t h2
  exact ⟨b, r, a, h1, by rw [h2, hr], by rw [h3, hr]⟩

/-- Not vacuous: a tree of two levels is printed, and has two nodes. -/
example : (unparseHierarchy (.node (plainInfo c!"a" 1) [.leaf (plainInfo c!"b" 2)])).isOk = true ∧
    (preorder (.node (plainInfo c!"a" 1) [.leaf (plainInfo c!"b" 2)])).map (fun x => x.info.level) = [1, 2] := by decide

set_option maxRecDepth 20000 in
/-- A document with a two-level hierarchy, for C13-C15. -/
def hierarchyDoc : Str :=
  c!"<REQ-IF xmlns=\"u\"><CORE-CONTENT><REQ-IF-CONTENT><SPECIFICATIONS><SPECIFICATION IDENTIFIER=\"s\"><CHILDREN><SPEC-HIERARCHY IDENTIFIER=\"a\"><OBJECT><SPEC-OBJECT-REF>o</SPEC-OBJECT-REF></OBJECT><CHILDREN><SPEC-HIERARCHY IDENTIFIER=\"b\"><OBJECT><SPEC-OBJECT-REF>p</SPEC-OBJECT-REF></OBJECT></SPEC-HIERARCHY></CHILDREN></SPEC-HIERARCHY></CHILDREN></SPECIFICATION></SPECIFICATIONS></REQ-IF-CONTENT></CORE-CONTENT></REQ-IF>"

set_option maxRecDepth 20000 in
example : (match parseString hierarchyDoc with
    | .ok b => match b.iterate 0 with
      | .ok l => l.map (fun h => (h.info.identifier, h.info.level))
      | .error _ => []
    | .error _ => []) = [(c!"a", 1), (c!"b", 2)] := by decide +kernel

end ReqIF
