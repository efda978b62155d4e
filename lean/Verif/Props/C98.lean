import Verif.Proofs.DepthBundle
import Verif.Props.C42_45
import Verif.Spec.Inside
/-!
# C98: Limits on depth

The XML reader refuses elements nested too deep, and Python calls nested too deep.
-/
namespace ReqIF
open Spec

theorem limited_iff {limit : Nat} {text : Str} {d : Doc} : readLimited limit text = some d ↔ readDoc text = some d ∧ height d.root ≤ limit := by
  unfold readLimited
  cases readDoc text with
  | none => simp
  | some e =>
    dsimp only
    split
    · rename_i h
      constructor
      · intro e; cases e; exact ⟨rfl, h⟩
      · exact fun ⟨e, _⟩ => e
    · rename_i h
      constructor
      · intro e; cases e
      · rintro ⟨e, g⟩; cases e; exact absurd g h

/-! ## Passthrough -/

/-- **C98.** What is written for a plain document passes every limit on depth that the document passes. -/
theorem C98_passthrough {limit : Nat} {text : Str} {doc : Doc} {p : Str} (hr : readLimited limit text = some doc)
    (hv : Xsd.validRoot .lenient doc.root = true) (hs : noSpecials doc.root = true) (hp : Xsd.plainDocument p doc.root = true)
    (hk : Xsd.childNames doc.root.kids ≠ []) :
    ∃ b out d, parseString text = .ok b ∧ unparse b = .ok out ∧ readLimited limit out = some d := by
  obtain ⟨h1, h2⟩ := limited_iff.1 hr
  obtain ⟨b, out, d, g1, g2, g3, g4⟩ := Xsd.plain_height h1 hv hs hp hk
  exact ⟨b, out, d, g1, g2, limited_iff.2 ⟨g3, by omega⟩⟩

set_option maxRecDepth 20000 in
/-- Non-vacuity: a document, with losses, that meets the conditions and passes the limit 12. -/
example : Xsd.meetsAll c!"h" Xsd.lossyDoc = some (true, false) ∧ (readLimited 12 Xsd.lossyDoc).isSome = true := by
  refine ⟨by decide +kernel, by decide +kernel⟩

/-! ## Hierarchies -/

mutual
theorem levels_bare : ∀ h : Hierarchy, levels (bareHierarchy h) = levels h
  | .leaf i => by rw [bareHierarchy, levels, levels]
  | .node i cs => by rw [bareHierarchy, levels, levels, levels_bares cs]

theorem levels_bares : ∀ hs : List Hierarchy, levelsAll (bareHierarchies hs) = levelsAll hs
  | [] => rfl
  | h :: hs => by rw [bareHierarchies, levelsAll, levelsAll, levels_bare h, levels_bares hs]
end

mutual
theorem levels_read : ∀ h : Hierarchy, levels (readHierarchy h) = levels h
  | .leaf i => by rw [readHierarchy, levels, levels]
  | .node i cs => by rw [readHierarchy, levels, levels, levels_reads cs]

theorem levels_reads : ∀ hs : List Hierarchy, levelsAll (readHierarchies hs) = levelsAll hs
  | [] => rfl
  | h :: hs => by rw [readHierarchies, levelsAll, levelsAll, levels_read h, levels_reads hs]
end

theorem reads_mem {y : Hierarchy} : ∀ {hs : List Hierarchy}, y ∈ hs → readHierarchy y ∈ readHierarchies hs
  | h :: hs, m => by
    rw [readHierarchies]
    rcases List.mem_cons.mp m with rfl | m
    · simp
    · exact List.mem_cons_of_mem _ (reads_mem m)

theorem bares_mem {y : Hierarchy} : ∀ {hs : List Hierarchy}, y ∈ bareHierarchies hs → ∃ z ∈ hs, y = bareHierarchy z
  | h :: hs, m => by
    rw [bareHierarchies] at m
    rcases List.mem_cons.mp m with rfl | m
    · exact ⟨h, by simp, rfl⟩
    · obtain ⟨z, hz, e⟩ := bares_mem m
      exact ⟨z, List.mem_cons_of_mem _ hz, e⟩

/-- The hierarchies that come back have as many levels. -/
theorem levels_back {b b' : Bundle} (h : b'.coreContent.map (·.map bareContent) = b.coreContent.map (·.map readContent))
    {s : Specification} (hs : s ∈ specificationsOf b) {y : Hierarchy} (hy : y ∈ s.children.getD []) :
    ∃ s' ∈ specificationsOf b', ∃ y' ∈ s'.children.getD [], levels y' = levels y := by
  unfold specificationsOf at hs ⊢
  split at hs
  case h_2 => cases hs
  rename_i c hc
  rw [hc] at h
  cases hc' : b'.coreContent with
  | none => rw [hc'] at h; cases h
  | some o =>
    cases o with
    | none => rw [hc'] at h; cases h
    | some c' =>
      rw [hc'] at h
      have h : bareContent c' = readContent c := Option.some.inj (Option.some.inj h)
      have h : c'.specifications.map (·.map bareSpecification) = c.specifications.map (·.map readSpecification) :=
        congrArg Content.specifications h
      cases hl : c.specifications with
      | none => rw [hl] at hs; cases hs
      | some ss =>
        rw [hl] at hs h
        cases hl' : c'.specifications with
        | none => rw [hl'] at h; cases h
        | some ss' =>
          rw [hl'] at h
          have h : ss'.map bareSpecification = ss.map readSpecification := Option.some.inj h
          have hm : readSpecification s ∈ ss'.map bareSpecification := by
            rw [h]; exact List.mem_map_of_mem hs
          obtain ⟨s', hs', e⟩ := List.mem_map.mp hm
          have e : s'.children.map bareHierarchies = s.children.map readHierarchies := congrArg Specification.children e
          dsimp only
          refine ⟨s', by rw [hl']; exact hs', ?_⟩
          cases hk : s.children with
          | none => rw [hk] at hy; cases hy
          | some hs =>
            rw [hk] at hy e
            cases hk' : s'.children with
            | none => rw [hk'] at e; cases e
            | some hs' =>
              rw [hk'] at e
              have e : bareHierarchies hs' = readHierarchies hs := Option.some.inj e
              obtain ⟨z, hz, ez⟩ := bares_mem (hs := hs') (by rw [e]; exact reads_mem hy)
              exact ⟨z, hz, by rw [← levels_bare z, ← ez, levels_read]⟩

/-- **C98.** A safe bundle with a hierarchy of more than `(limit - 7) / 2` levels is written, but what is written is
refused by the reader with this limit. -/
theorem C98_too_deep {as : List (Str × Str)} {p : Str} {b : Bundle} (h : SafeBundle as p b) {s : Specification}
    (hs : s ∈ specificationsOf b) {y : Hierarchy} (hy : y ∈ s.children.getD []) {limit : Nat} (hl : limit < 2 * levels y + 7) :
    ∃ out d, unparse b = .ok out ∧ readDoc out = some d ∧ readLimited limit out = none := by
  obtain ⟨out, d, b', h1, h2, -, h3, -, -, h4, -⟩ := bundle_survives h
  refine ⟨out, d, h1, h2, ?_⟩
  obtain ⟨s', hs', y', hy', hl'⟩ := levels_back h4 hs hy
  have := document_height h2 h3 hs' hy'
  unfold readLimited
  rw [h2]
  dsimp only
  rw [if_neg (by omega)]

/-- **C98.** A safe bundle whose XHTML content is nested at most `k` deep and whose hierarchies have at most `l` levels is
written as a document that a reader with a limit of `11`, `k + 10` and `2 l + 7` accepts. -/
theorem C98_accepted {as : List (Str × Str)} {p : Str} {b : Bundle} (h : SafeBundle as p b) {k l limit : Nat}
    (hs : ∀ c, b.coreContent = some (some c) → Shallow p k l c) (h1 : 11 ≤ limit) (hk : k + 10 ≤ limit) (hl : 2 * l + 7 ≤ limit) :
    ∃ out d, unparse b = .ok out ∧ readLimited limit out = some d := by
  obtain ⟨out, d, g1, g2, g3⟩ := Xsd.bundle_height h hs h1 hk hl
  exact ⟨out, d, g1, limited_iff.2 ⟨g2, g3⟩⟩

/-- **C98.** So for bundles whose XHTML content is not deep the limit on hierarchies is exact. -/
theorem C98_exact {as : List (Str × Str)} {p : Str} {b : Bundle} (h : SafeBundle as p b) {k l limit : Nat}
    (hs : ∀ c, b.coreContent = some (some c) → Shallow p k l c) (h1 : 11 ≤ limit) (hk : k + 10 ≤ limit) :
    ∃ out, unparse b = .ok out ∧
      ((readLimited limit out).isSome = true ↔ ∀ s ∈ specificationsOf b, ∀ y ∈ s.children.getD [], 2 * levels y + 7 ≤ limit) := by
  obtain ⟨out, -, -, g1, -⟩ := bundle_survives h
  refine ⟨out, g1, ?_, ?_⟩
  · intro hr s hs y hy
    rcases Nat.lt_or_ge limit (2 * levels y + 7) with hlt | hge
    · obtain ⟨out', d, e, -, hn⟩ := C98_too_deep h hs hy hlt
      rw [g1] at e
      cases e
      rw [hn] at hr
      cases hr
    · exact hge
  · intro hy
    have hs' : ∀ c, b.coreContent = some (some c) → Shallow p k ((limit - 7) / 2) c := by
      intro c hc
      obtain ⟨a1, a2, a3, a4, a5⟩ := hs c hc
      refine ⟨a1, a2, a3, a4, ?_⟩
      intro s hm y hym
      have := hy s (by unfold specificationsOf; rw [hc]; exact hm) y hym
      omega
    obtain ⟨out', d, e, hd⟩ := C98_accepted h hs' h1 hk (by omega)
    rw [g1] at e
    cases e
    rw [hd]
    rfl

/-! ## A family of bundles -/

/-- A hierarchy in which each node but the last has one child. -/
def chain : Nat → Nat → Hierarchy
  | level, 0 => .leaf ⟨c!"h", some c!"o", level, none, false, none, none, none, false, none⟩
  | level, n + 1 => .node ⟨c!"h", some c!"o", level, none, true, none, none, none, false, none⟩ [chain (level + 1) n]

theorem chain_levels : ∀ n level, levels (chain level n) = n + 1
  | 0, level => rfl
  | n + 1, level => by
    rw [chain, levels, levelsAll, levelsAll, chain_levels n]
    omega

theorem chain_safe : ∀ n level, SafeHierarchy level (chain level n)
  | 0, level => ⟨rfl, (by decide : PlainAttr c!"h"), (by decide : Opt PlainAttr none), (by decide : Opt PlainAttr none), (by decide : PlainElem (some c!"o"))⟩
  | n + 1, level => ⟨⟨rfl, (by decide : PlainAttr c!"h"), (by decide : Opt PlainAttr none), (by decide : Opt PlainAttr none), (by decide : PlainElem (some c!"o"))⟩, chain_safe n (level + 1), trivial⟩

/-- A bundle with nothing but one chain. -/
def chainBundle (n : Nat) : Bundle :=
  { exampleBundle with
    header := none,
    coreContent := some (some ⟨none, none, none, none, some [⟨c!"s", none, none, none, none, none, some [chain 1 n], none⟩], none⟩),
    toolExtensionsTagExists := false }

theorem chainBundle_safe (n : Nat) : SafeBundle usualRoot c!"xhtml" (chainBundle n) := by
  refine ⟨exampleBundle_safe.root, ?_, ?_, .inr (.inl rfl)⟩
  · intro h hh; cases hh
  · rintro c ⟨⟩ Γ hΓ
    refine ⟨?_, ?_, ?_, ?_, ?_, ?_⟩
    · rintro xs ⟨⟩
    · rintro xs ⟨⟩
    · rintro xs ⟨⟩
    · rintro xs ⟨⟩
    · rintro xs ⟨⟩ x hx
      rw [List.mem_singleton.1 hx]
      refine ⟨(by decide : PlainAttr c!"s"), (by decide : Opt EscAttr none), (by decide : Opt PlainAttr none),
        (by decide : Opt EscAttr none), (by decide : Opt PlainText none), ?_, ?_, ?_⟩
      · rintro vs ⟨⟩
      · rintro hs ⟨⟩
        exact ⟨chain_safe n 1, trivial⟩
      · intro t ht
        show t ∈ [Tag.name c!"TYPE", .name c!"CHILDREN", .name c!"VALUES"]
        have : (t == .name c!"TYPE" && false || t == .name c!"CHILDREN" && true || t == .name c!"VALUES" && false) = true := ht
        simp at this
        simp [this]
    · rintro xs ⟨⟩

theorem chainBundle_shallow (n : Nat) : ∀ c, (chainBundle n).coreContent = some (some c) → Shallow c!"xhtml" 0 (n + 1) c := by
  rintro c ⟨⟩
  refine ⟨?_, ?_, ?_, ?_, ?_⟩
  · intro t ht; cases ht
  · intro t ht; cases ht
  · intro t ht; cases ht
  · intro s hs a ha
    rw [List.mem_singleton.1 hs] at ha
    cases ha
  · intro s hs y hy
    rw [List.mem_singleton.1 hs] at hy
    rw [List.mem_singleton.1 hy, chain_levels]
    exact Nat.le_refl _

/-- **C98**, the opposite: whatever the limit, there is a bundle that is written and read again without limit, but refused
with the limit. -/
theorem C98_opposite (limit : Nat) : ∃ as p b out b', SafeBundle as p b ∧ unparse b = .ok out ∧ parseString out = .ok b' ∧
    ReadsBack as b b' ∧ readLimited limit out = none := by
  obtain ⟨out, b', h1, h2, h3⟩ := C43_roundtrip (chainBundle_safe limit)
  obtain ⟨out', d, g1, -, g3⟩ := C98_too_deep (chainBundle_safe limit) (List.mem_singleton.2 rfl) (y := chain 1 limit)
    (List.mem_singleton.2 rfl) (limit := limit) (by rw [chain_levels]; omega)
  rw [h1] at g1
  cases g1
  exact ⟨_, _, _, out, b', chainBundle_safe limit, h1, h2, h3, g3⟩

/-- Non-vacuity, and the limit of libxml2: 124 levels are read again, 125 are not. -/
example : (∃ out, unparse (chainBundle 123) = .ok out ∧ (readLimited 256 out).isSome = true) ∧
    (∃ out, unparse (chainBundle 124) = .ok out ∧ readLimited 256 out = none) := by
  constructor
  · obtain ⟨out, h1, h2⟩ := C98_exact (chainBundle_safe 123) (chainBundle_shallow 123) (limit := 256) (by omega) (by omega)
    refine ⟨out, h1, h2.2 ?_⟩
    intro s hs y hy
    rw [List.mem_singleton.1 hs] at hy
    rw [List.mem_singleton.1 hy, chain_levels]
    omega
  · obtain ⟨out, d, h1, -, h2⟩ := C98_too_deep (chainBundle_safe 124) (List.mem_singleton.2 rfl) (y := chain 1 124)
      (List.mem_singleton.2 rfl) (limit := 256) (by rw [chain_levels]; omega)
    exact ⟨out, h1, h2⟩

/-! ## The stack -/

theorem within_height {n m : Node} (h : Within n m) : height m ≤ height n := by
  induction h with
  | self => exact Nat.le_refl _
  | @down m k _ hk ih =>
    cases m with
    | elem i ks =>
      have := height_kid (show k ∈ ks from hk)
      rw [height] at ih
      omega
    | _ => cases hk

/-- **C98.** For a document accepted by a reader with a limit on depth, the functions that call themselves need no more
calls than the limit allows: neither to read the elements of the tree, nor to print the hierarchies that were read, nor to
print XML. -/
theorem C98_stack {limit : Nat} {text : Str} {doc : Doc} {b : Bundle} (hr : readLimited limit text = some doc)
    (hp : parseString text = .ok b) :
    (∀ r, strippedRoot doc.root = .ok r → ∀ x, Within r x →
      (∀ n level, limit < 2 * n → parseHierarchyIn n level x = some (parseHierarchy level x)) ∧
      (∀ n root, limit < n → stringifyNodeIn n root x = some (stringifyNode root x)) ∧
      (∀ n key forced, limit < n → stringifyNsNodeIn n key forced x = some (stringifyNsNode key forced x))) ∧
    (∀ s ∈ specificationsOf b, ∀ y ∈ s.children.getD [], ∀ n, limit ≤ n + 7 → unparseHierarchyIn n y = some (unparseHierarchy y)) := by
  obtain ⟨h1, h2⟩ := limited_iff.1 hr
  constructor
  · intro r hr x hx
    have h3 := within_height hx
    rw [height_strippedRoot hr] at h3
    exact ⟨fun n level hn => stack_parse x n level (by omega), fun n root hn => stack_node x n root (by omega),
      fun n key forced hn => stack_ns key forced x n (by omega)⟩
  · intro s hs y hy n hn
    have := document_height h1 hp hs hy
    exact stack_unparse y n (by omega)

/-- **C98.** A hierarchy built in memory takes two calls for each level: with fewer, it is not printed. -/
theorem C98_stack_exact {h : Hierarchy} {t : Str} (hu : unparseHierarchy h = .ok t) (n : Nat) :
    unparseHierarchyIn n h = (if 2 * levels h ≤ n then some (.ok t) else none) := by
  split
  · rename_i hn
    rw [stack_unparse h n hn, hu]
  · rename_i hn
    exact stack_unparse_fails h n t hu (by omega)

/-- Non-vacuity. -/
example : unparseHierarchyIn 5 (chain 1 2) = none ∧ (unparseHierarchyIn 6 (chain 1 2)).isSome = true := by decide +kernel

end ReqIF
