import Verif.Props.C38_39
import Verif.Props.C47
import Verif.Spec.Arrange
/-!
# C86: the order of `OBJECT` and `CHILDREN` in hierarchies

The hierarchy parser remembers one bit: whether the children of the element are exactly
`OBJECT`, `CHILDREN`.  So both orders are kept in elements without other children, and an
`EDITABLE-ATTS` element or a comment turns `OBJECT`, `CHILDREN` around.
-/
set_option linter.unusedSimpArgs false
namespace ReqIF
open Spec

theorem find_childTags {n : Node} {t : Str} : n.find t = none ↔ .name t ∉ childTags n := by
  rw [find_eq, List.find?_eq_none]
  unfold childTags
  simp only [List.mem_map, not_exists, not_and, beq_iff_eq]

/-- What a parsed hierarchy tells about its element. -/
theorem parseHierarchy_inv {level : Nat} {n : Node} {h : Hierarchy} (hp : parseHierarchy level n = .ok h) :
    (n.find c!"CHILDREN" = none ∧ ∃ i, h = .leaf i) ∨
    ∃ c cs i, n.find c!"CHILDREN" = some c ∧ mapPy (parseHierarchy (level + 1)) c.children = .ok cs ∧ h = .node i cs ∧
      i.refThenChildrenOrder = (childTags n == [.name c!"OBJECT", .name c!"CHILDREN"]) := by
  cases n with
  | text t => cases hp
  | comment t => cases hp
  | pi a b => cases hp
  | elem i ks =>
    rw [parseHierarchy] at hp
    dsimp only at hp
    split at hp
    · split at hp
      · cases hp
      · split at hp
        · cases hp
        · split at hp
          · cases hp
          · rw [parseFirstChildren_eq] at hp
            have hf : (Node.elem i ks).find c!"CHILDREN" = ks.find? (fun k => !k.isText && k.tag == .name c!"CHILDREN") := rfl
            rw [hf]
            cases hc : ks.find? (fun k => !k.isText && k.tag == .name c!"CHILDREN") with
            | none =>
              rw [hc] at hp
              cases hp
              exact .inl ⟨rfl, _, rfl⟩
            | some c =>
              rw [hc] at hp
              dsimp only at hp
              cases hm : mapPy (parseHierarchy (level + 1)) c.children with
              | error e => rw [hm] at hp; cases hp
              | ok cs =>
                rw [hm] at hp
                cases hp
                exact .inr ⟨c, cs, _, rfl, hm, rfl, rfl⟩
    · cases hp

theorem mapPy_cons_inv {α β : Type} {f : α → Py β} {xs : List α} {y : β} {ys : List β} (h : mapPy f xs = .ok (y :: ys)) :
    ∃ x xs', xs = x :: xs' ∧ f x = .ok y ∧ mapPy f xs' = .ok ys := by
  cases xs with
  | nil => cases h
  | cons x xs =>
    rw [mapPy] at h
    cases hx : f x with
    | error e => rw [hx] at h; cases h
    | ok z =>
      rw [hx] at h
      dsimp only at h
      cases hr : mapPy f xs with
      | error e => rw [hr] at h; cases h
      | ok zs =>
        rw [hr] at h
        cases h
        exact ⟨x, xs, rfl, hx, hr⟩

theorem mapPy_nil_inv {α β : Type} {f : α → Py β} {xs : List α} (h : mapPy f xs = .ok []) : xs = [] := by
  cases xs with
  | nil => rfl
  | cons x xs =>
    rw [mapPy] at h
    cases hx : f x with
    | error e => rw [hx] at h; cases h
    | ok z =>
      rw [hx] at h
      dsimp only at h
      cases hr : mapPy f xs with
      | error e => rw [hr] at h; cases h
      | ok zs => rw [hr] at h; cases h

theorem arrangement_none {n : Node} (h : n.find c!"CHILDREN" = none) : arrangement (childTags n) = [.name c!"OBJECT"] := by
  have hn := find_childTags.1 h
  unfold arrangement
  rw [if_neg (fun e => hn (by rw [e]; simp)), if_neg hn]

theorem arrangement_some {n c : Node} (h : n.find c!"CHILDREN" = some c) :
    arrangement (childTags n) = if childTags n == [.name c!"OBJECT", .name c!"CHILDREN"] then [.name c!"OBJECT", .name c!"CHILDREN"]
      else [.name c!"CHILDREN", .name c!"OBJECT"] := by
  have hn : .name c!"CHILDREN" ∈ childTags n := by
    apply Classical.byContradiction
    intro hc
    rw [find_childTags.2 hc] at h
    cases h
  unfold arrangement
  by_cases he : childTags n = [.name c!"OBJECT", .name c!"CHILDREN"]
  · rw [if_pos he, if_pos (by rw [he]; decide), he]
  · rw [if_neg he, if_pos hn, if_neg (by simpa using he)]

mutual
theorem follows_of (level : Nat) (h : Hierarchy) (n m : Node) (hp : parseHierarchy level n = .ok h) (hm : Arranged h m) : Follows n m := by
  match h with
  | .leaf i =>
    rcases parseHierarchy_inv hp with ⟨hn, -⟩ | ⟨c, cs, i', -, -, e, -⟩
    · rw [Arranged] at hm
      exact .leaf (by rw [hm, arrangement_none hn]) hn
    · cases e
  | .node i cs =>
    rcases parseHierarchy_inv hp with ⟨-, i', e⟩ | ⟨c, cs', i', hc, hcs, e, hb⟩
    · cases e
    · cases e
      rw [Arranged] at hm
      obtain ⟨d, hd, ha⟩ := hm.2
      exact .node (by rw [hm.1, arrangement_some hc, hb]) hc hd (followAll_of (level + 1) cs c.children d.children hcs ha)

theorem followAll_of (level : Nat) (hs : List Hierarchy) (ns ms : List Node) (hp : mapPy (parseHierarchy level) ns = .ok hs)
    (hm : AllArranged hs ms) : FollowAll ns ms := by
  match hs with
  | [] =>
    rw [AllArranged] at hm
    rw [mapPy_nil_inv hp, hm]
    exact .nil
  | h :: hs =>
    rw [AllArranged] at hm
    obtain ⟨m, ms', rfl, h1, h2⟩ := hm
    obtain ⟨n, ns', rfl, g1, g2⟩ := mapPy_cons_inv hp
    exact .cons (follows_of level h n m g1 h1) (followAll_of level hs ns' ms' g2 h2)
end

theorem arrangement_same {ts : List Tag} (h : ts = [.name c!"OBJECT"] ∨ ts = [.name c!"OBJECT", .name c!"CHILDREN"] ∨
    ts = [.name c!"CHILDREN", .name c!"OBJECT"]) : arrangement ts = ts := by
  rcases h with rfl | rfl | rfl <;> decide

mutual
theorem Spec.Follows.same {n m : Node} (h : Follows n m) (hb : Bare n) : SameArrangement n m := by
  match h, hb with
  | .leaf h1 h2, hb =>
    cases hb with
    | leaf b => exact .leaf (by rw [h1, arrangement_same (.inl b)]) h2
    | node b1 b2 b3 => rw [h2] at b2; cases b2
  | .node h1 h2 h3 h4, hb =>
    cases hb with
    | leaf b =>
      have hn : n.find c!"CHILDREN" = none := find_childTags.2 (by rw [b]; decide)
      rw [hn] at h2
      cases h2
    | node b1 b2 b3 =>
      rw [h2] at b2
      cases b2
      exact .node (by rw [h1, arrangement_same (.inr b1)]) h2 h3 (Spec.FollowAll.same h4 b3)

theorem Spec.FollowAll.same {ns ms : List Node} (h : FollowAll ns ms) (hb : Bares ns) : SameArrangements ns ms := by
  match h, hb with
  | .nil, _ => exact .nil
  | .cons h1 h2, .cons b1 b2 => exact .cons (Spec.Follows.same h1 b1) (Spec.FollowAll.same h2 b2)
end

/-- **C86.**  A hierarchy that was parsed and is written again: at every depth the written
element has the children of its source as `arrangement` says. -/
theorem C86_arrangement {as : List (Str × Str)} (hr : RootAttrs as) {level : Nat} (hl : 0 < level) {n : Node} {h : Hierarchy}
    (hp : parseHierarchy level n = .ok h) (hs : SafeHierarchy level h) :
    ∃ t m, unparseHierarchy h = .ok t ∧ ReadsAs as t [m] ∧ Follows n m := by
  obtain ⟨t, m, -, h1, h2, h3, -⟩ := C38_roundtrip hr hl hs
  exact ⟨t, m, h1, h2, follows_of level h n m hp h3⟩

/-- **C86**: if the elements have no children but `OBJECT` and `CHILDREN`, once each, then
at every depth both orders are kept. -/
theorem C86_kept {as : List (Str × Str)} (hr : RootAttrs as) {level : Nat} (hl : 0 < level) {n : Node} {h : Hierarchy}
    (hp : parseHierarchy level n = .ok h) (hs : SafeHierarchy level h) (hb : Bare n) :
    ∃ t m, unparseHierarchy h = .ok t ∧ ReadsAs as t [m] ∧ SameArrangement n m := by
  obtain ⟨t, m, h1, h2, h3⟩ := C86_arrangement hr hl hp hs
  exact ⟨t, m, h1, h2, h3.same hb⟩

/-- **C86**, the opposite: any further child beside `OBJECT` and `CHILDREN` — a comment, an
`EDITABLE-ATTS` — has `CHILDREN` written first, whatever the source says. -/
theorem C86_turned {as : List (Str × Str)} (hr : RootAttrs as) {level : Nat} (hl : 0 < level) {n : Node} {h : Hierarchy}
    (hp : parseHierarchy level n = .ok h) (hs : SafeHierarchy level h) (hc : .name c!"CHILDREN" ∈ childTags n)
    {x : Tag} (hx : x ∈ childTags n) (h1 : x ≠ .name c!"OBJECT") (h2 : x ≠ .name c!"CHILDREN") :
    ∃ t m, unparseHierarchy h = .ok t ∧ ReadsAs as t [m] ∧ childTags m = [.name c!"CHILDREN", .name c!"OBJECT"] := by
  obtain ⟨t, m, g1, g2, g3⟩ := C86_arrangement hr hl hp hs
  have e : arrangement (childTags n) = [.name c!"CHILDREN", .name c!"OBJECT"] := by
    unfold arrangement
    rw [if_neg (fun e => by rw [e] at hx; simp [h1, h2] at hx), if_pos hc]
  refine ⟨t, m, g1, g2, ?_⟩
  cases g3 with
  | leaf a => rw [a, e]
  | node a => rw [a, e]

/-! ## Enumeration values -/

theorem find_first {a b : Tag} (hab : a ≠ b) {l : List Tag} {i j : Nat} (hi : l.findIdx? (· == a) = some i) (hj : l.findIdx? (· == b) = some j) :
    l.find? (fun t => t == a || t == b) = some (if i < j then a else b) := by
  induction l generalizing i j with
  | nil => simp at hi
  | cons x l ih =>
    rw [List.findIdx?_cons] at hi hj
    rw [List.find?_cons]
    by_cases ha : x = a
    · subst ha
      have hb : (x == b) = false := by simpa using hab
      rw [hb] at hj
      simp at hi hj
      obtain ⟨k, -, rfl⟩ := hj
      subst hi
      simp
    · by_cases hb : x = b
      · subst hb
        have ha' : (x == a) = false := by simpa using ha
        rw [ha'] at hi
        simp at hi hj
        obtain ⟨k, -, rfl⟩ := hi
        subst hj
        simp
      · have ha' : (x == a) = false := by simpa using ha
        have hb' : (x == b) = false := by simpa using hb
        rw [ha'] at hi
        rw [hb'] at hj
        simp at hi hj
        obtain ⟨i', hi, rfl⟩ := hi
        obtain ⟨j', hj, rfl⟩ := hj
        rw [ha', hb']
        rw [ih hi hj]
        simp

/-- **C86**, enumeration values: a value parsed from an element is written with `VALUES` and
`DEFINITION` once each, and the first of the two is the first in the source. -/
theorem C86_enumeration {as : List (Str × Str)} (hr : RootAttrs as) {n : Node} {a : SpecObjectAttribute} {Γ : Ctx}
    (hn : n.tag = .name c!"ATTRIBUTE-VALUE-ENUMERATION") (hp : parseAttributeValue n = .ok a) (hs : SafeValue Γ a) :
    ∃ t m, unparseAttributeValue a = .ok t ∧ ReadsAs as t [m] ∧
      (childTags m = [.name c!"VALUES", .name c!"DEFINITION"] ∨ childTags m = [.name c!"DEFINITION", .name c!"VALUES"]) ∧
      (childTags m).head? = (childTags n).find? (fun t => t == .name c!"VALUES" || t == .name c!"DEFINITION") := by
  unfold parseAttributeValue at hp
  rw [hn, if_neg (by decide), if_pos rfl] at hp
  obtain ⟨d, -, hp⟩ := py_bind_inv hp
  obtain ⟨ref, -, hp⟩ := py_bind_inv hp
  split at hp
  · cases hp
  · rename_i vs _
    rw [py_pure] at hp
    cases hp
    obtain ⟨href, hval⟩ := hs
    obtain ⟨b, hb⟩ := order_known (a := ⟨.enumeration, ref.text?, .list (vs.children.map Node.text?), none, some n⟩) hval.2
    obtain ⟨Δ, hΔ⟩ := isCtx_exists hr [] false
    obtain ⟨-, hsh⟩ := IsCtx.spec hΔ hr
    obtain ⟨m, m1, -, -, m4, -⟩ := enumeration_shows (Γ := Δ) b (vs.children.map Node.text?) hval.1 href
    refine ⟨_, m, ?_, hsh _ _ m1, ?_, ?_⟩
    · unfold unparseAttributeValue
      dsimp only
      rw [hb]
      rfl
    · rw [m4]
      cases b
      · exact .inr rfl
      · exact .inl rfl
    · unfold valuesBeforeDefinition tagIndex at hb
      dsimp only at hb
      split at hb
      · rename_i i j hi hj
        cases hb
        rw [m4, find_first (by decide) hi hj]
        by_cases h : i < j <;> simp [h]
      · cases hb

/-- **C86**, enumeration values created through the API: `VALUES` first. -/
theorem C86_enumeration_default {as : List (Str × Str)} (hr : RootAttrs as) {a : SpecObjectAttribute} {Γ : Ctx}
    (ht : a.type = .enumeration) (hx : a.xmlNode = none) (hs : SafeValue Γ a) :
    ∃ t m, unparseAttributeValue a = .ok t ∧ ReadsAs as t [m] ∧ childTags m = [.name c!"VALUES", .name c!"DEFINITION"] := by
  obtain ⟨ty, ref, val, sx, nd⟩ := a
  dsimp only at ht hx
  subst ht hx
  obtain ⟨href, hval⟩ := hs
  cases val with
  | str v => exact hval.elim
  | list vs =>
    obtain ⟨Δ, hΔ⟩ := isCtx_exists hr [] false
    obtain ⟨-, hsh⟩ := IsCtx.spec hΔ hr
    obtain ⟨m, m1, -, -, m4, -⟩ := enumeration_shows (Γ := Δ) true vs hval.1 href
    exact ⟨_, m, rfl, hsh _ _ m1, m4⟩

/-! ## Non-vacuity -/

def objectRef (t : Str) : Node := plainEl c!"OBJECT" [plainEl c!"SPEC-OBJECT-REF" [.text t]]

/-- Two levels; the outer element has `OBJECT` first, the inner one `CHILDREN`. -/
def bareEl : Node := itemEl c!"SPEC-HIERARCHY" [objectRef c!"o",
  plainEl c!"CHILDREN" [itemEl c!"SPEC-HIERARCHY" [plainEl c!"CHILDREN" [itemEl c!"SPEC-HIERARCHY" [objectRef c!"q"]], objectRef c!"p"]]]

example : (∃ h, parseHierarchy 1 bareEl = .ok h ∧ SafeHierarchy 1 h) ∧ Bare bareEl :=
  ⟨⟨_, rfl, ⟨rfl, by decide, by decide, by decide, by decide⟩, ⟨⟨rfl, by decide, by decide, by decide, by decide⟩,
      ⟨rfl, by decide, by decide, by decide, by decide⟩, trivial⟩, trivial⟩,
    .node (.inl rfl) rfl (.cons (.node (.inr rfl) rfl (.cons (.leaf rfl) .nil)) .nil)⟩

/-- The same outer order, with a reference to an attribute that may be edited. -/
def editableEl : Node := itemEl c!"SPEC-HIERARCHY" [objectRef c!"o", plainEl c!"CHILDREN" [itemEl c!"SPEC-HIERARCHY" [objectRef c!"p"]],
  plainEl c!"EDITABLE-ATTS" [plainEl c!"ATTRIBUTE-DEFINITION-STRING-REF" [.text c!"d"]]]

example : ∃ h, parseHierarchy 1 editableEl = .ok h ∧ SafeHierarchy 1 h ∧ .name c!"CHILDREN" ∈ childTags editableEl ∧
    .name c!"EDITABLE-ATTS" ∈ childTags editableEl ∧
    arrangement (childTags editableEl) ≠ (childTags editableEl).filter (fun t => t == .name c!"OBJECT" || t == .name c!"CHILDREN") :=
  ⟨_, rfl, ⟨⟨rfl, by decide, by decide, by decide, by decide⟩, ⟨rfl, by decide, by decide, by decide, by decide⟩, trivial⟩,
    by decide, by decide, by decide⟩

/-- An enumeration value with its definition first. -/
def enumerationEl : Node := plainEl c!"ATTRIBUTE-VALUE-ENUMERATION"
  [.comment c!"x", plainEl c!"DEFINITION" [plainEl c!"ATTRIBUTE-DEFINITION-ENUMERATION-REF" [.text c!"d"]],
   plainEl c!"VALUES" [plainEl c!"ENUM-VALUE-REF" [.text c!"v"], plainEl c!"ENUM-VALUE-REF" [.text c!"w"]]]

example (Γ : Ctx) : ∃ a, enumerationEl.tag = .name c!"ATTRIBUTE-VALUE-ENUMERATION" ∧ parseAttributeValue enumerationEl = .ok a ∧ SafeValue Γ a ∧
    (childTags enumerationEl).find? (fun t => t == .name c!"VALUES" || t == .name c!"DEFINITION") = some (.name c!"DEFINITION") :=
  ⟨_, rfl, rfl, ⟨by decide, by decide, by rintro x ⟨⟩; decide⟩, by decide⟩

end ReqIF
