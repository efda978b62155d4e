import Verif.Props.C34
import Verif.Props.C36
import Verif.Props.C37
import Verif.Props.C38_39
import Verif.Spec.Blocks
/-!
# C47: child order follows the source document

An item that was parsed from element `n` is printed and read again as element `m`.
The children of `m` are those of `n`, in the same order (repetitions included), except
those that the unparser does not know or that hold nothing to print.
-/
namespace ReqIF
open Spec

theorem parsed_object_node {n : Node} {o : SpecObject} (h : parseSpecObject n = .ok o) : o.xmlNode = some n := by
  unfold parseSpecObject at h
  repeat (obtain ⟨_, -, h⟩ := py_bind_inv h)
  rw [py_pure] at h
  cases h
  rfl

theorem parsed_relation_node {n : Node} {r : SpecRelation} (h : parseSpecRelation n = .ok (.ok r)) : r.xmlNode = some n := by
  unfold parseSpecRelation at h
  obtain ⟨_, -, h⟩ := py_bind_inv h
  obtain ⟨_, -, h⟩ := py_bind_inv h
  split at h
  · cases h
  · split at h
    · cases h
    · repeat (obtain ⟨_, -, h⟩ := py_bind_inv h)
      rw [py_pure] at h
      cases h
      rfl

theorem parsed_specification_node {n : Node} {s : Specification} (h : parseSpecification n = .ok s) : s.xmlNode = some n := by
  unfold parseSpecification at h
  repeat (obtain ⟨_, -, h⟩ := py_bind_inv h)
  rw [py_pure] at h
  cases h
  rfl

theorem parsed_definition_node {n : Node} {a : SpecAttributeDefinition} (h : parseAttributeDefinition n = .ok a) : a.xmlNode = some n := by
  unfold parseAttributeDefinition at h
  repeat (obtain ⟨_, -, h⟩ := py_bind_inv h)
  dsimp only at h
  rw [py_pure] at h
  cases h
  rfl

/-- **C47**, spec objects. -/
theorem C47_object {as : List (Str × Str)} (hr : RootAttrs as) {p : Str} {n : Node} {o : SpecObject} {Γ : Ctx}
    (hΓ : IsCtx as p (o.attributes.any usesXhtml) Γ) (hp : parseSpecObject n = .ok o) (h : SafeObject Γ o) :
    ∃ t m, unparseSpecObject o = .ok t ∧ ReadsAs as t [m] ∧
      childTags m = (childTags n).filter (fun x => x == .name c!"VALUES" || x == .name c!"TYPE") := by
  obtain ⟨t, m, -, h1, h2, h3, -⟩ := C36_roundtrip hr hΓ h
  refine ⟨t, m, h1, h2, ?_⟩
  rw [h3, parsed_object_node hp]
  unfold sourceOrder keepTags
  apply List.filter_congr
  intro x _
  simp [List.contains_cons, Bool.beq_eq_decide_eq]

/-- **C47**, spec objects created through the API. -/
theorem C47_object_default {as : List (Str × Str)} (hr : RootAttrs as) {p : Str} {o : SpecObject} {Γ : Ctx}
    (hΓ : IsCtx as p (o.attributes.any usesXhtml) Γ) (hp : o.xmlNode = none) (h : SafeObject Γ o) :
    ∃ t m, unparseSpecObject o = .ok t ∧ ReadsAs as t [m] ∧ childTags m = [.name c!"VALUES", .name c!"TYPE"] := by
  obtain ⟨t, m, -, h1, h2, h3, -⟩ := C36_roundtrip hr hΓ h
  refine ⟨t, m, h1, h2, ?_⟩
  rw [h3, hp]
  decide

/-- **C47**, spec relations: only a `VALUES` without value is left out. -/
theorem C47_relation {as : List (Str × Str)} (hr : RootAttrs as) {p : Str} {n : Node} {r : SpecRelation} {Γ : Ctx}
    (hΓ : IsCtx as p (r.valuesAttribute.any usesXhtml) Γ) (hp : parseSpecRelation n = .ok (.ok r)) (h : SafeRelation Γ r) :
    ∃ t m, unparseSpecRelation r = .ok t ∧ ReadsAs as t [m] ∧
      childTags m = (childTags n).filter (fun x => !(x == .name c!"VALUES" && r.valuesAttribute.isNone)) := by
  obtain ⟨t, m, -, h1, h2, h3, -⟩ := C37_roundtrip hr hΓ h
  refine ⟨t, m, h1, h2, ?_⟩
  rw [h3]
  unfold relationOrder sourceOrder
  rw [parsed_relation_node hp]

/-- **C47**, spec relations created through the API. -/
theorem C47_relation_default {as : List (Str × Str)} (hr : RootAttrs as) {p : Str} {r : SpecRelation} {Γ : Ctx}
    (hΓ : IsCtx as p (r.valuesAttribute.any usesXhtml) Γ) (hp : r.xmlNode = none) (h : SafeRelation Γ r) :
    ∃ t m, unparseSpecRelation r = .ok t ∧ ReadsAs as t [m] ∧
      childTags m = [.name c!"TYPE", .name c!"SOURCE", .name c!"TARGET"] ++
        (if r.valuesAttribute.isSome then [.name c!"VALUES"] else []) := by
  obtain ⟨t, m, -, h1, h2, h3, -⟩ := C37_roundtrip hr hΓ h
  refine ⟨t, m, h1, h2, ?_⟩
  rw [h3]
  unfold relationOrder sourceOrder
  rw [hp]
  cases r.valuesAttribute <;> rfl

/-- **C47**, specifications. -/
theorem C47_specification {as : List (Str × Str)} (hr : RootAttrs as) {p : Str} {n : Node} {s : Specification} {Γ : Ctx}
    (hΓ : IsCtx as p ((s.values.getD []).any usesXhtml) Γ) (hp : parseSpecification n = .ok s) (h : SafeSpecification Γ s) :
    ∃ t m, unparseSpecification s = .ok t ∧ ReadsAs as t [m] ∧ childTags m = (childTags n).filter (specificationHas s) := by
  obtain ⟨t, m, -, h1, h2, h3, -⟩ := C39_roundtrip hr hΓ h
  refine ⟨t, m, h1, h2, ?_⟩
  rw [h3]
  unfold specificationOrder sourceOrder
  rw [parsed_specification_node hp]

/-- **C47**, specifications created through the API. -/
theorem C47_specification_default {as : List (Str × Str)} (hr : RootAttrs as) {p : Str} {s : Specification} {Γ : Ctx}
    (hΓ : IsCtx as p ((s.values.getD []).any usesXhtml) Γ) (hp : s.xmlNode = none) (h : SafeSpecification Γ s) :
    ∃ t m, unparseSpecification s = .ok t ∧ ReadsAs as t [m] ∧
      childTags m = [.name c!"TYPE", .name c!"CHILDREN", .name c!"VALUES"].filter (specificationHas s) := by
  obtain ⟨t, m, -, h1, h2, h3, -⟩ := C39_roundtrip hr hΓ h
  refine ⟨t, m, h1, h2, ?_⟩
  rw [h3]
  unfold specificationOrder sourceOrder
  rw [hp]
  rfl

/-- **C47**, attribute definitions: only a `DEFAULT-VALUE` without value is left out. -/
theorem C47_definition {as : List (Str × Str)} (hr : RootAttrs as) {p : Str} {n : Node} {a : SpecAttributeDefinition} {Γ : Ctx}
    (hΓ : IsCtx as p (definitionUses a) Γ) (hp : parseAttributeDefinition n = .ok a) (h : SafeDefinition Γ a) :
    ∃ t m, unparseAttributeDefinition a = .ok t ∧ ReadsAs as t [m] ∧
      childTags m = (childTags n).filter (fun x => !(x == .name c!"DEFAULT-VALUE" && a.defaultValue.isNone)) := by
  obtain ⟨t, m, -, h1, h2, h3, -⟩ := C34_roundtrip hr hΓ h
  refine ⟨t, m, h1, h2, ?_⟩
  rw [h3]
  unfold definitionOrder sourceOrder
  rw [parsed_definition_node hp]

/-- **C47**, attribute definitions created through the API. -/
theorem C47_definition_default {as : List (Str × Str)} (hr : RootAttrs as) {p : Str} {a : SpecAttributeDefinition} {Γ : Ctx}
    (hΓ : IsCtx as p (definitionUses a) Γ) (hp : a.xmlNode = none) (h : SafeDefinition Γ a) :
    ∃ t m, unparseAttributeDefinition a = .ok t ∧ ReadsAs as t [m] ∧
      childTags m = (if a.defaultValue.isSome then [.name c!"DEFAULT-VALUE"] else []) ++ [.name c!"TYPE"] := by
  obtain ⟨t, m, -, h1, h2, h3, -⟩ := C34_roundtrip hr hΓ h
  refine ⟨t, m, h1, h2, ?_⟩
  rw [h3]
  unfold definitionOrder sourceOrder
  rw [hp]
  cases a.defaultValue <;> rfl

/-! ## The printed text, without hypotheses on the contents -/

theorem block_of {k : Nat} {t p : Str} (body : Str) (h : p = lineOpen k t ++ body ++ lineClose k t) : Block k t p := by
  refine .inr ⟨body, ?_⟩
  rw [h]
  simp only [lineOpen, lineClose, spaces, List.append_assoc]
  rfl

theorem prefix_app {l q : Str} (r : Str) (h : l <+: q) : l <+: q ++ r := h.trans (List.prefix_append _ _)

theorem block_last {k : Nat} {t q : Str} (h : lineOpen k t <+: q) : Block k t (q ++ lineClose k t) := by
  obtain ⟨b, rfl⟩ := h
  exact block_of b rfl

/-- Closes `Block` goals for texts that begin and end with the two tags. -/
macro "block" : tactic => `(tactic| (refine block_last ?_; repeat' first | exact List.prefix_rfl | refine prefix_app _ ?_))

theorem block_values {vs : Option (List SpecObjectAttribute)} {p : Str} (h : unparseAttributeValues vs = .ok p) (hv : vs.isSome = true) :
    Block 10 c!"VALUES" p := by
  match vs, h with
  | some [], h =>
    cases h
    exact .inl rfl
  | some (v :: vs), h =>
    unfold unparseAttributeValues at h
    obtain ⟨body, -, h⟩ := py_bind_inv h
    rw [py_pure] at h
    cases h
    exact block_of body rfl

/-- The pieces of a loop over tags. -/
theorem blocks_of_concat {f : Tag → Py Str} {shown : Tag → Bool} {k : Nat} {ts : List Tag} {body : Str} (h : concatPy f ts = .ok body)
    (hf : ∀ x p, f x = .ok p → (shown x = true → ∃ nm, x = .name nm ∧ Block k nm p) ∧ (shown x = false → p = [])) :
    ∃ blocks : List Str, body = blocks.flatten ∧ blocks.length = (ts.filter shown).length ∧
      ∀ (i : Nat) (b : Str) (x : Tag), blocks[i]? = some b → (ts.filter shown)[i]? = some x → ∃ nm, x = .name nm ∧ Block k nm b := by
  induction ts generalizing body with
  | nil =>
    cases h
    exact ⟨[], rfl, rfl, by intro i b x hb; simp at hb⟩
  | cons t ts ih =>
    unfold concatPy at h
    cases hx : f t with
    | error e => rw [hx] at h; cases h
    | ok p =>
      rw [hx] at h
      dsimp only at h
      cases hr : concatPy f ts with
      | error e => rw [hr] at h; cases h
      | ok ys =>
        rw [hr] at h
        cases h
        obtain ⟨bs, h1, h2, h3⟩ := ih hr
        obtain ⟨g1, g2⟩ := hf t p hx
        cases hs : shown t with
        | false =>
          rw [List.filter_cons_of_neg (by simp [hs])]
          refine ⟨bs, ?_, h2, h3⟩
          rw [g2 hs, ← h1]
          rfl
        | true =>
          rw [List.filter_cons_of_pos hs]
          refine ⟨p :: bs, ?_, ?_, ?_⟩
          · rw [List.flatten_cons, ← h1]
          · simp [h2]
          · intro i b x hb hx
            cases i with
            | zero =>
              simp at hb hx
              subst hb hx
              exact g1 hs
            | succ i => exact h3 i b x (by simpa using hb) (by simpa using hx)

theorem inOrder_of {f : Tag → Py Str} {shown : Tag → Bool} {k : Nat} {t : Str} {ts : List Tag} {body text : Str} (attrs : Str) (h : concatPy f ts = .ok body)
    (ht : text = spaces k ++ c!"<" ++ t ++ attrs ++ c!">\n" ++ body ++ lineClose k t)
    (hf : ∀ x p, f x = .ok p → (shown x = true → ∃ nm, x = .name nm ∧ Block (k + 2) nm p) ∧ (shown x = false → p = [])) :
    InOrder k t shown ts text := by
  obtain ⟨bs, h1, h2, h3⟩ := blocks_of_concat h hf
  refine ⟨attrs, bs, ?_, h2, h3⟩
  rw [ht, h1]
  simp only [lineClose, spaces, List.append_assoc, List.cons_append, List.nil_append]

/-- **C47**, spec objects, for every parsed object: whatever is printed holds a `VALUES`
and a `TYPE` block for each such child of the source element, in the order of the source. -/
theorem C47_object_text {n : Node} {o : SpecObject} {t : Str} (hp : parseSpecObject n = .ok o) (h : unparseSpecObject o = .ok t) :
    InOrder 8 c!"SPEC-OBJECT" (fun x => x == .name c!"VALUES" || x == .name c!"TYPE") (childTags n) t := by
  unfold unparseSpecObject specObjectChildTags at h
  rw [parsed_object_node hp] at h
  dsimp only at h
  obtain ⟨tags, ht, h⟩ := py_bind_inv h
  obtain ⟨_, -, ht⟩ := py_bind_inv ht
  obtain ⟨_, -, ht⟩ := py_bind_inv ht
  rw [py_pure] at ht
  cases ht
  obtain ⟨body, hb, h⟩ := py_bind_inv h
  rw [py_pure] at h
  cases h
  refine inOrder_of (attrOpt c!"DESC" id o.description ++ (attrOut c!"IDENTIFIER" o.identifier ++
    (attrTruthy c!"LAST-CHANGE" id o.lastChange ++ attrOpt c!"LONG-NAME" id o.longName))) hb (by simp only [List.append_assoc]; rfl) ?_
  intro x p hx
  unfold unparseSpecObjectChild at hx
  split at hx
  · next e =>
    subst e
    exact ⟨fun _ => ⟨_, rfl, block_values hx rfl⟩, fun c => absurd c (by decide)⟩
  · split at hx
    · next e =>
      subst e
      cases hx
      exact ⟨fun _ => ⟨_, rfl, block_of (lineElem 12 c!"SPEC-OBJECT-TYPE-REF" (fmtOpt o.specObjectType)) (by simp only [unparseSpecObjectTypeRef, List.append_assoc])⟩,
        fun c => absurd c (by decide)⟩
    · next e1 e2 =>
      cases hx
      exact ⟨fun c => absurd c (by simp [e1, e2]), fun _ => rfl⟩

/-- **C47**, spec relations, for every parsed relation. -/
theorem C47_relation_text {n : Node} {r : SpecRelation} {t : Str} (hp : parseSpecRelation n = .ok (.ok r)) (h : unparseSpecRelation r = .ok t) :
    InOrder 8 c!"SPEC-RELATION" (fun x => !(x == .name c!"VALUES" && r.valuesAttribute.isNone)) (childTags n) t := by
  unfold unparseSpecRelation specRelationChildTags at h
  rw [parsed_relation_node hp] at h
  dsimp only at h
  obtain ⟨body, hb, h⟩ := py_bind_inv h
  rw [py_pure] at h
  cases h
  refine inOrder_of (attrOpt c!"DESC" id r.description ++ (attrOut c!"IDENTIFIER" r.identifier ++
    (attrOpt c!"LAST-CHANGE" id r.lastChange ++ attrOpt c!"LONG-NAME" htmlEscape r.longName))) hb (by simp only [List.append_assoc]; rfl) ?_
  intro x p hx
  unfold unparseSpecRelationChild at hx
  split at hx
  · next e =>
    subst e
    cases hx
    exact ⟨fun _ => ⟨_, rfl, by block⟩, fun c => absurd c (by simp)⟩
  split at hx
  · next e =>
    subst e
    cases hx
    exact ⟨fun _ => ⟨_, rfl, by block⟩, fun c => absurd c (by simp)⟩
  split at hx
  · next e =>
    subst e
    cases hx
    exact ⟨fun _ => ⟨_, rfl, by block⟩, fun c => absurd c (by simp)⟩
  split at hx
  · next e =>
    subst e
    cases hv : r.valuesAttribute with
    | none =>
      rw [hv] at hx
      cases hx
      exact ⟨fun c => absurd c (by simp), fun _ => rfl⟩
    | some a =>
      rw [hv] at hx
      exact ⟨fun _ => ⟨_, rfl, block_values hx rfl⟩, fun c => absurd c (by simp)⟩
  · cases hx

/-- **C47**, specifications, for every parsed specification. -/
theorem C47_specification_text {n : Node} {s : Specification} {t : Str} (hp : parseSpecification n = .ok s) (h : unparseSpecification s = .ok t) :
    InOrder 8 c!"SPECIFICATION" (specificationHas s) (childTags n) t := by
  unfold unparseSpecification specificationChildTags at h
  rw [parsed_specification_node hp] at h
  dsimp only at h
  obtain ⟨body, hb, h⟩ := py_bind_inv h
  rw [py_pure] at h
  cases h
  refine inOrder_of (attrOpt c!"DESC" lxmlEscapeForHtml s.description ++ (attrOut c!"IDENTIFIER" s.identifier ++
    (attrOpt c!"LAST-CHANGE" id s.lastChange ++ attrOpt c!"LONG-NAME" lxmlEscapeForHtml s.longName))) hb (by simp only [List.append_assoc]; rfl) ?_
  intro x p hx
  unfold unparseSpecificationChild at hx
  split at hx
  · next e =>
    subst e
    unfold specificationHas dropEmpty
    cases hv : s.specificationType with
    | none =>
      rw [hv] at hx
      cases hx
      exact ⟨fun c => absurd c (by simp), fun _ => rfl⟩
    | some v =>
      rw [hv] at hx
      cases v with
      | nil =>
        cases hx
        exact ⟨fun c => absurd c (by simp), fun _ => rfl⟩
      | cons a v =>
        cases hx
        exact ⟨fun _ => ⟨_, rfl, block_of (lineElem 12 c!"SPECIFICATION-TYPE-REF" (a :: v)) (by simp only [List.append_assoc]; rfl)⟩, fun c => absurd c (by simp)⟩
  split at hx
  · next e =>
    subst e
    unfold specificationHas
    cases hv : s.children with
    | none =>
      rw [hv] at hx
      cases hx
      exact ⟨fun c => absurd c (by simp), fun _ => rfl⟩
    | some hs =>
      rw [hv] at hx
      obtain ⟨b, -, hx⟩ := py_bind_inv hx
      rw [py_pure] at hx
      cases hx
      exact ⟨fun _ => ⟨_, rfl, block_of b rfl⟩, fun c => absurd c (by simp)⟩
  split at hx
  · next e =>
    subst e
    unfold specificationHas
    cases hv : s.values with
    | none =>
      rw [hv] at hx
      cases hx
      exact ⟨fun c => absurd c (by simp), fun _ => rfl⟩
    | some vs =>
      rw [hv] at hx
      exact ⟨fun _ => ⟨_, rfl, block_values hx rfl⟩, fun c => absurd c (by simp)⟩
  · next e1 e2 e3 =>
    cases hx
    exact ⟨fun c => absurd c (by simp [specificationHas, e1, e2, e3]), fun _ => rfl⟩

/-- **C47**, attribute definitions, for every parsed definition. -/
theorem C47_definition_text {n : Node} {a : SpecAttributeDefinition} {t : Str} (hp : parseAttributeDefinition n = .ok a)
    (h : unparseAttributeDefinition a = .ok t) :
    InOrder 12 a.type.specTypeTag (fun x => !(x == .name c!"DEFAULT-VALUE" && a.defaultValue.isNone)) (childTags n) t := by
  unfold unparseAttributeDefinition definitionChildTags at h
  rw [parsed_definition_node hp] at h
  dsimp only at h
  obtain ⟨body, hb, h⟩ := py_bind_inv h
  rw [py_pure] at h
  cases h
  refine inOrder_of (attrOpt c!"DESC" lxmlEscapeForHtml a.description ++ (attrOut c!"IDENTIFIER" a.identifier ++
    (attrBool c!"IS-EDITABLE" a.editable ++ (attrTruthy c!"LAST-CHANGE" id a.lastChange ++
    (attrOpt c!"LONG-NAME" lxmlEscapeForHtml a.longName ++ attrBool c!"MULTI-VALUED" a.multiValued))))) hb (by simp only [List.append_assoc]) ?_
  intro x p hx
  unfold unparseDefinitionChild at hx
  split at hx
  · next e =>
    subst e
    cases hv : a.defaultValue with
    | none =>
      rw [hv] at hx
      cases hx
      exact ⟨fun c => absurd c (by simp), fun _ => rfl⟩
    | some dv =>
      rw [hv] at hx
      dsimp only at hx
      refine ⟨fun _ => ⟨_, rfl, ?_⟩, fun c => absurd c (by simp)⟩
      unfold unparseDefaultValue at hx
      repeat' split at hx
      all_goals first
        | (cases hx; exact .inl rfl)
        | (cases hx; block)
        | cases hx
  split at hx
  · next e =>
    subst e
    cases hx
    exact ⟨fun _ => ⟨_, rfl, by unfold unparseAttributeType; block⟩, fun c => absurd c (by simp)⟩
  · cases hx

/-! ## Non-vacuity: elements whose children are not in the default order -/

/-- An element without attributes and namespaces. -/
def plainEl (t : Str) (ks : List Node) : Node := .elem ⟨none, none, t, [], [], []⟩ ks

/-- An element with an identifier. -/
def itemEl (t : Str) (ks : List Node) : Node := .elem ⟨none, none, t, [], [], [⟨none, none, c!"IDENTIFIER", c!"i"⟩]⟩ ks

/-- A spec object with its type first, a comment and an unknown element. -/
def objectEl : Node := itemEl c!"SPEC-OBJECT" [plainEl c!"TYPE" [plainEl c!"SPEC-OBJECT-TYPE-REF" [.text c!"t"]],
  .comment c!"x", plainEl c!"ALTERNATIVE-ID" [], plainEl c!"VALUES" []]

example : ∃ o Γ, parseSpecObject objectEl = .ok o ∧ IsCtx usualRoot c!"xhtml" (o.attributes.any usesXhtml) Γ ∧ SafeObject Γ o ∧
    (childTags objectEl).filter (fun x => x == .name c!"VALUES" || x == .name c!"TYPE") = [.name c!"TYPE", .name c!"VALUES"] := by
  refine ⟨_, _, rfl, ⟨_, rfl, rfl⟩, ⟨by decide, by decide, by decide, by decide, by decide, ?_, by decide⟩, by decide⟩
  intro a ha
  cases ha

/-- A relation from its target to its type. -/
def relationEl : Node := itemEl c!"SPEC-RELATION" [plainEl c!"TARGET" [plainEl c!"SPEC-OBJECT-REF" [.text c!"b"]],
  plainEl c!"SOURCE" [plainEl c!"SPEC-OBJECT-REF" [.text c!"a"]], plainEl c!"TYPE" [plainEl c!"SPEC-RELATION-TYPE-REF" [.text c!"t"]]]

example : ∃ r Γ, parseSpecRelation relationEl = .ok (.ok r) ∧ IsCtx usualRoot c!"xhtml" (r.valuesAttribute.any usesXhtml) Γ ∧
    SafeRelation Γ r ∧ (childTags relationEl).filter (fun x => !(x == .name c!"VALUES" && r.valuesAttribute.isNone)) =
      [.name c!"TARGET", .name c!"SOURCE", .name c!"TYPE"] := by
  refine ⟨_, _, rfl, ⟨_, rfl, rfl⟩, ⟨by decide, by decide, by decide, by decide, by decide, by decide, by decide, ?_, by decide⟩, by decide⟩
  rintro a ⟨⟩

/-- A specification with its values first and its type last. -/
def specificationEl : Node := itemEl c!"SPECIFICATION" [plainEl c!"VALUES" [], plainEl c!"CHILDREN" [],
  plainEl c!"TYPE" [plainEl c!"SPECIFICATION-TYPE-REF" [.text c!"t"]]]

example : ∃ s Γ, parseSpecification specificationEl = .ok s ∧ IsCtx usualRoot c!"xhtml" ((s.values.getD []).any usesXhtml) Γ ∧
    SafeSpecification Γ s ∧ (childTags specificationEl).filter (specificationHas s) = [.name c!"VALUES", .name c!"CHILDREN", .name c!"TYPE"] := by
  refine ⟨_, _, rfl, ⟨_, rfl, rfl⟩, ⟨by decide, by decide, by decide, by decide, by decide, ?_, ?_, ?_⟩, by decide⟩
  · rintro vs ⟨⟩ a ha
    cases ha
  · rintro hs ⟨⟩
    trivial
  · intro t ht
    show t ∈ [Tag.name c!"VALUES", .name c!"CHILDREN", .name c!"TYPE"]
    simp [specificationHas] at ht
    rcases ht with (h | h) | h <;> simp [h]

/-- An attribute definition with its type first. -/
def definitionEl : Node := itemEl c!"ATTRIBUTE-DEFINITION-STRING" [plainEl c!"TYPE" [plainEl c!"DATATYPE-DEFINITION-STRING-REF" [.text c!"t"]],
  plainEl c!"DEFAULT-VALUE" [.elem ⟨none, none, c!"ATTRIBUTE-VALUE-STRING", [], [], [⟨none, none, c!"THE-VALUE", c!"v"⟩]⟩ []]]

example : ∃ a Γ, parseAttributeDefinition definitionEl = .ok a ∧ IsCtx usualRoot c!"xhtml" (definitionUses a) Γ ∧ SafeDefinition Γ a ∧
    (childTags definitionEl).filter (fun x => !(x == .name c!"DEFAULT-VALUE" && a.defaultValue.isNone)) =
      [.name c!"TYPE", .name c!"DEFAULT-VALUE"] :=
  ⟨_, _, rfl, ⟨_, rfl, rfl⟩, ⟨by decide, by decide, by decide, by decide, by decide, (by decide : PlainAttr _), by decide, by decide⟩, by decide⟩

end ReqIF
