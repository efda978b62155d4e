import Verif.Spec.Writable
import Verif.Proofs.Accepted
import Verif.Props.C77
/-!
# Proofs about the bundles that can be written
-/
namespace ReqIF.Write
open Spec
open Accept (Ok ok_ok ok_pure ok_error ok_bind ok_assert assert_eq ok_bind_const contains_find)

theorem ok_concat {α : Type} (f : α → Py Str) (xs : List α) : Ok (concatPy f xs) ↔ ∀ x ∈ xs, Ok (f x) := by
  induction xs with
  | nil => simp [concatPy, Ok]
  | cons x xs ih =>
    simp only [concatPy, List.mem_cons, forall_eq_or_imp]
    cases hx : f x with
    | error e => simp [Ok]
    | ok v =>
      rw [← ih]
      cases concatPy f xs <;> simp [Ok]

theorem ok_bind_pure {α β : Type} (p : Py α) (f : α → β) : Ok (p >>= fun v => pure (f v)) ↔ Ok p := by
  rw [ok_bind]; simp [Ok, pure, Except.pure]

theorem ok_join : ∀ l : List (Py Str), Ok (joinPy l) ↔ ∀ p ∈ l, Ok p
  | [] => by simp [joinPy, Ok]
  | .error e :: l => by simp [joinPy, Ok]
  | .ok v :: l => by
    simp only [List.mem_cons, forall_eq_or_imp]
    rw [← ok_join l]
    simp only [joinPy]
    cases joinPy l <;> simp [Ok]

theorem childTags_mem (n : Node) (t : Tag) : t ∈ childTags n ↔ ∃ c ∈ n.children, c.tag = t := by
  simp [childTags]

theorem contains_child (n : Node) (name : Str) : (childTags n).contains (.name name) = true ↔ HasChild n name := by
  simp [HasChild, childTags]

theorem tagIndex_child (n : Node) (name : Str) : (∃ i, tagIndex name (childTags n) = some i) ↔ HasChild n name := by
  unfold tagIndex
  rw [← Option.isSome_iff_exists, List.findIdx?_isSome, ← contains_child]
  simp

/-! ## Attribute values -/

theorem order_ok (a : SpecObjectAttribute) : Ok (valuesBeforeDefinition a) ↔ Shown a.xmlNode c!"VALUES" ∧ Shown a.xmlNode c!"DEFINITION" := by
  unfold valuesBeforeDefinition Shown
  cases a.xmlNode with
  | none => simp [Ok]
  | some n =>
    simp only [Option.some.injEq, forall_eq', ← tagIndex_child]
    cases tagIndex c!"VALUES" (childTags n) <;> cases tagIndex c!"DEFINITION" (childTags n) <;> simp [Ok]

theorem value_ok (a : SpecObjectAttribute) : Ok (unparseAttributeValue a) ↔ ValueOk a := by
  unfold unparseAttributeValue ValueOk IsList IsText
  cases ht : a.type with
  | enumeration =>
    rw [← order_ok]
    simp only [true_implies, ne_eq, not_true, false_implies, and_true, ok_bind]
    cases a.value with
    | str s => simp [ok_error]
    | list l =>
      simp only [ok_pure, and_true]
      exact ⟨fun h => ⟨⟨l, rfl⟩, h⟩, fun h => h.2⟩
  | _ => cases a.value <;> simp [Ok]

theorem values_ok (o : Option (List SpecObjectAttribute)) : Ok (unparseAttributeValues o) ↔ ∀ vs, o = some vs → ∀ a ∈ vs, ValueOk a := by
  cases o with
  | none => simp [unparseAttributeValues, Ok]
  | some vs =>
    cases vs with
    | nil => simp [unparseAttributeValues, Ok]
    | cons v vs =>
      simp only [unparseAttributeValues]
      rw [ok_bind_pure, ok_concat]
      simp only [value_ok, Option.some.injEq, forall_eq']

/-! ## Attribute definitions and types -/

theorem default_ok (a : SpecAttributeDefinition) (d : DefaultValue) : Ok (unparseDefaultValue a d) ↔
    ((a.type = .enumeration ∨ a.type = .xhtml ∨ a.type = .boolean) → ∀ v, d = .str v → ∃ r, a.defaultValueDefinitionRef = some r) := by
  cases d with
  | selfClosed => simp [unparseDefaultValue, Ok]
  | str v =>
    unfold unparseDefaultValue
    cases ht : a.type <;> cases a.defaultValueDefinitionRef <;> simp [Ok]

theorem definition_ok (a : SpecAttributeDefinition) : Ok (unparseAttributeDefinition a) ↔ DefinitionOk a := by
  unfold unparseAttributeDefinition
  rw [ok_bind_pure, ok_concat]
  have key : ∀ t, Ok (unparseDefinitionChild a t) ↔
      (∃ s ∈ [c!"DEFAULT-VALUE", c!"TYPE"], t = .name s) ∧
      (t = .name c!"DEFAULT-VALUE" → (a.type = .enumeration ∨ a.type = .xhtml ∨ a.type = .boolean) →
        ∀ v, a.defaultValue = some (.str v) → ∃ r, a.defaultValueDefinitionRef = some r) := by
    intro t
    unfold unparseDefinitionChild
    by_cases h1 : t = .name c!"DEFAULT-VALUE"
    · rw [if_pos h1]
      cases hd : a.defaultValue with
      | none => simp [Ok, h1]
      | some dv => simp [default_ok, h1]
    · rw [if_neg h1]
      by_cases h2 : t = .name c!"TYPE"
      · rw [if_pos h2]; simp [Ok, h2]
      · rw [if_neg h2]; simp [Ok, h1, h2]
  simp only [key]
  unfold DefinitionOk definitionChildTags Only Shown HasChild
  cases a.xmlNode with
  | none => simp
  | some n =>
    simp only [childTags_mem, Option.some.injEq, forall_eq']
    constructor
    · intro h
      refine ⟨fun c hc => (h _ ⟨c, hc, rfl⟩).1, ?_⟩
      rintro ⟨c, hc, e⟩
      exact (h _ ⟨c, hc, e⟩).2 rfl
    · rintro ⟨h1, h2⟩ t ⟨c, hc, rfl⟩
      exact ⟨h1 c hc, fun e => h2 ⟨c, hc, e⟩⟩

theorem attributes_ok (o : Option (List SpecAttributeDefinition)) : Ok (unparseSpecAttributes o) ↔ ∀ ds, o = some ds → ∀ a ∈ ds, DefinitionOk a := by
  cases o with
  | none => simp [unparseSpecAttributes, Ok]
  | some ds =>
    simp only [unparseSpecAttributes, unparseAttributeDefinitions]
    rw [ok_bind_pure, ok_concat]
    simp [definition_ok]

theorem closed_ok {o : Option (List SpecAttributeDefinition)} {c : Bool} {s : Str} {f : Str → Str} :
    Ok (if c && !hasAttributes o then .ok s else unparseSpecAttributes o >>= fun v => pure (f v)) ↔ ∀ ds, o = some ds → ∀ a ∈ ds, DefinitionOk a := by
  rw [← attributes_ok]
  split
  · rename_i h
    simp only [Bool.and_eq_true, Bool.not_eq_true'] at h
    cases o with
    | none => simp [unparseSpecAttributes, Ok]
    | some ds =>
      cases ds with
      | nil => simp [unparseSpecAttributes, unparseAttributeDefinitions, concatPy, Ok, bind, Except.bind, pure, Except.pure]
      | cons d ds => simp [hasAttributes] at h
  · rw [ok_bind_pure]

theorem specType_ok (t : SpecType) : Ok (unparseSpecType t) ↔ SpecTypeOk t := by
  unfold SpecTypeOk
  cases t with
  | object t =>
    simp only [unparseSpecType, unparseSpecObjectType, definitionsOf]
    rw [ok_bind_pure, attributes_ok]
  | relation t => exact closed_ok
  | specification t => exact closed_ok
  | relationGroup t => exact closed_ok

/-! ## Objects and relations -/

theorem shown_contains (n : Node) (name : Str) : Shown (some n) name ↔ (childTags n).contains (.name name) = true := by
  rw [contains_child]; simp [Shown]

theorem objectChild_ok (o : SpecObject) (t : Tag) : Ok (unparseSpecObjectChild o t) ↔ (t = .name c!"VALUES" → ∀ a ∈ o.attributes, ValueOk a) := by
  unfold unparseSpecObjectChild
  by_cases h1 : t = .name c!"VALUES"
  · rw [if_pos h1, values_ok]; simp [h1]
  · rw [if_neg h1]
    split <;> simp [Ok, h1]

theorem object_ok (o : SpecObject) : Ok (unparseSpecObject o) ↔ ObjectOk o := by
  unfold unparseSpecObject ObjectOk
  rw [ok_bind]
  simp only [ok_bind_pure, ok_concat, objectChild_ok]
  unfold specObjectChildTags
  cases o.xmlNode with
  | none => simp [Shown]
  | some n =>
    simp only [shown_contains]
    by_cases h1 : (childTags n).contains (.name c!"VALUES") = true
    · by_cases h2 : (childTags n).contains (.name c!"TYPE") = true
      · simp only [h1, h2, pyAssert, if_true, true_and]
        have hm : Tag.name c!"VALUES" ∈ childTags n := by simpa using h1
        constructor
        · rintro ⟨v, hv, h⟩
          cases hv
          exact h _ hm rfl
        · intro h
          exact ⟨_, rfl, fun _ _ _ => h⟩
      · simp only [Bool.not_eq_true] at h2
        simp only [h1, h2]
        simp [pyAssert, bind, Except.bind]
    · simp only [Bool.not_eq_true] at h1
      simp only [h1]
      simp [pyAssert, bind, Except.bind]

theorem relation_ok (r : SpecRelation) : Ok (unparseSpecRelation r) ↔ RelationOk r := by
  unfold unparseSpecRelation
  rw [ok_bind_pure, ok_concat]
  have key : ∀ t, Ok (unparseSpecRelationChild r t) ↔
      (∃ s ∈ [c!"TYPE", c!"SOURCE", c!"TARGET", c!"VALUES"], t = .name s) ∧
      (t = .name c!"VALUES" → ∀ a, r.valuesAttribute = some a → ValueOk a) := by
    intro t
    unfold unparseSpecRelationChild
    by_cases h1 : t = .name c!"TYPE"
    · rw [if_pos h1]; simp [Ok, h1]
    rw [if_neg h1]
    by_cases h2 : t = .name c!"SOURCE"
    · rw [if_pos h2]; simp [Ok, h2]
    rw [if_neg h2]
    by_cases h3 : t = .name c!"TARGET"
    · rw [if_pos h3]; simp [Ok, h3]
    rw [if_neg h3]
    by_cases h4 : t = .name c!"VALUES"
    · rw [if_pos h4]
      cases hv : r.valuesAttribute with
      | none => simp [Ok, h4]
      | some a => simp [values_ok, h4]
    rw [if_neg h4]
    simp [Ok, h1, h2, h3, h4]
  simp only [key]
  unfold RelationOk specRelationChildTags Only Shown HasChild
  cases r.xmlNode with
  | none => simp
  | some n =>
    simp only [childTags_mem, Option.some.injEq, forall_eq']
    constructor
    · intro h
      refine ⟨fun c hc => (h _ ⟨c, hc, rfl⟩).1, ?_⟩
      rintro ⟨c, hc, e⟩
      exact (h _ ⟨c, hc, e⟩).2 rfl
    · rintro ⟨h1, h2⟩ t ⟨c, hc, rfl⟩
      exact ⟨h1 c hc, fun e => h2 ⟨c, hc, e⟩⟩

/-! ## Specifications -/

theorem levels_iff (h : Hierarchy) : LevelsOk h ↔ 0 < h.info.level ∧ ∀ c ∈ h.childList, LevelsOk c :=
  ⟨fun x => by cases x with | mk a b => exact ⟨a, b⟩, fun x => .mk x.1 x.2⟩

mutual
theorem hierarchy_ok : ∀ h : Hierarchy, Ok (unparseHierarchy h) ↔ LevelsOk h
  | .leaf i => by
    rw [levels_iff]
    simp only [unparseHierarchy, Hierarchy.baseLevel, Hierarchy.info, Hierarchy.childList]
    by_cases h : 0 < i.level
    · simp [h, Ok]
    · simp [h, Ok]
  | .node i cs => by
    rw [levels_iff]
    have ih := hierarchies_ok cs
    simp only [unparseHierarchy, Hierarchy.baseLevel, Hierarchy.info, Hierarchy.childList]
    by_cases h : 0 < i.level
    · simp only [h, if_true, true_and, ← ih]
      cases unparseHierarchies cs <;> simp [Ok]
    · simp [h, Ok]
theorem hierarchies_ok : ∀ hs : List Hierarchy, Ok (unparseHierarchies hs) ↔ ∀ h ∈ hs, LevelsOk h
  | [] => by simp [unparseHierarchies, Ok]
  | h :: hs => by
    have h1 := hierarchy_ok h
    have h2 := hierarchies_ok hs
    simp only [unparseHierarchies, List.mem_cons, forall_eq_or_imp, ← h1, ← h2]
    cases unparseHierarchy h with
    | error e => simp [Ok]
    | ok a => cases unparseHierarchies hs <;> simp [Ok]
end

theorem specification_ok (s : Specification) : Ok (unparseSpecification s) ↔ SpecificationOk s := by
  unfold unparseSpecification
  rw [ok_bind_pure, ok_concat]
  have key : ∀ t, Ok (unparseSpecificationChild s t) ↔
      (t = .name c!"CHILDREN" → ∀ hs, s.children = some hs → ∀ h ∈ hs, LevelsOk h) ∧
      (t = .name c!"VALUES" → ∀ vs, s.values = some vs → ∀ a ∈ vs, ValueOk a) := by
    intro t
    unfold unparseSpecificationChild
    by_cases h1 : t = .name c!"TYPE"
    · rw [if_pos h1]; simp [Ok, h1]
    rw [if_neg h1]
    by_cases h2 : t = .name c!"CHILDREN"
    · rw [if_pos h2]
      cases hc : s.children with
      | none => simp [Ok, h2]
      | some hs => simp only []; rw [ok_bind_pure, hierarchies_ok]; simp [h2]
    rw [if_neg h2]
    by_cases h3 : t = .name c!"VALUES"
    · rw [if_pos h3, values_ok]; simp [h3]
    rw [if_neg h3]
    simp [Ok, h2, h3]
  simp only [key]
  unfold SpecificationOk specificationChildTags Shown HasChild
  cases s.xmlNode with
  | none => simp
  | some n =>
    simp only [childTags_mem, Option.some.injEq, forall_eq']
    constructor
    · intro h
      exact ⟨fun ⟨c, hc, e⟩ => (h _ ⟨c, hc, e⟩).1 rfl, fun ⟨c, hc, e⟩ => (h _ ⟨c, hc, e⟩).2 rfl⟩
    · rintro ⟨h1, h2⟩ t ⟨c, hc, rfl⟩
      exact ⟨fun e => h1 ⟨c, hc, e⟩, fun e => h2 ⟨c, hc, e⟩⟩

/-! ## The bundle -/

theorem header_ok (h : Header) : Ok (unparseHeader h) ↔ HeaderOk h := by
  unfold unparseHeader HeaderOk
  cases h.identifier with
  | none => simp [Ok]
  | some i => cases i <;> simp [Ok]

theorem component_ne (name : Str) (o : Option Str) : 0 < (component name o).length ↔ o ≠ none := by
  cases o <;> simp [component]

theorem namespace_ok (i : NamespaceInfo) : Ok (unparseNamespaceInfo i) ↔ NamespaceOk i := by
  unfold unparseNamespaceInfo NamespaceOk
  cases i.originalReqifTagDump with
  | some s => simp [Ok]
  | none =>
    have : (namespaceComponents i).length > 0 ↔ i.namespace ≠ none ∨ i.schemaNamespace ≠ none ∨ i.configuration ≠ none ∨
        i.namespaceId ≠ none ∨ i.namespaceXhtml ≠ none ∨ i.schemaLocation ≠ none ∨ i.language ≠ none := by
      unfold namespaceComponents
      simp only [List.length_append, ← component_ne c!"xmlns" i.namespace, ← component_ne c!"xmlns:xsi" i.schemaNamespace,
        ← component_ne c!"xmlns:configuration" i.configuration, ← component_ne c!"xmlns:id" i.namespaceId,
        ← component_ne c!"xmlns:xhtml" i.namespaceXhtml, ← component_ne c!"xsi:schemaLocation" i.schemaLocation,
        ← component_ne c!"xml:lang" i.language]
      omega
    simp only [← this]
    by_cases h : (namespaceComponents i).length > 0
    · simp [h, Ok]
    · simp [h, Ok]

theorem container_ok {α : Type} (tag : Str) (f : α → Py Str) (items : Option (List α)) :
    Ok (unparseContainer (none : Option (Callback Unit)) tag f items ()).1 ↔ ∀ l, items = some l → ∀ x ∈ l, Ok (f x) := by
  rw [unparseContainer_join, ok_join]
  cases items with
  | none => simp
  | some l => simp [or_imp, forall_and, Ok]

theorem M_ok_bind {α β : Type} (m : M Unit α) (f : α → M Unit β) : Ok (M.bind m f ()).1 ↔ ∃ v, (m ()).1 = .ok v ∧ Ok (f v ()).1 := by
  unfold M.bind
  cases h : m () with
  | mk r s =>
    cases r <;> simp [Ok]

theorem M_const {α β : Type} (m : M Unit α) (f : α → M Unit β) {P : Prop} (h : ∀ v, Ok (f v ()).1 ↔ P) :
    Ok (M.bind m f ()).1 ↔ Ok (m ()).1 ∧ P := by
  rw [M_ok_bind]
  simp only [h]
  constructor
  · rintro ⟨v, hv, hp⟩; exact ⟨⟨v, hv⟩, hp⟩
  · rintro ⟨⟨v, hv⟩, hp⟩; exact ⟨v, hv, hp⟩

theorem content_ok (c : Content) : Ok (unparseContent (none : Option (Callback Unit)) c ()).1 ↔ ContentOk c := by
  unfold unparseContent ContentOk
  rw [M_const _ _ fun _ => M_const _ _ fun _ => M_const _ _ fun _ => M_const _ _ fun _ => M_const _ _ fun _ =>
    M_const _ _ fun _ => show Ok (M.pure _ ()).1 ↔ True by simp [M.pure, Ok]]
  simp only [container_ok, specType_ok, object_ok, relation_ok, specification_ok, ok_ok]
  simp

theorem bundle_ok (b : Bundle) : Ok (unparse b) ↔ BundleOk b := by
  unfold unparse unparseM BundleOk
  rw [M_const _ _ fun _ => M_const _ _ fun _ => M_const _ _ fun _ => show Ok (M.pure _ ()).1 ↔ True by simp [M.pure, Ok]]
  have h1 : Ok (M.lift (σ := Unit) (unparseNamespaceInfo b.namespaceInfo) ()).1 ↔ NamespaceOk b.namespaceInfo := namespace_ok _
  have h2 : Ok (M.lift (σ := Unit) (optPy unparseHeader b.header) ()).1 ↔ ∀ h, b.header = some h → HeaderOk h := by
    unfold M.lift optPy
    cases hb : b.header with
    | none => simp [Ok]
    | some h =>
      simp only [Option.some.injEq, forall_eq']
      rw [← header_ok]
      cases unparseHeader h <;> simp [Ok, bind, Except.bind, pure, Except.pure]
  have h3 : Ok (unparseCore (none : Option (Callback Unit)) b.coreContent ()).1 ↔ ∀ c, b.coreContent = some (some c) → ContentOk c := by
    match b.coreContent with
    | none => simp [unparseCore, M.pure, Ok]
    | some none => simp [unparseCore, M.pure, Ok]
    | some (some c) =>
      unfold unparseCore
      rw [M_const _ _ fun _ => show Ok (M.pure _ ()).1 ↔ True by simp [M.pure, Ok]]
      simp [content_ok]
  rw [h1, h2, h3]
  simp

end ReqIF.Write
