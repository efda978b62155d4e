import Verif.Proofs.DepthSaid
/-! How deep what is written for a bundle is. -/
namespace ReqIF.Xsd
open Spec

theorem fits_recordOf {n : Nat} {tag : Str} {vs : List (Str × Str)} {l : List Said} (h : ∀ s ∈ l, Fits n s) :
    Fits (n + 1) (recordOf tag vs l) := by
  intro k s hs
  exact h s (List.mem_filter.mp hs).1

theorem fits_listOf {n : Nat} {tag : Str} {l : List Said} (h : ∀ s ∈ l, Fits n s) : Fits (n + 1) (listOf tag l) := h

theorem fits_textSaid {n : Nat} {tag : Str} {o : Option Str} : Fits (n + 1) (textSaid tag o) := fits_text.2 (.inr (by omega))

theorem fits_refOf {n : Nat} {a b : Str} {o : Option Str} : Fits (n + 2) (refOf a b o) :=
  fits_recordOf (fun s hs => by rw [List.mem_singleton.1 hs]; exact fits_textSaid)

theorem fits_xhtmlSaid {n k : Nat} {tag p v : Str} (h : ShallowXhtml p k v) (hk : k + 1 ≤ n) : Fits n (xhtmlSaid tag p v) := by
  obtain ⟨h1, ts, h2, h3, rfl, h4⟩ := h
  unfold xhtmlSaid
  rw [fits_xhtml, contentFor_eq h1 h2 h3]
  omega

theorem fits_two {n : Nat} {a b : Said} (ha : Fits n a) (hb : Fits n b) : ∀ s ∈ [a, b], Fits n s := by
  intro s hs
  rcases List.mem_cons.mp hs with rfl | hs
  · exact ha
  · rw [List.mem_singleton.1 hs]; exact hb

theorem fits_one {n : Nat} {a : Said} (ha : Fits n a) : ∀ s ∈ [a], Fits n s := by
  intro s hs
  rw [List.mem_singleton.1 hs]
  exact ha

theorem fits_none {n : Nat} : ∀ s ∈ ([] : List Said), Fits n s := by
  intro s hs
  cases hs

theorem fits_map {α : Type} {n : Nat} {f : α → Said} {l : List α} (h : ∀ a ∈ l, Fits n (f a)) : ∀ s ∈ l.map f, Fits n s := by
  intro s hs
  obtain ⟨a, ha, rfl⟩ := List.mem_map.mp hs
  exact h a ha

theorem fits_filterMap {α : Type} {n : Nat} {f : α → Option Said} {l : List α} (h : ∀ a s, f a = some s → Fits n s) :
    ∀ s ∈ l.filterMap f, Fits n s := by
  intro s hs
  obtain ⟨a, -, ha⟩ := List.mem_filterMap.mp hs
  exact h a s ha

theorem fits_append {n : Nat} {l r : List Said} (hl : ∀ s ∈ l, Fits n s) (hr : ∀ s ∈ r, Fits n s) : ∀ s ∈ l ++ r, Fits n s := by
  intro s hs
  rcases List.mem_append.mp hs with hs | hs
  · exact hl s hs
  · exact hr s hs

theorem fits_container {α : Type} {n : Nat} {tag : Str} {f : α → Said} {o : Option (List α)} (h : ∀ a ∈ o.getD [], Fits n (f a)) :
    ∀ s ∈ containerSaid tag f o, Fits (n + 1) s := by
  unfold containerSaid
  cases o with
  | none => exact fits_none
  | some l => exact fits_one (fits_listOf (fits_map h))

theorem fits_enumValue {n : Nat} (v : EnumValue) : Fits (n + 3) (enumValueSaid v) :=
  fits_recordOf (fits_one (fits_recordOf (fits_one (fits_recordOf fits_none))))

theorem fits_dataType {n : Nat} (d : DataType) : Fits (n + 5) (dataTypeSaid d) := by
  obtain ⟨⟨i, desc, lc, ln, e⟩, kind⟩ := d
  cases kind with
  | enumeration vs =>
    refine fits_recordOf ?_
    cases vs with
    | none => exact fits_none
    | some vs => exact fits_one (fits_listOf (fits_map (fun v _ => fits_enumValue v)))
  | _ => exact fits_recordOf fits_none

theorem fits_value {n k : Nat} {p : Str} {a : SpecObjectAttribute} (h : ShallowValue p k a) (hk : k ≤ n + 1) :
    Fits (n + 3) (valueSaid p a) := by
  unfold valueSaid
  split
  · exact fits_recordOf (fits_two fits_refOf (fits_listOf (fits_map (fun _ _ => fits_textSaid))))
  · rename_i v h1 h2
    exact fits_recordOf (fits_two fits_refOf (fits_xhtmlSaid (h v h1 h2) (by omega)))
  · exact fits_recordOf (fits_one fits_refOf)
  · exact fits_textSaid

theorem fits_default {n k : Nat} {p : Str} {a : SpecAttributeDefinition} {d : DefaultValue} (hd : a.defaultValue = some d)
    (h : ShallowDefault p k a) (hk : k ≤ n + 1) : Fits (n + 4) (defaultSaid p a d) := by
  cases d with
  | selfClosed => exact fits_recordOf fits_none
  | str v =>
    refine fits_recordOf (fits_one ?_)
    split
    · exact fits_recordOf fits_none
    · exact fits_recordOf fits_none
    · exact fits_recordOf fits_none
    · exact fits_recordOf fits_none
    · exact fits_recordOf (fits_one fits_refOf)
    · exact fits_recordOf (fits_two fits_refOf (fits_listOf (fits_one fits_textSaid)))
    · rename_i ht
      exact fits_recordOf (fits_two fits_refOf (fits_xhtmlSaid (h v ht hd) (by omega)))

theorem fits_definition {n k : Nat} {p : Str} {a : SpecAttributeDefinition} (h : ShallowDefault p k a) (hk : k ≤ n + 1) :
    Fits (n + 5) (definitionSaid p a) := by
  refine fits_recordOf (fits_filterMap ?_)
  intro t s hs
  split at hs
  · cases hs; exact fits_refOf
  · split at hs
    · cases hd : a.defaultValue with
      | none => rw [hd] at hs; cases hs
      | some d => rw [hd] at hs; cases hs; exact fits_default hd h hk
    · cases hs

theorem fits_type {n k : Nat} {p tag : Str} {vs : List (Str × Str)} {sc : Bool} {o : Option (List SpecAttributeDefinition)}
    (h : ∀ a ∈ o.getD [], ShallowDefault p k a) (hk : k ≤ n + 1) : Fits (n + 7) (typeSaid p tag vs sc o) := by
  refine fits_recordOf (fits_container ?_)
  intro a ha
  split at ha
  · cases ha
  · exact fits_definition (h a ha) hk

theorem fits_specType {n k : Nat} {p : Str} {t : SpecType} (h : ∀ a ∈ (SpecType.definitions t).getD [], ShallowDefault p k a) (hk : k ≤ n + 1) :
    Fits (n + 7) (specTypeSaid p t) := by
  cases t <;> exact fits_type h hk

theorem fits_values {n k : Nat} {p : Str} {vs : List SpecObjectAttribute} (h : ∀ a ∈ vs, ShallowValue p k a) (hk : k ≤ n + 1) :
    Fits (n + 4) (valuesSaid p vs) := fits_listOf (fits_map (fun a ha => fits_value (h a ha) hk))

theorem fits_object {n k : Nat} {p : Str} {o : SpecObject} (h : ∀ a ∈ o.attributes, ShallowValue p k a) (hk : k ≤ n + 1) :
    Fits (n + 5) (objectSaid p o) := by
  refine fits_recordOf (fits_filterMap ?_)
  intro t s hs
  split at hs
  · cases hs; exact fits_values h hk
  · split at hs
    · cases hs; exact fits_refOf
    · cases hs

theorem fits_relation {n k : Nat} {p : Str} {r : SpecRelation} (h : ∀ a, r.valuesAttribute = some a → ShallowValue p k a) (hk : k ≤ n + 1) :
    Fits (n + 5) (relationSaid p r) := by
  refine fits_recordOf (fits_filterMap ?_)
  intro t s hs
  split at hs
  · cases hs; exact fits_refOf
  · split at hs
    · cases hs; exact fits_refOf
    · split at hs
      · cases hs; exact fits_refOf
      · split at hs
        · cases ha : r.valuesAttribute with
          | none => rw [ha] at hs; cases hs
          | some a =>
            rw [ha] at hs
            cases hs
            exact fits_values (fun x hx => by rw [List.mem_singleton.1 hx]; exact h a ha) hk
        · cases hs

mutual
theorem fits_hierarchy : ∀ (y : Hierarchy) (n : Nat), 2 * levels y + 1 ≤ n → Fits n (hierarchySaid y)
  | .leaf i, n, h => by
    rw [levels] at h
    obtain ⟨m, rfl⟩ : ∃ m, n = m + 3 := ⟨n - 3, by omega⟩
    exact fits_recordOf (fits_one fits_refOf)
  | .node i cs, n, h => by
    rw [levels] at h
    obtain ⟨m, rfl⟩ : ∃ m, n = m + 3 := ⟨n - 3, by omega⟩
    exact fits_recordOf (fits_two fits_refOf (fits_listOf (fits_hierarchies cs (m + 1) (fun _ => by omega))))

theorem fits_hierarchies : ∀ (ys : List Hierarchy) (n : Nat), (ys ≠ [] → 2 * levelsAll ys + 1 ≤ n) → ∀ s ∈ hierarchiesSaid ys, Fits n s
  | [], n, h => fits_none
  | y :: ys, n, h => by
    have h := h (by simp)
    rw [levelsAll] at h
    intro s hs
    rcases List.mem_cons.mp hs with rfl | hs
    · exact fits_hierarchy y n (by omega)
    · exact fits_hierarchies ys n (fun _ => by omega) s hs
end

theorem levelsAll_bound {ys : List Hierarchy} {l : Nat} (h : ∀ y ∈ ys, levels y ≤ l) : levelsAll ys ≤ l := by
  induction ys with
  | nil => rw [levelsAll]; omega
  | cons y ys ih =>
    rw [levelsAll]
    have h1 := h y (by simp)
    have h2 := ih (fun z hz => h z (by simp [hz]))
    omega

theorem fits_specification {n k l : Nat} {p : Str} {s : Specification} (h : ∀ a ∈ s.values.getD [], ShallowValue p k a) (hk : k ≤ n + 1)
    (hh : ∀ y ∈ s.children.getD [], levels y ≤ l) (hl : 2 * l ≤ n + 2) : Fits (n + 5) (specificationSaid p s) := by
  refine fits_recordOf (fits_filterMap ?_)
  intro t x hx
  split at hx
  · cases hd : dropEmpty s.specificationType with
    | none => rw [hd] at hx; cases hx
    | some v => rw [hd] at hx; cases hx; exact fits_refOf
  · split at hx
    · cases hc : s.children with
      | none => rw [hc] at hx; cases hx
      | some cs =>
        rw [hc] at hx hh
        cases hx
        have : levelsAll cs ≤ l := levelsAll_bound hh
        exact fits_listOf (fits_hierarchies cs _ (fun _ => by omega))
    · split at hx
      · cases hv : s.values with
        | none => rw [hv] at hx; cases hx
        | some vs => rw [hv] at hx h; cases hx; exact fits_values h hk
      · cases hx

theorem fits_optRef {n : Nat} {a b : Str} {o : Option Str} : ∀ s ∈ optRefSaid a b o, Fits (n + 2) s := by
  cases o with
  | none => exact fits_none
  | some v => exact fits_one fits_refOf

theorem fits_group {n : Nat} (g : RelationGroup) : Fits (n + 3) (groupSaid g) := by
  refine fits_recordOf (fits_append (fits_append (fits_append ?_ fits_optRef) fits_optRef) fits_optRef)
  cases g.specRelations with
  | none => exact fits_none
  | some rs => exact fits_one (fits_listOf (fits_map (fun _ _ => fits_textSaid)))

theorem fits_field {n : Nat} {tag : Str} {o : Option Str} : ∀ s ∈ fieldSaid tag o, Fits (n + 1) s := by
  unfold fieldSaid
  cases dropEmpty o with
  | none => exact fits_none
  | some v => exact fits_one fits_textSaid

theorem fits_header {n : Nat} (h : Header) : Fits (n + 3) (headerSaid h) := by
  refine fits_recordOf (fits_one (fits_recordOf ?_))
  refine fits_append (fits_append (fits_append (fits_append (fits_append (fits_append fits_field fits_field) ?_) fits_field) fits_field) fits_field) fits_field
  cases h.repositoryId with
  | none => exact fits_none
  | _ => exact fits_one fits_textSaid

theorem fits_content {n k l : Nat} {p : Str} {c : Content} (h : Shallow p k l c) (hk : k ≤ n + 1) (hl : 2 * l ≤ n + 4) :
    Fits (n + 9) (contentSaid p c) := by
  refine fits_recordOf (fits_append (fits_append (fits_append (fits_append (fits_append ?_ ?_) ?_) ?_) ?_) ?_)
  · exact fits_container (fun d _ => fits_dataType (n := n + 2) d)
  · exact fits_container (fun t ht => fits_specType (h.defaults t ht) hk)
  · exact fits_container (fun o ho => fits_object (n := n + 2) (h.objects o ho) (by omega))
  · exact fits_container (fun r hr => fits_relation (n := n + 2) (h.relations r hr) (by omega))
  · exact fits_container (fun s hs => fits_specification (n := n + 2) (h.specifications s hs) (by omega) (h.hierarchies s hs) (by omega))
  · exact fits_container (fun g _ => fits_group (n := n + 4) g)

theorem fits_bundle {n k l : Nat} {p : Str} {b : Bundle} (h : ∀ c, b.coreContent = some (some c) → Shallow p k l c) (hk : k ≤ n + 1)
    (hl : 2 * l ≤ n + 4) : ∀ s ∈ bundleSaid p b, Fits (n + 10) s := by
  refine fits_append (fits_append ?_ ?_) ?_
  · cases b.header with
    | none => exact fits_none
    | some hd => exact fits_one (fits_header (n := n + 7) hd)
  · cases hc : b.coreContent with
    | none => exact fits_none
    | some o =>
      cases o with
      | none => exact fits_one (fits_recordOf fits_none)
      | some c => exact fits_one (fits_recordOf (fits_one (fits_content (h c hc) hk hl)))
  · cases b.toolExtensionsTagExists with
    | false => exact fits_none
    | true => exact fits_one (fits_listOf fits_none)

/-- What is written for a safe bundle is as deep as its XHTML content and its hierarchies make it. -/
theorem bundle_height {as : List (Str × Str)} {p : Str} {b : Bundle} (h : SafeBundle as p b) {k l n : Nat}
    (hs : ∀ c, b.coreContent = some (some c) → Shallow p k l c) (h1 : 11 ≤ n) (hk : k + 10 ≤ n) (hl : 2 * l + 7 ≤ n) :
    ∃ out d, unparse b = .ok out ∧ readDoc out = some d ∧ height d.root ≤ n := by
  obtain ⟨out, d, b', g1, g2, ⟨j, ls, g3, -, -, ⟨-, -, g6⟩, r', g7, g8⟩, -⟩ := bundle_survives h
  refine ⟨out, d, g1, g2, ?_⟩
  obtain ⟨m, rfl⟩ : ∃ m, n = m + 11 := ⟨n - 11, by omega⟩
  have hf := fits_bundle (n := m) hs (by omega) (by omega)
  have hsame : saidInside d.root = byName (bundleSaid p b) := by rw [← said_strippedRoot g7, g8]
  rw [g3] at hsame ⊢
  rw [height]
  have hsame : byName (saidAll ls) = byName (bundleSaid p b) := hsame
  have := fits_heights ls (m + 10) g6.laid g6.plain (fun s hs' => by
    have hm : s ∈ byName (saidAll ls) s.name := List.mem_filter.mpr ⟨hs', by simp⟩
    rw [hsame] at hm
    exact hf s (List.mem_filter.mp hm).1)
  omega

end ReqIF.Xsd
