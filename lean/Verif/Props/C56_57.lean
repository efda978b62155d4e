import Verif.Spec.Schema
import Verif.Proofs.Lookup
/-!
# C56, C57: the schema
-/
namespace ReqIF
open Spec

section
variable {α κ : Type} [DecidableEq κ] (key : α → κ)

theorem lastWith_append (k : κ) (a b : List α) :
    lastWith key k (a ++ b) = (lastWith key k b).or (lastWith key k a) := by
  unfold lastWith
  rw [List.filter_append, List.getLast?_append]

theorem lastWith_cons (k : κ) (x : α) (l : List α) :
    lastWith key k (x :: l) = (lastWith key k l).or (if key x = k then some x else none) := by
  have := lastWith_append key k [x] l
  rw [List.singleton_append] at this
  rw [this]
  congr 1
  unfold lastWith
  by_cases h : key x = k <;> simp [h]
end

theorem filterMap_congr' {α β : Type} {f g : α → Option β} {l : List α} (h : ∀ x ∈ l, f x = g x) :
    l.filterMap f = l.filterMap g := by
  induction l with
  | nil => rfl
  | cons a l ih =>
    rw [List.filterMap_cons, List.filterMap_cons, h a (by simp), ih (fun x hx => h x (by simp [hx]))]

/-- What the loop over the definitions of one type does. -/
theorem schemaAttrs_eq (ds : List SpecAttributeDefinition) (s : Schema) :
    ds.foldl schemaAttrStep s =
      { s with
        chapterName := (lastWith SpecAttributeDefinition.longName (some c!"ReqIF.ChapterName") ds).or s.chapterName
        attributes := ds.foldl (fun m d => m.set d.identifier d) s.attributes } := by
  induction ds generalizing s with
  | nil => rfl
  | cons d ds ih =>
    rw [List.foldl_cons, ih, lastWith_cons]
    unfold schemaAttrStep
    by_cases h : d.longName = some c!"ReqIF.ChapterName"
    · simp [h]
    · simp [h]

/-- What the loop over the types does, if it succeeds. -/
theorem schemaTypes_eq (ts : List SpecType) (s s' : Schema) (h : schemaTypesLoop s ts = .ok s') :
    (∀ t ∈ objectTypes ts, t.longName.isSome ∧ t.attributeDefinitions.isSome) ∧
    s'.heading = (lastWith SpecObjectType.longName (some c!"Heading") (objectTypes ts)).or s.heading ∧
    s'.chapterName = (lastWith SpecAttributeDefinition.longName (some c!"ReqIF.ChapterName")
        ((objectTypes ts).flatMap (fun t => t.attributeDefinitions.getD []))).or s.chapterName ∧
    s'.attributes = ((objectTypes ts).flatMap (fun t => t.attributeDefinitions.getD [])).foldl
        (fun m d => m.set d.identifier d) s.attributes ∧
    s'.names = (objectTypes ts).foldl (fun m t => m.set t.identifier (t.longName.getD [])) s.names ∧
    (s'.schemaType = .polarion ↔ s.schemaType = .polarion ∨
      ∃ t ∈ objectTypes ts, t.longName = some c!"Heading") := by
  induction ts generalizing s with
  | nil => cases h; simp [objectTypes, lastWith]
  | cons t ts ih =>
    simp only [schemaTypesLoop] at h
    cases t with
    | object t =>
      have ho : objectTypes (SpecType.object t :: ts) = t :: objectTypes ts := rfl
      simp only [schemaTypeStep] at h
      cases hl : t.longName with
      | none => rw [hl] at h; cases h
      | some ln =>
        rw [hl] at h
        dsimp only at h
        cases hd : t.attributeDefinitions with
        | none => rw [hd] at h; cases h
        | some ds =>
          rw [hd] at h
          dsimp only at h
          obtain ⟨h0, h1, h2, h3, h4, h5⟩ := ih _ h
          rw [schemaAttrs_eq] at h1 h2 h3 h4 h5
          rw [ho, lastWith_cons, List.flatMap_cons, hd, lastWith_append, List.foldl_append, List.foldl_cons]
          refine ⟨?_, ?_, ?_, ?_, ?_, ?_⟩
          · intro t' ht'
            rcases List.mem_cons.mp ht' with rfl | ht'
            · simp [hl, hd]
            · exact h0 t' ht'
          · rw [h1, Option.or_assoc]
            congr 1
            by_cases hln : ln = c!"Heading" <;> simp [hln, hl]
          · rw [h2, Option.or_assoc]
            congr 2
            split <;> rfl
          · rw [h3]
            congr 2
            split <;> rfl
          · rw [h4, hl]
            congr 1
            split <;> rfl
          · rw [h5]
            by_cases hln : ln = c!"Heading" <;> simp [hln, hl]
    | relation t => exact ih s h
    | specification t => exact ih s h
    | relationGroup t => exact ih s h

theorem schemaTypes_ok (ts : List SpecType)
    (h : ∀ t ∈ objectTypes ts, t.longName.isSome ∧ t.attributeDefinitions.isSome) (s : Schema) :
    ∃ s', schemaTypesLoop s ts = .ok s' := by
  induction ts generalizing s with
  | nil => exact ⟨s, rfl⟩
  | cons t ts ih =>
    cases t with
    | object t =>
      have ho : objectTypes (SpecType.object t :: ts) = t :: objectTypes ts := rfl
      rw [ho] at h
      obtain ⟨hl, hd⟩ := h t (by simp)
      obtain ⟨ln, hl⟩ := Option.isSome_iff_exists.mp hl
      obtain ⟨ds, hd⟩ := Option.isSome_iff_exists.mp hd
      obtain ⟨s', hs⟩ := ih (fun t' ht' => h t' (by simp [ht'])) _
      refine ⟨s', ?_⟩
      simp only [schemaTypesLoop, schemaTypeStep, hl, hd]
      exact hs
    | relation t => exact ih h s
    | specification t => exact ih h s
    | relationGroup t => exact ih h s

theorem schemaTypes_err (ts : List SpecType) (s : Schema) (e : PyErr)
    (h : schemaTypesLoop s ts = .error e) : e = .assertion := by
  induction ts generalizing s with
  | nil => cases h
  | cons t ts ih =>
    simp only [schemaTypesLoop] at h
    cases t with
    | object t =>
      simp only [schemaTypeStep] at h
      cases hl : t.longName with
      | none => rw [hl] at h; cases h; rfl
      | some ln =>
        rw [hl] at h
        dsimp only at h
        cases hd : t.attributeDefinitions with
        | none => rw [hd] at h; cases h; rfl
        | some ds =>
          rw [hd] at h
          exact ih _ h
    | relation t => exact ih s h
    | specification t => exact ih s h
    | relationGroup t => exact ih s h

/-- What a schema consists of. -/
theorem schema_inv {b : Bundle} {s : Schema} (h : Schema.ofBundle b = .ok s) :
    SchemaInput b ∧
    s.heading = lastWith SpecObjectType.longName (some c!"Heading") (objectTypes (specTypesOf b)) ∧
    s.chapterName = lastWith SpecAttributeDefinition.longName (some c!"ReqIF.ChapterName") (objectDefinitions b) ∧
    s.attributes = indexBy SpecAttributeDefinition.identifier (objectDefinitions b) ∧
    s.names = (objectTypes (specTypesOf b)).foldl (fun (m : Dict Str Str) t => m.set t.identifier (t.longName.getD [])) [] ∧
    (s.schemaType = .polarion ↔ ∃ t ∈ objectTypes (specTypesOf b), t.longName = some c!"Heading") ∧
    s.dataTypeDefinitions = indexBy DataType.identifier (dataTypesOf b) := by
  unfold SchemaInput objectDefinitions specTypesOf dataTypesOf
  unfold Schema.ofBundle at h
  match hc : b.coreContent with
  | none => rw [hc] at h; cases h
  | some none => rw [hc] at h; cases h
  | some (some c) =>
    rw [hc] at h
    dsimp only at h ⊢
    cases ht : c.specTypes with
    | none => rw [ht] at h; cases h
    | some ts =>
      rw [ht] at h
      dsimp only at h
      cases hs : schemaTypesLoop ⟨[], [], [], none, none, .default⟩ ts with
      | error e => rw [hs] at h; cases h
      | ok s1 =>
        rw [hs] at h
        dsimp only at h
        cases hd : c.dataTypes with
        | none => rw [hd] at h; cases h
        | some ds =>
          rw [hd] at h
          cases h
          obtain ⟨h0, h1, h2, h3, h4, h5⟩ := schemaTypes_eq ts _ _ hs
          refine ⟨⟨c, rfl, by simp [ht], by simp [hd], h0⟩, ?_, ?_, h3, h4, ?_, rfl⟩
          · simpa using h1
          · simpa using h2
          · simpa using h5

/-- **C56**, which bundles have a schema: those with content, types and data types
whose spec-object types all have a long name and a list of definitions.  Any other
is refused with an `AssertionError`. -/
theorem C56_accepts (b : Bundle) :
    ((∃ s, Schema.ofBundle b = .ok s) ↔ SchemaInput b) ∧
    (¬ SchemaInput b → Schema.ofBundle b = .error .assertion) := by
  have key : (∃ s, Schema.ofBundle b = .ok s) ↔ SchemaInput b := by
    constructor
    · rintro ⟨s, h⟩
      exact (schema_inv h).1
    · rintro ⟨c, hc, ht, hd, hall⟩
      unfold specTypesOf at hall
      rw [hc] at hall
      obtain ⟨ts, ht⟩ := Option.isSome_iff_exists.mp ht
      obtain ⟨ds, hd⟩ := Option.isSome_iff_exists.mp hd
      simp only [ht, Option.getD_some] at hall
      obtain ⟨s', hs⟩ := schemaTypes_ok ts hall ⟨[], [], [], none, none, .default⟩
      unfold Schema.ofBundle
      simp only [hc, ht, hd, hs]
      exact ⟨_, rfl⟩
  refine ⟨key, ?_⟩
  intro hn
  have hno : ∀ s, Schema.ofBundle b ≠ .ok s := fun s hs => hn (key.mp ⟨s, hs⟩)
  unfold Schema.ofBundle at hno ⊢
  match hc : b.coreContent with
  | none => rfl
  | some none => rfl
  | some (some c) =>
    rw [hc] at hno
    dsimp only at hno ⊢
    cases ht : c.specTypes with
    | none => rfl
    | some ts =>
      rw [ht] at hno
      dsimp only at hno ⊢
      cases hs : schemaTypesLoop ⟨[], [], [], none, none, .default⟩ ts with
      | error e => rw [schemaTypes_err ts _ e hs]
      | ok s1 =>
        rw [hs] at hno
        dsimp only at hno ⊢
        cases hd : c.dataTypes with
        | none => rfl
        | some ds => rw [hd] at hno; exact absurd rfl (hno _)

/-- **C56.** Heading detection follows the schema. -/
theorem C56_heading (b : Bundle) (s : Schema) (h : Schema.ofBundle b = .ok s) (o : SpecObject) :
    s.isHeading o = headingOf b o := by
  obtain ⟨_, h1, h2, _⟩ := schema_inv h
  unfold Schema.isHeading headingOf
  rw [h1, h2]
  cases lastWith SpecObjectType.longName (some c!"Heading") (objectTypes (specTypesOf b)) with
  | some t =>
    dsimp only
    rw [Bool.eq_iff_iff]
    simp
  | none =>
    dsimp only
    cases lastWith SpecAttributeDefinition.longName (some c!"ReqIF.ChapterName") (objectDefinitions b) with
    | none => rfl
    | some d =>
      dsimp only
      have : o.attributeMap.get? (some d.identifier) =
          lastWith SpecObjectAttribute.definitionRef (some d.identifier) o.attributes :=
        indexBy_get? SpecObjectAttribute.definitionRef o.attributes _
      rw [Dict.has, this, Bool.eq_iff_iff, lastWith_isSome]
      simp

/-- **C56**, the schema's other fields: the kind of schema, the names of the spec-object
types and the data types, each map answering with the last entry for a key. -/
theorem C56_fields (b : Bundle) (s : Schema) (h : Schema.ofBundle b = .ok s) :
    (s.schemaType = .polarion ↔ ∃ t ∈ objectTypes (specTypesOf b), t.longName = some c!"Heading") ∧
    (∀ k, s.names.get? k = (lastWith SpecObjectType.identifier k (objectTypes (specTypesOf b))).bind
      SpecObjectType.longName) ∧
    (∀ k, s.dataTypeDefinitions.get? k = lastWith DataType.identifier k (dataTypesOf b)) ∧
    (∀ k, s.attributes.get? k = lastWith SpecAttributeDefinition.identifier k (objectDefinitions b)) := by
  obtain ⟨h0, _, _, h3, h4, h5, h6⟩ := schema_inv h
  refine ⟨h5, ?_, ?_, ?_⟩
  · obtain ⟨c, _, _, _, hall⟩ := h0
    intro k
    rw [h4]
    have gen : ∀ (l : List SpecObjectType) (m : Dict Str Str), (∀ t ∈ l, t.longName.isSome) →
        (l.foldl (fun m t => m.set t.identifier (t.longName.getD [])) m).get? k =
          ((lastWith SpecObjectType.identifier k l).bind SpecObjectType.longName).or (m.get? k) := by
      intro l
      induction l with
      | nil => intro m _; simp [lastWith]
      | cons t l ih =>
        intro m hl
        obtain ⟨ln, hln⟩ := Option.isSome_iff_exists.mp (hl t (by simp))
        have hl' : ∀ t ∈ l, t.longName.isSome := fun t' h' => hl t' (by simp [h'])
        rw [List.foldl_cons, ih _ hl', Dict.get?_set, lastWith_cons]
        cases hw : lastWith SpecObjectType.identifier k l with
        | some t' =>
          have : t' ∈ l := by
            unfold lastWith at hw
            exact (List.mem_filter.mp (List.mem_of_getLast? hw)).1
          obtain ⟨ln', hln'⟩ := Option.isSome_iff_exists.mp (hl' t' this)
          simp [hln']
        | none =>
          by_cases hk : t.identifier = k <;> simp [hk, hln]
    have := gen (objectTypes (specTypesOf b)) [] (fun t ht => (hall t ht).1)
    rw [this]
    simp [Dict.get?]
  · intro k; rw [h6, indexBy_get?]
  · intro k; rw [h3, indexBy_get?]

/-! ## C57 -/

theorem firsts_mem {α : Type} [DecidableEq α] (l : List α) (x : α) : x ∈ firsts l ↔ x ∈ l := by
  induction l with
  | nil => simp [firsts]
  | cons a l ih =>
    simp only [firsts, List.mem_cons, List.mem_filter, ih, decide_eq_true_eq]
    by_cases h : x = a <;> simp [h]

theorem firsts_nodup {α : Type} [DecidableEq α] (l : List α) : (firsts l).Nodup := by
  induction l with
  | nil => simp [firsts]
  | cons a l ih =>
    rw [firsts, List.nodup_cons]
    exact ⟨by simp, ih.filter _⟩

theorem foldl_set_keys {α κ : Type} [DecidableEq κ] (key : α → κ) (l : List α) (d : Dict κ α) :
    (l.foldl (fun d x => d.set (key x) x) d).map (·.1) =
      d.map (·.1) ++ (firsts (l.map key)).filter (fun k => decide (k ∉ d.map (·.1))) := by
  induction l generalizing d with
  | nil => simp [firsts]
  | cons x l ih =>
    rw [List.foldl_cons, ih, Dict.keys_set, List.map_cons, firsts, List.filter_cons]
    by_cases h : key x ∈ d.map (·.1)
    · rw [if_pos h, if_neg (by simpa using h), List.filter_filter]
      congr 1
      apply List.filter_congr
      intro k _
      rw [Bool.eq_iff_iff]
      simp only [decide_eq_true_eq, Bool.and_eq_true]
      constructor
      · intro hk
        exact ⟨hk, fun he => hk (he ▸ h)⟩
      · exact fun hk => hk.1
    · rw [if_neg h, if_pos (by simpa using h), List.append_assoc, List.filter_filter, List.singleton_append]
      congr 2
      apply List.filter_congr
      intro k _
      rw [Bool.eq_iff_iff]
      simp only [decide_eq_true_eq, Bool.and_eq_true, List.mem_append, List.mem_singleton, not_or]

theorem dict_values {κ ν : Type} [DecidableEq κ] (d : Dict κ ν) (h : (d.map (·.1)).Nodup) :
    d.map (·.2) = (d.map (·.1)).filterMap d.get? := by
  induction d with
  | nil => rfl
  | cons x d ih =>
    obtain ⟨k, v⟩ := x
    rw [List.map_cons, List.nodup_cons] at h
    simp only [List.map_cons, List.filterMap_cons, Dict.get?, if_true]
    rw [ih h.2]
    congr 1
    apply filterMap_congr'
    intro k' hk'
    rw [if_neg]
    rintro rfl
    exact h.1 hk'

theorem schema_kept {b : Bundle} {s : Schema} (h : Schema.ofBundle b = .ok s) :
    s.attributes.map (·.2) = keptDefinitions b := by
  obtain ⟨_, _, _, h3, _⟩ := schema_inv h
  have hk : s.attributes.map (·.1) = firsts ((objectDefinitions b).map (·.identifier)) := by
    rw [h3]
    unfold indexBy
    rw [foldl_set_keys]
    simp
  rw [dict_values _ (by rw [hk]; exact firsts_nodup _), hk]
  unfold keptDefinitions
  apply filterMap_congr'
  intro k _
  rw [h3, indexBy_get?]

theorem uniqueNamesLoop_names (ds : List SpecAttributeDefinition) (seen : List (Option Str)) :
    (uniqueNamesLoop seen ds).map (·.1) =
      (firsts (ds.map (·.longName))).filter (fun n => decide (n ∉ seen)) := by
  induction ds generalizing seen with
  | nil => rfl
  | cons d ds ih =>
    rw [uniqueNamesLoop, List.map_cons, firsts, List.filter_cons, List.filter_filter]
    by_cases h : d.longName ∈ seen
    · rw [if_pos (by simpa using h), if_neg (by simpa using h), ih]
      apply List.filter_congr
      intro k _
      rw [Bool.eq_iff_iff]
      simp only [decide_eq_true_eq, Bool.and_eq_true]
      constructor
      · intro hk
        exact ⟨hk, fun he => hk (he ▸ h)⟩
      · exact fun hk => hk.1
    · rw [if_neg (by simpa using h), if_pos (by simpa using h), List.map_cons, ih]
      congr 1
      apply List.filter_congr
      intro k _
      rw [Bool.eq_iff_iff]
      simp only [decide_eq_true_eq, Bool.and_eq_true, List.mem_cons, not_or]
      exact And.comm

theorem uniqueNamesLoop_types (ds : List SpecAttributeDefinition) (seen : List (Option Str))
    (n : Option Str) (t : Str) (h : (n, t) ∈ uniqueNamesLoop seen ds) :
    ∃ d, ds.find? (fun d => decide (d.longName = n)) = some d ∧ t = d.type.pyName := by
  induction ds generalizing seen with
  | nil => cases h
  | cons d ds ih =>
    have hno : ∀ (ds : List SpecAttributeDefinition) (seen : List (Option Str)),
        (n, t) ∈ uniqueNamesLoop seen ds → n ∉ seen := by
      intro ds seen hm
      have hm : n ∈ (uniqueNamesLoop seen ds).map (·.1) := List.mem_map.mpr ⟨_, hm, rfl⟩
      rw [uniqueNamesLoop_names, List.mem_filter] at hm
      simpa using hm.2
    have hs := hno _ _ h
    rw [uniqueNamesLoop] at h
    by_cases hd : d.longName ∈ seen
    · rw [if_pos (by simpa using hd)] at h
      obtain ⟨d', h1, h2⟩ := ih _ h
      refine ⟨d', ?_, h2⟩
      rw [List.find?_cons_of_neg (by simp; rintro rfl; exact hs hd)]
      exact h1
    · rw [if_neg (by simpa using hd)] at h
      rcases List.mem_cons.mp h with h | h
      · cases h
        exact ⟨d, by simp, rfl⟩
      · have hs' := hno _ _ h
        obtain ⟨d', h1, h2⟩ := ih _ h
        refine ⟨d', ?_, h2⟩
        rw [List.find?_cons_of_neg (by simp at hs' ⊢; exact fun he => hs'.1 he.symm)]
        exact h1

/-- **C57.** The unique field names are the long names of the definitions kept in the
schema, each at its first occurrence, with the kind of the first definition that has the
name; none occurs twice and none is missing. -/
theorem C57_unique_names (b : Bundle) (s : Schema) (h : Schema.ofBundle b = .ok s) :
    s.uniqueFieldNames.map (·.1) = firsts ((keptDefinitions b).map (·.longName)) ∧
    (s.uniqueFieldNames.map (·.1)).Nodup ∧
    (∀ n, n ∈ s.uniqueFieldNames.map (·.1) ↔ ∃ d ∈ keptDefinitions b, d.longName = n) ∧
    (∀ n t, (n, t) ∈ s.uniqueFieldNames →
      ∃ d, (keptDefinitions b).find? (fun d => decide (d.longName = n)) = some d ∧ t = d.type.pyName) := by
  have h1 : s.uniqueFieldNames.map (·.1) = firsts ((keptDefinitions b).map (·.longName)) := by
    unfold Schema.uniqueFieldNames
    rw [uniqueNamesLoop_names, schema_kept h]
    simp
  refine ⟨h1, ?_, ?_, ?_⟩
  · rw [h1]; exact firsts_nodup _
  · intro n
    rw [h1, firsts_mem]
    simp
  · intro n t hm
    unfold Schema.uniqueFieldNames at hm
    rw [schema_kept h] at hm
    exact uniqueNamesLoop_types _ _ n t hm

/-- **C57**, which definitions are kept: for every identifier the last definition with it. -/
theorem C57_kept (b : Bundle) (d : SpecAttributeDefinition) :
    d ∈ keptDefinitions b ↔
      lastWith SpecAttributeDefinition.identifier d.identifier (objectDefinitions b) = some d := by
  unfold keptDefinitions
  rw [List.mem_filterMap]
  constructor
  · rintro ⟨k, _, hk⟩
    have hm := hk
    unfold lastWith at hm
    have hm := List.mem_filter.mp (List.mem_of_getLast? hm)
    have : d.identifier = k := by simpa using hm.2
    rw [this]; exact hk
  · intro hd
    refine ⟨_, ?_, hd⟩
    rw [firsts_mem]
    unfold lastWith at hd
    have hm := List.mem_filter.mp (List.mem_of_getLast? hd)
    exact List.mem_map.mpr ⟨d, hm.1, rfl⟩

/-! ## A concrete bundle -/

def exDef (i : Str) (ln : Option Str) (t : AttrType) : SpecAttributeDefinition :=
  ⟨t, i, none, none, none, none, ln, none, none, none, none⟩

def exType (i : Str) (ln : Str) (ds : List SpecAttributeDefinition) : SpecType :=
  .object ⟨i, none, none, some ln, some ds⟩

/-- Two types that share a name and an identifier. -/
def exSchemaTypes : List SpecType :=
  [exType c!"t1" c!"Requirement"
     [exDef c!"a" (some c!"Text") .string, exDef c!"b" (some c!"ReqIF.ChapterName") .string],
   exType c!"t2" c!"Section"
     [exDef c!"c" (some c!"ReqIF.ChapterName") .xhtml, exDef c!"a" (some c!"Status") .enumeration,
      exDef c!"d" (some c!"Status") .integer]]

def exSchemaBundle (ts : List SpecType) : Bundle :=
  { Bundle.createEmpty none none with
    coreContent := some (some ⟨some [], some ts, none, none, none, none⟩) }

def exObject (t : Str) (ref : Str) : SpecObject :=
  ⟨c!"o", [⟨.string, some ref, .str c!"x", none, none⟩], some t, none, none, none, none⟩

example : ∃ s, Schema.ofBundle (exSchemaBundle exSchemaTypes) = .ok s ∧
    s.isHeading (exObject c!"t1" c!"c") = true ∧ s.isHeading (exObject c!"t1" c!"b") = false ∧
    s.uniqueFieldNames =
      [(some c!"Status", c!"ENUMERATION"), (some c!"ReqIF.ChapterName", c!"STRING")] := ⟨_, rfl, rfl, rfl, rfl⟩

example : ∃ s, Schema.ofBundle (exSchemaBundle (exSchemaTypes ++ [exType c!"h" c!"Heading" []])) = .ok s ∧
    s.isHeading (exObject c!"t1" c!"c") = false ∧ s.isHeading (exObject c!"h" c!"b") = true :=
  ⟨_, rfl, rfl, rfl⟩

example : SchemaInput (exSchemaBundle exSchemaTypes) := by
  rw [← (C56_accepts _).1]; exact ⟨_, rfl⟩

end ReqIF
