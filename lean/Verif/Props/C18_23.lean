import Verif.Proofs.Lookup
import Verif.Spec.Errors
/-!
# C18-C23: lookups and missing relation ends
-/
namespace ReqIF
open Spec

/-- The lookup of a parsed bundle is the index of its lists. -/
theorem parsed_lookup {text : Str} {b : Bundle} (h : parseString text = .ok b) :
    b.lookup.dataTypes = indexBy DataType.identifier (dataTypesOf b) ∧
    b.lookup.specTypes = indexBy SpecType.identifier (specTypesOf b) ∧
    b.lookup.specObjects = indexBy SpecObject.identifier (specObjectsOf b) ∧
    b.lookup.parents = (specRelationsOf b).foldl (fun d r => appendParent d r.source r.target) [] ∧
    (b.lookup.parentsDefault = true ↔ ∃ c, b.coreContent = some (some c)) := by
  unfold dataTypesOf specTypesOf specObjectsOf specRelationsOf
  rcases parseString_inv h with ⟨_, h1, h2, _⟩ | ⟨x, c, _, hc, hp⟩
  · rw [h2]
    match hb : b.coreContent with
    | none => exact ⟨rfl, rfl, rfl, rfl, by simp [Lookup.empty]⟩
    | some none => exact ⟨rfl, rfl, rfl, rfl, by simp [Lookup.empty]⟩
    | some (some c) => exact absurd hb (h1 c)
  · obtain ⟨rels, _, _, _, _, _, _, _, _, hl⟩ := parseContent_inv hp
    rw [hl, hc]
    exact ⟨rfl, rfl, rfl, rfl, by simp⟩

theorem getItem_eq {κ ν : Type} [DecidableEq κ] (d : Dict κ ν) (k : κ) : d.getItem k = orKeyError (d.get? k) := by
  unfold Dict.getItem orKey orKeyError
  cases d.get? k <;> rfl

/-- **C18.** After parsing, a spec object is found exactly when one with that identifier
was parsed; the last such object is returned, `KeyError` is raised when there is
none, and `None` never exists. -/
theorem C18_spec_objects (text : Str) (b : Bundle) (h : parseString text = .ok b) (ref : Str) :
    (b.lookup.specObjectExists (some ref) = true ↔ ∃ o ∈ specObjectsOf b, o.identifier = ref) ∧
    b.lookup.specObjectByRef ref = orKeyError (lastWith SpecObject.identifier ref (specObjectsOf b)) ∧
    b.lookup.specObjectExists none = false := by
  obtain ⟨_, _, ho, _⟩ := parsed_lookup h
  refine ⟨?_, ?_, rfl⟩
  · unfold Lookup.specObjectExists Dict.has
    dsimp only
    rw [ho, indexBy_get?, lastWith_isSome]
  · unfold Lookup.specObjectByRef
    rw [getItem_eq, ho, indexBy_get?]

theorem afterQueries_get? (l : Lookup) (qs : List (Option Str)) (hd : l.parentsDefault = true) (k : Option Str) :
    (afterQueries l qs).parentsDefault = true ∧
    ((afterQueries l qs).parents.get? k).getD [] = (l.parents.get? k).getD [] := by
  induction qs generalizing l with
  | nil => exact ⟨hd, rfl⟩
  | cons q qs ih =>
    unfold afterQueries Lookup.specObjectParents
    cases hq : l.parents.get? q with
    | some ps => exact ih l hd
    | none =>
      dsimp only
      rw [if_pos hd]
      obtain ⟨h1, h2⟩ := ih { l with parents := l.parents.set q [] } hd
      refine ⟨h1, ?_⟩
      rw [h2]
      dsimp only
      rw [Dict.get?_set]
      by_cases h : q = k
      · subst h; simp [hq]
      · simp [h]

/-- **C19.** After parsing a document with content the parents of `ref` are the targets
of the relations from `ref`, in document order, whatever was asked before. -/
theorem C19_parents (text : Str) (b : Bundle) (h : parseString text = .ok b) (c : Content)
    (hc : b.coreContent = some (some c)) (queries : List (Option Str)) (ref : Option Str) :
    ((afterQueries b.lookup queries).specObjectParents ref).1 = .ok (targetsFrom ref (specRelationsOf b)) := by
  obtain ⟨_, _, _, hp, hd⟩ := parsed_lookup h
  obtain ⟨h1, h2⟩ := afterQueries_get? b.lookup queries (hd.mpr ⟨c, hc⟩) ref
  have h3 : ((afterQueries b.lookup queries).parents.get? ref).getD [] = targetsFrom ref (specRelationsOf b) := by
    rw [h2, hp, parents_get?]
    simp [Dict.get?]
  rw [← h3]
  unfold Lookup.specObjectParents
  cases (afterQueries b.lookup queries).parents.get? ref with
  | some ps => rfl
  | none => dsimp only; rw [if_pos h1]; rfl

/-- **C19**, a bundle without content: `KeyError`, for every reference and history. -/
theorem C19_no_content (text : Str) (b : Bundle) (h : parseString text = .ok b)
    (hc : ∀ c, b.coreContent ≠ some (some c)) (queries : List (Option Str)) (ref : Option Str) :
    ((afterQueries b.lookup queries).specObjectParents ref).1 = .error .keyError := by
  rcases parseString_inv h with ⟨_, _, h2, _⟩ | ⟨x, c, _, hc', _⟩
  · rw [h2]
    have : ∀ qs, afterQueries Lookup.empty qs = Lookup.empty := by
      intro qs
      induction qs with
      | nil => rfl
      | cons q qs ih => exact ih
    rw [this]
    rfl
  · exact absurd hc' (hc c)

/-- **C20.** Type lookup returns the first spec-object type with that identifier, `None`
exactly when there is none. -/
theorem C20_type_by_ref (b : Bundle) (ref : Str) :
    b.specObjectTypeByRef ref = (objectTypes (specTypesOf b)).find? (fun t => t.identifier == ref) := by
  have key : ∀ ts, findSpecObjectType ref ts = (objectTypes ts).find? (fun t => t.identifier == ref) := by
    intro ts
    induction ts with
    | nil => rfl
    | cons t ts ih =>
      cases t with
      | object t =>
        simp only [findSpecObjectType, ih, objectTypes, List.filterMap_cons, List.find?_cons]
        by_cases h : t.identifier = ref
        · simp [h]
        · have hb : (t.identifier == ref) = false := by simpa using h
          rw [if_neg h, hb]
      | relation t => exact ih
      | specification t => exact ih
      | relationGroup t => exact ih
  unfold Bundle.specObjectTypeByRef specTypesOf
  match b.coreContent with
  | none => rfl
  | some none => rfl
  | some (some c) =>
    dsimp only
    cases c.specTypes with
    | none => rfl
    | some ts => exact key ts

/-- **C21.** The maps of spec objects, spec-object types and enumerations: every key maps
to the last entry of the list with that key, and no key occurs twice. -/
theorem C21_maps :
    (∀ (o : SpecObject) (k : Option Str),
      o.attributeMap.get? k = lastWith SpecObjectAttribute.definitionRef k o.attributes ∧
      (o.attributeMap.map (·.1)).Nodup) ∧
    (∀ (t : SpecObjectType) (k : Str),
      t.attributeMap.get? k = lastWith SpecAttributeDefinition.identifier k (t.attributeDefinitions.getD []) ∧
      (t.attributeMap.map (·.1)).Nodup) ∧
    (∀ (vs : List EnumValue) (k : Str),
      (enumValuesMap vs).get? k = lastWith EnumValue.identifier k vs ∧
      ((enumValuesMap vs).map (·.1)).Nodup) := by
  refine ⟨fun o k => ⟨?_, ?_⟩, fun t k => ?_, fun vs k => ⟨?_, ?_⟩⟩
  · exact indexBy_get? SpecObjectAttribute.definitionRef o.attributes k
  · exact foldl_set_nodup SpecObjectAttribute.definitionRef _ _ List.nodup_nil
  · unfold SpecObjectType.attributeMap
    cases t.attributeDefinitions with
    | none => exact ⟨rfl, List.nodup_nil⟩
    | some ds =>
      exact ⟨indexBy_get? SpecAttributeDefinition.identifier ds k,
        foldl_set_nodup SpecAttributeDefinition.identifier _ _ List.nodup_nil⟩
  · exact indexBy_get? EnumValue.identifier vs k
  · exact foldl_set_nodup EnumValue.identifier _ _ List.nodup_nil

/-- **C21**: a key is in the map exactly when it occurs in the list. -/
theorem C21_keys {α κ : Type} [DecidableEq κ] (key : α → κ) (l : List α) (k : κ) :
    (lastWith key k l).isSome ↔ ∃ x ∈ l, key x = k := lastWith_isSome key l k

/-- **C22.** Data types and spec types by reference: the last definition with that
identifier, `KeyError` exactly when there is none. -/
theorem C22_types (text : Str) (b : Bundle) (h : parseString text = .ok b) (ref : Str) :
    b.lookup.dataTypeByRef ref = orKeyError (lastWith DataType.identifier ref (dataTypesOf b)) ∧
    b.lookup.specTypeByRef ref = orKeyError (lastWith SpecType.identifier ref (specTypesOf b)) := by
  obtain ⟨hd, ht, _⟩ := parsed_lookup h
  unfold Lookup.dataTypeByRef Lookup.specTypeByRef
  rw [getItem_eq, getItem_eq, hd, ht, indexBy_get?, indexBy_get?]
  exact ⟨rfl, rfl⟩

/-! ## Missing ends -/

theorem childTags_contains (x : Node) (t : Str) :
    (childTags x).contains (.name t) = x.children.any (fun k => k.tag == .name t) := by
  unfold childTags
  rw [List.contains_eq_any_beq, List.any_map]
  congr 1
  funext k
  simp [Function.comp, BEq.comm]

/-- A relation is parsed as a missing-tag error exactly when an end is missing. -/
theorem parseSpecRelation_inv {x : Node} {r : Except MissingTag SpecRelation} (h : parseSpecRelation x = .ok r) :
    (∃ m, missingEnd x = some m ∧ r = .error m) ∨ (missingEnd x = none ∧ ∃ a, r = .ok a) := by
  unfold parseSpecRelation at h
  obtain ⟨_, _, h⟩ := py_bind_inv h
  obtain ⟨_, _, h⟩ := py_bind_inv h
  unfold missingEnd
  rw [childTags_contains, childTags_contains] at h
  cases hs : x.children.any (fun k => k.tag == .name c!"SOURCE") with
  | false =>
    rw [hs] at h
    cases h
    exact Or.inl ⟨_, rfl, rfl⟩
  | true =>
    rw [hs] at h
    cases ht : x.children.any (fun k => k.tag == .name c!"TARGET") with
    | false =>
      rw [ht] at h
      cases h
      exact Or.inl ⟨_, rfl, rfl⟩
    | true =>
      rw [ht] at h
      refine Or.inr ⟨rfl, ?_⟩
      simp only [Bool.not_true, Bool.false_eq_true, if_false] at h
      obtain ⟨_, _, h⟩ := py_bind_inv h
      obtain ⟨_, _, h⟩ := py_bind_inv h
      obtain ⟨_, _, h⟩ := py_bind_inv h
      obtain ⟨_, _, h⟩ := py_bind_inv h
      obtain ⟨_, _, h⟩ := py_bind_inv h
      obtain ⟨_, _, h⟩ := py_bind_inv h
      obtain ⟨_, _, h⟩ := py_bind_inv h
      obtain ⟨_, _, h⟩ := py_bind_inv h
      obtain ⟨_, _, h⟩ := py_bind_inv h
      cases h
      exact ⟨_, rfl⟩

theorem relationItem_inv {x : Node} {r : Except MissingTag SpecRelation} (h : relationItem x = .ok r) :
    parseSpecRelation x = .ok r := by
  unfold relationItem at h
  split at h
  · cases h
  · rename_i hp; cases h; exact hp
  · rename_i hp
    split at h
    · cases h
    · cases h; exact hp

theorem relations_split {xs : List Node} {rs : List (Except MissingTag SpecRelation)}
    (h : mapPy relationItem xs = .ok rs) :
    relationErrors rs = xs.filterMap missingEnd ∧
    (xs.filter (fun x => (missingEnd x).isNone)).map parseSpecRelation =
      (goodRelations rs).map (fun r => .ok (.ok r)) := by
  induction xs generalizing rs with
  | nil => cases h; exact ⟨rfl, rfl⟩
  | cons x xs ih =>
    simp only [mapPy] at h
    split at h
    · cases h
    · rename_i r hx
      split at h
      · cases h
      · rename_i rs' hxs
        cases h
        obtain ⟨ih1, ih2⟩ := ih hxs
        have hp := relationItem_inv hx
        rcases parseSpecRelation_inv hp with ⟨m, hm, rfl⟩ | ⟨hm, a, rfl⟩
        · constructor
          · rw [List.filterMap_cons, hm, ← ih1]; rfl
          · rw [List.filter_cons, hm]
            exact ih2
        · constructor
          · rw [List.filterMap_cons, hm, ← ih1]; rfl
          · rw [List.filter_cons, hm]
            simp only [Option.isNone_none, if_true, List.map_cons, hp, ih2]
            rfl

/-- **C23.** When a document parses, its exceptions are exactly one missing-tag error per
relation element without SOURCE or TARGET, in document order (SOURCE if both are
missing), and the parsed relations are the results of all other relation elements,
in order. -/
theorem C23_missing_ends (text : Str) (b : Bundle) (h : parseString text = .ok b) (x : Node)
    (hx : contentNode text = some x) :
    b.exceptions = (itemsOf x c!"SPEC-RELATIONS").filterMap missingEnd ∧
    ((itemsOf x c!"SPEC-RELATIONS").filter (fun x => (missingEnd x).isNone)).map parseSpecRelation =
      (specRelationsOf b).map (fun r => .ok (.ok r)) := by
  rcases parseString_inv h with ⟨h1, _⟩ | ⟨x', c, hx', hc, hp⟩
  · rw [h1] at hx; cases hx
  · rw [hx'] at hx
    cases hx
    obtain ⟨rels, _, _, _, h4, _, _, h7, h8, _⟩ := parseContent_inv hp
    unfold specRelationsOf
    rw [hc, h8]
    dsimp only
    rw [h7]
    unfold parsedItems at h4
    unfold itemsOf
    split at h4
    · rename_i hf
      rw [hf]
      cases h4
      exact ⟨rfl, rfl⟩
    · rename_i cont hf
      rw [hf]
      dsimp only
      split at h4
      · cases h4
      · rename_i rs hm
        cases h4
        exact relations_split hm

mutual
theorem stringifyNode_ok (root : Bool) (n : Node) (h : hasPI n = false) : (stringifyNode root n).isOk = true := by
  match n with
  | .text _ => rfl
  | .comment _ => rfl
  | .pi _ _ => cases h
  | .elem i ks =>
    have ih := stringifyKids_ok ks h
    simp only [stringifyNode]
    split
    · cases hk : stringifyKids ks with
      | error e => rw [hk] at ih; cases ih
      | ok b => rfl
    · rfl
theorem stringifyKids_ok (ns : List Node) (h : hasPIs ns = false) : (stringifyKids ns).isOk = true := by
  match ns with
  | [] => rfl
  | n :: ns =>
    simp only [hasPIs, Bool.or_eq_false_iff] at h
    have ih1 := stringifyNode_ok false n h.1
    have ih2 := stringifyKids_ok ns h.2
    simp only [stringifyKids]
    cases hn : stringifyNode false n with
    | error e => rw [hn] at ih1; cases ih1
    | ok a =>
      cases hk : stringifyKids ns with
      | error e => rw [hk] at ih2; cases ih2
      | ok b => rfl
end

/-- **C23**, not fatal: a relation element with a TYPE that lacks an end is always
processed without exception (if no processing instruction is in it). -/
theorem C23_not_fatal (x : Node) (m : MissingTag) (htag : x.tag = .name c!"SPEC-RELATION")
    (htype : x.children.any (fun k => k.tag == .name c!"TYPE") = true)
    (hm : missingEnd x = some m) (hpi : hasPI x = false) :
    itemParses c!"SPEC-RELATIONS" x = true := by
  have hp : parseSpecRelation x = .ok (.error m) ∧ m.node = x := by
    unfold parseSpecRelation
    rw [childTags_contains, childTags_contains, childTags_contains, htag, htype]
    unfold missingEnd at hm
    cases hs : x.children.any (fun k => k.tag == .name c!"SOURCE") with
    | false => rw [hs] at hm; cases hm; exact ⟨rfl, rfl⟩
    | true =>
      rw [hs] at hm
      cases ht : x.children.any (fun k => k.tag == .name c!"TARGET") with
      | false => rw [ht] at hm; cases hm; exact ⟨rfl, rfl⟩
      | true => rw [ht] at hm; cases hm
  have he : itemParses c!"SPEC-RELATIONS" x =
    match parseSpecRelation x with
    | .ok (.ok _) => true
    | .ok (.error e) => (stringifyNode false e.node).isOk
    | .error _ => false := rfl
  rw [he, hp.1]
  dsimp only
  rw [hp.2]
  exact stringifyNode_ok false x hpi

/-! ## Concrete cases -/

set_option maxRecDepth 20000 in
/-- Two objects with the same identifier, two relations from `o`, one without SOURCE and
one without both ends. -/
def relationsDoc : Str :=
  c!"<REQ-IF xmlns=\"u\"><CORE-CONTENT><REQ-IF-CONTENT><DATATYPES><DATATYPE-DEFINITION-STRING IDENTIFIER=\"d\"/></DATATYPES><SPEC-TYPES><SPEC-OBJECT-TYPE IDENTIFIER=\"t\" LAST-CHANGE=\"x\"/></SPEC-TYPES><SPEC-OBJECTS><SPEC-OBJECT IDENTIFIER=\"o\" LONG-NAME=\"1\"><TYPE><SPEC-OBJECT-TYPE-REF>t</SPEC-OBJECT-TYPE-REF></TYPE></SPEC-OBJECT><SPEC-OBJECT IDENTIFIER=\"o\" LONG-NAME=\"2\"><TYPE><SPEC-OBJECT-TYPE-REF>t</SPEC-OBJECT-TYPE-REF></TYPE></SPEC-OBJECT></SPEC-OBJECTS><SPEC-RELATIONS><SPEC-RELATION IDENTIFIER=\"r1\"><TYPE><SPEC-RELATION-TYPE-REF>t</SPEC-RELATION-TYPE-REF></TYPE><SOURCE><SPEC-OBJECT-REF>o</SPEC-OBJECT-REF></SOURCE><TARGET><SPEC-OBJECT-REF>p</SPEC-OBJECT-REF></TARGET></SPEC-RELATION><SPEC-RELATION><TYPE/><TARGET/></SPEC-RELATION><SPEC-RELATION><TYPE/></SPEC-RELATION><SPEC-RELATION IDENTIFIER=\"r2\"><TYPE><SPEC-RELATION-TYPE-REF>t</SPEC-RELATION-TYPE-REF></TYPE><SOURCE><SPEC-OBJECT-REF>o</SPEC-OBJECT-REF></SOURCE><TARGET><SPEC-OBJECT-REF>q</SPEC-OBJECT-REF></TARGET></SPEC-RELATION></SPEC-RELATIONS></REQ-IF-CONTENT></CORE-CONTENT></REQ-IF>"

set_option maxRecDepth 20000 in
example : (match parseString relationsDoc with
    | .ok b => (b.exceptions.map (·.tag), (specRelationsOf b).map (·.identifier),
        targetsFrom (some c!"o") (specRelationsOf b), (specObjectsOf b).map (·.longName))
    | .error _ => ([], [], [], [])) =
    ([c!"SOURCE", c!"SOURCE"], [c!"r1", c!"r2"], [some c!"p", some c!"q"], [some c!"1", some c!"2"]) := by
  decide +kernel

set_option maxRecDepth 20000 in
example : (match parseString relationsDoc with
    | .ok b => (match b.lookup.specObjectByRef c!"o" with | .ok o => o.longName | .error _ => none)
    | .error _ => none) = some c!"2" := by decide +kernel

set_option maxRecDepth 20000 in
example : (contentNode relationsDoc).isSome = true := by decide +kernel

/-- The second relation of `relationsDoc` meets the hypotheses of `C23_not_fatal`. -/
def endless : Node :=
  .elem ⟨none, none, c!"SPEC-RELATION", [], [], []⟩
    [.elem ⟨none, none, c!"TYPE", [], [], []⟩ [], .elem ⟨none, none, c!"TARGET", [], [], []⟩ []]

example : endless.tag = .name c!"SPEC-RELATION" ∧
    endless.children.any (fun k => k.tag == .name c!"TYPE") = true ∧
    missingEnd endless = some ⟨endless, c!"SOURCE"⟩ ∧ hasPI endless = false := ⟨by decide, by decide, rfl, by decide⟩

/-- Two values of the same attribute: the map has one key, with the last value. -/
example : (enumValuesMap [⟨c!"a", c!"1", none, none, none, none⟩, ⟨c!"b", c!"2", none, none, none, none⟩,
    ⟨c!"a", c!"3", none, none, none, none⟩]).map (fun p => (p.1, p.2.key)) = [(c!"a", c!"3"), (c!"b", c!"2")] := by
  decide

end ReqIF
