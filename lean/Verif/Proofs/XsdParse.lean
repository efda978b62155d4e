import Verif.Proofs.XsdTools
/-! The parsers on valid elements. -/
set_option linter.unusedSimpArgs false
namespace ReqIF.Xsd
open Spec

variable {d : Dialect} {x : Node}

theorem assertTrue : pyAssert true = .ok () := rfl

theorem kind_choice {a : Nat} {b : Option Nat} {f : Kind → Str × TypeName} {ks : List Kind} {nm : Str} {t' : TypeName}
    (h : (Model.choice a b (ks.map f)).typeOf nm = some t') : ∃ k ∈ ks, f k = (nm, t') := by
  have := typeOf_choice h
  rw [List.mem_map] at this
  exact this

/-! ## Data types -/

theorem enumValue_parses (h : Seen d .enumValue x) : ∃ v, parseEnumValue x = .ok v := by
  obtain ⟨i, hi⟩ := h.attr (name := c!"IDENTIFIER") rfl
  obtain ⟨p, hp, hp1, -⟩ := h.need (nm := c!"PROPERTIES") (t' := .properties) rfl rfl rfl
  obtain ⟨e, he, he1, -⟩ := hp1.need (nm := c!"EMBEDDED-VALUE") (t' := .embeddedValue) rfl rfl rfl
  obtain ⟨k, hk⟩ := he1.attr (name := c!"KEY") rfl
  unfold parseEnumValue
  rw [attrReq_some hi, py_bind_ok, findReq_some hp, py_bind_ok, findReq_some he, py_bind_ok, attrReq_some hk, py_bind_ok, py_pure]
  exact ⟨_, rfl⟩

theorem dataType_parses {k : Kind} (h : Seen d (.dataType k) x) (ht : x.tag = .name (c!"DATATYPE-DEFINITION-" ++ k.name)) :
    ∃ v, parseDataType x = .ok v := by
  obtain ⟨i, hi⟩ := h.attr (name := c!"IDENTIFIER") rfl
  have hc : tagContains x c!"DATATYPE-DEFINITION-" = .ok true := by
    unfold tagContains
    rw [ht]
    cases k <;> rfl
  unfold parseDataType
  rw [hc, py_bind_ok, assertTrue, py_bind_ok]
  dsimp only
  rw [attrReq_some hi, py_bind_ok]
  rw [ht]
  cases k with
  | enumeration =>
    rw [if_pos (by decide)]
    rcases h.opt (nm := c!"SPECIFIED-VALUES") (t' := .specifiedValues) rfl rfl with hn | ⟨sv, hs, hs1, -⟩
    · rw [hn]; exact ⟨_, rfl⟩
    · rw [hs]
      dsimp only
      obtain ⟨vs, hv, -⟩ := mapPy_all (f := parseEnumValue) (P := fun _ => True) (xs := sv.children) (by
        intro c hc
        obtain ⟨nm, t', h1, h2, h3⟩ := hs1.child rfl hc
        have := typeOf_choice h2
        simp only [List.mem_singleton, Prod.mk.injEq] at this
        rw [this.2] at h3
        obtain ⟨v, hv⟩ := enumValue_parses h3
        exact ⟨v, hv, trivial⟩)
      rw [hv, py_bind_ok, py_pure]
      exact ⟨_, rfl⟩
  | string => rw [if_neg (by decide), if_pos (by decide)]; exact ⟨_, rfl⟩
  | integer => rw [if_neg (by decide), if_neg (by decide), if_pos (by decide)]; exact ⟨_, rfl⟩
  | real =>
    rw [if_neg (by decide), if_neg (by decide), if_neg (by decide), if_pos (by decide)]
    cases ha : x.attr? c!"ACCURACY" with
    | none => exact ⟨_, rfl⟩
    | some a =>
    have h1 := h.attrType ha (by decide)
    have h2 : isInteger (trim a) = true := by
      have e : ∀ v : Str, (schema d (.dataType .real)).attrs.any (fun x => x.name == c!"ACCURACY" && x.type.ok v) =
          (isInteger (trim v) || false) := fun v => rfl
      rw [e, Bool.or_false] at h1
      exact h1
    obtain ⟨n, hn⟩ := pyInt_ok h2
    dsimp only
    rw [hn]
    exact ⟨_, rfl⟩
  | xhtml => rw [if_neg (by decide), if_neg (by decide), if_neg (by decide), if_neg (by decide), if_pos (by decide)]; exact ⟨_, rfl⟩
  | date =>
    rw [if_neg (by decide), if_neg (by decide), if_neg (by decide), if_neg (by decide), if_neg (by decide), if_pos (by decide)]; exact ⟨_, rfl⟩
  | boolean =>
    rw [if_neg (by decide), if_neg (by decide), if_neg (by decide), if_neg (by decide), if_neg (by decide), if_neg (by decide),
      if_pos (by decide)]
    exact ⟨_, rfl⟩

/-! ## Attribute values -/

/-- The reference below `DEFINITION`. -/
theorem definition_ref {b : Bool} {k : Kind} (h : Seen d (.value b k) x) (hn : !b || k.namesDefinition) : ∃ e r, x.find c!"DEFINITION" = some e ∧
    e.find (c!"ATTRIBUTE-DEFINITION-" ++ k.name ++ c!"-REF") = some r ∧ Seen d (.text .localRef) r := by
  obtain ⟨e, he, he1, -⟩ := h.need (nm := c!"DEFINITION") (t' := .valueDefinition k) (by cases k <;> rfl)
    (by cases k <;> cases b <;> first | rfl | cases hn) (by cases k <;> rfl)
  obtain ⟨r, hr, hr1, -⟩ := he1.need (nm := c!"ATTRIBUTE-DEFINITION-" ++ k.name ++ c!"-REF") (t' := .text .localRef) rfl
    (by cases k <;> rfl) (by cases k <;> rfl)
  exact ⟨e, r, he, hr, hr1⟩

/-- A value the parser produces can be printed. -/
def Prints (a : SpecObjectAttribute) : Prop := ∃ s, unparseAttributeValue a = .ok s

theorem simpleValue_parses {k : Kind} {t : AttrType} {tag : Str} (h : Seen d (.value false k) x)
    (ha : (schema d (.value false k)).attrs.any (fun a => a.name == c!"THE-VALUE" && a.required) = true)
    (ht : tag = c!"ATTRIBUTE-DEFINITION-" ++ k.name ++ c!"-REF") (hp : ∀ r v y z, Prints ⟨t, r, .str v, y, z⟩) :
    ∃ v, parseSimpleValue x t tag = .ok v ∧ Prints v := by
  obtain ⟨v, hv⟩ := h.attr ha
  obtain ⟨e, r, he, hr, -⟩ := definition_ref h rfl
  unfold parseSimpleValue
  rw [attrReq_some hv, py_bind_ok, findReq_some he, py_bind_ok, ht, findReq_some hr, py_bind_ok, py_pure]
  exact ⟨_, rfl, hp _ _ _ _⟩

theorem firstChild_value {k : Kind} (h : Seen d (.value false k) x)
    (hm : (schema d (.value false k)).model = .all [⟨c!"DEFINITION", true, .valueDefinition k⟩]) :
    ∃ e r, firstChild x = .ok e ∧ firstChild e = .ok r := by
  obtain ⟨e, r, he, hr, -⟩ := definition_ref h rfl
  obtain ⟨e', he', hm'⟩ := find_firstChild he
  obtain ⟨nm, t', h1, h2, h3⟩ := h.child (by rw [hm]; rfl) hm'
  rw [hm] at h2
  have h4 : t' = .valueDefinition k := by
    simp only [Model.typeOf, Option.map_eq_some_iff] at h2
    obtain ⟨p, hp, hp2⟩ := h2
    have := List.mem_of_find?_eq_some hp
    rw [List.mem_singleton] at this
    rw [← hp2, this]
  rw [h4] at h3
  obtain ⟨r', hr', -, -⟩ := h3.need (nm := c!"ATTRIBUTE-DEFINITION-" ++ k.name ++ c!"-REF") (t' := .text .localRef) rfl
    (by cases k <;> rfl) (by cases k <;> rfl)
  obtain ⟨r'', hr'', -⟩ := find_firstChild hr'
  exact ⟨e', r'', he', hr''⟩

theorem xhtmlValue_parses {b : Bool} (h : Seen d (.value b .xhtml) x) : ∃ v, parseXhtmlAttributeValue x = .ok v ∧ Prints v := by
  obtain ⟨v, hv, hv1, -⟩ := h.need (nm := c!"THE-VALUE") (t' := .xhtmlContent b) rfl rfl rfl
  obtain ⟨e, r, he, hr, -⟩ := definition_ref h (by first | rfl | (cases b <;> rfl))
  have hr' : e.find c!"ATTRIBUTE-DEFINITION-XHTML-REF" = some r := hr
  have hpi := plain_noPI v hv1.plain
  unfold parseXhtmlAttributeValue
  rw [findReq_some hv, py_bind_ok]
  split
  · rename_i hl
    obtain ⟨s, hs⟩ := stringifyNs_ok hv1.plain (by intro e; rw [e] at hl; simp at hl)
    obtain ⟨s', hs'⟩ := convert_ok v hpi
    rw [hs, py_bind_ok, hs', py_bind_ok, findReq_some he, py_bind_ok, findReq_some hr', py_bind_ok, py_pure]
    exact ⟨_, rfl, _, rfl⟩
  · obtain ⟨s, hs⟩ := stringifyChildren_ok v hpi
    rw [hs, py_bind_ok, findReq_some he, py_bind_ok, findReq_some hr', py_bind_ok, py_pure]
    exact ⟨_, rfl, _, rfl⟩

theorem findIdx_mem {t : Str} : ∀ {l : List Tag}, l.contains (.name t) = true → ∃ i, tagIndex t l = some i := by
  intro l hl
  unfold tagIndex
  have : (l.findIdx? (· == .name t)).isSome = true := by
    rw [List.findIdx?_isSome]
    refine List.any_eq_true.2 ⟨.name t, List.contains_iff_mem.1 hl, by simp⟩
  exact Option.isSome_iff_exists.1 this

theorem value_parses {k : Kind} (hd : d ≠ .xsd) (h : Seen d (.value false k) x) (ht : x.tag = .name (c!"ATTRIBUTE-VALUE-" ++ k.name)) :
    ∃ v, parseAttributeValue x = .ok v ∧ Prints v := by
  have hd' : (d != .xsd) = true := by cases d <;> first | rfl | exact absurd rfl hd
  unfold parseAttributeValue
  rw [ht]
  cases k with
  | string =>
    rw [if_pos (by decide)]
    obtain ⟨v, hv⟩ := h.attr (name := c!"THE-VALUE") rfl
    obtain ⟨e, r, he, hr⟩ := firstChild_value h rfl
    rw [attrReq_some hv, py_bind_ok, he, py_bind_ok, hr, py_bind_ok, py_pure]
    exact ⟨_, rfl, _, rfl⟩
  | enumeration =>
    rw [if_neg (by decide), if_pos (by decide)]
    obtain ⟨e, r, he, hr, -⟩ := definition_ref h (by first | rfl | (cases b <;> rfl))
    have hr' : e.find c!"ATTRIBUTE-DEFINITION-ENUMERATION-REF" = some r := hr
    obtain ⟨vs, hvs, -, -⟩ := h.need (nm := c!"VALUES") (t' := .enumRefs false) rfl (by
      simp only [schema, hd']; rfl) rfl
    rw [findReq_some he, py_bind_ok, findReq_some hr', py_bind_ok, hvs]
    dsimp only
    refine ⟨_, rfl, ?_⟩
    unfold Prints unparseAttributeValue
    dsimp only
    obtain ⟨a, ha⟩ := findIdx_mem (find_childTags hvs)
    obtain ⟨b, hb⟩ := findIdx_mem (find_childTags he)
    have : ∀ (r : Option Str) (l : AttrValue) (y : Option Str), valuesBeforeDefinition ⟨.enumeration, r, l, y, some x⟩ = .ok (decide (a < b)) := by
      intro r l y
      unfold valuesBeforeDefinition
      dsimp only
      rw [ha, hb]
    rw [this, py_bind_ok]
    exact ⟨_, rfl⟩
  | integer =>
    rw [if_neg (by decide), if_neg (by decide), if_pos (by decide)]
    exact simpleValue_parses h rfl rfl (fun r v y z => ⟨_, rfl⟩)
  | real =>
    rw [if_neg (by decide), if_neg (by decide), if_neg (by decide), if_pos (by decide)]
    exact simpleValue_parses h rfl rfl (fun r v y z => ⟨_, rfl⟩)
  | boolean =>
    rw [if_neg (by decide), if_neg (by decide), if_neg (by decide), if_neg (by decide), if_pos (by decide)]
    exact simpleValue_parses h rfl rfl (fun r v y z => ⟨_, rfl⟩)
  | date =>
    rw [if_neg (by decide), if_neg (by decide), if_neg (by decide), if_neg (by decide), if_neg (by decide), if_pos (by decide)]
    exact simpleValue_parses h rfl rfl (fun r v y z => ⟨_, rfl⟩)
  | xhtml =>
    rw [if_neg (by decide), if_neg (by decide), if_neg (by decide), if_neg (by decide), if_neg (by decide), if_neg (by decide), if_pos (by decide)]
    exact xhtmlValue_parses h

theorem prints_all {vs : List SpecObjectAttribute} (h : ∀ a ∈ vs, Prints a) : ∃ s, unparseAttributeValues (some vs) = .ok s := by
  cases vs with
  | nil => exact ⟨_, rfl⟩
  | cons a as =>
    obtain ⟨s, hs⟩ := concatPy_all h
    unfold unparseAttributeValues
    dsimp only
    rw [hs, py_bind_ok, py_pure]
    exact ⟨_, rfl⟩

theorem values_parse (hd : d ≠ .xsd) {o : Option Node} (h : ∀ n, o = some n → Seen d .values n) :
    ∃ vs, parseAttributeValues o = .ok vs ∧ ∀ l, vs = some l → ∀ a ∈ l, Prints a := by
  cases o with
  | none => exact ⟨none, rfl, by intro l hl; cases hl⟩
  | some n =>
    have hn := h n rfl
    obtain ⟨vs, hv, hp⟩ := mapPy_all (f := parseAttributeValue) (P := Prints) (xs := n.children.filter (fun c => !isCommentNode c)) (by
      intro c hc
      obtain ⟨nm, t', h1, h2, h3⟩ := hn.child rfl (List.mem_filter.1 hc).1
      obtain ⟨k, -, hk⟩ := kind_choice h2
      cases hk
      exact value_parses hd h3 h1)
    unfold parseAttributeValues
    dsimp only
    rw [hv, py_bind_ok, py_pure]
    refine ⟨some vs, rfl, ?_⟩
    intro l hl
    cases hl
    exact hp

/-! ## Attribute definitions -/

theorem notXsd (hd : d ≠ .xsd) : (d != .xsd) = true := by cases d <;> first | rfl | exact absurd rfl hd

theorem definition_typeRef {s : SpecKind} {k : Kind} (h : Seen d (.definition s k) x) {tag : Str}
    (ht : tag = c!"DATATYPE-DEFINITION-" ++ k.name ++ c!"-REF") : ∃ r, parseDatatypeRef x tag = .ok r := by
  obtain ⟨e, he, he1, -⟩ := h.need (nm := c!"TYPE") (t' := .definitionType k) (by cases d <;> rfl) (by cases d <;> rfl)
    (by cases d <;> rfl)
  obtain ⟨r, hr, -, -⟩ := he1.need (nm := c!"DATATYPE-DEFINITION-" ++ k.name ++ c!"-REF") (t' := .text .localRef) rfl
    (by cases k <;> rfl) (by cases k <;> rfl)
  unfold parseDatatypeRef
  rw [findReq_some he, py_bind_ok, ht, findReq_some hr, py_bind_ok, py_pure]
  exact ⟨_, rfl⟩

/-- `DEFAULT-VALUE` is absent, empty (for three kinds), or holds a value. -/
theorem definition_default {s : SpecKind} {k : Kind} (hd : d ≠ .xsd) (h : Seen d (.definition s k) x) :
    x.find c!"DEFAULT-VALUE" = none ∨ ∃ e, x.find c!"DEFAULT-VALUE" = some e ∧
      ((e.kids = [] ∧ isSelfClosedTag e = true ∧ (k = .string ∨ k = .xhtml ∨ k = .enumeration)) ∨
       (isSelfClosedTag e = false ∧ ∃ v, e.find (c!"ATTRIBUTE-VALUE-" ++ k.name) = some v ∧ Seen d (.value true k) v)) := by
  rcases h.opt (nm := c!"DEFAULT-VALUE") (t' := .defaultValue k) (by cases d <;> rfl) (by cases d <;> rfl) with hn | ⟨e, he, he1, -⟩
  · exact .inl hn
  refine .inr ⟨e, he, ?_⟩
  have hmodel : ∃ es, (schema d (.defaultValue k)).model.isOpen = false ∧
      es = [(c!"ATTRIBUTE-VALUE-" ++ k.name, TypeName.value true k)] ∧
      (((schema d (.defaultValue k)).model = .emptyOrOne es ∧ (k = .string ∨ k = .xhtml ∨ k = .enumeration)) ∨
        (schema d (.defaultValue k)).model = .choice 1 (some 1) es) := by
    refine ⟨_, ?_, rfl, ?_⟩
    · cases d <;> cases k <;> rfl
    · cases d
      · exact absurd rfl hd
      all_goals cases k <;> first | exact .inr rfl | exact .inl ⟨rfl, by simp⟩
  obtain ⟨es, ho, hes, hm⟩ := hmodel
  have full : childNames e.kids ≠ [] → (isSelfClosedTag e = false ∧
      ∃ v, e.find (c!"ATTRIBUTE-VALUE-" ++ k.name) = some v ∧ Seen d (.value true k) v) := by
    intro hc
    have hk := he1.kidsOk
    obtain ⟨nm, hnm⟩ := List.exists_mem_of_ne_nil _ hc
    have ht := childNames_typeOf ho hk nm hnm
    have hn : nm = c!"ATTRIBUTE-VALUE-" ++ k.name ∧ (schema d (.defaultValue k)).model.typeOf nm = some (.value true k) := by
      rcases hm with ⟨hm, -⟩ | hm <;> rw [hm, hes] at ht ⊢ <;> simp only [Model.typeOf, List.find?_cons] at ht ⊢
      all_goals
        split at ht
        · rename_i h2
          simp only [beq_iff_eq] at h2
          refine ⟨h2.symm, ?_⟩
          rw [h2]
          simp
        · simp at ht
    have hf := childNames_find ho hk hnm
    obtain ⟨v, hv⟩ := Option.isSome_iff_exists.1 hf
    have hv' : e.find nm = some v := hv
    obtain ⟨t', e1, e2, -⟩ := he1.find ho hv'
    rw [hn.2] at e1
    cases e1
    rw [hn.1] at hv'
    refine ⟨selfClosed_ne he1.isElem ?_, v, hv', e2⟩
    intro e0
    rw [e0] at hc
    exact hc rfl
  have hcount := he1.countOk
  rcases hm with ⟨hm, hkk⟩ | hm
  · rw [hm] at hcount
    simp only [Model.countOk, Bool.or_eq_true, List.isEmpty_iff, beq_iff_eq] at hcount
    rcases hcount with h0 | h1
    · exact .inl ⟨h0, selfClosed_nil he1.isElem h0, hkk⟩
    · exact .inr (full (by intro e0; rw [e0] at h1; cases h1))
  · rw [hm] at hcount
    simp only [Model.countOk, Bool.and_eq_true, decide_eq_true_eq] at hcount
    exact .inr (full (by intro e0; rw [e0] at hcount; exact absurd hcount.1 (by decide)))

/-- The default value can be printed. -/
def DefaultPrints (t : AttrType) (p : DefaultPart) : Prop :=
  ∀ v, p.2 = some (.str v) → (t = .boolean ∨ t = .xhtml ∨ t = .enumeration) → p.1.isSome = true

theorem default_string {s : SpecKind} (hd : d ≠ .xsd) (h : Seen d (.definition s .string) x) :
    ∃ p, parseDefaultString x = .ok p ∧ DefaultPrints .string p := by
  unfold parseDefaultString
  rcases definition_default hd h with hn | ⟨e, he, hh⟩
  · rw [hn]; exact ⟨_, rfl, by intro v h; cases h⟩
  · rw [he]
    dsimp only
    rcases hh with ⟨-, h1, -⟩ | ⟨h1, v, hv, hv1⟩
    · rw [h1, if_pos rfl]; exact ⟨_, rfl, by intro v h; cases h⟩
    · have hv' : e.find c!"ATTRIBUTE-VALUE-STRING" = some v := hv
      obtain ⟨a, ha⟩ := hv1.attr (name := c!"THE-VALUE") rfl
      rw [h1, if_neg (by decide), hv']
      dsimp only
      rw [attrReq_some ha, py_bind_ok, py_pure]
      exact ⟨_, rfl, by intro v _ h; simp at h⟩

theorem default_simple {s : SpecKind} {k : Kind} {t : AttrType} {tag : Str} (hd : d ≠ .xsd) (h : Seen d (.definition s k) x)
    (ht : tag = c!"ATTRIBUTE-VALUE-" ++ k.name) (hk : k ≠ .string ∧ k ≠ .xhtml ∧ k ≠ .enumeration)
    (ha : (schema d (.value true k)).attrs.any (fun a => a.name == c!"THE-VALUE" && a.required) = true)
    (hb : t ≠ .boolean ∧ t ≠ .xhtml ∧ t ≠ .enumeration) : ∃ p, parseDefaultSimple x tag = .ok p ∧ DefaultPrints t p := by
  unfold parseDefaultSimple
  rcases definition_default hd h with hn | ⟨e, he, hh⟩
  · rw [hn]; exact ⟨_, rfl, by intro v h; cases h⟩
  · rw [he]
    dsimp only
    rcases hh with ⟨-, -, h1⟩ | ⟨h1, v, hv, hv1⟩
    · rcases h1 with h1 | h1 | h1
      · exact absurd h1 hk.1
      · exact absurd h1 hk.2.1
      · exact absurd h1 hk.2.2
    · obtain ⟨a, ha⟩ := hv1.attr ha
      rw [ht, hv]
      dsimp only
      rw [attrReq_some ha, py_bind_ok, py_pure]
      refine ⟨_, rfl, ?_⟩
      rintro - - (h1 | h1 | h1)
      · exact absurd h1 hb.1
      · exact absurd h1 hb.2.1
      · exact absurd h1 hb.2.2

theorem default_boolean {s : SpecKind} (hd : d ≠ .xsd) (h : Seen d (.definition s .boolean) x) :
    ∃ p, parseDefaultBoolean x = .ok p ∧ DefaultPrints .boolean p := by
  unfold parseDefaultBoolean
  rcases definition_default hd h with hn | ⟨e, he, hh⟩
  · rw [hn]; exact ⟨_, rfl, by intro v h; cases h⟩
  · rw [he]
    dsimp only
    rcases hh with ⟨-, -, h1⟩ | ⟨h1, v, hv, hv1⟩
    · simp at h1
    · have hv' : e.find c!"ATTRIBUTE-VALUE-BOOLEAN" = some v := hv
      obtain ⟨a, ha⟩ := hv1.attr (name := c!"THE-VALUE") rfl
      obtain ⟨f, r, hf, hr, hr1⟩ := definition_ref hv1 (by first | rfl | (cases b <;> rfl))
      have hr' : f.find c!"ATTRIBUTE-DEFINITION-BOOLEAN-REF" = some r := hr
      obtain ⟨s, hs⟩ := hr1.refText
      rw [hv']
      dsimp only
      rw [attrReq_some ha, py_bind_ok, hf]
      dsimp only
      rw [hr']
      dsimp only
      rw [hs]
      exact ⟨_, rfl, fun _ _ _ => rfl⟩

theorem default_xhtml {s : SpecKind} (hd : d ≠ .xsd) (h : Seen d (.definition s .xhtml) x) :
    ∃ p, parseDefaultXhtml x = .ok p ∧ DefaultPrints .xhtml p := by
  unfold parseDefaultXhtml
  rcases definition_default hd h with hn | ⟨e, he, hh⟩
  · rw [hn]; exact ⟨_, rfl, by intro v h; cases h⟩
  · rw [he]
    dsimp only
    rcases hh with ⟨-, h1, -⟩ | ⟨h1, v, hv, hv1⟩
    · rw [h1, if_pos rfl]; exact ⟨_, rfl, by intro v h; cases h⟩
    · have hv' : e.find c!"ATTRIBUTE-VALUE-XHTML" = some v := hv
      obtain ⟨f, r, hf, hr, hr1⟩ := definition_ref hv1 (by first | rfl | (cases b <;> rfl))
      have hr' : f.find c!"ATTRIBUTE-DEFINITION-XHTML-REF" = some r := hr
      obtain ⟨s, hs⟩ := hr1.refText
      obtain ⟨tv, htv, htv1, -⟩ := hv1.need (nm := c!"THE-VALUE") (t' := .xhtmlContent true) rfl rfl rfl
      obtain ⟨out, hout⟩ := stringifyNs_ok htv1.plain (htv1.outer hd)
      rw [h1, if_neg (by decide), hv']
      dsimp only
      rw [hf]
      dsimp only
      rw [hr']
      dsimp only
      rw [hs, py_bind_ok, findReq_some htv, py_bind_ok, hout, py_bind_ok, py_pure]
      exact ⟨_, rfl, fun _ _ _ => rfl⟩

theorem default_enumeration {s : SpecKind} (hd : d ≠ .xsd) (h : Seen d (.definition s .enumeration) x) :
    ∃ p, parseDefaultEnumeration x = .ok p ∧ DefaultPrints .enumeration p := by
  unfold parseDefaultEnumeration
  rcases definition_default hd h with hn | ⟨e, he, hh⟩
  · rw [hn]; exact ⟨_, rfl, by intro v h; cases h⟩
  · rw [he]
    dsimp only
    rcases hh with ⟨-, h1, -⟩ | ⟨h1, v, hv, hv1⟩
    · rw [h1, if_pos rfl]; exact ⟨_, rfl, by intro v h; cases h⟩
    · have hv' : e.find c!"ATTRIBUTE-VALUE-ENUMERATION" = some v := hv
      obtain ⟨f, r, hf, hr, hr1⟩ := definition_ref hv1 (by first | rfl | (cases b <;> rfl))
      have hr' : f.find c!"ATTRIBUTE-DEFINITION-ENUMERATION-REF" = some r := hr
      obtain ⟨s, hs⟩ := hr1.refText
      rw [h1, if_neg (by decide), hv']
      dsimp only
      rw [hf]
      dsimp only
      rw [findReq_some hr', py_bind_ok, hs]
      rw [py_pure, py_bind_ok, py_pure]
      exact ⟨_, rfl, fun _ _ _ => rfl⟩

theorem body_parses {s : SpecKind} {k : Kind} (hd : d ≠ .xsd) (h : Seen d (.definition s k) x)
    (ht : x.tag = .name (c!"ATTRIBUTE-DEFINITION-" ++ k.name)) :
    ∃ t r p m, parseDefinitionBody x = .ok (t, r, p, m) ∧ DefaultPrints t p := by
  unfold parseDefinitionBody
  rw [ht]
  cases k with
  | string =>
    obtain ⟨r, hr⟩ := definition_typeRef h (tag := c!"DATATYPE-DEFINITION-STRING-REF") rfl
    obtain ⟨p, hp, hp1⟩ := default_string hd h
    rw [if_pos (by decide), hr, py_bind_ok, hp, py_bind_ok, py_pure]
    exact ⟨_, _, _, _, rfl, hp1⟩
  | integer =>
    obtain ⟨r, hr⟩ := definition_typeRef h (tag := c!"DATATYPE-DEFINITION-INTEGER-REF") rfl
    obtain ⟨p, hp, hp1⟩ := default_simple (t := .integer) (tag := c!"ATTRIBUTE-VALUE-INTEGER") hd h rfl (by simp) rfl (by simp)
    rw [if_neg (by decide), if_pos (by decide), hr, py_bind_ok, hp, py_bind_ok, py_pure]
    exact ⟨_, _, _, _, rfl, hp1⟩
  | real =>
    obtain ⟨r, hr⟩ := definition_typeRef h (tag := c!"DATATYPE-DEFINITION-REAL-REF") rfl
    obtain ⟨p, hp, hp1⟩ := default_simple (t := .real) (tag := c!"ATTRIBUTE-VALUE-REAL") hd h rfl (by simp) rfl (by simp)
    rw [if_neg (by decide), if_neg (by decide), if_pos (by decide), hr, py_bind_ok, hp, py_bind_ok, py_pure]
    exact ⟨_, _, _, _, rfl, hp1⟩
  | boolean =>
    obtain ⟨r, hr⟩ := definition_typeRef h (tag := c!"DATATYPE-DEFINITION-BOOLEAN-REF") rfl
    obtain ⟨p, hp, hp1⟩ := default_boolean hd h
    rw [if_neg (by decide), if_neg (by decide), if_neg (by decide), if_pos (by decide), hr, py_bind_ok, hp, py_bind_ok, py_pure]
    exact ⟨_, _, _, _, rfl, hp1⟩
  | xhtml =>
    obtain ⟨r, hr⟩ := definition_typeRef h (tag := c!"DATATYPE-DEFINITION-XHTML-REF") rfl
    obtain ⟨p, hp, hp1⟩ := default_xhtml hd h
    rw [if_neg (by decide), if_neg (by decide), if_neg (by decide), if_neg (by decide), if_pos (by decide), hr, py_bind_ok, hp,
      py_bind_ok, py_pure]
    exact ⟨_, _, _, _, rfl, hp1⟩
  | enumeration =>
    obtain ⟨r, hr⟩ := definition_typeRef h (tag := c!"DATATYPE-DEFINITION-ENUMERATION-REF") rfl
    obtain ⟨p, hp, hp1⟩ := default_enumeration hd h
    rw [if_neg (by decide), if_neg (by decide), if_neg (by decide), if_neg (by decide), if_neg (by decide), if_pos (by decide), hr,
      py_bind_ok, hp, py_bind_ok, py_pure]
    exact ⟨_, _, _, _, rfl, hp1⟩
  | date =>
    obtain ⟨r, hr⟩ := definition_typeRef h (tag := c!"DATATYPE-DEFINITION-DATE-REF") rfl
    obtain ⟨p, hp, hp1⟩ := default_simple (t := .date) (tag := c!"ATTRIBUTE-VALUE-DATE") hd h rfl (by simp) rfl (by simp)
    rw [if_neg (by decide), if_neg (by decide), if_neg (by decide), if_neg (by decide), if_neg (by decide), if_neg (by decide),
      if_pos (by decide), hr, py_bind_ok, hp, py_bind_ok, py_pure]
    exact ⟨_, _, _, _, rfl, hp1⟩

theorem defaultValue_prints {a : SpecAttributeDefinition} (h : DefaultPrints a.type (a.defaultValueDefinitionRef, a.defaultValue))
    {v : DefaultValue} (hv : a.defaultValue = some v) : ∃ s, unparseDefaultValue a v = .ok s := by
  cases v with
  | selfClosed => exact ⟨_, rfl⟩
  | str v =>
    have h1 := h v hv
    unfold unparseDefaultValue
    dsimp only at h1 ⊢
    cases ht : a.type with
    | enumeration =>
      obtain ⟨r, hr⟩ := Option.isSome_iff_exists.1 (h1 (.inr (.inr ht)))
      dsimp only; rw [hr]; exact ⟨_, rfl⟩
    | xhtml =>
      obtain ⟨r, hr⟩ := Option.isSome_iff_exists.1 (h1 (.inr (.inl ht)))
      dsimp only; rw [hr]; exact ⟨_, rfl⟩
    | boolean =>
      obtain ⟨r, hr⟩ := Option.isSome_iff_exists.1 (h1 (.inl ht))
      dsimp only; rw [hr]; exact ⟨_, rfl⟩
    | _ => exact ⟨_, rfl⟩

theorem childTags_mem {t : TypeName} (h : Seen d t x) (ho : (schema d t).model.isOpen = false) {tag : Tag} (ht : tag ∈ childTags x) :
    ∃ nm, tag = .name nm ∧ ((schema d t).model.typeOf nm).isSome = true := by
  unfold childTags at ht
  obtain ⟨c, hc, rfl⟩ := List.mem_map.1 ht
  obtain ⟨nm, t', h1, h2, -⟩ := h.child ho hc
  exact ⟨nm, h1, by rw [h2]; rfl⟩

theorem definition_parses {s : SpecKind} {k : Kind} (hd : d ≠ .xsd) (h : Seen d (.definition s k) x)
    (ht : x.tag = .name (c!"ATTRIBUTE-DEFINITION-" ++ k.name)) :
    ∃ a, parseAttributeDefinition x = .ok a ∧ (s = .specification → a.longName.isSome = true) ∧
      (d.prints = true → ∃ o, unparseAttributeDefinition a = .ok o) := by
  obtain ⟨i, hi⟩ := h.attr (name := c!"IDENTIFIER") rfl
  obtain ⟨t, r, p, m, hb, hp⟩ := body_parses hd h ht
  obtain ⟨pr, pv⟩ := p
  obtain ⟨a, ha⟩ : ∃ a, a = SpecAttributeDefinition.mk (type := t) (identifier := i) (datatypeDefinition := r) (xmlNode := some x)
            (description := x.attr? c!"DESC") (lastChange := x.attr? c!"LAST-CHANGE")
            (longName := x.attr? c!"LONG-NAME") (editable := editableOf (x.attr? c!"IS-EDITABLE"))
            (defaultValueDefinitionRef := pr) (defaultValue := pv) (multiValued := m) := ⟨_, rfl⟩
  have e1 : a.longName = x.attr? c!"LONG-NAME" := by rw [ha]
  have e2 : definitionChildTags a = childTags x := by rw [ha]; rfl
  have e3 : DefaultPrints a.type (a.defaultValueDefinitionRef, a.defaultValue) := by rw [ha]; exact hp
  refine ⟨a, ?_, ?_, ?_⟩
  · unfold parseAttributeDefinition
    rw [attrReq_some hi, py_bind_ok, hb, py_bind_ok, ha]
    rfl
  · intro hs
    subst hs
    obtain ⟨l, hl⟩ := h.attr (name := c!"LONG-NAME") (by cases d <;> first | rfl | exact absurd rfl hd)
    rw [e1, hl]; rfl
  · intro hw
    unfold unparseAttributeDefinition
    obtain ⟨o, ho⟩ := concatPy_all (f := unparseDefinitionChild a) (xs := childTags x) (by
      intro tag htag
      obtain ⟨nm, rfl, hn⟩ := childTags_mem h (by cases d <;> rfl) htag
      unfold unparseDefinitionChild
      by_cases h1 : nm = c!"DEFAULT-VALUE"
      · rw [h1, if_pos rfl]
        cases hv : a.defaultValue with
        | none => exact ⟨_, rfl⟩
        | some v => exact defaultValue_prints e3 hv
      · by_cases h2 : nm = c!"TYPE"
        · rw [h2, if_neg (by decide), if_pos rfl]; exact ⟨_, rfl⟩
        · exfalso
          have e : (schema d (.definition s k)).model = .all [⟨c!"DEFAULT-VALUE", false, .defaultValue k⟩,
            ⟨c!"TYPE", true, .definitionType k⟩] := by cases d <;> first | rfl | cases hw
          rw [e] at hn
          simp [Model.typeOf, List.find?_cons, Ne.symm h1, Ne.symm h2] at hn)
    rw [e2, ho, py_bind_ok, py_pure]
    exact ⟨_, rfl⟩

/-! ## Spec types -/

theorem definitions_parse {s : SpecKind} (hd : d ≠ .xsd) (h : Seen d (.specType s) x) :
    ∃ ds, parseAttributeDefinitions x = .ok ds ∧
      (s = .specification → ∀ l, ds = some l → ∀ a ∈ l, a.longName.isSome = true) ∧
      (d.prints = true → ∃ o, unparseSpecAttributes ds = .ok o) := by
  unfold parseAttributeDefinitions
  rcases h.opt (nm := c!"SPEC-ATTRIBUTES") (t' := .specAttributes s) rfl rfl with hn | ⟨sa, hs, hs1, -⟩
  · rw [hn]
    exact ⟨none, rfl, (by intro _ l hl; cases hl), fun _ => ⟨_, rfl⟩⟩
  · rw [hs]
    dsimp only
    obtain ⟨l, hl, hl1⟩ := mapPy_all (f := parseAttributeDefinition) (P := fun a =>
        (s = .specification → a.longName.isSome = true) ∧ (d.prints = true → ∃ o, unparseAttributeDefinition a = .ok o))
        (xs := sa.children) (by
      intro c hc
      obtain ⟨nm, t', h1, h2, h3⟩ := hs1.child rfl hc
      obtain ⟨k, -, hk⟩ := kind_choice h2
      simp only [Prod.mk.injEq] at hk
      rw [← hk.2] at h3
      rw [← hk.1] at h1
      exact definition_parses hd h3 h1)
    rw [hl, py_bind_ok, py_pure]
    refine ⟨some l, rfl, ?_, ?_⟩
    · intro h1 l' hl'
      cases hl'
      exact fun a ha => (hl1 a ha).1 h1
    · intro hw
      obtain ⟨o, ho⟩ := concatPy_all (fun a ha => (hl1 a ha).2 hw)
      unfold unparseSpecAttributes
      dsimp only
      unfold unparseAttributeDefinitions
      rw [ho, py_bind_ok, py_pure]
      exact ⟨_, rfl⟩

theorem specAttributeMap_ok : ∀ {l : List SpecAttributeDefinition} {m : Dict Str Str}, (∀ a ∈ l, a.longName.isSome = true) →
    ∃ m', specAttributeMap l m = .ok m'
  | [], m, _ => ⟨m, rfl⟩
  | a :: l, m, h => by
    obtain ⟨v, hv⟩ := Option.isSome_iff_exists.1 (h a (by simp))
    rw [specAttributeMap, hv]
    exact specAttributeMap_ok (fun b hb => h b (by simp [hb]))

def specTag : SpecKind → Str
  | .group => c!"RELATION-GROUP-TYPE"
  | .object => c!"SPEC-OBJECT-TYPE"
  | .relation => c!"SPEC-RELATION-TYPE"
  | .specification => c!"SPECIFICATION-TYPE"

theorem relationType_prints {tag : Str} {t : RelationType} (h : ∃ o, unparseSpecAttributes t.attributeDefinitions = .ok o) :
    ∃ o, unparseRelationType tag t = .ok o := by
  obtain ⟨o, ho⟩ := h
  unfold unparseRelationType
  dsimp only
  split
  · exact ⟨_, rfl⟩
  · rw [ho, py_bind_ok, py_pure]; exact ⟨_, rfl⟩

theorem specType_parses {s : SpecKind} (hd : d ≠ .xsd) (h : Seen d (.specType s) x) (ht : x.tag = .name (specTag s)) :
    ∃ t, parseSpecType x = .ok (some t) ∧ (d.prints = true → ∃ o, unparseSpecType t = .ok o) := by
  obtain ⟨i, hi⟩ := h.attr (name := c!"IDENTIFIER") rfl
  obtain ⟨ds, hds, hln, hw⟩ := definitions_parse hd h
  unfold parseSpecType
  cases s with
  | object =>
    have ht' : x.tag = .name c!"SPEC-OBJECT-TYPE" := ht
    rw [if_pos ht']
    unfold parseSpecObjectType
    rw [ht', beq_self_eq_true, assertTrue, py_bind_ok, attrReqNI_some hi, py_bind_ok, hds, py_bind_ok, py_pure, py_bind_ok, py_pure]
    refine ⟨_, rfl, ?_⟩
    intro h1
    obtain ⟨o, ho⟩ := hw h1
    unfold unparseSpecType
    dsimp only
    unfold unparseSpecObjectType
    dsimp only
    rw [ho, py_bind_ok, py_pure]
    exact ⟨_, rfl⟩
  | relation =>
    have ht' : x.tag = .name c!"SPEC-RELATION-TYPE" := ht
    obtain ⟨l, hl⟩ := h.attr (name := c!"LONG-NAME") (by cases d <;> first | rfl | exact absurd rfl hd)
    rw [ht', if_neg (by decide), if_pos rfl]
    unfold parseSpecRelationType
    rw [ht', beq_self_eq_true, assertTrue, py_bind_ok, attrReqNI_some hi, py_bind_ok, attrReqNI_some hl, py_bind_ok, hds, py_bind_ok,
      py_pure, py_bind_ok, py_pure]
    exact ⟨_, rfl, fun h1 => relationType_prints (hw h1)⟩
  | specification =>
    have ht' : x.tag = .name c!"SPECIFICATION-TYPE" := ht
    obtain ⟨l, hl⟩ := h.attr (name := c!"LAST-CHANGE") (by cases d <;> rfl)
    rw [ht', if_neg (by decide), if_neg (by decide), if_pos rfl]
    have hm : ∃ m, parseSpecificationType x = .ok (SpecificationType.mk (identifier := i) (description := x.attr? c!"DESC")
           (lastChange := some l)
           (longName := x.attr? c!"LONG-NAME") (specAttributes := ds)
           (specAttributeMap := some m) (isSelfClosed := isSelfClosedTag x)) := by
      unfold parseSpecificationType
      rw [ht', beq_self_eq_true, assertTrue, py_bind_ok, attrReqNI_some hi, py_bind_ok, attrReqNI_some hl, py_bind_ok, hds, py_bind_ok]
      cases hdc : ds with
      | none => exact ⟨_, rfl⟩
      | some l' =>
        obtain ⟨m, hm⟩ := specAttributeMap_ok (m := []) (hln rfl l' hdc)
        dsimp only
        rw [hm]
        exact ⟨_, rfl⟩
    obtain ⟨m, hm⟩ := hm
    rw [hm, py_bind_ok, py_pure]
    refine ⟨_, rfl, ?_⟩
    intro h1
    obtain ⟨o, ho⟩ := hw h1
    unfold unparseSpecType
    dsimp only
    unfold unparseSpecificationType
    dsimp only
    split
    · exact ⟨_, rfl⟩
    · rw [ho, py_bind_ok, py_pure]; exact ⟨_, rfl⟩
  | group =>
    have ht' : x.tag = .name c!"RELATION-GROUP-TYPE" := ht
    rw [ht', if_neg (by decide), if_neg (by decide), if_neg (by decide), if_pos rfl]
    unfold parseRelationGroupType
    rw [ht', beq_self_eq_true, assertTrue, py_bind_ok, attrReqNI_some hi, py_bind_ok, hds, py_bind_ok, py_pure, py_bind_ok, py_pure]
    exact ⟨_, rfl, fun h1 => relationType_prints (hw h1)⟩

/-! ## Spec objects and relations -/

theorem specObject_parses (hd : d ≠ .xsd) (h : Seen d .specObject x) (ht : x.tag = .name c!"SPEC-OBJECT") :
    ∃ o, parseSpecObject x = .ok o ∧ (d.prints = true → ∃ s, unparseSpecObject o = .ok s) := by
  obtain ⟨i, hi⟩ := h.attr (name := c!"IDENTIFIER") rfl
  obtain ⟨t, hty, ht1, -⟩ := h.need (nm := c!"TYPE") (t' := .objectType) rfl (by cases d <;> rfl) (by cases d <;> rfl)
  obtain ⟨r, hr, -, -⟩ := ht1.need (nm := c!"SPEC-OBJECT-TYPE-REF") (t' := .text .localRef) rfl rfl rfl
  obtain ⟨vs, hv, hv1⟩ := values_parse hd (o := x.find c!"VALUES") (by
    intro n hn
    obtain ⟨t', e1, e2, -⟩ := h.find rfl hn
    have : (schema d .specObject).model.typeOf c!"VALUES" = some .values := by cases d <;> rfl
    rw [this] at e1
    cases e1
    exact e2)
  have hc : tagContains x c!"SPEC-OBJECT" = .ok true := by
    unfold tagContains
    rw [ht]
    rfl
  obtain ⟨o, ho⟩ : ∃ o, o = SpecObject.mk (identifier := i) (attributes := vs.getD []) (specObjectType := r.text?)
           (description := x.attr? c!"DESC") (lastChange := x.attr? c!"LAST-CHANGE")
           (longName := x.attr? c!"LONG-NAME") (xmlNode := some x) := ⟨_, rfl⟩
  refine ⟨o, ?_, ?_⟩
  · unfold parseSpecObject
    rw [hc, py_bind_ok, assertTrue, py_bind_ok, attrReqNI_some hi, py_bind_ok, findReq_some hty, py_bind_ok, findReq_some hr, py_bind_ok,
      hv, py_bind_ok, py_pure, ho]
  · intro hw
    obtain ⟨v, hvv, -, -⟩ := h.need (nm := c!"VALUES") (t' := .values) rfl (by cases d <;> first | rfl | cases hw) (by cases d <;> rfl)
    have e1 : specObjectChildTags o = .ok (childTags x) := by
      rw [ho]
      unfold specObjectChildTags
      dsimp only
      rw [find_childTags hvv, assertTrue, py_bind_ok, find_childTags hty, assertTrue, py_bind_ok, py_pure]
    have e2 : ∃ s, unparseAttributeValues (some o.attributes) = .ok s := by
      rw [ho]
      dsimp only
      refine prints_all ?_
      intro a ha
      cases hvs : vs with
      | none => rw [hvs] at ha; cases ha
      | some l => rw [hvs] at ha; exact hv1 l hvs a ha
    obtain ⟨s, hs⟩ := e2
    unfold unparseSpecObject
    obtain ⟨b, hb⟩ := concatPy_all (f := unparseSpecObjectChild o) (xs := childTags x) (by
      intro tag _
      unfold unparseSpecObjectChild
      split
      · exact ⟨s, hs⟩
      · split <;> exact ⟨_, rfl⟩)
    rw [e1, py_bind_ok, hb, py_bind_ok, py_pure]
    exact ⟨_, rfl⟩

theorem relationValues_parse (hd : d ≠ .xsd) {o : Option Node} (h : ∀ n, o = some n → Seen d .relationValues n) :
    ∃ v, parseRelationValues o = .ok v ∧ ∀ a, v = some a → Prints a := by
  cases o with
  | none => exact ⟨none, rfl, by intro a ha; cases ha⟩
  | some n =>
    have hn := h n rfl
    unfold parseRelationValues
    dsimp only
    cases hc : n.children with
    | nil => exact ⟨none, rfl, by intro a ha; cases ha⟩
    | cons c cs =>
      dsimp only
      obtain ⟨nm, t', h1, h2, h3⟩ := hn.child (by cases d <;> rfl) (c := c) (by rw [hc]; simp)
      have e : (schema d .relationValues).model = .choice 0 none (([.integer, .string, .xhtml] : List Kind).map fun k =>
          (c!"ATTRIBUTE-VALUE-" ++ k.name, .value false k)) := by cases d <;> first | rfl | exact absurd rfl hd
      rw [e] at h2
      obtain ⟨k, hk, hk1⟩ := kind_choice h2
      simp only [Prod.mk.injEq] at hk1
      rw [← hk1.2] at h3
      rw [← hk1.1] at h1
      rw [h1]
      simp only [List.mem_cons, List.not_mem_nil, or_false] at hk
      rcases hk with rfl | rfl | rfl
      · obtain ⟨v, hv⟩ := h3.attr (name := c!"THE-VALUE") rfl
        obtain ⟨e, r, he, hr⟩ := firstChild_value h3 rfl
        rw [if_neg (by decide), if_neg (by decide), if_pos (by decide), attrReq_some hv, py_bind_ok, he, py_bind_ok, hr, py_bind_ok, py_pure]
        refine ⟨_, rfl, ?_⟩
        intro a ha
        cases ha
        exact ⟨_, rfl⟩
      · obtain ⟨v, hv⟩ := h3.attr (name := c!"THE-VALUE") rfl
        obtain ⟨e, r, he, hr⟩ := firstChild_value h3 rfl
        rw [if_pos (by decide), attrReq_some hv, py_bind_ok, he, py_bind_ok, hr, py_bind_ok, py_pure]
        refine ⟨_, rfl, ?_⟩
        intro a ha
        cases ha
        exact ⟨_, rfl⟩
      · obtain ⟨v, hv, hp⟩ := xhtmlValue_parses h3
        rw [if_neg (by decide), if_pos (by decide), hv, py_bind_ok, py_pure]
        refine ⟨_, rfl, ?_⟩
        intro a ha
        cases ha
        exact hp

theorem specRelation_parses (hd : d ≠ .xsd) (h : Seen d .specRelation x) (ht : x.tag = .name c!"SPEC-RELATION") :
    ∃ r, parseSpecRelation x = .ok (.ok r) ∧ (d.prints = true → ∃ s, unparseSpecRelation r = .ok s) := by
  obtain ⟨i, hi⟩ := h.attr (name := c!"IDENTIFIER") rfl
  obtain ⟨t, hty, ht1, -⟩ := h.need (nm := c!"TYPE") (t' := .relationType) (by cases d <;> rfl) (by cases d <;> rfl) (by cases d <;> rfl)
  obtain ⟨tr, htr, -, -⟩ := ht1.need (nm := c!"SPEC-RELATION-TYPE-REF") (t' := .text .localRef) rfl rfl rfl
  obtain ⟨s, hs, hs1, -⟩ := h.need (nm := c!"SOURCE") (t' := .relationEnd) (by cases d <;> rfl) (by cases d <;> rfl) (by cases d <;> rfl)
  obtain ⟨sr, hsr, -, -⟩ := hs1.need (nm := c!"SPEC-OBJECT-REF") (t' := .text .string) rfl rfl rfl
  obtain ⟨g, hg, hg1, -⟩ := h.need (nm := c!"TARGET") (t' := .relationEnd) (by cases d <;> rfl) (by cases d <;> rfl) (by cases d <;> rfl)
  obtain ⟨gr, hgr, -, -⟩ := hg1.need (nm := c!"SPEC-OBJECT-REF") (t' := .text .string) rfl rfl rfl
  obtain ⟨v, hv, hv1⟩ := relationValues_parse hd (o := x.find c!"VALUES") (by
    intro n hn
    obtain ⟨t', e1, e2, -⟩ := h.find (by cases d <;> rfl) hn
    have : (schema d .specRelation).model.typeOf c!"VALUES" = some .relationValues := by cases d <;> rfl
    rw [this] at e1
    cases e1
    exact e2)
  obtain ⟨r, hr⟩ : ∃ r, r = SpecRelation.mk (identifier := i) (relationTypeRef := tr.text?) (source := sr.text?) (target := gr.text?)
        (xmlNode := some x) (description := x.attr? c!"DESC") (lastChange := x.attr? c!"LAST-CHANGE")
        (longName := x.attr? c!"LONG-NAME") (valuesAttribute := v) := ⟨_, rfl⟩
  refine ⟨r, ?_, ?_⟩
  · unfold parseSpecRelation
    rw [ht, beq_self_eq_true, assertTrue, py_bind_ok, find_childTags hty, assertTrue, py_bind_ok, find_childTags hs, find_childTags hg,
      if_neg (by decide), if_neg (by decide), hi, attrReq_some hi]
    dsimp only [Option.isSome_some]
    rw [assertTrue, py_bind_ok, py_bind_ok, findReq_some hty, py_bind_ok, findReq_some htr, py_bind_ok, findReq_some hs, py_bind_ok,
      findReq_some hsr, py_bind_ok, findReq_some hg, py_bind_ok, findReq_some hgr, py_bind_ok, hv, py_bind_ok, py_pure, hr]
  · intro hw
    unfold unparseSpecRelation
    have e1 : specRelationChildTags r = childTags x := by rw [hr]; rfl
    have e2 : r.valuesAttribute = v := by rw [hr]
    obtain ⟨o, ho⟩ := concatPy_all (f := unparseSpecRelationChild r) (xs := childTags x) (by
      intro tag htag
      obtain ⟨nm, rfl, hn⟩ := childTags_mem h (by cases d <;> rfl) htag
      unfold unparseSpecRelationChild
      by_cases h1 : nm = c!"TYPE"
      · rw [h1, if_pos rfl]; exact ⟨_, rfl⟩
      by_cases h2 : nm = c!"SOURCE"
      · rw [h2, if_neg (by decide), if_pos rfl]; exact ⟨_, rfl⟩
      by_cases h3 : nm = c!"TARGET"
      · rw [h3, if_neg (by decide), if_neg (by decide), if_pos rfl]; exact ⟨_, rfl⟩
      by_cases h4 : nm = c!"VALUES"
      · rw [h4, if_neg (by decide), if_neg (by decide), if_neg (by decide), if_pos rfl, e2]
        cases hvv : v with
        | none => exact ⟨_, rfl⟩
        | some a =>
          dsimp only
          refine prints_all ?_
          intro b hb
          rw [List.mem_singleton] at hb
          rw [hb]
          exact hv1 a hvv
      · exfalso
        have e : (schema d .specRelation).model = .all [⟨c!"VALUES", false, .relationValues⟩,
          ⟨c!"SOURCE", true, .relationEnd⟩, ⟨c!"TARGET", true, .relationEnd⟩, ⟨c!"TYPE", true, .relationType⟩] := by cases d <;> first | rfl | cases hw
        rw [e] at hn
        simp [Model.typeOf, List.find?_cons, Ne.symm h1, Ne.symm h2, Ne.symm h3, Ne.symm h4] at hn)
    rw [e1, ho, py_bind_ok, py_pure]
    exact ⟨_, rfl⟩

theorem relationGroup_parses (h : Seen d .relationGroup x) (ht : x.tag = .name c!"RELATION-GROUP") :
    ∃ g, parseRelationGroup x = .ok g := by
  obtain ⟨i, hi⟩ := h.attr (name := c!"IDENTIFIER") rfl
  have hc : tagContains x c!"RELATION-GROUP" = .ok true := by
    unfold tagContains
    rw [ht]
    rfl
  unfold parseRelationGroup
  rw [hc, py_bind_ok, assertTrue, py_bind_ok, attrReqNI_some hi, py_bind_ok, py_pure]
  exact ⟨_, rfl⟩

theorem header_parses (h : Seen d .theHeader x) (ht : x.tag = .name c!"THE-HEADER") :
    ∃ v, parseHeader x = .ok v ∧ ∃ s, unparseHeader v = .ok s := by
  obtain ⟨e, he, he1, -⟩ := h.need (nm := c!"REQ-IF-HEADER") (t' := .header) rfl rfl rfl
  obtain ⟨i, hi⟩ := he1.attr (name := c!"IDENTIFIER") rfl
  have hne : i.isEmpty = false := by
    have h1 := he1.attrType hi (by decide)
    cases i with
    | nil => exact absurd h1 (by cases d <;> decide)
    | cons => rfl
  unfold parseHeader
  rw [ht, beq_self_eq_true, assertTrue, py_bind_ok, he]
  dsimp only
  rw [attrReqNI_some hi, py_bind_ok, py_pure]
  refine ⟨_, rfl, ?_⟩
  unfold unparseHeader
  dsimp only
  rw [hne]
  exact ⟨_, rfl⟩

/-! ## Specifications -/

theorem hierarchyLevel {h : Hierarchy} {l : Nat} (hl : h.info.level = l) (hp : 0 < l) : ∃ b, h.baseLevel = .ok b := by
  unfold Hierarchy.baseLevel
  rw [hl, if_pos hp]
  exact ⟨_, rfl⟩

theorem hierarchies_print : ∀ {hs : List Hierarchy}, (∀ h ∈ hs, ∃ s, unparseHierarchy h = .ok s) → ∃ s, unparseHierarchies hs = .ok s
  | [], _ => ⟨[], by rw [unparseHierarchies]⟩
  | h :: hs, hh => by
    obtain ⟨a, ha⟩ := hh h (by simp)
    obtain ⟨b, hb⟩ := hierarchies_print (hs := hs) (fun h' hm => hh h' (by simp [hm]))
    rw [unparseHierarchies, ha]
    dsimp only
    rw [hb]
    exact ⟨_, rfl⟩

theorem leaf_prints {i : HInfo} (h : 0 < i.level) : ∃ s, unparseHierarchy (.leaf i) = .ok s := by
  obtain ⟨b, hb⟩ := hierarchyLevel (h := .leaf i) rfl h
  rw [unparseHierarchy, hb]
  exact ⟨_, rfl⟩

theorem node_prints {i : HInfo} {cs : List Hierarchy} {t : Str} (h : 0 < i.level) (hc : unparseHierarchies cs = .ok t) :
    ∃ s, unparseHierarchy (.node i cs) = .ok s := by
  obtain ⟨b, hb⟩ := hierarchyLevel (h := .node i cs) rfl h
  rw [unparseHierarchy, hb]
  dsimp only
  rw [hc]
  exact ⟨_, rfl⟩

mutual
theorem hierarchy_parses : ∀ (x : Node) (level : Nat), 0 < level → Seen d .hierarchy x → x.tag = .name c!"SPEC-HIERARCHY" →
    ∃ h, parseHierarchy level x = .ok h ∧ ∃ s, unparseHierarchy h = .ok s
  | .text _, _, _, h, _ => by obtain ⟨i, ks, e⟩ := h.isElem; cases e
  | .comment _, _, _, h, _ => by obtain ⟨i, ks, e⟩ := h.isElem; cases e
  | .pi _ _, _, _, h, _ => by obtain ⟨i, ks, e⟩ := h.isElem; cases e
  | .elem i ks, level, hl, h, ht => by
    obtain ⟨id, hid⟩ := h.attr (name := c!"IDENTIFIER") rfl
    obtain ⟨o, ho, ho1, -⟩ := h.need (nm := c!"OBJECT") (t' := .hierarchyObject) rfl rfl rfl
    obtain ⟨r, hr, -, -⟩ := ho1.need (nm := c!"SPEC-OBJECT-REF") (t' := .text .localRef) rfl rfl rfl
    have hk := firstChildren_parse ks (level + 1) (Nat.succ_pos _) (by
      intro c hc htx htag
      have hc' : c ∈ (Node.elem i ks).children := List.mem_filter.2 ⟨hc, by rw [htx]; rfl⟩
      obtain ⟨nm, t', h1, h2, h3⟩ := h.child rfl hc'
      rw [htag] at h1
      have e : nm = c!"CHILDREN" := by injection h1 with h1; exact h1.symm
      rw [e] at h2
      have e2 : (schema d .hierarchy).model.typeOf c!"CHILDREN" = some .children := rfl
      rw [e2] at h2
      cases h2
      exact h3)
    rw [parseHierarchy, if_pos ht, attrReqNI_some hid]
    dsimp only
    rw [ho]
    dsimp only
    rw [hr]
    dsimp only
    rcases hk with hk | ⟨sc, cs, hk, s, hs⟩
    · rw [hk]
      dsimp only
      refine ⟨_, rfl, ?_⟩
      exact leaf_prints hl
    · rw [hk]
      dsimp only
      exact ⟨_, rfl, node_prints hl hs⟩

theorem firstChildren_parse : ∀ (ks : List Node) (level : Nat), 0 < level →
    (∀ c ∈ ks, c.isText = false → c.tag = .name c!"CHILDREN" → Seen d .children c) →
    parseFirstChildren level ks = none ∨
      ∃ sc cs, parseFirstChildren level ks = some (.ok (sc, cs)) ∧ ∃ s, unparseHierarchies cs = .ok s
  | [], _, _, _ => .inl (by rw [parseFirstChildren])
  | .text _ :: ks, level, hl, h => by
    rw [parseFirstChildren]; exact firstChildren_parse ks level hl (fun c hc => h c (by simp [hc]))
  | .comment _ :: ks, level, hl, h => by
    rw [parseFirstChildren]; exact firstChildren_parse ks level hl (fun c hc => h c (by simp [hc]))
  | .pi _ _ :: ks, level, hl, h => by
    rw [parseFirstChildren]; exact firstChildren_parse ks level hl (fun c hc => h c (by simp [hc]))
  | .elem i cs :: ks, level, hl, h => by
    rw [parseFirstChildren]
    by_cases ht : (Node.elem i cs).tag = .name c!"CHILDREN"
    · rw [if_pos ht]
      have hs := h _ (by simp) rfl ht
      obtain ⟨hs', hp, s, hps⟩ := hierarchies_parse cs level hl (by
        intro c hc htx
        have hc' : c ∈ (Node.elem i cs).children := List.mem_filter.2 ⟨hc, by rw [htx]; rfl⟩
        obtain ⟨nm, t', h1, h2, h3⟩ := hs.child rfl hc'
        have := typeOf_choice h2
        simp only [List.mem_singleton, Prod.mk.injEq] at this
        rw [this.2] at h3
        rw [this.1] at h1
        exact ⟨h3, h1⟩)
      rw [hp]
      exact .inr ⟨_, hs', rfl, s, hps⟩
    · rw [if_neg ht]
      exact firstChildren_parse ks level hl (fun c hc => h c (by simp [hc]))

theorem hierarchies_parse : ∀ (ks : List Node) (level : Nat), 0 < level →
    (∀ c ∈ ks, c.isText = false → Seen d .hierarchy c ∧ c.tag = .name c!"SPEC-HIERARCHY") →
    ∃ hs, parseHierarchies level ks = .ok hs ∧ ∃ s, unparseHierarchies hs = .ok s
  | [], _, _, _ => ⟨[], by rw [parseHierarchies], [], by rw [unparseHierarchies]⟩
  | .text _ :: ks, level, hl, h => by
    rw [parseHierarchies]; exact hierarchies_parse ks level hl (fun c hc => h c (by simp [hc]))
  | .comment _ :: ks, level, hl, h => by
    obtain ⟨i, ks, e⟩ := (h _ (List.mem_cons_self ..) rfl).1.isElem; cases e
  | .pi _ _ :: ks, level, hl, h => by
    obtain ⟨i, ks, e⟩ := (h _ (List.mem_cons_self ..) rfl).1.isElem; cases e
  | .elem i cs :: ks, level, hl, h => by
    obtain ⟨h1, h2⟩ := h _ (List.mem_cons_self ..) rfl
    obtain ⟨hh, hp, a, ha⟩ := hierarchy_parses (.elem i cs) level hl h1 h2
    obtain ⟨hs, hps, b, hb⟩ := hierarchies_parse ks level hl (fun c hc => h c (by simp [hc]))
    rw [parseHierarchies, hp]
    · dsimp only
      rw [hps]
      refine ⟨_, rfl, ?_⟩
      rw [unparseHierarchies, ha]
      dsimp only
      rw [hb]
      exact ⟨_, rfl⟩
    · simp
end

theorem specification_parses (hd : d ≠ .xsd) (h : Seen d .specification x) (ht : x.tag = .name c!"SPECIFICATION") :
    ∃ v, parseSpecification x = .ok v ∧ ∃ s, unparseSpecification v = .ok s := by
  obtain ⟨i, hi⟩ := h.attr (name := c!"IDENTIFIER") rfl
  obtain ⟨vs, hv, hv1⟩ := values_parse hd (o := x.find c!"VALUES") (by
    intro n hn
    obtain ⟨t', e1, e2, -⟩ := h.find rfl hn
    have : (schema d .specification).model.typeOf c!"VALUES" = some .values := rfl
    rw [this] at e1
    cases e1
    exact e2)
  have hc : tagContains x c!"SPECIFICATION" = .ok true := by
    unfold tagContains
    rw [ht]
    rfl
  have hch : ∀ c, findLast x c!"CHILDREN" = some c → Seen d .children c := by
    intro c hc
    unfold findLast at hc
    have h1 := List.mem_of_getLast? hc
    rw [List.mem_filter, beq_iff_eq] at h1
    obtain ⟨nm, t', e1, e2, e3⟩ := h.child rfl h1.1
    rw [h1.2] at e1
    have e : nm = c!"CHILDREN" := by injection e1 with h1; exact h1.symm
    rw [e] at e2
    have e4 : (schema d .specification).model.typeOf c!"CHILDREN" = some .children := rfl
    rw [e4] at e2
    cases e2
    exact e3
  have hcs : ∃ cs, parseSpecification x = .ok (Specification.mk (identifier := i) (description := x.attr? c!"DESC")
           (lastChange := x.attr? c!"LAST-CHANGE")
           (longName := x.attr? c!"LONG-NAME") (values := vs)
           (specificationType := optRef x c!"TYPE" c!"SPECIFICATION-TYPE-REF")
           (children := cs) (xmlNode := some x)) ∧ ∀ l, cs = some l → ∃ s, unparseHierarchies l = .ok s := by
    unfold parseSpecification
    rw [hc, py_bind_ok, assertTrue, py_bind_ok, attrReqNI_some hi, py_bind_ok]
    cases hf : findLast x c!"CHILDREN" with
    | none =>
      refine ⟨none, ?_, by intro l hl; cases hl⟩
      dsimp only
      rw [py_bind_ok, hv, py_bind_ok, py_pure]
    | some c =>
      dsimp only
      obtain ⟨l, hl, hl1⟩ := mapPy_all (f := parseHierarchy 1) (P := fun h => ∃ s, unparseHierarchy h = .ok s) (xs := c.children) (by
        intro k hk
        obtain ⟨nm, t', h1, h2, h3⟩ := (hch c hf).child rfl hk
        have := typeOf_choice h2
        simp only [List.mem_singleton, Prod.mk.injEq] at this
        rw [this.2] at h3
        rw [this.1] at h1
        exact hierarchy_parses k 1 (by decide) h3 h1)
      refine ⟨some l, ?_, ?_⟩
      · rw [hl, py_bind_ok, py_pure, py_bind_ok, hv, py_bind_ok, py_pure]
      · intro l' hl'
        cases hl'
        exact hierarchies_print hl1
  obtain ⟨cs, hp, hcp⟩ := hcs
  generalize hsp : Specification.mk .. = v at hp
  refine ⟨v, hp, ?_⟩
  have e1 : v.children = cs := by rw [← hsp]
  have e2 : v.values = vs := by rw [← hsp]
  unfold unparseSpecification
  obtain ⟨b, hb⟩ := concatPy_all (f := unparseSpecificationChild v) (xs := specificationChildTags v) (by
    intro tag _
    unfold unparseSpecificationChild
    split
    · exact ⟨_, rfl⟩
    · split
      · rw [e1]
        cases hcc : cs with
        | none => exact ⟨_, rfl⟩
        | some l =>
          obtain ⟨s, hs⟩ := hcp l hcc
          dsimp only
          rw [hs, py_bind_ok, py_pure]
          exact ⟨_, rfl⟩
      · split
        · rw [e2]
          cases hvv : vs with
          | none => exact ⟨_, rfl⟩
          | some l => exact prints_all (hv1 l hvv)
        · exact ⟨_, rfl⟩)
  rw [hb, py_bind_ok, py_pure]
  exact ⟨_, rfl⟩

end ReqIF.Xsd
