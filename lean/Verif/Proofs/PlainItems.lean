import Verif.Proofs.PlainTools
import Verif.Spec.Bundle
/-! Items parsed from a plain document survive being written. -/
set_option linter.unusedSimpArgs false
namespace ReqIF.Xsd
open Spec

variable {X : Prop} {K : NsMap} {p : Str} {Γ : Ctx} {x : Node}

/-! ## Data types -/

theorem enumValue_safe (h : PSeen X K p .enumValue x) {v : EnumValue} (hv : parseEnumValue x = .ok v) : SafeEnumValue v := by
  obtain ⟨i, hi, hi1⟩ := h.attr (name := c!"IDENTIFIER") rfl rfl
  obtain ⟨q, hq, hq1, -⟩ := h.need (nm := c!"PROPERTIES") (t' := .properties) rfl rfl rfl
  obtain ⟨e, he, he1, -⟩ := hq1.need (nm := c!"EMBEDDED-VALUE") (t' := .embeddedValue) rfl rfl rfl
  obtain ⟨k, hk, hk1⟩ := he1.attr (name := c!"KEY") rfl rfl
  unfold parseEnumValue at hv
  rw [attrReq_some hi, py_bind_ok, findReq_some hq, py_bind_ok, findReq_some he, py_bind_ok, attrReq_some hk, py_bind_ok, py_pure] at hv
  cases hv
  exact ⟨hi1, hk1, h.plainAttr rfl, h.plainAttr rfl, he1.plainAttr rfl, h.lxmlAttr rfl⟩

theorem dataType_safe {k : Kind} (h : PSeen X K p (.dataType k) x) (ht : x.tag = .name (c!"DATATYPE-DEFINITION-" ++ k.name))
    {v : DataType} (hv : parseDataType x = .ok v) : SafeDataType v := by
  obtain ⟨i, hi, hi1⟩ := h.attr (name := c!"IDENTIFIER") rfl rfl
  have hc : tagContains x c!"DATATYPE-DEFINITION-" = .ok true := by
    unfold tagContains
    rw [ht]
    cases k <;> rfl
  unfold parseDataType at hv
  rw [hc, py_bind_ok, assertTrue, py_bind_ok] at hv
  dsimp only at hv
  rw [attrReq_some hi, py_bind_ok, ht] at hv
  have hdesc : Opt EscAttr (x.attr? c!"DESC") := h.lxmlAttr rfl
  have hlast : Opt PlainAttr (x.attr? c!"LAST-CHANGE") := h.plainAttr rfl
  cases k with
  | enumeration =>
    rw [if_pos (by decide)] at hv
    rcases h.opt (nm := c!"SPECIFIED-VALUES") (t' := .specifiedValues) rfl rfl with hn | ⟨sv, hs, hs1, -⟩
    · rw [hn] at hv
      cases hv
      exact ⟨hi1, hdesc, hlast, h.lxmlAttr rfl, trivial⟩
    · rw [hs] at hv
      dsimp only at hv
      obtain ⟨vs, hvs, hv⟩ := py_bind_inv hv
      cases hv
      refine ⟨hi1, hdesc, hlast, h.lxmlAttr rfl, ?_, ?_⟩
      · refine selfClosed_ne h.seen.isElem ?_
        intro e
        unfold Node.find at hs
        rw [e] at hs
        cases hs
      · intro w hw
        obtain ⟨c, hc, hp⟩ := mapPy_mem hvs hw
        obtain ⟨nm, t', -, h2, h3⟩ := hs1.child rfl hc
        have := typeOf_choice h2
        simp only [List.mem_singleton, Prod.mk.injEq] at this
        rw [this.2] at h3
        exact enumValue_safe h3 hp
  | string =>
    rw [if_neg (by decide), if_pos (by decide)] at hv
    cases hv
    exact ⟨hi1, hdesc, hlast, h.lxmlAttr rfl, h.plainAttr rfl⟩
  | integer =>
    rw [if_neg (by decide), if_neg (by decide), if_pos (by decide)] at hv
    cases hv
    exact ⟨hi1, hdesc, hlast, h.plainAttr rfl, h.plainAttr rfl, h.plainAttr rfl⟩
  | real =>
    rw [if_neg (by decide), if_neg (by decide), if_neg (by decide), if_pos (by decide)] at hv
    cases ha : x.attr? c!"ACCURACY" with
    | none =>
      rw [ha] at hv
      cases hv
      exact ⟨hi1, hdesc, hlast, h.plainAttr rfl, h.plainAttr rfl, h.plainAttr rfl⟩
    | some a =>
      rw [ha] at hv
      dsimp only at hv
      cases hn : pyInt a with
      | none => rw [hn] at hv; cases hv
      | some n =>
        rw [hn] at hv
        cases hv
        exact ⟨hi1, hdesc, hlast, h.plainAttr rfl, h.plainAttr rfl, h.plainAttr rfl⟩
  | xhtml =>
    rw [if_neg (by decide), if_neg (by decide), if_neg (by decide), if_neg (by decide), if_pos (by decide)] at hv
    cases hv
    exact ⟨hi1, hdesc, hlast, h.lxmlAttr rfl, trivial⟩
  | date =>
    rw [if_neg (by decide), if_neg (by decide), if_neg (by decide), if_neg (by decide), if_neg (by decide), if_pos (by decide)] at hv
    cases hv
    exact ⟨hi1, hdesc, hlast, h.plainAttr rfl, trivial⟩
  | boolean =>
    rw [if_neg (by decide), if_neg (by decide), if_neg (by decide), if_neg (by decide), if_neg (by decide), if_neg (by decide),
      if_pos (by decide)] at hv
    cases hv
    exact ⟨hi1, hdesc, hlast, h.lxmlAttr rfl, trivial⟩

/-! ## Attribute values -/

theorem plain_ref {b : Bool} {k : Kind} (h : PSeen X K p (.value b k) x) (hn : !b || k.namesDefinition) : ∃ e r, x.find c!"DEFINITION" = some e ∧
    e.find (c!"ATTRIBUTE-DEFINITION-" ++ k.name ++ c!"-REF") = some r ∧ PlainElem r.text? := by
  obtain ⟨e, he, he1, -⟩ := h.need (nm := c!"DEFINITION") (t' := .valueDefinition k) (by cases k <;> rfl)
    (by cases k <;> cases b <;> first | rfl | cases hn) (by cases k <;> rfl)
  obtain ⟨r, hr, hr1, hr2⟩ := he1.need (nm := c!"ATTRIBUTE-DEFINITION-" ++ k.name ++ c!"-REF") (t' := .text .localRef) rfl
    (by cases k <;> rfl) (by cases k <;> rfl)
  exact ⟨e, r, he, hr, hr1.ref hr2 (by cases k <;> decide)⟩

theorem first_ref {k : Kind} (h : PSeen X K p (.value false k) x)
    (hm : (schema .lenient (.value false k)).model = .all [⟨c!"DEFINITION", true, .valueDefinition k⟩]) :
    ∃ e r, firstChild x = .ok e ∧ firstChild e = .ok r ∧ PlainElem r.text? := by
  obtain ⟨e, r, he, hr, -⟩ := definition_ref h.seen rfl
  obtain ⟨e', he', hm'⟩ := find_firstChild he
  obtain ⟨nm, t', h1, h2, h3⟩ := h.child (by rw [hm]; rfl) hm'
  rw [hm] at h2
  have h4 : t' = .valueDefinition k := by
    simp only [Model.typeOf, Option.map_eq_some_iff] at h2
    obtain ⟨p, hp, hp2⟩ := h2
    have := List.mem_of_find?_eq_some hp
    rw [List.mem_singleton] at this
    rw [← hp2, this]
  rw [h4] at h3
  obtain ⟨r', hr', -, -⟩ := h3.need (nm := c!"ATTRIBUTE-DEFINITION-" ++ k.name ++ c!"-REF") (t' := .text .localRef) rfl
    (by cases k <;> rfl) (by cases k <;> rfl)
  obtain ⟨r'', hr'', hm''⟩ := find_firstChild hr'
  obtain ⟨nm', t'', g1, g2, g3⟩ := h3.child rfl hm''
  have := typeOf_choice g2
  simp only [List.mem_singleton, Prod.mk.injEq] at this
  rw [this.2] at g3
  refine ⟨e', r'', he', hr'', g3.ref g1 ?_⟩
  rw [this.1]
  cases k <;> decide

theorem simpleValue_safe {k : Kind} {t : AttrType} {tag : Str} (h : PSeen X K p (.value false k) x)
    (ha : (schema .lenient (.value false k)).attrs.any (fun a => a.name == c!"THE-VALUE" && a.required) = true)
    (he : escaping (.value false k) c!"THE-VALUE" = .none)
    (ht : tag = c!"ATTRIBUTE-DEFINITION-" ++ k.name ++ c!"-REF") {a : SpecObjectAttribute} (hv : parseSimpleValue x t tag = .ok a) :
    a.type = t ∧ PlainElem a.definitionRef ∧ ∃ v, a.value = .str v ∧ PlainAttr v := by
  obtain ⟨v, hv', hv1⟩ := h.attr ha he
  obtain ⟨e, r, he, hr, hr1⟩ := plain_ref h (by first | rfl | (cases b <;> rfl))
  unfold parseSimpleValue at hv
  rw [attrReq_some hv', py_bind_ok, findReq_some he, py_bind_ok, ht, findReq_some hr, py_bind_ok, py_pure] at hv
  cases hv
  exact ⟨rfl, hr1, v, rfl, hv1⟩

theorem xhtmlValue_safe {b : Bool} (hE : Env K p) (hΓ : Γ.pfx = p) (h : PSeen X K p (.value b .xhtml) x) {a : SpecObjectAttribute}
    (hv : parseXhtmlAttributeValue x = .ok a) (hu : usesXhtml a = true → X → XOk Γ) : SafeValue Γ a ∧ a.type = .xhtml := by
  obtain ⟨v, hf, hv1, -⟩ := h.need (nm := c!"THE-VALUE") (t' := .xhtmlContent b) rfl rfl rfl
  obtain ⟨e, r, he, hr, hr1⟩ := plain_ref h (by first | rfl | (cases b <;> rfl))
  have hr' : e.find c!"ATTRIBUTE-DEFINITION-XHTML-REF" = some r := hr
  obtain ⟨ts, t1, t2, t3, t4, t5, t6, t7⟩ := hv1.xhtml hE
  unfold parseXhtmlAttributeValue at hv
  rw [findReq_some hf, py_bind_ok] at hv
  have fin : a.type = .xhtml ∧ a.definitionRef = r.text? ∧ a.value = .str (printAll p ts) := by
    split at hv
    · rename_i hl
      rw [t3 (by intro e; rw [e] at hl; simp at hl), py_bind_ok] at hv
      obtain ⟨s, -, hv⟩ := py_bind_inv hv
      rw [findReq_some he, py_bind_ok, findReq_some hr', py_bind_ok, py_pure] at hv
      cases hv
      exact ⟨rfl, rfl, rfl⟩
    · rename_i hl
      rw [t4 (by cases hh : v.nsmap with
        | nil => rfl
        | cons a as => rw [hh] at hl; simp at hl), py_bind_ok, findReq_some he, py_bind_ok, findReq_some hr', py_bind_ok, py_pure] at hv
      cases hv
      exact ⟨rfl, rfl, rfl⟩
  obtain ⟨e1, e2, e3⟩ := fin
  refine ⟨⟨by rw [e2]; exact hr1, ?_⟩, e1⟩
  rw [e1, e3]
  dsimp only
  refine safeXhtml_of hE hΓ t1 t2 t5 ?_
  intro hlt
  refine hu ?_ (t7 ?_)
  · unfold usesXhtml
    rw [e1, e3]
    exact hlt
  · rw [← t6, ← print_lt p]
    exact hlt

theorem contains_tag {x c : Node} {nm : Str} (h : x.find nm = some c) : Tag.name nm ∈ childTags x := by
  have := find_childTags h
  simpa using this

theorem value_safe {k : Kind} (hE : Env K p) (hΓ : Γ.pfx = p) (h : PSeen X K p (.value false k) x)
    (ht : x.tag = .name (c!"ATTRIBUTE-VALUE-" ++ k.name)) {a : SpecObjectAttribute}
    (hv : parseAttributeValue x = .ok a) (hu : usesXhtml a = true → X → XOk Γ) : SafeValue Γ a := by
  unfold parseAttributeValue at hv
  rw [ht] at hv
  cases k with
  | string =>
    rw [if_pos (by decide)] at hv
    obtain ⟨v, hv'⟩ := h.seen.attr (name := c!"THE-VALUE") rfl
    obtain ⟨e, r, he, hr, hr1⟩ := first_ref h rfl
    rw [attrReq_some hv', py_bind_ok, he, py_bind_ok, hr, py_bind_ok, py_pure] at hv
    cases hv
    exact ⟨hr1, h.htmlAttr (name := c!"THE-VALUE") rfl v hv'⟩
  | enumeration =>
    rw [if_neg (by decide), if_pos (by decide)] at hv
    obtain ⟨e, r, he, hr, hr1⟩ := plain_ref h (by first | rfl | (cases b <;> rfl))
    have hr' : e.find c!"ATTRIBUTE-DEFINITION-ENUMERATION-REF" = some r := hr
    obtain ⟨vs, hvs, hvs1, -⟩ := h.need (nm := c!"VALUES") (t' := .enumRefs false) rfl rfl rfl
    rw [findReq_some he, py_bind_ok, findReq_some hr', py_bind_ok, hvs] at hv
    cases hv
    refine ⟨hr1, ?_, ?_⟩
    · intro v hv
      obtain ⟨c, hc, rfl⟩ := List.mem_map.1 hv
      obtain ⟨nm, t', g1, g2, g3⟩ := hvs1.child rfl hc
      have := typeOf_choice g2
      simp only [List.mem_singleton, Prod.mk.injEq] at this
      rw [this.2] at g3
      refine g3.ref g1 ?_
      rw [this.1]
      decide
    · rintro y ⟨⟩
      exact ⟨contains_tag hvs, contains_tag he⟩
  | integer =>
    rw [if_neg (by decide), if_neg (by decide), if_pos (by decide)] at hv
    obtain ⟨e1, e2, v, e3, e4⟩ := simpleValue_safe h rfl rfl rfl hv
    exact ⟨e2, by rw [e1, e3]; exact e4⟩
  | real =>
    rw [if_neg (by decide), if_neg (by decide), if_neg (by decide), if_pos (by decide)] at hv
    obtain ⟨e1, e2, v, e3, e4⟩ := simpleValue_safe h rfl rfl rfl hv
    exact ⟨e2, by rw [e1, e3]; exact e4⟩
  | boolean =>
    rw [if_neg (by decide), if_neg (by decide), if_neg (by decide), if_neg (by decide), if_pos (by decide)] at hv
    obtain ⟨e1, e2, v, e3, e4⟩ := simpleValue_safe h rfl rfl rfl hv
    exact ⟨e2, by rw [e1, e3]; exact e4⟩
  | date =>
    rw [if_neg (by decide), if_neg (by decide), if_neg (by decide), if_neg (by decide), if_neg (by decide), if_pos (by decide)] at hv
    obtain ⟨e1, e2, v, e3, e4⟩ := simpleValue_safe h rfl rfl rfl hv
    exact ⟨e2, by rw [e1, e3]; exact e4⟩
  | xhtml =>
    rw [if_neg (by decide), if_neg (by decide), if_neg (by decide), if_neg (by decide), if_neg (by decide), if_neg (by decide),
      if_pos (by decide)] at hv
    exact (xhtmlValue_safe hE hΓ h hv hu).1

theorem values_safe (hE : Env K p) (hΓ : Γ.pfx = p) {o : Option Node} (h : ∀ n, o = some n → PSeen X K p .values n)
    {vs : Option (List SpecObjectAttribute)} (hv : parseAttributeValues o = .ok vs) {l : List SpecObjectAttribute} (hl : vs = some l)
    (hu : l.any usesXhtml = true → X → XOk Γ) : ∀ a ∈ l, SafeValue Γ a := by
  cases o with
  | none => cases hv; cases hl
  | some n =>
    unfold parseAttributeValues at hv
    dsimp only at hv
    obtain ⟨l', hl', hv⟩ := py_bind_inv hv
    cases hv
    cases hl
    intro a ha
    obtain ⟨c, hc, hp⟩ := mapPy_mem hl' ha
    obtain ⟨nm, t', h1, h2, h3⟩ := (h n rfl).child rfl (List.mem_filter.1 hc).1
    obtain ⟨k, -, hk⟩ := kind_choice h2
    cases hk
    exact value_safe hE hΓ h3 h1.tag hp (fun hh => hu (List.any_eq_true.2 ⟨a, ha, hh⟩))

/-! ## Attribute definitions -/

theorem definition_type {s : SpecKind} {k : Kind} (h : PSeen X K p (.definition s k) x) {tag : Str}
    (ht : tag = c!"DATATYPE-DEFINITION-" ++ k.name ++ c!"-REF") {r : Option Str} (hr : parseDatatypeRef x tag = .ok r) : PlainElem r := by
  obtain ⟨e, he, he1, -⟩ := h.need (nm := c!"TYPE") (t' := .definitionType k) rfl rfl rfl
  obtain ⟨y, hy, hy1, hy2⟩ := he1.need (nm := c!"DATATYPE-DEFINITION-" ++ k.name ++ c!"-REF") (t' := .text .localRef) rfl
    (by cases k <;> rfl) (by cases k <;> rfl)
  unfold parseDatatypeRef at hr
  rw [findReq_some he, py_bind_ok, ht, findReq_some hy, py_bind_ok, py_pure] at hr
  cases hr
  exact hy1.ref hy2 (by cases k <;> decide)

/-- `DEFAULT-VALUE` is absent, empty (for three kinds), or holds a value. -/
theorem plain_default {s : SpecKind} {k : Kind} (h : PSeen X K p (.definition s k) x) :
    x.find c!"DEFAULT-VALUE" = none ∨ ∃ e, x.find c!"DEFAULT-VALUE" = some e ∧
      ((e.kids = [] ∧ isSelfClosedTag e = true ∧ (k = .string ∨ k = .xhtml ∨ k = .enumeration)) ∨
       (isSelfClosedTag e = false ∧ ∃ v, e.find (c!"ATTRIBUTE-VALUE-" ++ k.name) = some v ∧ PSeen X K p (.value true k) v)) := by
  rcases definition_default (by decide) h.seen with hn | ⟨e, he, hh⟩
  · exact .inl hn
  · refine .inr ⟨e, he, ?_⟩
    rcases hh with hh | ⟨h1, v, hv, -⟩
    · exact .inl hh
    · obtain ⟨he1, -⟩ := h.find (nm := c!"DEFAULT-VALUE") (t' := .defaultValue k) rfl rfl he
      refine .inr ⟨h1, v, hv, (he1.find (by cases k <;> rfl) ?_ hv).1⟩
      cases k <;> rfl

/-- What `SafeDefault` asks for, by type and default value. -/
def PlainDefault (X : Prop) (Γ : Ctx) (t : AttrType) (q : DefaultPart) : Prop :=
  (q.2 = some .selfClosed → t = .string ∨ t = .xhtml ∨ t = .enumeration) ∧
  ∀ v, q.2 = some (.str v) → match t with
    | .boolean => PlainAttr v ∧ PlainElem q.1
    | .enumeration => PlainElem (some v) ∧ PlainElem q.1
    | .xhtml => (v.contains '<' = true → X → XOk Γ) → SafeXhtml Γ v ∧ Γ.keep ≠ [] ∧ PlainElem q.1
    | _ => PlainAttr v

theorem plainDefault_safe {a : SpecAttributeDefinition} (h : PlainDefault X Γ a.type (a.defaultValueDefinitionRef, a.defaultValue))
    (hu : definitionUses a = true → X → XOk Γ) : SafeDefault Γ a := by
  obtain ⟨h1, h2⟩ := h
  unfold SafeDefault
  unfold definitionUses at hu
  dsimp only at h1 h2
  cases hd : a.defaultValue with
  | none => simp only
  | some v =>
    rw [hd] at h1 h2 hu
    cases v with
    | selfClosed =>
      rcases h1 rfl with ht | ht | ht <;> rw [ht] <;> simp only
    | str v =>
      have h2 := h2 v rfl
      cases ht : a.type <;> rw [ht] at h2 hu <;> simp only at h2 hu ⊢
      all_goals first | exact h2 | exact h2 hu

theorem defaultString_safe {s : SpecKind} (h : PSeen X K p (.definition s .string) x) {q : DefaultPart}
    (hq : parseDefaultString x = .ok q) : PlainDefault X Γ .string q := by
  unfold parseDefaultString at hq
  rcases plain_default h with hn | ⟨e, he, hh⟩
  · rw [hn] at hq; cases hq; exact ⟨by simp, by simp⟩
  · rw [he] at hq
    dsimp only at hq
    rcases hh with ⟨-, h1, -⟩ | ⟨h1, v, hv, hv1⟩
    · rw [h1, if_pos rfl] at hq; cases hq; exact ⟨by simp, by simp⟩
    · have hv' : e.find c!"ATTRIBUTE-VALUE-STRING" = some v := hv
      obtain ⟨a, ha, ha1⟩ := hv1.attr (name := c!"THE-VALUE") rfl rfl
      rw [h1, if_neg (by decide), hv'] at hq
      dsimp only at hq
      rw [attrReq_some ha, py_bind_ok, py_pure] at hq
      cases hq
      refine ⟨by simp, ?_⟩
      rintro w ⟨⟩
      exact ha1

theorem defaultSimple_safe {s : SpecKind} {k : Kind} {t : AttrType} {tag : Str} (h : PSeen X K p (.definition s k) x)
    (ht : tag = c!"ATTRIBUTE-VALUE-" ++ k.name) (hk : k ≠ .string ∧ k ≠ .xhtml ∧ k ≠ .enumeration)
    (ha : (schema .lenient (.value true k)).attrs.any (fun a => a.name == c!"THE-VALUE" && a.required) = true)
    (hb : t = .integer ∨ t = .real ∨ t = .date) {q : DefaultPart} (hq : parseDefaultSimple x tag = .ok q) : PlainDefault X Γ t q := by
  unfold parseDefaultSimple at hq
  rcases plain_default h with hn | ⟨e, he, hh⟩
  · rw [hn] at hq; cases hq; exact ⟨by simp, by simp⟩
  · rw [he] at hq
    dsimp only at hq
    rcases hh with ⟨-, -, h1⟩ | ⟨h1, v, hv, hv1⟩
    · rcases h1 with h1 | h1 | h1
      · exact absurd h1 hk.1
      · exact absurd h1 hk.2.1
      · exact absurd h1 hk.2.2
    · obtain ⟨a, ha, ha1⟩ := hv1.attr ha (by cases k <;> rfl)
      rw [ht, hv] at hq
      dsimp only at hq
      rw [attrReq_some ha, py_bind_ok, py_pure] at hq
      cases hq
      refine ⟨by simp, ?_⟩
      rintro w ⟨⟩
      rcases hb with rfl | rfl | rfl <;> exact ha1

theorem defaultBoolean_safe {s : SpecKind} (h : PSeen X K p (.definition s .boolean) x) {q : DefaultPart}
    (hq : parseDefaultBoolean x = .ok q) : PlainDefault X Γ .boolean q := by
  unfold parseDefaultBoolean at hq
  rcases plain_default h with hn | ⟨e, he, hh⟩
  · rw [hn] at hq; cases hq; exact ⟨by simp, by simp⟩
  · rw [he] at hq
    dsimp only at hq
    rcases hh with ⟨-, -, h1⟩ | ⟨h1, v, hv, hv1⟩
    · simp at h1
    · have hv' : e.find c!"ATTRIBUTE-VALUE-BOOLEAN" = some v := hv
      obtain ⟨a, ha, ha1⟩ := hv1.attr (name := c!"THE-VALUE") rfl rfl
      obtain ⟨f, r, hf, hr, hr1⟩ := plain_ref hv1 (by first | rfl | (cases b <;> rfl))
      have hr' : f.find c!"ATTRIBUTE-DEFINITION-BOOLEAN-REF" = some r := hr
      rw [hv'] at hq
      dsimp only at hq
      rw [attrReq_some ha, py_bind_ok, hf] at hq
      dsimp only at hq
      rw [hr'] at hq
      cases hq
      refine ⟨by simp, ?_⟩
      rintro w ⟨⟩
      exact ⟨ha1, hr1⟩

theorem outer_element {b : TypeName} (hb : b = .xhtmlContent true) (h : Seen .lenient b x) : x.kids.any isElement = true := by
  subst hb
  have h1 := h.countOk
  simp only [schema, Model.countOk, Bool.and_eq_true] at h1
  have h2 : x.kids.any declaresNothing = true := by
    have := h1.2
    simpa using this
  obtain ⟨k, hk, hk1⟩ := List.any_eq_true.1 h2
  refine List.any_eq_true.2 ⟨k, hk, ?_⟩
  cases k with
  | elem i ks => rfl
  | _ => cases hk1

theorem defaultXhtml_safe {s : SpecKind} (hE : Env K p) (hΓ : Γ.pfx = p) (h : PSeen X K p (.definition s .xhtml) x) {q : DefaultPart}
    (hq : parseDefaultXhtml x = .ok q) : PlainDefault X Γ .xhtml q := by
  unfold parseDefaultXhtml at hq
  rcases plain_default h with hn | ⟨e, he, hh⟩
  · rw [hn] at hq; cases hq; exact ⟨by simp, by simp⟩
  · rw [he] at hq
    dsimp only at hq
    rcases hh with ⟨-, h1, -⟩ | ⟨h1, v, hv, hv1⟩
    · rw [h1, if_pos rfl] at hq; cases hq; exact ⟨by simp, by simp⟩
    · have hv' : e.find c!"ATTRIBUTE-VALUE-XHTML" = some v := hv
      obtain ⟨f, r, hf, hr, hr1⟩ := plain_ref hv1 (by first | rfl | (cases b <;> rfl))
      have hr' : f.find c!"ATTRIBUTE-DEFINITION-XHTML-REF" = some r := hr
      obtain ⟨tv, htv, htv1, -⟩ := hv1.need (nm := c!"THE-VALUE") (t' := .xhtmlContent true) rfl rfl rfl
      obtain ⟨ts, t1, t2, t3, t4, t5, t6, t7⟩ := htv1.xhtml hE
      have hel := outer_element rfl htv1.seen
      rw [h1, if_neg (by decide), hv'] at hq
      dsimp only at hq
      rw [hf] at hq
      dsimp only at hq
      rw [hr'] at hq
      dsimp only at hq
      rw [py_bind_ok, findReq_some htv, py_bind_ok, t3 (htv1.seen.outer (by decide)), py_bind_ok, py_pure] at hq
      cases hq
      refine ⟨by simp, ?_⟩
      rintro w ⟨⟩
      dsimp only
      intro hu
      refine ⟨safeXhtml_of hE hΓ t1 t2 t5 (fun hh => hu hh (t7 hel)), ?_, hr1⟩
      rw [hel] at t6
      have := (hu (by rw [print_lt, t6]) (t7 hel)).2
      intro e
      rw [e] at this
      cases this

theorem defaultEnumeration_safe {s : SpecKind} (h : PSeen X K p (.definition s .enumeration) x) {q : DefaultPart}
    (hq : parseDefaultEnumeration x = .ok q) : PlainDefault X Γ .enumeration q := by
  unfold parseDefaultEnumeration at hq
  rcases plain_default h with hn | ⟨e, he, hh⟩
  · rw [hn] at hq; cases hq; exact ⟨by simp, by simp⟩
  · rw [he] at hq
    dsimp only at hq
    rcases hh with ⟨-, h1, -⟩ | ⟨h1, v, hv, hv1⟩
    · rw [h1, if_pos rfl] at hq; cases hq; exact ⟨by simp, by simp⟩
    · have hv' : e.find c!"ATTRIBUTE-VALUE-ENUMERATION" = some v := hv
      obtain ⟨f, r, hf, hr, hr1⟩ := plain_ref hv1 (by first | rfl | (cases b <;> rfl))
      have hr' : f.find c!"ATTRIBUTE-DEFINITION-ENUMERATION-REF" = some r := hr
      rw [h1, if_neg (by decide), hv'] at hq
      dsimp only at hq
      rw [hf] at hq
      dsimp only at hq
      rw [findReq_some hr', py_bind_ok, py_pure, py_bind_ok, py_pure] at hq
      cases hq
      refine ⟨by simp, ?_⟩
      intro w hw
      dsimp only at hw ⊢
      refine ⟨?_, hr1⟩
      rcases hv1.opt (nm := c!"VALUES") (t' := .enumRefs true) rfl rfl with hn | ⟨vs, hvs, hvs1, -⟩
      · rw [hn] at hw; cases hw
      · rw [hvs] at hw
        dsimp only at hw
        rcases hvs1.opt (nm := c!"ENUM-VALUE-REF") (t' := .text .localRef) rfl rfl with hn | ⟨rr, hrr, hrr1, hrr2⟩
        · rw [hn] at hw; cases hw
        · rw [hrr] at hw
          dsimp only at hw
          have hp := hrr1.ref hrr2 (by decide)
          obtain ⟨u, hu, -, -⟩ := id hp
          rw [hu] at hw hp
          cases hw
          exact hp

theorem body_safe {s : SpecKind} {k : Kind} (hE : Env K p) (hΓ : Γ.pfx = p) (h : PSeen X K p (.definition s k) x)
    (ht : x.tag = .name (c!"ATTRIBUTE-DEFINITION-" ++ k.name)) {t : AttrType} {r : Option Str} {q : DefaultPart} {m : Option Bool}
    (hb : parseDefinitionBody x = .ok (t, r, q, m)) : PlainElem r ∧ PlainDefault X Γ t q ∧ (m.isSome = true → t = .enumeration) := by
  unfold parseDefinitionBody at hb
  rw [ht] at hb
  cases k with
  | string =>
    rw [if_pos (by decide)] at hb
    obtain ⟨r', hr, hb⟩ := py_bind_inv hb
    obtain ⟨q', hq, hb⟩ := py_bind_inv hb
    cases hb
    exact ⟨definition_type h rfl hr, defaultString_safe h hq, by simp⟩
  | integer =>
    rw [if_neg (by decide), if_pos (by decide)] at hb
    obtain ⟨r', hr, hb⟩ := py_bind_inv hb
    obtain ⟨q', hq, hb⟩ := py_bind_inv hb
    cases hb
    exact ⟨definition_type h rfl hr, defaultSimple_safe h rfl (by simp) rfl (by simp) hq, by simp⟩
  | real =>
    rw [if_neg (by decide), if_neg (by decide), if_pos (by decide)] at hb
    obtain ⟨r', hr, hb⟩ := py_bind_inv hb
    obtain ⟨q', hq, hb⟩ := py_bind_inv hb
    cases hb
    exact ⟨definition_type h rfl hr, defaultSimple_safe h rfl (by simp) rfl (by simp) hq, by simp⟩
  | boolean =>
    rw [if_neg (by decide), if_neg (by decide), if_neg (by decide), if_pos (by decide)] at hb
    obtain ⟨r', hr, hb⟩ := py_bind_inv hb
    obtain ⟨q', hq, hb⟩ := py_bind_inv hb
    cases hb
    exact ⟨definition_type h rfl hr, defaultBoolean_safe h hq, by simp⟩
  | xhtml =>
    rw [if_neg (by decide), if_neg (by decide), if_neg (by decide), if_neg (by decide), if_pos (by decide)] at hb
    obtain ⟨r', hr, hb⟩ := py_bind_inv hb
    obtain ⟨q', hq, hb⟩ := py_bind_inv hb
    cases hb
    exact ⟨definition_type h rfl hr, defaultXhtml_safe hE hΓ h hq, by simp⟩
  | enumeration =>
    rw [if_neg (by decide), if_neg (by decide), if_neg (by decide), if_neg (by decide), if_neg (by decide), if_pos (by decide)] at hb
    obtain ⟨r', hr, hb⟩ := py_bind_inv hb
    obtain ⟨q', hq, hb⟩ := py_bind_inv hb
    cases hb
    exact ⟨definition_type h rfl hr, defaultEnumeration_safe h hq, by simp⟩
  | date =>
    rw [if_neg (by decide), if_neg (by decide), if_neg (by decide), if_neg (by decide), if_neg (by decide), if_neg (by decide),
      if_pos (by decide)] at hb
    obtain ⟨r', hr, hb⟩ := py_bind_inv hb
    obtain ⟨q', hq, hb⟩ := py_bind_inv hb
    cases hb
    exact ⟨definition_type h rfl hr, defaultSimple_safe h rfl (by simp) rfl (by simp) hq, by simp⟩

/-- A default value was read from a `DEFAULT-VALUE`. -/
theorem default_found {t : AttrType} {r : Option Str} {q : DefaultPart} {m : Option Bool}
    (hb : parseDefinitionBody x = .ok (t, r, q, m)) (hq : q.2.isSome = true) : (x.find c!"DEFAULT-VALUE").isSome = true := by
  cases hf : x.find c!"DEFAULT-VALUE" with
  | some e => rfl
  | none =>
    exfalso
    have key : ∀ (f : Py DefaultPart), f = .ok (none, none) → ∀ {t' : AttrType} {g : Py (Option Str)} {m' : Option Bool},
        (do let dt ← g; let dv ← f; return (t', dt, dv, m') : Py (AttrType × Option Str × DefaultPart × Option Bool)) = .ok (t, r, q, m) → False := by
      intro f hf t' g m' h
      obtain ⟨r', hr, h⟩ := py_bind_inv h
      rw [hf, py_bind_ok, py_pure] at h
      cases h
      cases hq
    unfold parseDefinitionBody at hb
    have e1 : parseDefaultString x = .ok (none, none) := by unfold parseDefaultString; rw [hf]
    have e2 : ∀ tag, parseDefaultSimple x tag = .ok (none, none) := by intro tag; unfold parseDefaultSimple; rw [hf]
    have e3 : parseDefaultBoolean x = .ok (none, none) := by unfold parseDefaultBoolean; rw [hf]
    have e4 : parseDefaultXhtml x = .ok (none, none) := by unfold parseDefaultXhtml; rw [hf]
    have e5 : parseDefaultEnumeration x = .ok (none, none) := by unfold parseDefaultEnumeration; rw [hf]
    repeat' split at hb
    · exact key _ e1 hb
    · exact key _ (e2 _) hb
    · exact key _ (e2 _) hb
    · exact key _ e3 hb
    · exact key _ e4 hb
    · exact key _ e5 hb
    · exact key _ (e2 _) hb
    · cases hb

theorem definition_safe {s : SpecKind} {k : Kind} (hE : Env K p) (hΓ : Γ.pfx = p) (h : PSeen X K p (.definition s k) x)
    (ht : x.tag = .name (c!"ATTRIBUTE-DEFINITION-" ++ k.name)) {a : SpecAttributeDefinition} (ha : parseAttributeDefinition x = .ok a)
    (hu : definitionUses a = true → X → XOk Γ) : SafeDefinition Γ a ∧ (s = .specification → a.longName.isSome = true) := by
  obtain ⟨i, hi, hi1⟩ := h.attr (name := c!"IDENTIFIER") rfl (by cases k <;> rfl)
  unfold parseAttributeDefinition at ha
  rw [attrReq_some hi, py_bind_ok] at ha
  obtain ⟨⟨t, r, ⟨pr, pv⟩, m⟩, hb, ha⟩ := py_bind_inv ha
  obtain ⟨s1, s2, s3⟩ := body_safe hE hΓ h ht hb
  have hfound := default_found hb
  obtain ⟨ty, hty, -, -⟩ := h.need (nm := c!"TYPE") (t' := .definitionType k) rfl rfl rfl
  dsimp only at ha hfound
  cases ha
  refine ⟨⟨hi1, h.lxmlAttr rfl, h.plainAttr rfl, h.lxmlAttr rfl, s1, plainDefault_safe s2 hu, s3, ?_, contains_tag hty, ?_⟩, ?_⟩
  · intro tag htag
    obtain ⟨nm, rfl, hn⟩ := childTags_mem h.seen rfl htag
    have e : (schema .lenient (.definition s k)).model = .all [⟨c!"DEFAULT-VALUE", false, .defaultValue k⟩,
      ⟨c!"TYPE", true, .definitionType k⟩] := rfl
    rw [e] at hn
    by_cases h1 : nm = c!"DEFAULT-VALUE"
    · rw [h1]; decide
    by_cases h2 : nm = c!"TYPE"
    · rw [h2]; decide
    simp [Model.typeOf, List.find?_cons, Ne.symm h1, Ne.symm h2] at hn
  · intro hd
    obtain ⟨e, he⟩ := Option.isSome_iff_exists.1 (hfound hd)
    exact contains_tag he
  · rintro rfl
    obtain ⟨l, hl⟩ := h.seen.attr (name := c!"LONG-NAME") rfl
    dsimp only
    rw [hl]
    rfl

/-! ## Spec types -/

theorem definitions_safe {s : SpecKind} (hE : Env K p) (hΓ : Γ.pfx = p) (h : PSeen X K p (.specType s) x)
    {ds : Option (List SpecAttributeDefinition)} (hd : parseAttributeDefinitions x = .ok ds)
    (hu : (ds.getD []).any definitionUses = true → X → XOk Γ) {l : List SpecAttributeDefinition} (hl : ds = some l) :
    ∀ a ∈ l, SafeDefinition Γ a ∧ (s = .specification → a.longName.isSome = true) := by
  unfold parseAttributeDefinitions at hd
  rcases h.opt (nm := c!"SPEC-ATTRIBUTES") (t' := .specAttributes s) rfl rfl with hn | ⟨sa, hs, hs1, -⟩
  · rw [hn] at hd; cases hd; cases hl
  · rw [hs] at hd
    dsimp only at hd
    obtain ⟨l', hl', hd⟩ := py_bind_inv hd
    cases hd
    cases hl
    intro a ha
    obtain ⟨c, hc, hp⟩ := mapPy_mem hl' ha
    obtain ⟨nm, t', h1, h2, h3⟩ := hs1.child rfl hc
    obtain ⟨k, -, hk⟩ := kind_choice h2
    simp only [Prod.mk.injEq] at hk
    rw [← hk.2] at h3
    have h1 := h1.tag
    rw [← hk.1] at h1
    exact definition_safe hE hΓ h3 h1 hp (fun hh => hu (List.any_eq_true.2 ⟨a, ha, hh⟩))

theorem specType_safe {s : SpecKind} (hE : Env K p) (hΓ : Γ.pfx = p) (h : PSeen X K p (.specType s) x) (ht : x.tag = .name (specTag s))
    {t : SpecType} (hv : parseSpecType x = .ok (some t)) (hu : specTypeUses t = true → X → XOk Γ) : SafeSpecType Γ t := by
  obtain ⟨i, hi, hi1⟩ := h.attr (name := c!"IDENTIFIER") rfl (by cases s <;> rfl)
  unfold parseSpecType at hv
  cases s with
  | object =>
    have ht' : x.tag = .name c!"SPEC-OBJECT-TYPE" := ht
    rw [if_pos ht'] at hv
    unfold parseSpecObjectType at hv
    rw [ht', beq_self_eq_true, assertTrue, py_bind_ok, attrReqNI_some hi, py_bind_ok] at hv
    obtain ⟨y, hy, hv⟩ := py_bind_inv hv
    obtain ⟨ds, hds, hy⟩ := py_bind_inv hy
    cases hy
    cases hv
    exact ⟨⟨hi1, h.lxmlAttr rfl, h.plainAttr rfl, h.lxmlAttr rfl⟩, fun l hl a ha => (definitions_safe hE hΓ h hds hu hl a ha).1⟩
  | relation =>
    have ht' : x.tag = .name c!"SPEC-RELATION-TYPE" := ht
    obtain ⟨l, hl, hl1⟩ := h.attr (name := c!"LONG-NAME") rfl rfl
    rw [ht', if_neg (by decide), if_pos rfl] at hv
    unfold parseSpecRelationType at hv
    rw [ht', beq_self_eq_true, assertTrue, py_bind_ok, attrReqNI_some hi, py_bind_ok, attrReqNI_some hl, py_bind_ok] at hv
    obtain ⟨y, hy, hv⟩ := py_bind_inv hv
    obtain ⟨ds, hds, hy⟩ := py_bind_inv hy
    cases hy
    cases hv
    exact ⟨⟨hi1, h.htmlAttr rfl, h.plainAttr rfl, (by rintro w ⟨⟩; exact hl1), rfl⟩, fun l hl a ha => (definitions_safe hE hΓ h hds hu hl a ha).1⟩
  | specification =>
    have ht' : x.tag = .name c!"SPECIFICATION-TYPE" := ht
    obtain ⟨l, hl, hl1⟩ := h.attr (name := c!"LAST-CHANGE") rfl rfl
    rw [ht', if_neg (by decide), if_neg (by decide), if_pos rfl] at hv
    unfold parseSpecificationType at hv
    rw [ht', beq_self_eq_true, assertTrue, py_bind_ok, attrReqNI_some hi, py_bind_ok, attrReqNI_some hl, py_bind_ok] at hv
    obtain ⟨y, hy, hv⟩ := py_bind_inv hv
    obtain ⟨ds, hds, hy⟩ := py_bind_inv hy
    obtain ⟨m, hm, hy⟩ := py_bind_inv hy
    cases hy
    cases hv
    refine ⟨⟨hi1, h.plainAttr rfl, (by rintro w ⟨⟩; exact hl1), h.plainAttr rfl, rfl, ?_⟩,
      fun l hl a ha => (definitions_safe hE hΓ h hds hu hl a ha).1⟩
    intro l hl a ha
    exact (definitions_safe hE hΓ h hds hu hl a ha).2 rfl
  | group =>
    have ht' : x.tag = .name c!"RELATION-GROUP-TYPE" := ht
    rw [ht', if_neg (by decide), if_neg (by decide), if_neg (by decide), if_pos rfl] at hv
    unfold parseRelationGroupType at hv
    rw [ht', beq_self_eq_true, assertTrue, py_bind_ok, attrReqNI_some hi, py_bind_ok] at hv
    obtain ⟨y, hy, hv⟩ := py_bind_inv hv
    obtain ⟨ds, hds, hy⟩ := py_bind_inv hy
    cases hy
    cases hv
    exact ⟨⟨hi1, h.htmlAttr rfl, h.plainAttr rfl, h.plainAttr rfl⟩, fun l hl a ha => (definitions_safe hE hΓ h hds hu hl a ha).1⟩

/-! ## Spec objects, relations, groups -/

theorem specObject_safe (hE : Env K p) (hΓ : Γ.pfx = p) (h : PSeen X K p .specObject x) {o : SpecObject} (hv : parseSpecObject x = .ok o)
    (hu : o.attributes.any usesXhtml = true → X → XOk Γ) : SafeObject Γ o := by
  obtain ⟨i, hi, hi1⟩ := h.attr (name := c!"IDENTIFIER") rfl rfl
  obtain ⟨t, hty, ht1, -⟩ := h.need (nm := c!"TYPE") (t' := .objectType) rfl rfl rfl
  obtain ⟨r, hr, hr1, hr2⟩ := ht1.need (nm := c!"SPEC-OBJECT-TYPE-REF") (t' := .text .localRef) rfl rfl rfl
  obtain ⟨w, hw, hw1, -⟩ := h.need (nm := c!"VALUES") (t' := .values) rfl rfl rfl
  unfold parseSpecObject at hv
  obtain ⟨b, -, hv⟩ := py_bind_inv hv
  obtain ⟨b', -, hv⟩ := py_bind_inv hv
  rw [attrReqNI_some hi, py_bind_ok, findReq_some hty, py_bind_ok, findReq_some hr, py_bind_ok] at hv
  obtain ⟨vs, hvs, hv⟩ := py_bind_inv hv
  cases hv
  refine ⟨hi1, h.plainAttr rfl, h.plainAttr rfl, h.plainAttr rfl, hr1.ref hr2 (by decide), ?_, contains_tag hw, contains_tag hty⟩
  intro a ha
  cases hl : vs with
  | none => rw [hl] at ha; cases ha
  | some l =>
    rw [hl] at ha hu
    refine values_safe hE hΓ ?_ hvs hl hu a ha
    intro n hn
    rw [hw] at hn
    cases hn
    exact hw1

theorem relationValues_safe (hE : Env K p) (hΓ : Γ.pfx = p) {o : Option Node} (h : ∀ n, o = some n → PSeen X K p .relationValues n)
    {v : Option SpecObjectAttribute} (hv : parseRelationValues o = .ok v) {a : SpecObjectAttribute} (ha : v = some a)
    (hu : usesXhtml a = true → X → XOk Γ) : SafeValue Γ a ∧ (a.type = .string ∨ a.type = .integer ∨ a.type = .xhtml) := by
  cases o with
  | none => cases hv; cases ha
  | some n =>
    have hn := h n rfl
    unfold parseRelationValues at hv
    dsimp only at hv
    cases hc : n.children with
    | nil => rw [hc] at hv; cases hv; cases ha
    | cons c cs =>
      rw [hc] at hv
      dsimp only at hv
      obtain ⟨nm, t', h1, h2, h3⟩ := hn.child rfl (c := c) (by rw [hc]; simp)
      have h1 := h1.tag
      have e : (schema .lenient .relationValues).model = .choice 0 none (([.integer, .string, .xhtml] : List Kind).map fun k =>
          (c!"ATTRIBUTE-VALUE-" ++ k.name, .value false k)) := rfl
      rw [e] at h2
      obtain ⟨k, hk, hk1⟩ := kind_choice h2
      simp only [Prod.mk.injEq] at hk1
      rw [← hk1.2] at h3
      rw [← hk1.1] at h1
      rw [h1] at hv
      simp only [List.mem_cons, List.not_mem_nil, or_false] at hk
      rcases hk with rfl | rfl | rfl
      · obtain ⟨w, hw, hw1⟩ := h3.attr (name := c!"THE-VALUE") rfl rfl
        obtain ⟨e, r, he, hr, hr1⟩ := first_ref h3 rfl
        rw [if_neg (by decide), if_neg (by decide), if_pos (by decide), attrReq_some hw, py_bind_ok, he, py_bind_ok, hr, py_bind_ok,
          py_pure] at hv
        cases hv
        cases ha
        exact ⟨⟨hr1, hw1⟩, by simp⟩
      · obtain ⟨w, hw⟩ := h3.seen.attr (name := c!"THE-VALUE") rfl
        obtain ⟨e, r, he, hr, hr1⟩ := first_ref h3 rfl
        rw [if_pos (by decide), attrReq_some hw, py_bind_ok, he, py_bind_ok, hr, py_bind_ok, py_pure] at hv
        cases hv
        cases ha
        exact ⟨⟨hr1, h3.htmlAttr (name := c!"THE-VALUE") rfl w hw⟩, by simp⟩
      · rw [if_neg (by decide), if_pos (by decide)] at hv
        obtain ⟨y, hy, hv⟩ := py_bind_inv hv
        cases hv
        cases ha
        obtain ⟨s1, s2⟩ := xhtmlValue_safe hE hΓ h3 hy hu
        exact ⟨s1, .inr (.inr s2)⟩

theorem relation_end {nm : Str} (h : PSeen X K p .specRelation x) (hn : (schema .lenient .specRelation).model.needs nm = true)
    (ht : (schema .lenient .specRelation).model.typeOf nm = some .relationEnd) :
    ∃ s r, x.find nm = some s ∧ s.find c!"SPEC-OBJECT-REF" = some r ∧ PlainElem r.text? := by
  obtain ⟨s, hs, hs1, -⟩ := h.need (nm := nm) (t' := .relationEnd) rfl hn ht
  obtain ⟨r, hr, hr1, hr2⟩ := hs1.need (nm := c!"SPEC-OBJECT-REF") (t' := .text .string) rfl rfl rfl
  refine ⟨s, r, hs, hr, ?_⟩
  rcases hr1.text hr2 with ⟨-, -, hh⟩ | ⟨v, h1, h2, h3, -⟩
  · exact absurd rfl hh
  · exact ⟨v, h1, h2, h3 (by decide)⟩

theorem specRelation_safe (hE : Env K p) (hΓ : Γ.pfx = p) (h : PSeen X K p .specRelation x) (htag : x.tag = .name c!"SPEC-RELATION")
    {r : SpecRelation} (hv : parseSpecRelation x = .ok (.ok r)) (hu : relationHasXhtml r = true → X → XOk Γ) : SafeRelation Γ r := by
  obtain ⟨i, hi, hi1⟩ := h.attr (name := c!"IDENTIFIER") rfl rfl
  obtain ⟨t, hty, ht1, -⟩ := h.need (nm := c!"TYPE") (t' := .relationType) rfl rfl rfl
  obtain ⟨tr, htr, htr1, htr2⟩ := ht1.need (nm := c!"SPEC-RELATION-TYPE-REF") (t' := .text .localRef) rfl rfl rfl
  obtain ⟨s, sr, hs, hsr, hsr1⟩ := relation_end h (nm := c!"SOURCE") rfl rfl
  obtain ⟨g, gr, hg, hgr, hgr1⟩ := relation_end h (nm := c!"TARGET") rfl rfl
  unfold parseSpecRelation at hv
  rw [htag, beq_self_eq_true, assertTrue, py_bind_ok, find_childTags hty, assertTrue, py_bind_ok, find_childTags hs, find_childTags hg,
      if_neg (by decide), if_neg (by decide), hi, attrReq_some hi] at hv
  dsimp only [Option.isSome_some] at hv
  rw [assertTrue, py_bind_ok, py_bind_ok, findReq_some hty, py_bind_ok, findReq_some htr, py_bind_ok, findReq_some hs, py_bind_ok,
      findReq_some hsr, py_bind_ok, findReq_some hg, py_bind_ok, findReq_some hgr, py_bind_ok] at hv
  obtain ⟨v, hval, hv⟩ := py_bind_inv hv
  cases hv
  refine ⟨hi1, h.plainAttr rfl, h.plainAttr rfl, h.htmlAttr rfl, htr1.ref htr2 (by decide), hsr1, hgr1, ?_, ?_, contains_tag hty,
    contains_tag hs, contains_tag hg, ?_⟩
  · intro a ha
    dsimp only at ha
    refine relationValues_safe (X := X) hE hΓ ?_ hval ha ?_
    · intro n hn
      exact (h.find (t' := .relationValues) rfl rfl hn).1
    · intro hh
      apply hu
      unfold relationHasXhtml
      dsimp only
      rw [ha]
      exact hh
  · intro tag htag
    obtain ⟨nm, rfl, hn⟩ := childTags_mem h.seen rfl htag
    have e : (schema .lenient .specRelation).model = .all [⟨c!"VALUES", false, .relationValues⟩,
      ⟨c!"SOURCE", true, .relationEnd⟩, ⟨c!"TARGET", true, .relationEnd⟩, ⟨c!"TYPE", true, .relationType⟩] := rfl
    rw [e] at hn
    by_cases h1 : nm = c!"TYPE"
    · rw [h1]; decide
    by_cases h2 : nm = c!"SOURCE"
    · rw [h2]; decide
    by_cases h3 : nm = c!"TARGET"
    · rw [h3]; decide
    by_cases h4 : nm = c!"VALUES"
    · rw [h4]; decide
    simp [Model.typeOf, List.find?_cons, Ne.symm h1, Ne.symm h2, Ne.symm h3, Ne.symm h4] at hn
  · intro ha
    dsimp only at ha
    cases hf : x.find c!"VALUES" with
    | some w => exact contains_tag hf
    | none =>
      rw [hf] at hval
      cases hval
      cases ha

theorem optRef_safe {outer inner : Str} {t t' : TypeName} {s : Simple} (h : PSeen X K p t x) (ho : (schema .lenient t).model.isOpen = false)
    (h1 : (schema .lenient t).model.typeOf outer = some t') (ho' : (schema .lenient t').model.isOpen = false)
    (h2 : (schema .lenient t').model.typeOf inner = some (.text s)) (hn : inner ≠ c!"TITLE") :
    optRef x outer inner = none ∨ PlainElem (optRef x outer inner) := by
  unfold optRef
  rcases h.opt ho h1 with hf | ⟨c, hf, hc, -⟩
  · rw [hf]; exact .inl rfl
  · rw [hf]
    dsimp only
    rcases hc.opt ho' h2 with hg | ⟨r, hg, hr, hr2⟩
    · rw [hg]; exact .inl rfl
    · rw [hg]
      dsimp only
      rcases hr.text hr2 with ⟨e, -, -⟩ | ⟨v, e1, e2, e3, -⟩
      · exact .inl e
      · exact .inr ⟨v, e1, e2, e3 hn⟩

theorem relationGroup_safe (h : PSeen X K p .relationGroup x) {g : RelationGroup} (hv : parseRelationGroup x = .ok g) : SafeGroup g := by
  obtain ⟨i, hi, hi1⟩ := h.attr (name := c!"IDENTIFIER") rfl rfl
  unfold parseRelationGroup at hv
  obtain ⟨b, -, hv⟩ := py_bind_inv hv
  obtain ⟨b', -, hv⟩ := py_bind_inv hv
  rw [attrReqNI_some hi, py_bind_ok, py_pure] at hv
  cases hv
  refine ⟨hi1, h.plainAttr rfl, h.plainAttr rfl, h.plainAttr rfl, ?_, ?_, ?_, ?_⟩
  · exact optRef_safe h rfl rfl rfl rfl (by decide)
  · exact optRef_safe h rfl rfl rfl rfl (by decide)
  · exact optRef_safe h rfl rfl rfl rfl (by decide)
  · intro rs hrs r hr
    dsimp only at hrs
    rw [Option.map_eq_some_iff] at hrs
    obtain ⟨c, hc, rfl⟩ := hrs
    obtain ⟨hc1, -⟩ := h.find (t' := .groupRelations) rfl rfl hc
    obtain ⟨k, hk, rfl⟩ := List.mem_map.1 hr
    obtain ⟨nm, t', g1, g2, g3⟩ := hc1.child rfl hk
    have := typeOf_choice g2
    simp only [List.mem_singleton, Prod.mk.injEq] at this
    rw [this.2] at g3
    refine g3.ref g1 ?_
    rw [this.1]
    decide

/-! ## The header -/

theorem headerText {tag : Str} {s : Simple} (h : PSeen X K p .header x) (ht : (schema .lenient .header).model.typeOf tag = some (.text s)) :
    optText x tag = none ∨ ∃ v, optText x tag = some v ∧ v ≠ [] ∧ (tag ≠ c!"TITLE" → PlainText v) ∧ (tag = c!"TITLE" → TitleText v) := by
  unfold optText
  rcases h.opt rfl ht with hf | ⟨c, hf, hc, hc2⟩
  · rw [hf]; exact .inl rfl
  · rw [hf]
    dsimp only
    rcases hc.text hc2 with ⟨e, -, -⟩ | hh
    · exact .inl e
    · exact .inr hh

theorem headerText_opt {tag : Str} {s : Simple} (h : PSeen X K p .header x) (ht : (schema .lenient .header).model.typeOf tag = some (.text s))
    (hn : tag ≠ c!"TITLE") : Opt PlainText (optText x tag) ∧ dropEmpty (optText x tag) = optText x tag := by
  rcases headerText h ht with e | ⟨v, e, h1, h2, -⟩
  · rw [e]; exact ⟨by (intro v hv; cases hv), rfl⟩
  · rw [e]
    refine ⟨by (intro w hw; cases hw; exact h2 hn), ?_⟩
    unfold dropEmpty
    simp [Option.filter, h1]

theorem header_safe (h : PSeen X K p .theHeader x) {v : Header} (hv : parseHeader x = .ok v) : SafeHeader v ∧ readHeader v = v := by
  obtain ⟨e, he, he1, -⟩ := h.need (nm := c!"REQ-IF-HEADER") (t' := .header) rfl rfl rfl
  obtain ⟨i, hi, hi1⟩ := he1.attr (name := c!"IDENTIFIER") rfl rfl
  have hne : i ≠ [] := by
    have h1 := he1.seen.attrType hi (by decide)
    rintro rfl
    exact absurd h1 (by decide)
  unfold parseHeader at hv
  obtain ⟨b, -, hv⟩ := py_bind_inv hv
  rw [he] at hv
  dsimp only at hv
  rw [attrReqNI_some hi, py_bind_ok, py_pure] at hv
  cases hv
  have t1 := headerText_opt he1 (tag := c!"COMMENT") rfl (by decide)
  have t2 := headerText_opt he1 (tag := c!"CREATION-TIME") rfl (by decide)
  have t3 := headerText_opt he1 (tag := c!"REQ-IF-TOOL-ID") rfl (by decide)
  have t4 := headerText_opt he1 (tag := c!"REQ-IF-VERSION") rfl (by decide)
  have t5 := headerText_opt he1 (tag := c!"SOURCE-TOOL-ID") rfl (by decide)
  have t6 : Opt TitleText (optText e c!"TITLE") ∧ dropEmpty (optText e c!"TITLE") = optText e c!"TITLE" := by
    rcases headerText he1 (tag := c!"TITLE") rfl with e' | ⟨v, e', h1, -, h2⟩
    · rw [e']; exact ⟨by (intro v hv; cases hv), rfl⟩
    · rw [e']
      refine ⟨by (intro w hw; cases hw; exact h2 rfl), ?_⟩
      unfold dropEmpty
      simp [Option.filter, h1]
  have t7 := headerText he1 (tag := c!"REPOSITORY-ID") rfl
  unfold optText at t7
  refine ⟨⟨⟨i, rfl, hne, hi1⟩, t1.1, t2.1, ?_, t3.1, t4.1, t5.1, t6.1⟩, ?_⟩
  · intro s hs
    dsimp only at hs
    cases hf : e.find c!"REPOSITORY-ID" with
    | none => rw [hf] at hs; cases hs
    | some r =>
      rw [hf] at hs t7
      dsimp only at hs t7
      rcases t7 with e' | ⟨v, e', -, h2, -⟩
      · rw [e'] at hs; cases hs
      · rw [e'] at hs; cases hs; exact h2 (by decide)
  · unfold readHeader
    dsimp only
    rw [t1.2, t2.2, t3.2, t4.2, t5.2, t6.2]
    cases hf : e.find c!"REPOSITORY-ID" with
    | none => rfl
    | some r =>
      rw [hf] at t7
      dsimp only at t7 ⊢
      rw [if_neg]
      intro hh
      rcases t7 with e' | ⟨v, e', h1, -, -⟩
      · rw [e'] at hh; cases hh
      · rw [e'] at hh; cases hh; exact h1 rfl

/-! ## Specifications -/

mutual
theorem hierarchy_safe : ∀ (x : Node) (level : Nat), PSeen X K p .hierarchy x → ∀ {h : Hierarchy}, parseHierarchy level x = .ok h →
    SafeHierarchy level h
  | .text _, _, h, _, _ => by obtain ⟨i, ks, e⟩ := h.seen.isElem; cases e
  | .comment _, _, h, _, _ => by obtain ⟨i, ks, e⟩ := h.seen.isElem; cases e
  | .pi _ _, _, h, _, _ => by obtain ⟨i, ks, e⟩ := h.seen.isElem; cases e
  | .elem i ks, level, h, hh, hv => by
    obtain ⟨id, hid, hid1⟩ := h.attr (name := c!"IDENTIFIER") rfl rfl
    obtain ⟨o, ho, ho1, -⟩ := h.need (nm := c!"OBJECT") (t' := .hierarchyObject) rfl rfl rfl
    obtain ⟨r, hr, hr1, hr2⟩ := ho1.need (nm := c!"SPEC-OBJECT-REF") (t' := .text .localRef) rfl rfl rfl
    have hk := fun {sc : Bool} {cs : List Hierarchy} => firstChildren_safe (sc := sc) (cs := cs) ks (level + 1) (by
      intro c hc htx htag
      have hc' : c ∈ (Node.elem i ks).children := List.mem_filter.2 ⟨hc, by rw [htx]; rfl⟩
      obtain ⟨nm, t', h1, h2, h3⟩ := h.child rfl hc'
      have h1 := h1.tag
      rw [htag] at h1
      have e : nm = c!"CHILDREN" := by injection h1 with h1; exact h1.symm
      rw [e] at h2
      have e2 : (schema .lenient .hierarchy).model.typeOf c!"CHILDREN" = some .children := rfl
      rw [e2] at h2
      cases h2
      exact h3)
    rw [parseHierarchy] at hv
    dsimp only at hv
    split at hv
    · rw [attrReqNI_some hid] at hv
      dsimp only at hv
      rw [ho] at hv
      dsimp only at hv
      rw [hr] at hv
      dsimp only at hv
      cases hp : parseFirstChildren (level + 1) ks with
      | none =>
        rw [hp] at hv
        cases hv
        rw [SafeHierarchy]
        exact ⟨rfl, hid1, h.plainAttr rfl, h.plainAttr rfl, hr1.ref hr2 (by decide)⟩
      | some z =>
        rw [hp] at hv
        cases z with
        | error e => cases hv
        | ok z =>
          obtain ⟨sc, cs⟩ := z
          cases hv
          rw [SafeHierarchy]
          exact ⟨⟨rfl, hid1, h.plainAttr rfl, h.plainAttr rfl, hr1.ref hr2 (by decide)⟩, hk hp⟩
    · cases hv

theorem firstChildren_safe : ∀ (ks : List Node) (level : Nat),
    (∀ c ∈ ks, c.isText = false → c.tag = .name c!"CHILDREN" → PSeen X K p .children c) → ∀ {sc : Bool} {cs : List Hierarchy},
    parseFirstChildren level ks = some (.ok (sc, cs)) → SafeHierarchies level cs
  | [], _, _, sc, cs, hp => by rw [parseFirstChildren] at hp; cases hp
  | .text _ :: ks, level, h, sc, cs, hp => by
    rw [parseFirstChildren] at hp; exact firstChildren_safe ks level (fun c hc => h c (by simp [hc])) hp
  | .comment _ :: ks, level, h, sc, cs, hp => by
    rw [parseFirstChildren] at hp; exact firstChildren_safe ks level (fun c hc => h c (by simp [hc])) hp
  | .pi _ _ :: ks, level, h, sc, cs, hp => by
    rw [parseFirstChildren] at hp; exact firstChildren_safe ks level (fun c hc => h c (by simp [hc])) hp
  | .elem i cs' :: ks, level, h, sc, cs, hp => by
    rw [parseFirstChildren] at hp
    by_cases ht : (Node.elem i cs').tag = .name c!"CHILDREN"
    · rw [if_pos ht] at hp
      have hs := h _ (by simp) rfl ht
      have hh := fun {l : List Hierarchy} => hierarchies_safe cs' level (by
        intro c hc htx
        have hc' : c ∈ (Node.elem i cs').children := List.mem_filter.2 ⟨hc, by rw [htx]; rfl⟩
        obtain ⟨nm, t', h1, h2, h3⟩ := hs.child rfl hc'
        have := typeOf_choice h2
        simp only [List.mem_singleton, Prod.mk.injEq] at this
        rw [this.2] at h3
        exact h3) (hs := l)
      cases hph : parseHierarchies level cs' with
      | error e => rw [hph] at hp; cases hp
      | ok l =>
        rw [hph] at hp
        cases hp
        exact hh hph
    · rw [if_neg ht] at hp
      exact firstChildren_safe ks level (fun c hc => h c (by simp [hc])) hp

theorem hierarchies_safe : ∀ (ks : List Node) (level : Nat), (∀ c ∈ ks, c.isText = false → PSeen X K p .hierarchy c) →
    ∀ {hs : List Hierarchy}, parseHierarchies level ks = .ok hs → SafeHierarchies level hs
  | [], _, _, hs, hp => by rw [parseHierarchies] at hp; cases hp; rw [SafeHierarchies]; trivial
  | .text _ :: ks, level, h, hs, hp => by
    rw [parseHierarchies] at hp; exact hierarchies_safe ks level (fun c hc => h c (by simp [hc])) hp
  | .comment _ :: ks, level, h, hs, hp => by
    obtain ⟨i, ks, e⟩ := (h _ (List.mem_cons_self ..) rfl).seen.isElem; cases e
  | .pi _ _ :: ks, level, h, hs, hp => by
    obtain ⟨i, ks, e⟩ := (h _ (List.mem_cons_self ..) rfl).seen.isElem; cases e
  | .elem i cs :: ks, level, h, hs, hp => by
    have h1 := h _ (List.mem_cons_self ..) rfl
    rw [parseHierarchies] at hp
    · cases ha : parseHierarchy level (.elem i cs) with
      | error e => rw [ha] at hp; cases hp
      | ok a =>
        rw [ha] at hp
        dsimp only at hp
        cases hb : parseHierarchies level ks with
        | error e => rw [hb] at hp; cases hp
        | ok b =>
          rw [hb] at hp
          cases hp
          rw [SafeHierarchies]
          exact ⟨hierarchy_safe (.elem i cs) level h1 ha, hierarchies_safe ks level (fun c hc => h c (by simp [hc])) hb⟩
    · simp
end

theorem hierarchies_each {level : Nat} : ∀ {hs : List Hierarchy}, (∀ h ∈ hs, SafeHierarchy level h) → SafeHierarchies level hs
  | [], _ => by rw [SafeHierarchies]; trivial
  | h :: hs, hh => by
    rw [SafeHierarchies]
    exact ⟨hh h (by simp), hierarchies_each (fun a ha => hh a (by simp [ha]))⟩

theorem specification_safe (hE : Env K p) (hΓ : Γ.pfx = p) (h : PSeen X K p .specification x) {s : Specification}
    (hv : parseSpecification x = .ok s) (hu : (s.values.getD []).any usesXhtml = true → X → XOk Γ) : SafeSpecification Γ s := by
  obtain ⟨i, hi, hi1⟩ := h.attr (name := c!"IDENTIFIER") rfl rfl
  unfold parseSpecification at hv
  obtain ⟨b, -, hv⟩ := py_bind_inv hv
  obtain ⟨b', -, hv⟩ := py_bind_inv hv
  rw [attrReqNI_some hi, py_bind_ok] at hv
  obtain ⟨cs, hcs, hv⟩ := py_bind_inv hv
  obtain ⟨vs, hvs, hv⟩ := py_bind_inv hv
  cases hv
  have hmem : ∀ c, findLast x c!"CHILDREN" = some c → c ∈ x.children ∧ c.tag = .name c!"CHILDREN" := by
    intro c hc
    unfold findLast at hc
    have h1 := List.mem_of_getLast? hc
    rw [List.mem_filter, beq_iff_eq] at h1
    exact h1
  have hch : ∀ c, findLast x c!"CHILDREN" = some c → PSeen X K p .children c := by
    intro c hc
    have h1 := hmem c hc
    obtain ⟨nm, t', e1, e2, e3⟩ := h.child rfl h1.1
    have e1 := e1.tag
    rw [h1.2] at e1
    have e : nm = c!"CHILDREN" := by injection e1 with h1; exact h1.symm
    rw [e] at e2
    have e4 : (schema .lenient .specification).model.typeOf c!"CHILDREN" = some .children := rfl
    rw [e4] at e2
    cases e2
    exact e3
  have hty := optRef_safe h (outer := c!"TYPE") (inner := c!"SPECIFICATION-TYPE-REF") rfl rfl rfl rfl (by decide)
  refine ⟨hi1, h.lxmlAttr rfl, h.plainAttr rfl, h.lxmlAttr rfl, ?_, ?_, ?_, ?_⟩
  · intro v hv
    dsimp only at hv
    rcases hty with e | ⟨w, e, -, e2⟩
    · rw [e] at hv; cases hv
    · rw [e] at hv; cases hv; exact e2
  · intro l hl
    dsimp only at hl hu
    refine values_safe (X := X) hE hΓ ?_ hvs hl ?_
    · intro n hn
      exact (h.find (t' := .values) rfl rfl hn).1
    · intro hh
      exact hu (by rw [hl]; exact hh)
  · intro l hl
    dsimp only at hl
    cases hf : findLast x c!"CHILDREN" with
    | none => rw [hf] at hcs; cases hcs; cases hl
    | some c =>
      rw [hf] at hcs
      dsimp only at hcs
      obtain ⟨l', hl', hcs⟩ := py_bind_inv hcs
      cases hcs
      cases hl
      refine hierarchies_each ?_
      intro a ha
      obtain ⟨k, hk, hp⟩ := mapPy_mem hl' ha
      obtain ⟨nm, t', h1, h2, h3⟩ := (hch c hf).child rfl hk
      have := typeOf_choice h2
      simp only [List.mem_singleton, Prod.mk.injEq] at this
      rw [this.2] at h3
      exact hierarchy_safe k 1 h3 hp
  · intro tag htag
    unfold specificationHas at htag
    dsimp only at htag
    show tag ∈ childTags x
    simp only [Bool.or_eq_true, Bool.and_eq_true, beq_iff_eq] at htag
    rcases htag with (⟨rfl, ht⟩ | ⟨rfl, ht⟩) | ⟨rfl, ht⟩
    · cases hf : x.find c!"TYPE" with
      | some y => exact contains_tag hf
      | none =>
        exfalso
        unfold optRef at ht
        rw [hf] at ht
        cases ht
    · cases hf : findLast x c!"CHILDREN" with
      | some c =>
        obtain ⟨h1, h2⟩ := hmem c hf
        exact List.mem_map.2 ⟨c, h1, h2⟩
      | none => rw [hf] at hcs; cases hcs; cases ht
    · cases hf : x.find c!"VALUES" with
      | some y => exact contains_tag hf
      | none => rw [hf] at hvs; cases hvs; cases ht

end ReqIF.Xsd
