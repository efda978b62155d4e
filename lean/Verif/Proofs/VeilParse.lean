import Verif.Proofs.Veil
/-! What the parser reads from a tree with the covered strings replaced: part by part. -/
set_option linter.unusedSimpArgs false
namespace ReqIF
open Spec

variable {f : Str → Str}

theorem find_isElem {n k : Node} {t : Str} (h : n.find t = some k) : Format.isElem k = true := by
  rw [find_in_children] at h
  have h1 := List.find?_some h
  have h2 := (List.mem_filter.1 (List.mem_of_find?_eq_some h)).2
  cases k with
  | elem i ks => rfl
  | text s => cases h2
  | comment s => simp [Node.tag] at h1
  | pi a b => simp [Node.tag] at h1

theorem veil_enumValue (x : Node) : parseEnumValue (veil f .enumValue x) = parseEnumValue x := by
  unfold parseEnumValue
  unveil

theorem veil_dataType (x : Node) : parseDataType (veil f .datatype x) = parseDataType x := by
  unfold parseDataType
  unveil
  cases x.find c!"SPECIFIED-VALUES" with
  | none => rfl
  | some sv =>
    have e : mapPy parseEnumValue (veil f .specified sv).children = mapPy parseEnumValue sv.children := by
      rw [veil_children rfl, mapPy_maps]
      simp only [zo38, veil_enumValue]
    simp only [Option.map_some, e]

/-! ## Values -/

theorem blob_strings (i : Info) (ks : List Node) : ∃ a b, stringifyNamespacedChildren (veil f .blob (.elem i ks)) = .ok a ∧
    convertChildrenFromReqifNs (veil f .blob (.elem i ks)) = .ok b ∧ (veil f .blob (.elem i ks)).nsmap.length > 0 := by
  exact ⟨_, _, rfl, rfl, Nat.one_pos⟩

theorem same_xhtml (x : Node) : Same (hiddenValue f) (hiddenValue id) (parseXhtmlAttributeValue x)
    (parseXhtmlAttributeValue (veil f .xhtml x)) := by
  intro a ha
  unfold parseXhtmlAttributeValue at ha ⊢
  obtain ⟨tv, htv, ha⟩ := py_bind_inv ha
  rw [veil_findReq rfl _ _ (by decide), htv, zo18]
  have hel : Format.isElem tv = true := by
    unfold findReq at htv
    cases hf : x.find c!"THE-VALUE" with
    | none => rw [hf] at htv; cases htv
    | some k => rw [hf] at htv; cases htv; exact find_isElem hf
  cases tv with
  | elem i ks =>
    obtain ⟨u, v, hu, hv, hl⟩ := blob_strings (f := f) i ks
    simp only [pyMap, py_bind_ok]
    rw [if_pos hl, hu, hv]
    simp only [py_bind_ok]
    have hd : ∃ d ref, findReq x c!"DEFINITION" = .ok d ∧ findReq d c!"ATTRIBUTE-DEFINITION-XHTML-REF" = .ok ref ∧
        ∃ s t, a = ⟨.xhtml, ref.text?, .str s, t, some x⟩ := by
      split at ha
      · obtain ⟨_, _, ha⟩ := py_bind_inv ha
        obtain ⟨_, _, ha⟩ := py_bind_inv ha
        obtain ⟨d, hd, ha⟩ := py_bind_inv ha
        obtain ⟨ref, href, ha⟩ := py_bind_inv ha
        cases ha
        exact ⟨d, ref, hd, href, _, _, rfl⟩
      · obtain ⟨_, _, ha⟩ := py_bind_inv ha
        obtain ⟨d, hd, ha⟩ := py_bind_inv ha
        obtain ⟨ref, href, ha⟩ := py_bind_inv ha
        cases ha
        exact ⟨d, ref, hd, href, _, _, rfl⟩
    obtain ⟨d, ref, hd, href, s, t, rfl⟩ := hd
    rw [veil_findReq rfl _ _ (by decide), hd, zo19]
    simp only [pyMap, py_bind_ok]
    rw [veil_findReq rfl _ _ (by decide), href, zo36]
    refine ⟨_, rfl, ?_⟩
    simp only [hiddenValue, veil_text]
  | _ => cases hel

theorem same_simple (x : Node) (t : AttrType) (r : Str) (hr : plainTag r = true) (ht : t ≠ .string) (ht' : t ≠ .xhtml) :
    Same (hiddenValue f) (hiddenValue id) (parseSimpleValue x t r) (parseSimpleValue (veil f .value x) t r) := by
  unfold parseSimpleValue
  rw [veil_attrReq rfl, veil_findReq rfl _ _ (by decide), zo16]
  simp only [bind_pyMap, veil_findReq (z := .flat) rfl _ _ hr, zo36, veil_text]
  refine Same.then_ (fun v => Same.then_ (fun d => Same.then_ (fun ref => Same.pure_ ?_)))
  cases t <;> first | exact absurd rfl ht | exact absurd rfl ht' | rfl

theorem same_attrReq (x : Node) : Same f id (attrReq x c!"THE-VALUE") (attrReq (veil f .stringValue x) c!"THE-VALUE") := by
  unfold attrReq
  rw [veil_string_attr, if_pos rfl]
  cases x.attr? c!"THE-VALUE" with
  | none => exact Same.error_
  | some s => exact Same.ok_ rfl

theorem values_zone {x : Node} {t : Str} {z : Zone} (h : x.tag = .name t) (ht : plainTag t = true) (hz : valueZone t = z) :
    Zone.values.inner (localName x) = z := by
  rw [localName_of_plain h ht]; exact hz

/-- The reference of a value: the first child of the first child. -/
theorem veil_ref {z : Zone} (hz : z.isOpen = true) (hi : ∀ s, z.inner s = .flat) (x : Node) {β : Type} (k : Option Str → Py β) :
    (firstChild (veil f z x) >>= fun d => firstChild d >>= fun r => k r.text?) =
      (firstChild x >>= fun d => firstChild d >>= fun r => k r.text?) := by
  rw [veil_firstChild hz]
  simp only [bind_pyMap, hi, veil_firstChild (z := .flat) rfl, zo36, veil_text]

theorem same_value (x : Node) : Same (hiddenValue f) (hiddenValue id) (parseAttributeValue x)
    (parseAttributeValue (veil f (Zone.values.inner (localName x)) x)) := by
  unfold parseAttributeValue
  rw [veil_tag]
  refine Same.ite_ (fun h => ?_) (fun _ => Same.ite_ (fun h => ?_) (fun _ => Same.ite_ (fun h => ?_) (fun _ => Same.ite_ (fun h => ?_)
    (fun _ => Same.ite_ (fun h => ?_) (fun _ => Same.ite_ (fun h => ?_) (fun _ => Same.ite_ (fun h => ?_) (fun _ => Same.error_)))))))
  · rw [values_zone (z := .stringValue) h (by decide) (by decide)]
    refine Same.bind_ (same_attrReq x) (fun s s' e => ?_)
    rw [veil_ref (f := f) (z := .stringValue) rfl (fun _ => rfl) x (fun r => pure (SpecObjectAttribute.mk .string r (.str s') none (some (veil f .stringValue x))))]
    refine Same.then_ (fun d => Same.then_ (fun r => Same.pure_ ?_))
    cases e
    rfl
  · rw [values_zone (z := .value) h (by decide) (by decide)]
    unveil
    refine Same.then_ (fun d => Same.then_ (fun r => ?_))
    cases x.find c!"VALUES" with
    | none => exact Same.error_
    | some vs =>
      simp only [Option.map_some, veil_children (z := .flat) rfl, veil_texts]
      exact Same.pure_ rfl
  · rw [values_zone (z := .value) h (by decide) (by decide)]
    exact same_simple _ _ _ (by decide) (by decide) (by decide)
  · rw [values_zone (z := .value) h (by decide) (by decide)]
    exact same_simple _ _ _ (by decide) (by decide) (by decide)
  · rw [values_zone (z := .value) h (by decide) (by decide)]
    exact same_simple _ _ _ (by decide) (by decide) (by decide)
  · rw [values_zone (z := .value) h (by decide) (by decide)]
    exact same_simple _ _ _ (by decide) (by decide) (by decide)
  · rw [values_zone (z := .xhtml) h (by decide) (by decide)]
    exact same_xhtml x

theorem same_values (o : Option Node) : Same (Option.map (List.map (hiddenValue f))) (Option.map (List.map (hiddenValue id)))
    (parseAttributeValues o) (parseAttributeValues (o.map (veil f .values))) := by
  cases o with
  | none => exact Same.ok_ rfl
  | some x =>
    simp only [Option.map_some, parseAttributeValues, veil_children (z := .values) rfl, List.filter_map, mapPy_maps]
    have e : ((fun c => !isCommentNode c) ∘ fun k => veil f (Zone.values.inner (localName k)) k) = (fun c => !isCommentNode c) := by
      funext k
      simp only [Function.comp, veil_isComment]
    rw [e]
    refine Same.bind_ (Same.mapPy_ _ (fun k _ => same_value k)) (fun vs vs' h => Same.pure_ ?_)
    simp [h]

theorem same_relationValues (o : Option Node) : Same (Option.map (hiddenValue f)) (Option.map (hiddenValue id))
    (parseRelationValues o) (parseRelationValues (o.map (veil f .values))) := by
  cases o with
  | none => exact Same.ok_ rfl
  | some vs =>
    simp only [Option.map_some, parseRelationValues, veil_children (z := .values) rfl]
    cases vs.children with
    | nil => exact Same.ok_ rfl
    | cons x xs =>
      simp only [List.map_cons, veil_tag]
      refine Same.ite_ (fun h => ?_) (fun _ => Same.ite_ (fun h => ?_) (fun _ => Same.ite_ (fun h => ?_) (fun _ => Same.error_)))
      · rw [values_zone (z := .stringValue) h (by decide) (by decide)]
        refine Same.bind_ (same_attrReq x) (fun s s' e => ?_)
        rw [veil_ref (f := f) (z := .stringValue) rfl (fun _ => rfl) x
          (fun r => pure (some <| SpecObjectAttribute.mk .string r (.str s') none (some (veil f .stringValue x))))]
        refine Same.then_ (fun d => Same.then_ (fun r => Same.pure_ ?_))
        cases e
        rfl
      · rw [values_zone (z := .xhtml) h (by decide) (by decide)]
        exact Same.bind_ (same_xhtml x) (fun a b e => Same.pure_ (by simp [e]))
      · rw [values_zone (z := .value) h (by decide) (by decide), veil_attrReq rfl]
        refine Same.then_ (fun s => ?_)
        rw [veil_ref (f := f) (z := .value) rfl (fun _ => rfl) x
          (fun r => pure (some <| SpecObjectAttribute.mk .integer r (.str s) none (some (veil f .value x))))]
        exact Same.then_ (fun d => Same.then_ (fun r => Same.pure_ rfl))

/-! ## Definitions -/

theorem veil_datatypeRef (x : Node) (t : Str) (ht : plainTag t = true) :
    parseDatatypeRef (veil f .definition x) t = parseDatatypeRef x t := by
  unfold parseDatatypeRef
  rw [veil_findReq rfl _ c!"TYPE" (by decide), zo14]
  simp only [bind_pyMap, veil_findReq (z := .flat) rfl _ _ ht, zo36, veil_text]

theorem veil_default (x : Node) :
    (veil f .definition x).find c!"DEFAULT-VALUE" = (x.find c!"DEFAULT-VALUE").map (veil f .default) := by
  rw [veil_find rfl _ _ (by decide), zo15]

/-- A default value with a function applied to it. -/
def hiddenPart (f : Str → Str) (t : AttrType) (p : DefaultPart) : DefaultPart := (p.1, p.2.map (hiddenDefault f t))

theorem same_defaultString (x : Node) : Same (hiddenPart f .string) (hiddenPart id .string)
    (parseDefaultString x) (parseDefaultString (veil f .definition x)) := by
  unfold parseDefaultString
  rw [veil_default]
  cases x.find c!"DEFAULT-VALUE" with
  | none => exact Same.ok_ rfl
  | some d =>
    simp only [Option.map_some, veil_selfClosed (z := .default) rfl]
    refine Same.ite_ (fun _ => Same.ok_ rfl) (fun _ => ?_)
    rw [veil_find rfl _ _ (by decide), zo47]
    cases d.find c!"ATTRIBUTE-VALUE-STRING" with
    | none => exact Same.error_
    | some v =>
      refine Same.bind_ (same_attrReq v) (fun s s' e => Same.pure_ ?_)
      cases e
      rfl

theorem veil_defaultSimple (x : Node) (t : Str) (ht : plainTag t = true) (hz : valueZone t = .value) :
    parseDefaultSimple (veil f .definition x) t = parseDefaultSimple x t := by
  unfold parseDefaultSimple
  rw [veil_default]
  cases x.find c!"DEFAULT-VALUE" with
  | none => rfl
  | some d =>
    have e : Zone.default.inner t = .value := hz
    simp only [Option.map_some, veil_find (z := .default) rfl _ _ ht, e]
    cases d.find t <;> simp only [Option.map_some, Option.map_none, veil_attrReq (z := .value) rfl]

theorem veil_defaultBoolean (x : Node) : parseDefaultBoolean (veil f .definition x) = parseDefaultBoolean x := by
  unfold parseDefaultBoolean
  rw [veil_default]
  cases x.find c!"DEFAULT-VALUE" with
  | none => rfl
  | some d =>
    simp only [Option.map_some]
    unveil
    cases d.find c!"ATTRIBUTE-VALUE-BOOLEAN" with
    | none => rfl
    | some v =>
      simp only [Option.map_some]
      unveil
      cases v.find c!"DEFINITION" with
      | none => rfl
      | some df =>
        simp only [Option.map_some]
        unveil
        cases df.find c!"ATTRIBUTE-DEFINITION-BOOLEAN-REF" <;> simp only [Option.map_some, Option.map_none, veil_text]

theorem same_defaultXhtml (x : Node) : Same (hiddenPart f .xhtml) (hiddenPart id .xhtml)
    (parseDefaultXhtml x) (parseDefaultXhtml (veil f .definition x)) := by
  unfold parseDefaultXhtml
  rw [veil_default]
  cases x.find c!"DEFAULT-VALUE" with
  | none => exact Same.ok_ rfl
  | some d =>
    simp only [Option.map_some, veil_selfClosed (z := .default) rfl]
    refine Same.ite_ (fun _ => Same.ok_ rfl) (fun _ => ?_)
    rw [veil_find rfl _ _ (by decide), zo46]
    cases d.find c!"ATTRIBUTE-VALUE-XHTML" with
    | none => exact Same.error_
    | some v =>
      simp only [Option.map_some]
      refine Same.bind_ (g := id) (h := id) ?_ (fun r r' e => ?_)
      · apply Same.eq_
        rw [veil_find rfl _ _ (by decide), zo19]
        cases v.find c!"DEFINITION" with
        | none => rfl
        | some df =>
          simp only [Option.map_some]
          unveil
          cases df.find c!"ATTRIBUTE-DEFINITION-XHTML-REF" <;> simp only [Option.map_some, Option.map_none, veil_text]
      · cases e
        unfold findReq
        rw [veil_find rfl _ _ (by decide), zo18]
        cases hf : v.find c!"THE-VALUE" with
        | none => exact Same.error_
        | some tv =>
          have hel := find_isElem hf
          cases tv with
          | elem i ks =>
            obtain ⟨u, _, hu, _, _⟩ := blob_strings (f := f) i ks
            simp only [Option.map_some, orAttr, py_bind_ok]
            rw [hu]
            intro p hp
            obtain ⟨s, _, hp⟩ := py_bind_inv hp
            cases hp
            exact ⟨_, rfl, rfl⟩
          | _ => cases hel

theorem veil_defaultEnumeration (x : Node) : parseDefaultEnumeration (veil f .definition x) = parseDefaultEnumeration x := by
  unfold parseDefaultEnumeration
  rw [veil_default]
  cases x.find c!"DEFAULT-VALUE" with
  | none => rfl
  | some d =>
    simp only [Option.map_some]
    unveil
    cases d.find c!"ATTRIBUTE-VALUE-ENUMERATION" with
    | none => rfl
    | some v =>
      simp only [Option.map_some]
      unveil
      cases v.find c!"DEFINITION" with
      | none =>
        cases v.find c!"VALUES" with
        | none => rfl
        | some vs =>
          simp only [Option.map_some, Option.map_none]
          unveil
          cases vs.find c!"ENUM-VALUE-REF" <;> simp only [Option.map_some, Option.map_none, veil_text]
      | some df =>
        simp only [Option.map_some]
        unveil
        cases v.find c!"VALUES" with
        | none => rfl
        | some vs =>
          simp only [Option.map_some, Option.map_none]
          unveil
          cases vs.find c!"ENUM-VALUE-REF" <;> simp only [Option.map_some, Option.map_none, veil_text]

/-- The parts of a definition with a function applied to the default value. -/
def hiddenBody (f : Str → Str) (r : AttrType × Option Str × DefaultPart × Option Bool) :
    AttrType × Option Str × DefaultPart × Option Bool := (r.1, r.2.1, hiddenPart f r.1 r.2.2.1, r.2.2.2)

theorem hiddenDefault_other {t : AttrType} (h : t ≠ .string) (h' : t ≠ .xhtml) (f : Str → Str) (v : DefaultValue) :
    hiddenDefault f t v = v := by
  cases t <;> first | exact absurd rfl h | exact absurd rfl h' | rfl

theorem hiddenPart_other {t : AttrType} (h : t ≠ .string) (h' : t ≠ .xhtml) (f : Str → Str) (p : DefaultPart) :
    hiddenPart f t p = p := by
  obtain ⟨a, b⟩ := p
  cases b <;> simp [hiddenPart, hiddenDefault_other h h']

theorem same_bodyOther {t : AttrType} (h : t ≠ .string) (h' : t ≠ .xhtml) (a : Py (Option Str)) (b : Py DefaultPart) (m : Option Bool) :
    Same (hiddenBody f) (hiddenBody id) (a >>= fun dt => b >>= fun dv => pure (t, dt, dv, m))
      (a >>= fun dt => b >>= fun dv => pure (t, dt, dv, m)) :=
  Same.then_ (fun dt => Same.then_ (fun dv => Same.pure_ (by simp [hiddenBody, hiddenPart_other h h'])))

theorem same_body (x : Node) : Same (hiddenBody f) (hiddenBody id) (parseDefinitionBody x) (parseDefinitionBody (veil f .definition x)) := by
  unfold parseDefinitionBody parseMultiValued
  simp (maxSteps := 2000000) (disch := decide) only [veil_datatypeRef, veil_defaultSimple, veil_defaultBoolean, veil_defaultEnumeration, veil_tag, veil_attr]
  refine Same.ite_ (fun _ => ?_) (fun _ => Same.ite_ (fun _ => same_bodyOther (by decide) (by decide) _ _ _) (fun _ =>
    Same.ite_ (fun _ => same_bodyOther (by decide) (by decide) _ _ _) (fun _ =>
    Same.ite_ (fun _ => same_bodyOther (by decide) (by decide) _ _ _) (fun _ => Same.ite_ (fun _ => ?_)
    (fun _ => Same.ite_ (fun _ => same_bodyOther (by decide) (by decide) _ _ _) (fun _ =>
    Same.ite_ (fun _ => same_bodyOther (by decide) (by decide) _ _ _) (fun _ => Same.error_)))))))
  · exact Same.then_ (fun dt => Same.bind_ (same_defaultString x) (fun p q e => Same.pure_ (by simp [hiddenBody, e])))
  · exact Same.then_ (fun dt => Same.bind_ (same_defaultXhtml x) (fun p q e => Same.pure_ (by simp [hiddenBody, e])))

theorem same_definition (x : Node) : Same (hiddenDefinition f) (hiddenDefinition id) (parseAttributeDefinition x)
    (parseAttributeDefinition (veil f .definition x)) := by
  unfold parseAttributeDefinition
  simp (disch := decide) only [veil_attrReq, veil_attr]
  refine Same.then_ (fun i => Same.bind_ (same_body x) (fun p q e => Same.pure_ ?_))
  obtain ⟨a, b, ⟨c, d⟩, m⟩ := p
  obtain ⟨a', b', ⟨c', d'⟩, m'⟩ := q
  simp only [hiddenBody, hiddenPart, Prod.mk.injEq] at e
  obtain ⟨rfl, rfl, ⟨rfl, e⟩, rfl⟩ := e
  simp [hiddenDefinition, e]

theorem same_definitions (x : Node) : Same (Option.map (List.map (hiddenDefinition f))) (Option.map (List.map (hiddenDefinition id)))
    (parseAttributeDefinitions x) (parseAttributeDefinitions (veil f .type x)) := by
  unfold parseAttributeDefinitions
  rw [veil_find rfl _ _ (by decide), zo13]
  cases x.find c!"SPEC-ATTRIBUTES" with
  | none => exact Same.ok_ rfl
  | some sa =>
    simp only [Option.map_some, veil_children (z := .definitions) rfl, mapPy_maps, zo40]
    exact Same.bind_ (Same.mapPy_ _ (fun k _ => same_definition k)) (fun a b e => Same.pure_ (by simp [e]))

theorem attributeMap_hidden (ds : List SpecAttributeDefinition) (m : Dict Str Str) :
    specAttributeMap (ds.map (hiddenDefinition f)) m = specAttributeMap ds m := by
  induction ds generalizing m with
  | nil => rfl
  | cons d ds ih =>
    simp only [List.map_cons, specAttributeMap]
    show (match d.longName with | none => _ | some n => specAttributeMap (ds.map (hiddenDefinition f)) (m.set d.identifier n)) = _
    cases d.longName with
    | none => rfl
    | some n => exact ih _

theorem same_type (x : Node) : Same (Option.map (hiddenType f)) (Option.map (hiddenType id)) (parseSpecType x)
    (parseSpecType (veil f .type x)) := by
  unfold parseSpecType
  rw [veil_tag, veil_isComment]
  refine Same.ite_ (fun _ => ?_) (fun _ => Same.ite_ (fun _ => ?_) (fun _ => Same.ite_ (fun _ => ?_) (fun _ => Same.ite_ (fun _ => ?_)
    (fun _ => Same.ite_ (fun _ => Same.ok_ rfl) (fun _ => Same.error_)))))
  · refine Same.bind_ (g := fun t => hiddenType f (.object t)) (h := fun t => hiddenType id (.object t)) ?_ (fun a b e => Same.pure_ (by simp [e]))
    unfold parseSpecObjectType
    simp (disch := decide) only [veil_tag, veil_attr, veil_attrReqNI]
    refine Same.then_ (fun _ => Same.then_ (fun _ => Same.bind_ (same_definitions x) (fun a b e => Same.pure_ ?_)))
    simp [hiddenType, e]
  · refine Same.bind_ (g := fun t => hiddenType f (.relation t)) (h := fun t => hiddenType id (.relation t)) ?_ (fun a b e => Same.pure_ (by simp [e]))
    unfold parseSpecRelationType
    simp (disch := decide) only [veil_tag, veil_attr, veil_attrReqNI, veil_selfClosed]
    refine Same.then_ (fun _ => Same.then_ (fun _ => Same.then_ (fun _ => Same.bind_ (same_definitions x) (fun a b e => Same.pure_ ?_))))
    simp [hiddenType, e]
  · refine Same.bind_ (g := fun t => hiddenType f (.specification t)) (h := fun t => hiddenType id (.specification t)) ?_
      (fun a b e => Same.pure_ (by simp [e]))
    unfold parseSpecificationType
    simp (disch := decide) only [veil_tag, veil_attr, veil_attrReqNI, veil_selfClosed]
    refine Same.then_ (fun _ => Same.then_ (fun _ => Same.then_ (fun _ => Same.bind_ (same_definitions x) (fun a b e => ?_))))
    refine Same.bind_ (g := id) (h := id) (Same.eq_ ?_) (fun m m' em => Same.pure_ ?_)
    · cases a with
      | none =>
        cases b with
        | none => rfl
        | some b => cases e
      | some a =>
        cases b with
        | none => cases e
        | some b =>
          simp only [Option.map_some, Option.some.injEq] at e
          dsimp only
          rw [← attributeMap_hidden (f := id) b, e, attributeMap_hidden]
    · cases em
      simp [hiddenType, e]
  · refine Same.bind_ (g := fun t => hiddenType f (.relationGroup t)) (h := fun t => hiddenType id (.relationGroup t)) ?_
      (fun a b e => Same.pure_ (by simp [e]))
    unfold parseRelationGroupType
    simp (disch := decide) only [veil_tag, veil_attr, veil_attrReqNI, veil_selfClosed]
    refine Same.then_ (fun _ => Same.then_ (fun _ => Same.bind_ (same_definitions x) (fun a b e => Same.pure_ ?_)))
    simp [hiddenType, e]

/-! ## Objects and relations -/

theorem same_object (x : Node) : Same (hiddenObject f) (hiddenObject id) (parseSpecObject x) (parseSpecObject (veil f .object x)) := by
  unfold parseSpecObject
  unveil
  refine Same.then_ (fun _ => Same.then_ (fun _ => Same.then_ (fun _ => Same.then_ (fun _ => Same.then_ (fun _ =>
    Same.bind_ (same_values _) (fun a b e => Same.pure_ ?_))))))
  cases a with
  | none =>
    cases b with
    | none => rfl
    | some b => cases e
  | some a =>
    cases b with
    | none => cases e
    | some b =>
      simp only [Option.map_some, Option.some.injEq] at e
      simp [hiddenObject, e]

theorem same_objectItem (x : Node) : Same (Option.map (hiddenObject f)) (Option.map (hiddenObject id)) (objectItem x)
    (objectItem (veil f .object x)) := by
  unfold objectItem
  rw [veil_isComment]
  refine Same.ite_ (fun _ => Same.ok_ rfl) (fun _ => ?_)
  intro o ho
  unfold someItem at ho ⊢
  cases hp : parseSpecObject x with
  | error e => rw [hp] at ho; cases ho
  | ok a =>
    obtain ⟨b, hb, e⟩ := same_object (f := f) x a hp
    rw [hp] at ho
    cases ho
    rw [hb]
    exact ⟨some b, rfl, by simp [e]⟩

/-- A relation, or a missing tag without its element. -/
def hiddenResult (f : Str → Str) : Except MissingTag SpecRelation → Except MissingTag SpecRelation
  | .ok r => .ok (hiddenRelation f r)
  | .error e => .error { e with node := .text [] }

mutual
theorem veil_prints (z : Zone) (b : Bool) : ∀ n : Node, (∃ s, stringifyNode b n = .ok s) → ∃ s, stringifyNode b (veil f z n) = .ok s
  | .text _, h => h
  | .comment _, h => h
  | .pi _ _, h => h
  | .elem i ks, h => by
    have hk : ∃ s, stringifyKids ks = .ok s := by
      have ht := tried_elem b i ks
      obtain ⟨s, hs⟩ := h
      rw [hs] at ht
      cases hq : stringifyKids ks with
      | ok s => exact ⟨s, rfl⟩
      | error e => rw [hq] at ht; cases ht
    have done : ∀ (j : Info) (ls : List Node), (∃ s, stringifyKids ls = .ok s) → ∃ s, stringifyNode b (.elem j ls) = .ok s := by
      intro j ls ⟨s, hs⟩
      have ht := tried_elem b j ls
      rw [hs] at ht
      cases hq : stringifyNode b (.elem j ls) with
      | ok s => exact ⟨s, rfl⟩
      | error e => rw [hq] at ht; cases ht
    have lead : ∃ s, stringifyKids (leadingNodes ks) = .ok s := by
      match ks with
      | [] => exact ⟨_, rfl⟩
      | .text s :: ks => exact ⟨_, rfl⟩
      | .elem j js :: ks => exact ⟨_, rfl⟩
      | .comment s :: ks => exact ⟨_, rfl⟩
      | .pi a b :: ks => exact ⟨_, rfl⟩
    have lead' : ∃ s, stringifyKids (mapLeading f (leadingNodes ks)) = .ok s := by
      match ks with
      | [] => exact ⟨_, rfl⟩
      | .text s :: ks => exact ⟨_, rfl⟩
      | .elem j js :: ks => exact ⟨_, rfl⟩
      | .comment s :: ks => exact ⟨_, rfl⟩
      | .pi a b :: ks => exact ⟨_, rfl⟩
    by_cases hz : z.isOpen = true
    · rw [veil_open hz]
      exact done _ _ (veil_printsAll z ks hk)
    · cases z with
      | fixed => exact done _ _ lead
      | note => exact done _ _ lead'
      | skipped => exact done _ _ ⟨_, rfl⟩
      | blob => exact done _ _ ⟨_, rfl⟩
      | _ => exact absurd rfl hz

theorem veil_printsAll (z : Zone) : ∀ ns : List Node, (∃ s, stringifyKids ns = .ok s) → ∃ s, stringifyKids (veilAll f z ns) = .ok s
  | [], h => h
  | n :: ns, h => by
    obtain ⟨s, h⟩ := h
    simp only [stringifyKids] at h
    cases ha : stringifyNode false n with
    | error e => rw [ha] at h; cases h
    | ok a =>
      rw [ha] at h
      dsimp only at h
      cases hb : stringifyKids ns with
      | error e => rw [hb] at h; cases h
      | ok c =>
        obtain ⟨a', ha'⟩ := veil_prints (z.inner (localName n)) false n ⟨a, ha⟩
        obtain ⟨b', hb'⟩ := veil_printsAll z ns ⟨c, hb⟩
        exact ⟨a' ++ b', by simp only [veilAll, stringifyKids, ha', hb']⟩
end

theorem same_relation (x : Node) : Same (hiddenResult f) (hiddenResult id) (parseSpecRelation x) (parseSpecRelation (veil f .relation x)) := by
  unfold parseSpecRelation
  unveil
  refine Same.then_ (fun _ => Same.then_ (fun _ => Same.ite_ (fun _ => Same.pure_ rfl) (fun _ => Same.ite_ (fun _ => Same.pure_ rfl) (fun _ => ?_))))
  refine Same.then_ (fun _ => Same.then_ (fun _ => Same.then_ (fun _ => Same.then_ (fun _ => Same.then_ (fun _ => Same.then_ (fun _ =>
    Same.then_ (fun _ => Same.then_ (fun _ => Same.bind_ (same_relationValues _) (fun a b e => Same.pure_ ?_)))))))))
  simp [hiddenResult, hiddenRelation, e]

theorem relation_errorNode {x : Node} {m : MissingTag} (h : parseSpecRelation x = .ok (.error m)) : m.node = x := by
  unfold parseSpecRelation at h
  obtain ⟨_, _, h⟩ := py_bind_inv h
  obtain ⟨_, _, h⟩ := py_bind_inv h
  split at h
  · cases h; rfl
  · split at h
    · cases h; rfl
    · obtain ⟨_, _, h⟩ := py_bind_inv h
      obtain ⟨_, _, h⟩ := py_bind_inv h
      obtain ⟨_, _, h⟩ := py_bind_inv h
      obtain ⟨_, _, h⟩ := py_bind_inv h
      obtain ⟨_, _, h⟩ := py_bind_inv h
      obtain ⟨_, _, h⟩ := py_bind_inv h
      obtain ⟨_, _, h⟩ := py_bind_inv h
      obtain ⟨_, _, h⟩ := py_bind_inv h
      obtain ⟨_, _, h⟩ := py_bind_inv h
      cases h

theorem same_relationItem (x : Node) : Same (hiddenResult f) (hiddenResult id) (relationItem x) (relationItem (veil f .relation x)) := by
  intro r hr
  unfold relationItem at hr ⊢
  cases hp : parseSpecRelation x with
  | error e => rw [hp] at hr; cases hr
  | ok a =>
    obtain ⟨b, hb, e⟩ := same_relation (f := f) x a hp
    rw [hp] at hr
    rw [hb]
    cases a with
    | ok a =>
      cases b with
      | error m => cases e
      | ok b => cases hr; exact ⟨_, rfl, e⟩
    | error m =>
      cases b with
      | ok b => cases e
      | error m' =>
        have h1 := relation_errorNode hp
        have h2 := relation_errorNode hb
        dsimp only at hr ⊢
        rw [h1] at hr
        rw [h2]
        cases hs : stringifyNode false x with
        | error e => rw [hs] at hr; cases hr
        | ok s =>
          obtain ⟨s', hs'⟩ := veil_prints (f := f) .relation false x ⟨s, hs⟩
          rw [hs] at hr
          rw [hs']
          cases hr
          exact ⟨_, rfl, e⟩

theorem veil_optRef (z : Zone) (hz : z.isOpen = true) (x : Node) (a b : Str) (ha : plainTag a = true) (hb : plainTag b = true)
    (h : z.inner a = .flat) : optRef (veil f z x) a b = optRef x a b := by
  unfold optRef
  rw [veil_find hz _ _ ha, h]
  cases x.find a with
  | none => rfl
  | some t =>
    simp only [Option.map_some, veil_find (z := .flat) rfl _ _ hb, zo36]
    cases t.find b <;> simp only [Option.map_some, Option.map_none, veil_text]

theorem veil_group (x : Node) : parseRelationGroup (veil f .group x) = parseRelationGroup x := by
  unfold parseRelationGroup
  simp (disch := decide) only [veil_optRef]
  unveil
  cases x.find c!"SPEC-RELATIONS" with
  | none => rfl
  | some s => simp only [Option.map_some, veil_children (z := .flat) rfl, veil_texts]

/-! ## The header -/

theorem veil_optText (x : Node) (t : Str) (ht : plainTag t = true) (h : Zone.headerBody.inner t = .fixed) :
    optText (veil f .headerBody x) t = optText x t := by
  unfold optText
  rw [veil_find rfl _ _ ht, h]
  cases x.find t <;> simp only [Option.map_some, Option.map_none, veil_text]

theorem veil_optNote (x : Node) (t : Str) (ht : plainTag t = true) (h : Zone.headerBody.inner t = .note) :
    optText (veil f .headerBody x) t = (optText x t).map f := by
  unfold optText
  rw [veil_find rfl _ _ ht, h]
  cases hf : x.find t with
  | none => rfl
  | some k => simp only [Option.map_some, veil_noteText k (find_isElem hf)]

theorem same_header (x : Node) : Same (hiddenHeader f) (hiddenHeader id) (parseHeader x) (parseHeader (veil f .header x)) := by
  unfold parseHeader
  unveil
  refine Same.then_ (fun _ => ?_)
  cases x.find c!"REQ-IF-HEADER" with
  | none => exact Same.error_
  | some h =>
    simp only [Option.map_some]
    simp (disch := decide) only [veil_optText, veil_optNote]
    unveil
    refine Same.then_ (fun _ => Same.pure_ ?_)
    cases h.find c!"REPOSITORY-ID" <;> simp [hiddenHeader, veil_text]

/-! ## Hierarchies -/

theorem hiddenHierarchies_map (hs : List Hierarchy) : hiddenHierarchies hs = hs.map hiddenHierarchy := by
  induction hs with
  | nil => rfl
  | cons h hs ih => simp only [hiddenHierarchies, List.map_cons, ih]

theorem same_hierarchy (level : Nat) (x : Node) : Same hiddenHierarchy hiddenHierarchy (parseHierarchy level x)
    (parseHierarchy level (veil f .hierarchy x)) := by
  by_cases hx : Format.isElem x = true
  · rw [hierarchy_from level x hx, hierarchy_from level _ (by rw [veil_isElem]; exact hx)]
    rw [veil_find rfl _ c!"CHILDREN" (by decide), zo30, veil_find rfl _ c!"OBJECT" (by decide), zo31]
    unfold hierarchyFrom boolAttr
    unveil
    refine Same.ite_ (fun _ => ?_) (fun _ => Same.error_)
    cases attrReqNI x c!"IDENTIFIER" with
    | error e => exact Same.error_
    | ok identifier =>
      cases x.find c!"OBJECT" with
      | none => exact Same.error_
      | some o =>
        simp only [Option.map_some]
        unveil
        cases o.find c!"SPEC-OBJECT-REF" with
        | none => exact Same.error_
        | some r =>
          cases hf : x.find c!"CHILDREN" with
          | none => simp only [Option.map_some, Option.map_none, veil_text]; exact Same.ok_ rfl
          | some k =>
            have ih : ∀ c ∈ k.children, Same hiddenHierarchy hiddenHierarchy (parseHierarchy (level + 1) c)
                (parseHierarchy (level + 1) (veil f .hierarchy c)) := fun c hc =>
              have := hierarchy_lt hf hc
              same_hierarchy (level + 1) c
            have hm := Same.mapPy_ k.children ih
            simp only [Option.map_some, veil_text, childrenFrom, veil_children (z := .hierarchies) rfl, veil_len (z := .hierarchies) rfl,
              veil_selfClosed (z := .hierarchies) rfl, mapPy_maps, zo44]
            intro h hh
            cases hq : mapPy (parseHierarchy (level + 1)) k.children with
            | error e => rw [hq] at hh; cases hh
            | ok cs =>
              obtain ⟨cs', hcs', e⟩ := hm cs hq
              rw [hq] at hh
              cases hh
              refine ⟨_, by rw [hcs']; rfl, ?_⟩
              simp only [hiddenHierarchy, hiddenHierarchies_map, e]
  · cases x with
    | elem i ks => exact absurd rfl hx
    | text s => exact Same.refl _
    | comment s => exact Same.refl _
    | pi a b => exact Same.refl _
termination_by sizeOf x

theorem same_specification (x : Node) : Same (hiddenSpecification f) (hiddenSpecification id) (parseSpecification x)
    (parseSpecification (veil f .specification x)) := by
  have hr : attrReqNI (veil f .specification x) c!"IDENTIFIER" = attrReqNI x c!"IDENTIFIER" := by
    unfold attrReqNI attrReq
    rw [veil_spec_attr, if_neg (by decide)]
  unfold parseSpecification
  simp (disch := decide) only [veil_optRef, veil_findLast]
  rw [hr, veil_spec_attr, if_neg (by decide), veil_spec_attr, if_neg (by decide), veil_spec_attr, if_pos rfl]
  unveil
  refine Same.then_ (fun _ => Same.then_ (fun _ => Same.then_ (fun _ => ?_)))
  refine Same.bind_ (g := Option.map (List.map hiddenHierarchy)) (h := Option.map (List.map hiddenHierarchy)) ?_ (fun a b e =>
    Same.bind_ (same_values _) (fun v w e' => Same.pure_ ?_))
  · cases findLast x c!"CHILDREN" with
    | none => exact Same.ok_ rfl
    | some c =>
      simp only [Option.map_some, veil_children (z := .hierarchies) rfl, mapPy_maps, zo44]
      exact Same.bind_ (Same.mapPy_ _ (fun k _ => same_hierarchy 1 k)) (fun a b e => Same.pure_ (by simp [e]))
  · have he : hiddenHierarchies = List.map hiddenHierarchy := funext hiddenHierarchies_map
    simp [hiddenSpecification, he, e, e']

end ReqIF
