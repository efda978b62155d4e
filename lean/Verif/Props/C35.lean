import Verif.Props.C34
/-!
# C35: spec types survive write and read
-/
set_option linter.unusedSimpArgs false
namespace ReqIF
open Spec

/-- The attribute definitions of a spec type, as the body of an element. -/
theorem definitions_survive {Γ : Ctx} (hc : Γ.Clean) {o : Option (List SpecAttributeDefinition)}
    (h : ∀ ds, o = some ds → ∀ d ∈ ds, SafeDefinition Γ d) :
    ∃ t ns o', unparseSpecAttributes o = .ok t ∧ Shows Γ ((o.getD []).any definitionUses) t ns ∧
      (∀ n, n.children = ns → parseAttributeDefinitions n = .ok o') ∧
      o'.map (·.map bareDefinition) = o.map (·.map readDefinition) ∧ unparseSpecAttributes o' = .ok t ∧
      ns.map Xsd.said = Xsd.containerSaid c!"SPEC-ATTRIBUTES" (Xsd.definitionSaid Γ.pfx) o := by
  cases o with
  | none =>
    refine ⟨[], [], none, rfl, Shows.nil Γ, ?_, rfl, rfl, rfl⟩
    intro n hn
    unfold parseAttributeDefinitions
    rw [find_eq, hn]
    rfl
  | some ds =>
    obtain ⟨t, ns, ds', h1, h2, -, h4, h5, h6, h7⟩ := survive_list (use := definitionUses)
      (Q := fun _ => True) (F := Xsd.definitionSaid Γ.pfx) (print := unparseAttributeDefinition) (parse := parseAttributeDefinition) (f := bareDefinition)
      (g := readDefinition) ds (fun d hd => by
        obtain ⟨t, n, d', e1, e2, e3, e4, e5, e6⟩ := definition_survives hc (h ds rfl d hd)
        exact ⟨t, n, d', e1, e2, ⟨trivial, e3.2⟩, e4, e5, e6⟩)
    obtain ⟨n, n1, -, n2⟩ := Shows.block 10 (tag := c!"SPEC-ATTRIBUTES") (by decide) h2
    refine ⟨_, [n], some ds', ?_, n2, ?_, ?_, ?_, by rw [List.map_cons, List.map_nil, n1.saysList (by decide), h7]; rfl⟩
    · unfold unparseSpecAttributes unparseAttributeDefinitions
      dsimp only
      rw [h1, py_bind_ok, py_pure]
    · intro m hm
      unfold parseAttributeDefinitions
      have : m.find c!"SPEC-ATTRIBUTES" = some n := by rw [find_eq, hm]; simp [n1.tag]
      rw [this]
      dsimp only
      rw [n1.children, h4, py_bind_ok, py_pure]
    · simp [h5]
    · unfold unparseSpecAttributes unparseAttributeDefinitions
      dsimp only
      rw [h6, py_bind_ok, py_pure]

theorem hasAttributes_eq (o : Option (List SpecAttributeDefinition)) : hasAttributes o = someDefinition o := by
  cases o with
  | none => rfl
  | some ds => cases ds <;> rfl

theorem someDefinition_map (o : Option (List SpecAttributeDefinition)) (f : SpecAttributeDefinition → SpecAttributeDefinition) :
    someDefinition (o.map (·.map f)) = someDefinition o := by
  cases o with
  | none => rfl
  | some ds => cases ds <;> rfl

/-- Printing a type: an empty tag or an element with the attribute definitions. -/
def typeText (head tag : Str) (sc : Bool) (ds : Option (List SpecAttributeDefinition)) : Py Str :=
  if sc && !hasAttributes ds then .ok (head ++ c!"/>\n")
  else do
    let body ← unparseSpecAttributes ds
    return head ++ c!">\n" ++ body ++ lineClose 8 tag

/-- What the element of a type is read as. -/
theorem type_shows {Γ : Ctx} (hc : Γ.Clean) {tag : Str} (ht : blockTag tag = true) (htr : Xsd.isRecordName tag = true) {as vs : List (Str × Str)} (ha : Attributes as vs)
    (sc : Bool) {o : Option (List SpecAttributeDefinition)} (h : ∀ ds, o = some ds → ∀ d ∈ ds, SafeDefinition Γ d) :
    ∃ t n o', typeText (spaces 8 ++ c!"<" ++ tag ++ attrsText as) tag sc o = .ok t ∧
      Shows Γ ((o.getD []).any definitionUses) t [n] ∧ n.tag = .name tag ∧ (∀ k, n.attr? k = look vs k) ∧
      isSelfClosedTag n = (sc && !someDefinition o) ∧ parseAttributeDefinitions n = .ok o' ∧
      o'.map (·.map bareDefinition) = (if sc && !someDefinition o then none else o).map (·.map readDefinition) ∧
      typeText (spaces 8 ++ c!"<" ++ tag ++ attrsText as) tag (sc && !someDefinition o) o' = .ok t ∧
      Xsd.said n = Xsd.typeSaid Γ.pfx tag vs sc o := by
  by_cases hsc : (sc && !someDefinition o) = true
  · obtain ⟨n, n1, n2, n3⟩ := Shows.empty (Γ := Γ) 8 (blockTag_name ht) ha
    have hu : (o.getD []).any definitionUses = false := by
      cases o with
      | none => rfl
      | some ds =>
        cases ds with
        | nil => rfl
        | cons d ds => simp [someDefinition] at hsc
    refine ⟨spaces 8 ++ c!"<" ++ tag ++ attrsText as ++ c!"/>\n", n, none, ?_, ?_, n1.tag, n1.attr, ?_, ?_, ?_, ?_, ?_⟩
    · unfold typeText
      rw [hasAttributes_eq, if_pos hsc]
    · rw [hu]; exact n3
    · rw [hsc]; exact selfClosed_nil n1.elem n2
    · unfold parseAttributeDefinitions
      rw [find_eq, n1.children]
      rfl
    · rw [if_pos hsc]; rfl
    · rw [hsc]
      rfl
    · rw [n1.saysRecord htr]
      unfold Xsd.typeSaid
      rw [if_pos hsc]
      rfl
  · obtain ⟨t, ns, o', h1, h2, h3, h4, h5, h6⟩ := definitions_survive hc h
    obtain ⟨n, n1, n2, -, n3⟩ := Shows.elem 8 ht ha h2
    have hsc' : (sc && !someDefinition o) = false := by simpa using hsc
    refine ⟨_, n, o', ?_, n3, n1.tag, n1.attr, ?_, h3 n n1.children, ?_, ?_, ?_⟩
    · unfold typeText
      rw [hasAttributes_eq, if_neg hsc, h1, py_bind_ok, py_pure]
    · rw [hsc']; exact selfClosed_ne n1.elem n2
    · rw [if_neg hsc]; exact h4
    · unfold typeText
      rw [hsc', if_neg (by simp), h5, py_bind_ok, py_pure]
    · rw [n1.saysRecord htr, h6]
      unfold Xsd.typeSaid
      rw [if_neg hsc]

theorem someDef_eq {o o' : Option (List SpecAttributeDefinition)} (h : o'.map (·.map bareDefinition) = o.map (·.map readDefinition)) :
    someDefinition o' = someDefinition o := by
  rw [← someDefinition_map o' bareDefinition, h, someDefinition_map]

/-- The map of names, from definitions that all have one. -/
theorem specAttributeMap_ok (ds : List SpecAttributeDefinition) (h : ∀ d ∈ ds, d.longName.isSome) (m : Dict Str Str) :
    specAttributeMap ds m = .ok (ds.foldl (fun (m : Dict Str Str) d => m.set d.identifier (d.longName.getD [])) m) := by
  induction ds generalizing m with
  | nil => rfl
  | cons d ds ih =>
    have hd := h d (by simp)
    unfold specAttributeMap
    cases hl : d.longName with
    | none => rw [hl] at hd; cases hd
    | some n =>
      dsimp only
      rw [ih (fun x hx => h x (by simp [hx]))]
      simp [hl]

theorem names_eq {ds ds' : List SpecAttributeDefinition} (h : ds'.map bareDefinition = ds.map readDefinition) (m : Dict Str Str) :
    ds'.foldl (fun (m : Dict Str Str) d => m.set d.identifier (d.longName.getD [])) m =
    ds.foldl (fun (m : Dict Str Str) d => m.set d.identifier (d.longName.getD [])) m := by
  induction ds generalizing ds' m with
  | nil =>
    cases ds' with
    | nil => rfl
    | cons a b => simp at h
  | cons d ds ih =>
    cases ds' with
    | nil => simp at h
    | cons a b =>
      simp only [List.map_cons, List.cons.injEq] at h
      have e1 : a.identifier = d.identifier := by have := congrArg SpecAttributeDefinition.identifier h.1; exact this
      have e2 : a.longName = d.longName := by have := congrArg SpecAttributeDefinition.longName h.1; exact this
      rw [List.foldl_cons, List.foldl_cons, e1, e2]
      exact ih h.2 _

theorem names_some {ds ds' : List SpecAttributeDefinition} (h : ds'.map bareDefinition = ds.map readDefinition)
    (hs : ∀ d ∈ ds, d.longName.isSome) : ∀ d ∈ ds', d.longName.isSome := by
  intro d hd
  have : bareDefinition d ∈ ds.map readDefinition := by rw [← h]; exact List.mem_map_of_mem hd
  obtain ⟨x, hx, e⟩ := List.mem_map.1 this
  have e2 : (readDefinition x).longName = (bareDefinition d).longName := congrArg SpecAttributeDefinition.longName e
  have e2 : x.longName = d.longName := e2
  rw [← e2]
  exact hs x hx


/-- Reading a spec type that is not a comment. -/
def parseType (n : Node) : Py SpecType :=
  match parseSpecType n with
  | .error e => .error e
  | .ok none => .error .notImplemented
  | .ok (some t) => .ok t

theorem parseType_ok {n : Node} {t : SpecType} : parseType n = .ok t ↔ parseSpecType n = .ok (some t) := by
  unfold parseType
  cases h : parseSpecType n with
  | error e => simp
  | ok o => cases o <;> simp

/-- The tag of a spec type. -/
def typeTag : SpecType → Str
  | .object _ => c!"SPEC-OBJECT-TYPE"
  | .relation _ => c!"SPEC-RELATION-TYPE"
  | .specification _ => c!"SPECIFICATION-TYPE"
  | .relationGroup _ => c!"RELATION-GROUP-TYPE"

theorem objectType_survives {Γ : Ctx} (hc : Γ.Clean) {t : SpecObjectType} (h : SafeSpecType Γ (.object t)) :
    Survives Γ (specTypeUses (.object t)) (fun n => n.tag = .name c!"SPEC-OBJECT-TYPE" ∧ Xsd.said n = Xsd.specTypeSaid Γ.pfx (.object t)) unparseSpecType parseType bareSpecType
      readSpecType (.object t) := by
  obtain ⟨i, desc, lc, ln, ds⟩ := t
  obtain ⟨⟨h1, h2, h3, h4⟩, h5⟩ := h
  dsimp only at h1 h2 h3 h4
  obtain ⟨s, n, o', n1, n2, n3, n4, n5, n6, n7, n8, n9⟩ := type_shows hc (tag := c!"SPEC-OBJECT-TYPE") (by decide) (by decide)
    (as := optA c!"DESC" lxmlEscapeForHtml desc ++ [(c!"IDENTIFIER", i)] ++ optA c!"LAST-CHANGE" id lc ++
      optA c!"LONG-NAME" lxmlEscapeForHtml ln)
    (vs := optA c!"DESC" id desc ++ [(c!"IDENTIFIER", i)] ++ optA c!"LAST-CHANGE" id lc ++ optA c!"LONG-NAME" id ln)
    (by attributes) false (o := ds) h5
  have text : ∀ o, unparseSpecType (.object ⟨i, desc, lc, ln, o⟩) = typeText (spaces 8 ++ c!"<" ++ c!"SPEC-OBJECT-TYPE" ++
      attrsText (optA c!"DESC" lxmlEscapeForHtml desc ++ [(c!"IDENTIFIER", i)] ++ optA c!"LAST-CHANGE" id lc ++
      optA c!"LONG-NAME" lxmlEscapeForHtml ln)) c!"SPEC-OBJECT-TYPE" false o := by
    intro o
    simp only [unparseSpecType, unparseSpecObjectType, typeText, Bool.false_and, Bool.false_eq_true, if_false]
    cases unparseSpecAttributes o with
    | error e => rfl
    | ok b =>
      rw [py_bind_ok, py_bind_ok, py_pure, py_pure]
      congr 1
      attrs_text
  refine ⟨s, n, .object ⟨i, desc, lc, ln, o'⟩, (text _).trans n1, n2, ⟨n3, n9⟩, ?_, ?_, (text _).trans n8⟩
  · rw [parseType_ok]
    have a2 : attrReqNI n c!"IDENTIFIER" = .ok i := by
      unfold attrReqNI attrReq
      rw [n4]
      simp [look_append, look_opt, look_cons, look_truthy, look_nil, orKey, orNotImpl]
    have a0 : pyAssert true = .ok () := rfl
    unfold parseSpecType parseSpecObjectType
    rw [if_pos n3, n3]
    have e : (Tag.name c!"SPEC-OBJECT-TYPE" == Tag.name c!"SPEC-OBJECT-TYPE") = true := by decide
    rw [e, a0, py_bind_ok, a2, py_bind_ok, n6, py_bind_ok, py_pure, py_bind_ok, py_pure]
    simp [n4, look_append, look_opt, look_cons, look_truthy, look_nil]
  · simp only [bareSpecType, readSpecType, mapDefinitions]
    rw [n7]
    rfl

theorem relationTypeText (tag : Str) (i : Str) (desc lc ln : Option Str) (sc : Bool) (o : Option (List SpecAttributeDefinition)) :
    unparseRelationType tag ⟨i, desc, lc, ln, sc, o⟩ = typeText (spaces 8 ++ c!"<" ++ tag ++
      attrsText (optA c!"DESC" htmlEscape desc ++ [(c!"IDENTIFIER", i)] ++ optA c!"LAST-CHANGE" id lc ++
      optA c!"LONG-NAME" id ln)) tag sc o := by
  unfold unparseRelationType typeText
  simp only [attrsText_append, attrsText_optA, attrsText_one, List.append_assoc]

theorem relationType_survives {Γ : Ctx} (hc : Γ.Clean) {t : RelationType} (h : SafeSpecType Γ (.relation t)) :
    Survives Γ (specTypeUses (.relation t)) (fun n => n.tag = .name c!"SPEC-RELATION-TYPE" ∧ Xsd.said n = Xsd.specTypeSaid Γ.pfx (.relation t)) unparseSpecType parseType bareSpecType
      readSpecType (.relation t) := by
  obtain ⟨i, desc, lc, ln, sc, ds⟩ := t
  obtain ⟨⟨h1, h2, h3, h4, h6⟩, h5⟩ := h
  dsimp only at h1 h2 h3 h4 h6
  obtain ⟨s, n, o', n1, n2, n3, n4, n5, n6, n7, n8, n9⟩ := type_shows hc (tag := c!"SPEC-RELATION-TYPE") (by decide) (by decide)
    (as := optA c!"DESC" htmlEscape desc ++ [(c!"IDENTIFIER", i)] ++ optA c!"LAST-CHANGE" id lc ++ optA c!"LONG-NAME" id ln)
    (vs := optA c!"DESC" id desc ++ [(c!"IDENTIFIER", i)] ++ optA c!"LAST-CHANGE" id lc ++ optA c!"LONG-NAME" id ln)
    (by attributes; exact AttrsRead.optHtml _ h2) sc (o := ds) h5
  refine ⟨s, n, .relation ⟨i, desc, lc, ln, sc && !someDefinition ds, o'⟩, (relationTypeText ..).trans n1, n2, ⟨n3, n9⟩, ?_, ?_,
    (relationTypeText ..).trans n8⟩
  · rw [parseType_ok]
    obtain ⟨l, rfl⟩ := Option.isSome_iff_exists.1 h6
    have a2 : attrReqNI n c!"IDENTIFIER" = .ok i := by
      unfold attrReqNI attrReq
      rw [n4]
      simp [look_append, look_opt, look_cons, look_truthy, look_nil, orKey, orNotImpl]
    have a3 : attrReqNI n c!"LONG-NAME" = .ok l := by
      unfold attrReqNI attrReq
      rw [n4]
      simp [look_append, look_opt, look_cons, look_truthy, look_nil, orKey, orNotImpl]
    have a0 : pyAssert true = .ok () := rfl
    unfold parseSpecType parseSpecRelationType
    rw [n3, if_neg (by decide), if_pos rfl]
    have e : (Tag.name c!"SPEC-RELATION-TYPE" == Tag.name c!"SPEC-RELATION-TYPE") = true := by decide
    rw [e, a0, py_bind_ok, a2, py_bind_ok, a3, py_bind_ok, n6, py_bind_ok, py_pure, py_bind_ok, py_pure, n5]
    simp [n4, look_append, look_opt, look_cons, look_truthy, look_nil]
  · simp only [bareSpecType, readSpecType, mapDefinitions, printedRelationType]
    rw [n7]

theorem groupType_survives {Γ : Ctx} (hc : Γ.Clean) {t : RelationType} (h : SafeSpecType Γ (.relationGroup t)) :
    Survives Γ (specTypeUses (.relationGroup t)) (fun n => n.tag = .name c!"RELATION-GROUP-TYPE" ∧ Xsd.said n = Xsd.specTypeSaid Γ.pfx (.relationGroup t)) unparseSpecType parseType bareSpecType
      readSpecType (.relationGroup t) := by
  obtain ⟨i, desc, lc, ln, sc, ds⟩ := t
  obtain ⟨⟨h1, h2, h3, h4⟩, h5⟩ := h
  dsimp only at h1 h2 h3 h4
  obtain ⟨s, n, o', n1, n2, n3, n4, n5, n6, n7, n8, n9⟩ := type_shows hc (tag := c!"RELATION-GROUP-TYPE") (by decide) (by decide)
    (as := optA c!"DESC" htmlEscape desc ++ [(c!"IDENTIFIER", i)] ++ optA c!"LAST-CHANGE" id lc ++ optA c!"LONG-NAME" id ln)
    (vs := optA c!"DESC" id desc ++ [(c!"IDENTIFIER", i)] ++ optA c!"LAST-CHANGE" id lc ++ optA c!"LONG-NAME" id ln)
    (by attributes; exact AttrsRead.optHtml _ h2) sc (o := ds) h5
  refine ⟨s, n, .relationGroup ⟨i, desc, lc, ln, sc && !someDefinition ds, o'⟩, (relationTypeText ..).trans n1, n2, ⟨n3, n9⟩, ?_, ?_,
    (relationTypeText ..).trans n8⟩
  · rw [parseType_ok]
    have a2 : attrReqNI n c!"IDENTIFIER" = .ok i := by
      unfold attrReqNI attrReq
      rw [n4]
      simp [look_append, look_opt, look_cons, look_truthy, look_nil, orKey, orNotImpl]
    have a0 : pyAssert true = .ok () := rfl
    unfold parseSpecType parseRelationGroupType
    rw [n3, if_neg (by decide), if_neg (by decide), if_neg (by decide), if_pos rfl]
    have e : (Tag.name c!"RELATION-GROUP-TYPE" == Tag.name c!"RELATION-GROUP-TYPE") = true := by decide
    rw [e, a0, py_bind_ok, a2, py_bind_ok, n6, py_bind_ok, py_pure, py_bind_ok, py_pure, n5]
    simp [n4, look_append, look_opt, look_cons, look_truthy, look_nil]
  · simp only [bareSpecType, readSpecType, mapDefinitions, printedRelationType]
    rw [n7]

theorem specificationTypeText (i : Str) (desc lc ln : Option Str) (o : Option (List SpecAttributeDefinition)) (m : Option (Dict Str Str))
    (sc : Bool) :
    unparseSpecificationType ⟨i, desc, lc, ln, o, m, sc⟩ = typeText (spaces 8 ++ c!"<" ++ c!"SPECIFICATION-TYPE" ++
      attrsText (optA c!"DESC" id desc ++ [(c!"IDENTIFIER", i)] ++ optA c!"LAST-CHANGE" id lc ++
      optA c!"LONG-NAME" id ln)) c!"SPECIFICATION-TYPE" sc o := by
  unfold unparseSpecificationType typeText
  simp only [attrsText_append, attrsText_optA, attrsText_one, List.append_assoc]
  rfl

theorem specificationType_survives {Γ : Ctx} (hc : Γ.Clean) {t : SpecificationType} (h : SafeSpecType Γ (.specification t)) :
    Survives Γ (specTypeUses (.specification t)) (fun n => n.tag = .name c!"SPECIFICATION-TYPE" ∧ Xsd.said n = Xsd.specTypeSaid Γ.pfx (.specification t)) unparseSpecType parseType bareSpecType
      readSpecType (.specification t) := by
  obtain ⟨i, desc, lc, ln, ds, m, sc⟩ := t
  obtain ⟨⟨h1, h2, h3, h4, h6, h7⟩, h5⟩ := h
  dsimp only at h1 h2 h3 h4 h6 h7
  obtain ⟨s, n, o', n1, n2, n3, n4, n5, n6, n7, n8, n9⟩ := type_shows hc (tag := c!"SPECIFICATION-TYPE") (by decide) (by decide)
    (as := optA c!"DESC" id desc ++ [(c!"IDENTIFIER", i)] ++ optA c!"LAST-CHANGE" id lc ++ optA c!"LONG-NAME" id ln)
    (vs := optA c!"DESC" id desc ++ [(c!"IDENTIFIER", i)] ++ optA c!"LAST-CHANGE" id lc ++ optA c!"LONG-NAME" id ln)
    (by attributes) sc (o := ds) h5
  have hm : (match o' with
      | none => .ok []
      | some ds => specAttributeMap ds [] : Py (Dict Str Str)) = .ok (attributeNames (ds.getD [])) := by
    cases ds with
    | none =>
      cases o' with
      | none => rfl
      | some x => simp at n7
    | some l =>
      by_cases hsc : (sc && !someDefinition (some l)) = true
      · rw [if_pos hsc] at n7
        cases o' with
        | some x => simp at n7
        | none =>
          cases l with
          | nil => rfl
          | cons a b => simp [someDefinition] at hsc
      · rw [if_neg hsc] at n7
        cases o' with
        | none => simp at n7
        | some x =>
          simp only [Option.map_some, Option.some.injEq] at n7
          dsimp only
          rw [specAttributeMap_ok x (names_some n7 (h7 l rfl)), names_eq n7]
          rfl
  refine ⟨s, n, .specification ⟨i, desc, lc, ln, o', some (attributeNames (ds.getD [])), sc && !someDefinition ds⟩,
    (specificationTypeText ..).trans n1, n2, ⟨n3, n9⟩, ?_, ?_, (specificationTypeText ..).trans n8⟩
  · rw [parseType_ok]
    obtain ⟨l, rfl⟩ := Option.isSome_iff_exists.1 h6
    have a2 : attrReqNI n c!"IDENTIFIER" = .ok i := by
      unfold attrReqNI attrReq
      rw [n4]
      simp [look_append, look_opt, look_cons, look_truthy, look_nil, orKey, orNotImpl]
    have a3 : attrReqNI n c!"LAST-CHANGE" = .ok l := by
      unfold attrReqNI attrReq
      rw [n4]
      simp [look_append, look_opt, look_cons, look_truthy, look_nil, orKey, orNotImpl]
    have a0 : pyAssert true = .ok () := rfl
    unfold parseSpecType parseSpecificationType
    rw [n3, if_neg (by decide), if_neg (by decide), if_pos rfl]
    have e : (Tag.name c!"SPECIFICATION-TYPE" == Tag.name c!"SPECIFICATION-TYPE") = true := by decide
    rw [e, a0, py_bind_ok, a2, py_bind_ok, a3, py_bind_ok, n6, py_bind_ok]
    have tail : ∀ d, ((do
        let attrMap ← (Except.ok d : Py (Dict Str Str))
        return ({ identifier := i, description := n.attr? c!"DESC", lastChange := some l, longName := n.attr? c!"LONG-NAME",
                  specAttributes := o', specAttributeMap := some attrMap, isSelfClosed := isSelfClosedTag n } : SpecificationType)) :
          Py SpecificationType) = .ok ⟨i, desc, some l, ln, o', some d, sc && !someDefinition ds⟩ := by
      intro d
      rw [py_bind_ok, py_pure, n5]
      simp [n4, look_append, look_opt, look_cons, look_truthy, look_nil]
    cases o' with
    | none =>
      dsimp only at hm ⊢
      rw [hm, tail, py_bind_ok, py_pure]
    | some x =>
      dsimp only at hm ⊢
      rw [hm, tail, py_bind_ok, py_pure]
  · simp only [bareSpecType, readSpecType, mapDefinitions, printedSpecificationType]
    rw [n7]

theorem specType_survives {Γ : Ctx} (hc : Γ.Clean) {t : SpecType} (h : SafeSpecType Γ t) :
    Survives Γ (specTypeUses t) (fun n => n.tag = .name (typeTag t) ∧ Xsd.said n = Xsd.specTypeSaid Γ.pfx t) unparseSpecType parseType bareSpecType readSpecType t := by
  cases t with
  | object t => exact objectType_survives hc h
  | relation t => exact relationType_survives hc h
  | specification t => exact specificationType_survives hc h
  | relationGroup t => exact groupType_survives hc h

/-- **C35.**  Every safe spec type, of each of the four kinds, is printed, and read back,
in a document with any ordinary root tag, as a spec type of the same kind with the same
identifier, description, time stamp, long name and attribute definitions in the same
order; and it is printed the same way again. -/
theorem C35_roundtrip {as : List (Str × Str)} (hr : RootAttrs as) {p : Str} {t : SpecType} {Γ : Ctx}
    (hΓ : IsCtx as p (specTypeUses t) Γ) (h : SafeSpecType Γ t) :
    ∃ s n t', unparseSpecType t = .ok s ∧ ReadsAs as s [n] ∧ parseSpecType n = .ok (some t') ∧
      bareSpecType t' = readSpecType t ∧ unparseSpecType t' = .ok s := by
  obtain ⟨hc, hs⟩ := IsCtx.spec hΓ hr
  obtain ⟨s, n, t', h1, h2, -, h4, h5, h6⟩ := specType_survives hc h
  exact ⟨s, n, t', h1, hs _ _ h2, parseType_ok.1 h4, h5, h6⟩

/-- A definition with a long name. -/
def namedDefinition : SpecAttributeDefinition :=
  ⟨.string, c!"d-1", some c!"t-1", none, some c!"a & b", none, some c!"Name", none, none, some (.str c!"x"), none⟩

/-- A spec type of each kind. -/
def exampleTypes : List SpecType := [
  .object ⟨c!"s-1", some c!"a < b", some c!"2020", some c!"A & B", some exampleDefinitions⟩,
  .object ⟨c!"s-2", none, none, none, none⟩,
  .relation ⟨c!"s-3", some c!"a < b", some c!"2020", some c!"Rel", true, some [namedDefinition]⟩,
  .relation ⟨c!"s-4", none, none, some c!"Rel", true, some []⟩,
  .specification ⟨c!"s-5", some c!"text", some c!"2020", some c!"Spec", some [namedDefinition], none, false⟩,
  .relationGroup ⟨c!"s-6", none, none, none, true, none⟩]

/-- Non-vacuity. -/
theorem exampleTypes_safe : ∃ Γ, IsCtx usualRoot c!"xhtml" true Γ ∧ exampleTypes.any specTypeUses = true ∧
    ∀ t ∈ exampleTypes, SafeSpecType Γ t := by
  obtain ⟨Γ, h1, h2, h3⟩ := exampleDefinitions_safe
  have hn : SafeDefinition Γ namedDefinition :=
    ⟨by decide, by decide, by decide, by decide, by decide, (by decide : PlainAttr _), by decide, by decide⟩
  refine ⟨Γ, h1, by decide, ?_⟩
  intro t ht
  simp only [exampleTypes, List.mem_cons, List.not_mem_nil, or_false] at ht
  rcases ht with rfl | rfl | rfl | rfl | rfl | rfl
  · exact ⟨⟨by decide, by decide, by decide, by decide⟩, by rintro ds ⟨⟩; exact h3⟩
  · exact ⟨⟨by decide, by decide, by decide, by decide⟩, by rintro ds ⟨⟩⟩
  · exact ⟨⟨by decide, by decide, by decide, by decide, by decide⟩, by rintro ds ⟨⟩ d hd; rw [List.mem_singleton.1 hd]; exact hn⟩
  · exact ⟨⟨by decide, by decide, by decide, by decide, by decide⟩, by rintro ds ⟨⟩ d hd; cases hd⟩
  · exact ⟨⟨by decide, by decide, by decide, by decide, by decide, by rintro ds ⟨⟩ d hd; rw [List.mem_singleton.1 hd]; rfl⟩,
      by rintro ds ⟨⟩ d hd; rw [List.mem_singleton.1 hd]; exact hn⟩
  · exact ⟨⟨by decide, by decide, by decide, by decide⟩, by rintro ds ⟨⟩⟩

/-! ## Spec types that do not survive -/

/-- What reading a printed spec type gives. -/
inductive RereadType
  | refused
  | malformed
  | unreadable
  | read (identifier : Str) (longName : Option Str)
  deriving DecidableEq

/-- The long name of a spec type. -/
def typeLongName : SpecType → Option Str
  | .object t => t.longName
  | .relation t => t.longName
  | .specification t => t.longName
  | .relationGroup t => t.longName

def rereadType (t : SpecType) : RereadType :=
  match unparseSpecType t with
  | .error _ => .refused
  | .ok s =>
    match readDoc (document usualRoot s) with
    | none => .malformed
    | some doc =>
      match strippedRoot doc.root with
      | .error _ => .unreadable
      | .ok r =>
        match r.children with
        | [n] => (match parseSpecType n with
          | .ok (some b) => .read b.identifier (typeLongName b)
          | _ => .unreadable)
        | _ => .unreadable

set_option maxRecDepth 20000 in
/-- **C35**, the opposite: the long name is printed as it is, except for object types. -/
theorem C35_ampersand :
    rereadType (.specification ⟨c!"s", none, some c!"2020", some c!"R&D", none, none, true⟩) = .malformed ∧
    rereadType (.relation ⟨c!"s", none, none, some c!"R&D", true, none⟩) = .malformed ∧
    rereadType (.relationGroup ⟨c!"s", none, none, some c!"a &lt; b", true, none⟩) = .read c!"s" (some c!"a < b") ∧
    rereadType (.object ⟨c!"s", none, none, some c!"R&D", none⟩) = .read c!"s" (some c!"R&D") := by
  decide +kernel

set_option maxRecDepth 20000 in
/-- **C35**, the opposite: a relation type without long name, a specification type without
time stamp, and one with an attribute definition without long name are printed but
cannot be read. -/
theorem C35_missing :
    rereadType (.relation ⟨c!"s", none, none, none, true, none⟩) = .unreadable ∧
    rereadType (.specification ⟨c!"s", none, none, none, none, none, true⟩) = .unreadable ∧
    rereadType (.specification ⟨c!"s", none, some c!"2020", none, some [{ namedDefinition with longName := none }], none, true⟩) =
      .unreadable ∧
    rereadType (.specification ⟨c!"s", none, some c!"2020", none, some [namedDefinition], none, true⟩) = .read c!"s" none := by
  decide +kernel

end ReqIF
