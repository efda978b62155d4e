import Verif.Props.C42_45
/-!
# C46: attributes are printed in alphabetical order
-/
namespace ReqIF
open Spec

/-- **C46.** The document printed for a safe bundle has, in every ReqIF element below the
root, the attributes in strictly increasing alphabetical order. -/
theorem C46_sorted {as : List (Str × Str)} {p : Str} {b : Bundle} (h : SafeBundle as p b) :
    ∃ t d i ks, unparse b = .ok t ∧ readDoc t = some d ∧ d.root = .elem i ks ∧ SortedNodes ks := by
  obtain ⟨t, d, b', h1, h2, ⟨i, ks, h3, -, -, ⟨h4, -⟩, -⟩, -⟩ := bundle_survives h
  exact ⟨t, d, i, ks, h1, h2, h3, h4⟩

/-! The same without any condition on the values, for the start tag of each item. -/

/-- A printed item: a start tag with attributes in alphabetical order. -/
def HeadSorted (tag text : Str) : Prop :=
  ∃ k as rest, text = spaces k ++ c!"<" ++ tag ++ attrsText as ++ rest ∧ Increasing (as.map (·.1)) ∧
    (c!">".isPrefixOf rest = true ∨ c!"/>".isPrefixOf rest = true)

theorem headSorted_of {tag text rest : Str} {as : List (Str × Str)} {names : List Str} (k : Nat) (hn : NamesIn as names)
    (ht : text = spaces k ++ c!"<" ++ tag ++ attrsText as ++ rest) (ho : Increasing names)
    (hr : c!">".isPrefixOf rest = true ∨ c!"/>".isPrefixOf rest = true) : HeadSorted tag text :=
  ⟨k, as, rest, ht, List.Pairwise.sublist hn ho, hr⟩

/-- Finds the names of a concatenation of attributes. -/
macro "names_in" : tactic => `(tactic| (repeat' with_reducible first
      | exact NamesIn.one _ _ | exact NamesIn.opt _ _ _ | exact NamesIn.truthy _ _ _ | exact NamesIn.bool _ _
      | apply NamesIn.append))

/-- **C46**, data types. -/
theorem C46_data_type (d : DataType) : ∃ tag, HeadSorted tag (unparseDataType d) := by
  obtain ⟨b, k⟩ := d
  have hc : ∀ tag, c!">".isPrefixOf (closeOut b.isSelfClosed tag) = true ∨ c!"/>".isPrefixOf (closeOut b.isSelfClosed tag) = true := by
    intro tag
    unfold closeOut
    split
    · right; rfl
    · left; rfl
  cases k with
  | string m =>
    refine ⟨c!"DATATYPE-DEFINITION-STRING", headSorted_of 8 (as := optA c!"DESC" lxmlEscapeForHtml b.description ++ [(c!"IDENTIFIER", b.identifier)] ++ truthyA c!"LAST-CHANGE" id b.lastChange ++ optA c!"LONG-NAME" lxmlEscapeForHtml b.longName ++ truthyA c!"MAX-LENGTH" id m)
      (rest := closeOut b.isSelfClosed c!"DATATYPE-DEFINITION-STRING") (by names_in) ?_ (by decide) (hc _)⟩
    unfold unparseDataType
    attrs_text
  | boolean =>
    refine ⟨c!"DATATYPE-DEFINITION-BOOLEAN", headSorted_of 8 (as := optA c!"DESC" lxmlEscapeForHtml b.description ++ [(c!"IDENTIFIER", b.identifier)] ++ truthyA c!"LAST-CHANGE" id b.lastChange ++ optA c!"LONG-NAME" lxmlEscapeForHtml b.longName)
      (rest := closeOut b.isSelfClosed c!"DATATYPE-DEFINITION-BOOLEAN") (by names_in) ?_ (by decide) (hc _)⟩
    unfold unparseDataType
    attrs_text
  | integer mx mn =>
    refine ⟨c!"DATATYPE-DEFINITION-INTEGER", headSorted_of 8 (as := optA c!"DESC" lxmlEscapeForHtml b.description ++ [(c!"IDENTIFIER", b.identifier)] ++ truthyA c!"LAST-CHANGE" id b.lastChange ++ truthyA c!"LONG-NAME" id b.longName ++ optA c!"MAX" id mx ++ optA c!"MIN" id mn)
      (rest := closeOut b.isSelfClosed c!"DATATYPE-DEFINITION-INTEGER") (by names_in) ?_ (by decide) (hc _)⟩
    unfold unparseDataType
    attrs_text
  | real a mx mn =>
    refine ⟨c!"DATATYPE-DEFINITION-REAL", headSorted_of 8 (as := optA c!"ACCURACY" id (a.map fmtInt) ++ optA c!"DESC" lxmlEscapeForHtml b.description ++ [(c!"IDENTIFIER", b.identifier)] ++ optA c!"LAST-CHANGE" id b.lastChange ++ optA c!"LONG-NAME" id b.longName ++ optA c!"MAX" id mx ++ optA c!"MIN" id mn)
      (rest := c!"/>\n") (by names_in) ?_ (by decide) (.inr rfl)⟩
    unfold unparseDataType
    attrs_text
  | date =>
    refine ⟨c!"DATATYPE-DEFINITION-DATE", headSorted_of 8 (as := optA c!"DESC" lxmlEscapeForHtml b.description ++ [(c!"IDENTIFIER", b.identifier)] ++ truthyA c!"LAST-CHANGE" id b.lastChange ++ truthyA c!"LONG-NAME" id b.longName)
      (rest := closeOut b.isSelfClosed c!"DATATYPE-DEFINITION-DATE") (by names_in) ?_ (by decide) (hc _)⟩
    unfold unparseDataType
    attrs_text
  | xhtml =>
    refine ⟨c!"DATATYPE-DEFINITION-XHTML", headSorted_of 8 (as := optA c!"DESC" lxmlEscapeForHtml b.description ++ [(c!"IDENTIFIER", b.identifier)] ++ truthyA c!"LAST-CHANGE" id b.lastChange ++ optA c!"LONG-NAME" lxmlEscapeForHtml b.longName)
      (rest := closeOut b.isSelfClosed c!"DATATYPE-DEFINITION-XHTML") (by names_in) ?_ (by decide) (hc _)⟩
    unfold unparseDataType
    attrs_text
  | enumeration vs =>
    refine ⟨c!"DATATYPE-DEFINITION-ENUMERATION", headSorted_of 8 (as := optA c!"DESC" lxmlEscapeForHtml b.description ++ [(c!"IDENTIFIER", b.identifier)] ++ truthyA c!"LAST-CHANGE" id b.lastChange ++ optA c!"LONG-NAME" lxmlEscapeForHtml b.longName)
      (rest := (if b.isSelfClosed then c!"/>\n" else c!">\n") ++
        (unparseEnumValues vs ++ (if b.isSelfClosed then [] else lineClose 8 c!"DATATYPE-DEFINITION-ENUMERATION"))) (by names_in) ?_ (by decide) (by
        split
        · exact .inr rfl
        · exact .inl rfl)⟩
    unfold unparseDataType
    attrs_text

/-- **C46**, enumeration values and their properties. -/
theorem C46_enum_value (v : EnumValue) : ∃ a b, unparseEnumValue v = a ++ b ∧ HeadSorted c!"ENUM-VALUE" a ∧ HeadSorted c!"EMBEDDED-VALUE" b := by
  refine ⟨_, _, ?_, headSorted_of 12 (as := optA c!"DESC" id v.description ++ [(c!"IDENTIFIER", v.identifier)] ++ optA c!"LAST-CHANGE" id v.lastChange ++ optA c!"LONG-NAME" lxmlEscapeForHtml v.longName)
      (rest := c!">\n" ++ lineOpen 14 c!"PROPERTIES") (by names_in) rfl (by decide) (.inl rfl), headSorted_of 16 (as := [(c!"KEY", v.key)] ++ optA c!"OTHER-CONTENT" id v.otherContent)
      (rest := c!"/>\n" ++ (lineClose 14 c!"PROPERTIES" ++ lineClose 12 c!"ENUM-VALUE")) (by names_in) rfl (by decide) (.inr rfl)⟩
  unfold unparseEnumValue
  attrs_text

/-- **C46**, spec objects. -/
theorem C46_object {x : SpecObject} {t : Str} (h : unparseSpecObject x = .ok t) : HeadSorted c!"SPEC-OBJECT" t := by
  unfold unparseSpecObject at h
  obtain ⟨tags, -, h⟩ := py_bind_inv h
  obtain ⟨body, -, h⟩ := py_bind_inv h
  rw [py_pure] at h
  cases h
  refine headSorted_of 8 (as := optA c!"DESC" id x.description ++ [(c!"IDENTIFIER", x.identifier)] ++ truthyA c!"LAST-CHANGE" id x.lastChange ++ optA c!"LONG-NAME" id x.longName)
      (rest := c!">\n" ++ (body ++ lineClose 8 c!"SPEC-OBJECT")) (by names_in) ?_ (by decide) (.inl rfl)
  attrs_text

/-- **C46**, relations. -/
theorem C46_relation {x : SpecRelation} {t : Str} (h : unparseSpecRelation x = .ok t) : HeadSorted c!"SPEC-RELATION" t := by
  unfold unparseSpecRelation at h
  obtain ⟨body, -, h⟩ := py_bind_inv h
  rw [py_pure] at h
  cases h
  refine headSorted_of 8 (as := optA c!"DESC" id x.description ++ [(c!"IDENTIFIER", x.identifier)] ++ optA c!"LAST-CHANGE" id x.lastChange ++ optA c!"LONG-NAME" htmlEscape x.longName)
      (rest := c!">\n" ++ (body ++ lineClose 8 c!"SPEC-RELATION")) (by names_in) ?_ (by decide) (.inl rfl)
  attrs_text

/-- **C46**, specifications. -/
theorem C46_specification {x : Specification} {t : Str} (h : unparseSpecification x = .ok t) : HeadSorted c!"SPECIFICATION" t := by
  unfold unparseSpecification at h
  obtain ⟨body, -, h⟩ := py_bind_inv h
  rw [py_pure] at h
  cases h
  refine headSorted_of 8 (as := optA c!"DESC" lxmlEscapeForHtml x.description ++ [(c!"IDENTIFIER", x.identifier)] ++ optA c!"LAST-CHANGE" id x.lastChange ++ optA c!"LONG-NAME" lxmlEscapeForHtml x.longName)
      (rest := c!">\n" ++ (body ++ lineClose 8 c!"SPECIFICATION")) (by names_in) ?_ (by decide) (.inl rfl)
  attrs_text

/-- **C46**, spec object types. -/
theorem C46_object_type {x : SpecObjectType} {t : Str} (h : unparseSpecObjectType x = .ok t) : HeadSorted c!"SPEC-OBJECT-TYPE" t := by
  unfold unparseSpecObjectType at h
  obtain ⟨body, -, h⟩ := py_bind_inv h
  rw [py_pure] at h
  cases h
  refine headSorted_of 8 (as := optA c!"DESC" lxmlEscapeForHtml x.description ++ [(c!"IDENTIFIER", x.identifier)] ++ optA c!"LAST-CHANGE" id x.lastChange ++ optA c!"LONG-NAME" lxmlEscapeForHtml x.longName)
      (rest := c!">\n" ++ (body ++ lineClose 8 c!"SPEC-OBJECT-TYPE")) (by names_in) ?_ (by decide) (.inl rfl)
  attrs_text

/-- **C46**, relation types and relation group types. -/
theorem C46_relation_type {tag : Str} {x : RelationType} {t : Str} (h : unparseRelationType tag x = .ok t) : HeadSorted tag t := by
  unfold unparseRelationType at h
  dsimp only at h
  split at h
  · cases h
    refine headSorted_of 8 (as := optA c!"DESC" htmlEscape x.description ++ [(c!"IDENTIFIER", x.identifier)] ++ optA c!"LAST-CHANGE" id x.lastChange ++ optA c!"LONG-NAME" id x.longName)
      (rest := c!"/>\n") (by names_in) ?_ (by decide) (.inr rfl)
    attrs_text
  · obtain ⟨body, -, h⟩ := py_bind_inv h
    rw [py_pure] at h
    cases h
    refine headSorted_of 8 (as := optA c!"DESC" htmlEscape x.description ++ [(c!"IDENTIFIER", x.identifier)] ++ optA c!"LAST-CHANGE" id x.lastChange ++ optA c!"LONG-NAME" id x.longName)
      (rest := c!">\n" ++ (body ++ lineClose 8 tag)) (by names_in) ?_ (by decide) (.inl rfl)
    attrs_text

/-- **C46**, specification types. -/
theorem C46_specification_type {x : SpecificationType} {t : Str} (h : unparseSpecificationType x = .ok t) : HeadSorted c!"SPECIFICATION-TYPE" t := by
  unfold unparseSpecificationType at h
  dsimp only at h
  split at h
  · cases h
    refine headSorted_of 8 (as := optA c!"DESC" id x.description ++ [(c!"IDENTIFIER", x.identifier)] ++ optA c!"LAST-CHANGE" id x.lastChange ++ optA c!"LONG-NAME" id x.longName)
      (rest := c!"/>\n") (by names_in) ?_ (by decide) (.inr rfl)
    attrs_text
  · obtain ⟨body, -, h⟩ := py_bind_inv h
    rw [py_pure] at h
    cases h
    refine headSorted_of 8 (as := optA c!"DESC" id x.description ++ [(c!"IDENTIFIER", x.identifier)] ++ optA c!"LAST-CHANGE" id x.lastChange ++ optA c!"LONG-NAME" id x.longName)
      (rest := c!">\n" ++ (body ++ lineClose 8 c!"SPECIFICATION-TYPE")) (by names_in) ?_ (by decide) (.inl rfl)
    attrs_text

/-- **C46**, relation groups. -/
theorem C46_group (x : RelationGroup) : HeadSorted c!"RELATION-GROUP" (unparseRelationGroup x) := by
  have key : ∀ g h i j k : Str, HeadSorted c!"RELATION-GROUP" (spaces 8 ++ c!"<RELATION-GROUP" ++ attrOpt c!"DESC" id x.description ++
      attrOut c!"IDENTIFIER" x.identifier ++ attrOpt c!"LAST-CHANGE" id x.lastChange ++ attrTruthy c!"LONG-NAME" id x.longName ++
      c!">\n" ++ g ++ h ++ i ++ j ++ k) := by
    intro g h i j k
    refine headSorted_of 8 (as := optA c!"DESC" id x.description ++ [(c!"IDENTIFIER", x.identifier)] ++ optA c!"LAST-CHANGE" id x.lastChange ++ truthyA c!"LONG-NAME" id x.longName)
      (rest := c!">\n" ++ (g ++ (h ++ (i ++ (j ++ k))))) (by names_in) ?_ (by decide) (.inl rfl)
    attrs_text
  exact key _ _ _ _ _

/-- **C46**, hierarchy nodes. -/
theorem C46_hierarchy (base : Nat) (i : HInfo) : HeadSorted c!"SPEC-HIERARCHY" (unparseHierarchyHead base i) := by
  rw [hierarchyHead_eq]
  refine headSorted_of base (as := hierarchyAttrs i) (rest := c!">\n") (by unfold hierarchyAttrs; names_in) ?_ (by decide) (.inl rfl)
  simp only [List.append_assoc]; rfl

/-- **C46**, attribute definitions. -/
theorem C46_definition {x : SpecAttributeDefinition} {t : Str} (h : unparseAttributeDefinition x = .ok t) : HeadSorted x.type.specTypeTag t := by
  unfold unparseAttributeDefinition at h
  obtain ⟨body, -, h⟩ := py_bind_inv h
  rw [py_pure] at h
  cases h
  refine headSorted_of 12 (as := definitionAttrs x) (rest := c!">\n" ++ (body ++ lineClose 12 x.type.specTypeTag))
    (by unfold definitionAttrs; names_in) ?_ (by decide) (.inl rfl)
  rw [definitionAttrs_text]
  simp only [List.append_assoc]

/-- **C46, opposite**: the root tag printed from fields is not in alphabetical order. -/
theorem C46_root : unparseNamespaceInfo ⟨none, true, c!"UTF-8", some c!"u", none, none, none, some c!"v", some c!"a b", some c!"de"⟩ =
      .ok c!"<REQ-IF xmlns=\"u\" xmlns:xsi=\"v\" xsi:schemaLocation=\"a b\" xml:lang=\"de\">\n" ∧
    before c!"xml:lang" c!"xsi:schemaLocation" = true := ⟨rfl, by decide⟩

/-- Non-vacuity. -/
example : SafeBundle usualRoot c!"xhtml" exampleBundle := exampleBundle_safe

example : Increasing [c!"DESC", c!"IDENTIFIER", c!"IS-EDITABLE", c!"LAST-CHANGE", c!"LONG-NAME", c!"MULTI-VALUED"] ∧
    ¬ Increasing [c!"IDENTIFIER", c!"DESC"] ∧ ¬ Increasing [c!"MAX", c!"MAX"] := by decide

end ReqIF
