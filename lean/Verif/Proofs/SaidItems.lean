import Verif.Proofs.SaidTools
import Verif.Proofs.Attrs
/-!
# What the printed form of an item says

For each kind of item, what its printed element says.  `p` is the prefix of the XHTML
namespace.
-/
namespace ReqIF.Xsd
open Spec

def enumValueSaid (v : EnumValue) : Said :=
  recordOf c!"ENUM-VALUE" (optA c!"DESC" id v.description ++ [(c!"IDENTIFIER", v.identifier)] ++ optA c!"LAST-CHANGE" id v.lastChange ++
      optA c!"LONG-NAME" id v.longName)
    [recordOf c!"PROPERTIES" [] [recordOf c!"EMBEDDED-VALUE" ([(c!"KEY", v.key)] ++ optA c!"OTHER-CONTENT" id v.otherContent) []]]

def dataTypeSaid (d : DataType) : Said :=
  match d with
  | ⟨⟨i, desc, lc, ln, _⟩, kind⟩ =>
    match kind with
    | .string m => recordOf c!"DATATYPE-DEFINITION-STRING" (optA c!"DESC" id desc ++ [(c!"IDENTIFIER", i)] ++ truthyA c!"LAST-CHANGE" id lc ++
        optA c!"LONG-NAME" id ln ++ truthyA c!"MAX-LENGTH" id m) []
    | .boolean => recordOf c!"DATATYPE-DEFINITION-BOOLEAN" (optA c!"DESC" id desc ++ [(c!"IDENTIFIER", i)] ++ truthyA c!"LAST-CHANGE" id lc ++
        optA c!"LONG-NAME" id ln) []
    | .xhtml => recordOf c!"DATATYPE-DEFINITION-XHTML" (optA c!"DESC" id desc ++ [(c!"IDENTIFIER", i)] ++ truthyA c!"LAST-CHANGE" id lc ++
        optA c!"LONG-NAME" id ln) []
    | .date => recordOf c!"DATATYPE-DEFINITION-DATE" (optA c!"DESC" id desc ++ [(c!"IDENTIFIER", i)] ++ truthyA c!"LAST-CHANGE" id lc ++
        truthyA c!"LONG-NAME" id ln) []
    | .integer mx mn => recordOf c!"DATATYPE-DEFINITION-INTEGER" (optA c!"DESC" id desc ++ [(c!"IDENTIFIER", i)] ++
        truthyA c!"LAST-CHANGE" id lc ++ truthyA c!"LONG-NAME" id ln ++ optA c!"MAX" id mx ++ optA c!"MIN" id mn) []
    | .real acc mx mn => recordOf c!"DATATYPE-DEFINITION-REAL" (optA c!"ACCURACY" id (acc.map fmtInt) ++ optA c!"DESC" id desc ++
        [(c!"IDENTIFIER", i)] ++ optA c!"LAST-CHANGE" id lc ++ optA c!"LONG-NAME" id ln ++ optA c!"MAX" id mx ++ optA c!"MIN" id mn) []
    | .enumeration vs => recordOf c!"DATATYPE-DEFINITION-ENUMERATION" (optA c!"DESC" id desc ++ [(c!"IDENTIFIER", i)] ++
        truthyA c!"LAST-CHANGE" id lc ++ optA c!"LONG-NAME" id ln)
        (match vs with
         | none => []
         | some vs => [listOf c!"SPECIFIED-VALUES" (vs.map enumValueSaid)])

noncomputable def valueSaid (p : Str) (a : SpecObjectAttribute) : Said :=
  match a.type, a.value with
  | .enumeration, .list vs => recordOf c!"ATTRIBUTE-VALUE-ENUMERATION" []
      [refOf c!"DEFINITION" c!"ATTRIBUTE-DEFINITION-ENUMERATION-REF" a.definitionRef,
       listOf c!"VALUES" (vs.map (textSaid c!"ENUM-VALUE-REF"))]
  | .xhtml, .str v => recordOf c!"ATTRIBUTE-VALUE-XHTML" []
      [refOf c!"DEFINITION" c!"ATTRIBUTE-DEFINITION-XHTML-REF" a.definitionRef, xhtmlSaid c!"THE-VALUE" p v]
  | t, .str v => recordOf (c!"ATTRIBUTE-VALUE-" ++ t.pyName) [(c!"THE-VALUE", v)]
      [refOf c!"DEFINITION" (c!"ATTRIBUTE-DEFINITION-" ++ t.pyName ++ c!"-REF") a.definitionRef]
  | _, .list _ => textSaid [] none

noncomputable def valuesSaid (p : Str) (vs : List SpecObjectAttribute) : Said := listOf c!"VALUES" (vs.map (valueSaid p))

noncomputable def defaultSaid (p : Str) (a : SpecAttributeDefinition) : DefaultValue → Said
  | .selfClosed => recordOf c!"DEFAULT-VALUE" [] []
  | .str v => recordOf c!"DEFAULT-VALUE" [] [match a.type with
    | .string => recordOf c!"ATTRIBUTE-VALUE-STRING" [(c!"THE-VALUE", v)] []
    | .integer => recordOf c!"ATTRIBUTE-VALUE-INTEGER" [(c!"THE-VALUE", v)] []
    | .real => recordOf c!"ATTRIBUTE-VALUE-REAL" [(c!"THE-VALUE", v)] []
    | .date => recordOf c!"ATTRIBUTE-VALUE-DATE" [(c!"THE-VALUE", v)] []
    | .boolean => recordOf c!"ATTRIBUTE-VALUE-BOOLEAN" [(c!"THE-VALUE", v)]
        [refOf c!"DEFINITION" c!"ATTRIBUTE-DEFINITION-BOOLEAN-REF" a.defaultValueDefinitionRef]
    | .enumeration => recordOf c!"ATTRIBUTE-VALUE-ENUMERATION" []
        [refOf c!"DEFINITION" c!"ATTRIBUTE-DEFINITION-ENUMERATION-REF" a.defaultValueDefinitionRef,
         listOf c!"VALUES" [textSaid c!"ENUM-VALUE-REF" (some v)]]
    | .xhtml => recordOf c!"ATTRIBUTE-VALUE-XHTML" []
        [refOf c!"DEFINITION" c!"ATTRIBUTE-DEFINITION-XHTML-REF" a.defaultValueDefinitionRef, xhtmlSaid c!"THE-VALUE" p v]]

noncomputable def definitionSaid (p : Str) (a : SpecAttributeDefinition) : Said :=
  recordOf a.type.specTypeTag (optA c!"DESC" id a.description ++ [(c!"IDENTIFIER", a.identifier)] ++
      boolA c!"IS-EDITABLE" a.editable ++ truthyA c!"LAST-CHANGE" id a.lastChange ++ optA c!"LONG-NAME" id a.longName ++
      boolA c!"MULTI-VALUED" a.multiValued)
    ((sourceOrder a.xmlNode definitionTags).filterMap (fun t =>
      if t = .name c!"TYPE" then some (refOf c!"TYPE" a.type.definitionTag a.datatypeDefinition)
      else if t = .name c!"DEFAULT-VALUE" then a.defaultValue.map (defaultSaid p a)
      else none))

def containerSaid {α : Type} (tag : Str) (f : α → Said) (o : Option (List α)) : List Said :=
  (o.map (fun xs => listOf tag (xs.map f))).toList

noncomputable def typeSaid (p tag : Str) (vs : List (Str × Str)) (sc : Bool) (o : Option (List SpecAttributeDefinition)) : Said :=
  recordOf tag vs (containerSaid c!"SPEC-ATTRIBUTES" (definitionSaid p) (if sc && !someDefinition o then none else o))

/-- The attributes of the four kinds of types. -/
def typeAttrs (i : Str) (desc lc ln : Option Str) : List (Str × Str) :=
  optA c!"DESC" id desc ++ [(c!"IDENTIFIER", i)] ++ optA c!"LAST-CHANGE" id lc ++ optA c!"LONG-NAME" id ln

noncomputable def specTypeSaid (p : Str) : SpecType → Said
  | .object t => typeSaid p c!"SPEC-OBJECT-TYPE" (typeAttrs t.identifier t.description t.lastChange t.longName) false t.attributeDefinitions
  | .relation t => typeSaid p c!"SPEC-RELATION-TYPE" (typeAttrs t.identifier t.description t.lastChange t.longName) t.isSelfClosed t.attributeDefinitions
  | .specification t => typeSaid p c!"SPECIFICATION-TYPE" (typeAttrs t.identifier t.description t.lastChange t.longName) t.isSelfClosed t.specAttributes
  | .relationGroup t => typeSaid p c!"RELATION-GROUP-TYPE" (typeAttrs t.identifier t.description t.lastChange t.longName) t.isSelfClosed t.attributeDefinitions

noncomputable def objectSaid (p : Str) (o : SpecObject) : Said :=
  recordOf c!"SPEC-OBJECT" (optA c!"DESC" id o.description ++ [(c!"IDENTIFIER", o.identifier)] ++ truthyA c!"LAST-CHANGE" id o.lastChange ++
      optA c!"LONG-NAME" id o.longName)
    ((sourceOrder o.xmlNode [c!"VALUES", c!"TYPE"]).filterMap (fun t =>
      if t = .name c!"VALUES" then some (valuesSaid p o.attributes)
      else if t = .name c!"TYPE" then some (refOf c!"TYPE" c!"SPEC-OBJECT-TYPE-REF" o.specObjectType)
      else none))

noncomputable def relationSaid (p : Str) (r : SpecRelation) : Said :=
  recordOf c!"SPEC-RELATION" (optA c!"DESC" id r.description ++ [(c!"IDENTIFIER", r.identifier)] ++ optA c!"LAST-CHANGE" id r.lastChange ++
      optA c!"LONG-NAME" id r.longName)
    ((sourceOrder r.xmlNode relationTags).filterMap (fun t =>
      if t = .name c!"TYPE" then some (refOf c!"TYPE" c!"SPEC-RELATION-TYPE-REF" r.relationTypeRef)
      else if t = .name c!"SOURCE" then some (refOf c!"SOURCE" c!"SPEC-OBJECT-REF" r.source)
      else if t = .name c!"TARGET" then some (refOf c!"TARGET" c!"SPEC-OBJECT-REF" r.target)
      else if t = .name c!"VALUES" then r.valuesAttribute.map (fun a => valuesSaid p [a])
      else none))

mutual
def hierarchySaid : Hierarchy → Said
  | .leaf i => recordOf c!"SPEC-HIERARCHY" (hierarchyAttrs i) [refOf c!"OBJECT" c!"SPEC-OBJECT-REF" i.specObject]
  | .node i cs => recordOf c!"SPEC-HIERARCHY" (hierarchyAttrs i)
      [refOf c!"OBJECT" c!"SPEC-OBJECT-REF" i.specObject, listOf c!"CHILDREN" (hierarchiesSaid cs)]

def hierarchiesSaid : List Hierarchy → List Said
  | [] => []
  | h :: hs => hierarchySaid h :: hierarchiesSaid hs
end

noncomputable def specificationSaid (p : Str) (s : Specification) : Said :=
  recordOf c!"SPECIFICATION" (optA c!"DESC" id s.description ++ [(c!"IDENTIFIER", s.identifier)] ++ optA c!"LAST-CHANGE" id s.lastChange ++
      optA c!"LONG-NAME" id s.longName)
    ((sourceOrder s.xmlNode specificationTags).filterMap (fun t =>
      if t = .name c!"TYPE" then (dropEmpty s.specificationType).map (fun v => refOf c!"TYPE" c!"SPECIFICATION-TYPE-REF" (some v))
      else if t = .name c!"CHILDREN" then s.children.map (fun cs => listOf c!"CHILDREN" (hierarchiesSaid cs))
      else if t = .name c!"VALUES" then s.values.map (valuesSaid p)
      else none))

def optRefSaid (outer inner : Str) (o : Option Str) : List Said := (o.map (fun v => refOf outer inner (some v))).toList

def groupSaid (g : RelationGroup) : Said :=
  recordOf c!"RELATION-GROUP" (optA c!"DESC" id g.description ++ [(c!"IDENTIFIER", g.identifier)] ++ optA c!"LAST-CHANGE" id g.lastChange ++
      truthyA c!"LONG-NAME" id g.longName)
    ((g.specRelations.map (fun rs => listOf c!"SPEC-RELATIONS" (rs.map (textSaid c!"SPEC-RELATION-REF")))).toList ++
      optRefSaid c!"TYPE" c!"RELATION-GROUP-TYPE-REF" g.typeRef ++
      optRefSaid c!"SOURCE-SPECIFICATION" c!"SPECIFICATION-REF" g.sourceSpecificationRef ++
      optRefSaid c!"TARGET-SPECIFICATION" c!"SPECIFICATION-REF" g.targetSpecificationRef)

def fieldSaid (tag : Str) (o : Option Str) : List Said := ((dropEmpty o).map (fun v => textSaid tag (some v))).toList

def repositorySaid : RepositoryId → List Said
  | .none => []
  | .text s => [textSaid c!"REPOSITORY-ID" (dropEmpty (some s))]
  | .emptyTag => [textSaid c!"REPOSITORY-ID" none]

def headerSaid (h : Header) : Said :=
  recordOf c!"THE-HEADER" [] [recordOf c!"REQ-IF-HEADER" [(c!"IDENTIFIER", h.identifier.getD [])]
    (fieldSaid c!"COMMENT" h.comment ++ fieldSaid c!"CREATION-TIME" h.creationTime ++ repositorySaid h.repositoryId ++
      fieldSaid c!"REQ-IF-TOOL-ID" h.reqIfToolId ++ fieldSaid c!"REQ-IF-VERSION" h.reqIfVersion ++
      fieldSaid c!"SOURCE-TOOL-ID" h.sourceToolId ++ fieldSaid c!"TITLE" h.title)]

noncomputable def contentSaid (p : Str) (c : Content) : Said :=
  recordOf c!"REQ-IF-CONTENT" [] (containerSaid c!"DATATYPES" dataTypeSaid c.dataTypes ++
    containerSaid c!"SPEC-TYPES" (specTypeSaid p) c.specTypes ++ containerSaid c!"SPEC-OBJECTS" (objectSaid p) c.specObjects ++
    containerSaid c!"SPEC-RELATIONS" (relationSaid p) c.specRelations ++
    containerSaid c!"SPECIFICATIONS" (specificationSaid p) c.specifications ++
    containerSaid c!"SPEC-RELATION-GROUPS" groupSaid c.specRelationGroups)

noncomputable def coreSaid (p : Str) : Option (Option Content) → List Said
  | none => []
  | some none => [recordOf c!"CORE-CONTENT" [] []]
  | some (some c) => [recordOf c!"CORE-CONTENT" [] [contentSaid p c]]

def toolSaid (tool : Bool) : List Said := if tool then [listOf c!"TOOL-EXTENSIONS" []] else []

noncomputable def bundleSaid (p : Str) (b : Bundle) : List Said :=
  (b.header.map headerSaid).toList ++ coreSaid p b.coreContent ++ toolSaid b.toolExtensionsTagExists

/-! ## Tools -/

theorem refOf_name {a b : Str} {o : Option Str} : (refOf a b o).name = a := rfl
theorem listOf_name {a : Str} {l : List Said} : (listOf a l).name = a := rfl
theorem xhtmlSaid_name {a p s : Str} : (xhtmlSaid a p s).name = a := rfl

/-- Two children with different names may be swapped. -/
theorem recordOf_swap {tag : Str} {vs : List (Str × Str)} {a b : Said} (h : a.name ≠ b.name) :
    recordOf tag vs [a, b] = recordOf tag vs [b, a] := by
  unfold recordOf
  congr 1
  funext name
  unfold byName
  by_cases h1 : a.name = name <;> by_cases h2 : b.name = name
  · exact absurd (h1.trans h2.symm) h
  · simp [h1, h2]
  · simp [h1, h2]
  · simp [h1, h2]

theorem filterMap_said {node : Tag → Option Node} {F : Tag → Option Said} (ts : List Tag) (h : ∀ t ∈ ts, (node t).map said = F t) :
    (ts.filterMap node).map said = ts.filterMap F := by
  induction ts with
  | nil => rfl
  | cons t ts ih =>
    have ht := h t (by simp)
    have i := ih (fun u hu => h u (by simp [hu]))
    cases hn : node t with
    | none =>
      rw [hn] at ht
      have ht : none = F t := ht
      rw [List.filterMap_cons, List.filterMap_cons, hn, ← ht]
      exact i
    | some n =>
      rw [hn] at ht
      have ht : some (said n) = F t := ht
      rw [List.filterMap_cons, List.filterMap_cons, hn, ← ht]
      simp [i]

/-! ## Names -/

theorem childNames_append (a b : List Node) : childNames (a ++ b) = childNames a ++ childNames b := by
  induction a with
  | nil => rfl
  | cons n a ih =>
    cases n with
    | elem i ks => simp only [List.cons_append, childNames, ih]
    | _ => exact ih

/-- The names of elements are the names of what they say. -/
theorem childNames_said {ns : List Node} {tag : Str} (h : ∀ n ∈ ns, n.tag = .name tag) (ht : tag ≠ []) :
    childNames ns = (ns.map said).map Said.name := by
  induction ns with
  | nil => rfl
  | cons n ns ih =>
    have ih := ih (fun m hm => h m (by simp [hm]))
    have hn := h n (by simp)
    cases n with
    | elem i ks =>
      rw [childNames, ih, List.map_cons, List.map_cons]
      congr 1
      unfold said
      repeat' split
      all_goals rfl
    | text s => injection hn with e; exact absurd e.symm ht
    | comment s => cases hn
    | pi t d => cases hn

theorem names_sub {ns : List Node} {tag : Str} {l : List Said} (h : ∀ n ∈ ns, n.tag = .name tag) (hs : ns.map said = l)
    (hl : (l.map Said.name).Sublist [tag]) (ht : tag ≠ []) : (childNames ns).Sublist [tag] := by
  rw [childNames_said h ht, hs]
  exact hl

theorem fieldSaid_names (tag : Str) (o : Option Str) : ((fieldSaid tag o).map Said.name).Sublist [tag] := by
  unfold fieldSaid
  cases dropEmpty o with
  | none => exact List.nil_sublist _
  | some v => exact List.Sublist.refl _

theorem repositorySaid_names (r : RepositoryId) : ((repositorySaid r).map Said.name).Sublist [c!"REPOSITORY-ID"] := by
  cases r with
  | none => exact List.nil_sublist _
  | _ => exact List.Sublist.refl _

theorem containerSaid_names {α : Type} (tag : Str) (f : α → Said) (o : Option (List α)) :
    ((containerSaid tag f o).map Said.name).Sublist [tag] := by
  cases o with
  | none => exact List.nil_sublist _
  | some v => exact List.Sublist.refl _

end ReqIF.Xsd
