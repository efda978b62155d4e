import Verif.Proofs.ParseInv
import Verif.Spec.Errors
/-! The item parsers never raise `ReqIFXMLParsingError`. -/
namespace ReqIF
open Spec

/-- This result is not a `ReqIFXMLParsingError`. -/
def NoXml {α : Type} (r : Py α) : Prop := ∀ c, r ≠ .error (.xmlParsing c)

section
variable {α β : Type}

theorem NoXml.ok (a : α) : NoXml (.ok a : Py α) := by intro c h; cases h
theorem NoXml.pure (a : α) : NoXml (Pure.pure a : Py α) := by intro c h; cases h

theorem NoXml.bind {m : Py α} {f : α → Py β} (hm : NoXml m) (hf : ∀ a, NoXml (f a)) : NoXml (m >>= f) := by
  cases m with
  | error e => intro c h; exact hm c (by cases h; rfl)
  | ok a => exact hf a

theorem NoXml.of_eq {m : Py α} {e : PyErr} (hm : NoXml m) (h : m = .error e) : NoXml (.error e : Py β) := by
  intro c hc
  cases hc
  exact hm c h

theorem NoXml.pyAssert (b : Bool) : NoXml (pyAssert b) := by
  unfold ReqIF.pyAssert
  split <;> (intro c h; cases h)
theorem NoXml.orAttr (o : Option α) : NoXml (orAttr o) := by cases o <;> (intro c h; cases h)
theorem NoXml.orKey (o : Option α) : NoXml (orKey o) := by cases o <;> (intro c h; cases h)
theorem NoXml.orNotImpl (r : Py α) : NoXml (orNotImpl r) := by cases r <;> (intro c h; cases h)

theorem NoXml.findReq (n : Node) (t : Str) : NoXml (findReq n t) := NoXml.orAttr _
theorem NoXml.attrReq (n : Node) (t : Str) : NoXml (attrReq n t) := NoXml.orKey _
theorem NoXml.attrReqNI (n : Node) (t : Str) : NoXml (attrReqNI n t) := NoXml.orNotImpl _
theorem NoXml.firstChild (n : Node) : NoXml (firstChild n) := by
  unfold ReqIF.firstChild
  split <;> (intro c h; cases h)
theorem NoXml.tagContains (n : Node) (t : Str) : NoXml (tagContains n t) := by
  unfold ReqIF.tagContains
  split <;> (intro c h; cases h)

theorem NoXml.mapPy {f : α → Py β} (h : ∀ a, NoXml (f a)) (l : List α) : NoXml (mapPy f l) := by
  induction l with
  | nil => exact NoXml.ok _
  | cons a l ih =>
    unfold ReqIF.mapPy
    split
    · rename_i e he; exact NoXml.of_eq (h a) he
    · split
      · rename_i e he; exact NoXml.of_eq ih he
      · exact NoXml.ok _

end

/-- Goes through the branches of a parser. -/
macro "noxml" : tactic => `(tactic|
  repeat' first
    | exact NoXml.ok _
    | exact NoXml.pure _
    | exact NoXml.pyAssert _
    | exact NoXml.findReq _ _
    | exact NoXml.attrReq _ _
    | exact NoXml.attrReqNI _ _
    | exact NoXml.firstChild _
    | exact NoXml.tagContains _ _
    | exact NoXml.orNotImpl _
    | assumption
    | (intro c h; cases h; done)
    | with_reducible refine NoXml.bind ?_ (fun _ => ?_)
    | with_reducible refine NoXml.mapPy (fun _ => ?_) _
    | split)

theorem parseEnumValue_noXml (x : Node) : NoXml (parseEnumValue x) := by
  unfold parseEnumValue; noxml

theorem parseDataType_noXml (x : Node) : NoXml (parseDataType x) := by
  have := parseEnumValue_noXml
  unfold parseDataType
  noxml
  all_goals exact this _

mutual
theorem stringifyNsNode_noXml (k : Option Str) (f : Bool) (n : Node) : NoXml (stringifyNsNode k f n) := by
  match n with
  | .text _ => unfold stringifyNsNode; noxml
  | .comment _ => unfold stringifyNsNode; noxml
  | .pi _ _ => unfold stringifyNsNode; noxml
  | .elem i ks =>
    have ih := stringifyNsKids_noXml k f ks
    unfold stringifyNsNode
    dsimp only
    split
    · split
      · rename_i e he; exact ih.of_eq he
      · exact NoXml.ok _
    · exact NoXml.ok _
theorem stringifyNsKids_noXml (k : Option Str) (f : Bool) (ns : List Node) : NoXml (stringifyNsKids k f ns) := by
  match ns with
  | [] => unfold stringifyNsKids; noxml
  | n :: ns =>
    have ih1 := stringifyNsNode_noXml k f n
    have ih2 := stringifyNsKids_noXml k f ns
    unfold stringifyNsKids
    split
    · rename_i e he; exact ih1.of_eq he
    · split
      · rename_i e he; exact ih2.of_eq he
      · exact NoXml.ok _
end

theorem stringifyNamespacedChildren_noXml (n : Node) : NoXml (stringifyNamespacedChildren n) := by
  have := stringifyNsKids_noXml n.nsmap.firstKey false n.kids
  unfold stringifyNamespacedChildren
  noxml

mutual
theorem stringifyNode_noXml (r : Bool) (n : Node) : NoXml (stringifyNode r n) := by
  match n with
  | .text _ => unfold stringifyNode; noxml
  | .comment _ => unfold stringifyNode; noxml
  | .pi _ _ => unfold stringifyNode; noxml
  | .elem i ks =>
    have ih := stringifyKids_noXml ks
    unfold stringifyNode
    dsimp only
    split
    · split
      · rename_i e he; exact ih.of_eq he
      · exact NoXml.ok _
    · exact NoXml.ok _
theorem stringifyKids_noXml (ns : List Node) : NoXml (stringifyKids ns) := by
  match ns with
  | [] => unfold stringifyKids; noxml
  | n :: ns =>
    have ih1 := stringifyNode_noXml false n
    have ih2 := stringifyKids_noXml ns
    unfold stringifyKids
    split
    · rename_i e he; exact ih1.of_eq he
    · split
      · rename_i e he; exact ih2.of_eq he
      · exact NoXml.ok _
end

theorem stringifyChildrenGo_noXml (ns : List Node) : NoXml (stringifyChildrenGo ns) := by
  induction ns with
  | nil => unfold stringifyChildrenGo; noxml
  | cons n ns ih =>
    have h := stringifyNode_noXml true n
    cases n with
    | text t =>
      unfold stringifyChildrenGo
      split
      · rename_i e he; exact ih.of_eq he
      · exact NoXml.ok _
    | elem i ks =>
      unfold stringifyChildrenGo
      split
      · rename_i e he; exact h.of_eq he
      · split
        · rename_i e he; exact ih.of_eq he
        · exact NoXml.ok _
    | comment s =>
      unfold stringifyChildrenGo
      split
      · rename_i e he; exact h.of_eq he
      · split
        · rename_i e he; exact ih.of_eq he
        · exact NoXml.ok _
    | pi s t =>
      unfold stringifyChildrenGo
      split
      · rename_i e he; exact h.of_eq he
      · split
        · rename_i e he; exact ih.of_eq he
        · exact NoXml.ok _

theorem stringifyChildren_noXml (n : Node) : NoXml (stringifyChildren n) := by
  unfold stringifyChildren
  split
  · split
    · rename_i e he; exact (stringifyChildrenGo_noXml _).of_eq he
    · exact NoXml.ok _
  · exact stringifyChildrenGo_noXml _

mutual
theorem stripTags_noXml (full : Bool) (n : Node) : NoXml (stripTags full n) := by
  match n with
  | .text _ => unfold stripTags; noxml
  | .comment _ => unfold stripTags; noxml
  | .pi _ _ => unfold stripTags; noxml
  | .elem i ks =>
    have ih := stripTagsList_noXml full ks
    unfold stripTags
    split
    · rename_i e he; exact ih.of_eq he
    · noxml
theorem stripTagsList_noXml (full : Bool) (ns : List Node) : NoXml (stripTagsList full ns) := by
  match ns with
  | [] => unfold stripTagsList; noxml
  | n :: ns =>
    have ih1 := stripTags_noXml full n
    have ih2 := stripTagsList_noXml full ns
    unfold stripTagsList
    split
    · rename_i e he; exact ih1.of_eq he
    · split
      · rename_i e he; exact ih2.of_eq he
      · exact NoXml.ok _
end

theorem stripNamespace_noXml (full : Bool) (n : Node) : NoXml (stripNamespace full n) := by
  unfold stripNamespace
  split
  · rename_i e he; exact (stripTags_noXml full n).of_eq he
  · exact NoXml.ok _

theorem convertChildren_noXml (n : Node) : NoXml (convertChildrenFromReqifNs n) := by
  unfold convertChildrenFromReqifNs
  split
  · rename_i e he; exact (stripNamespace_noXml _ _).of_eq he
  · exact stringifyChildren_noXml _

theorem parseXhtmlAttributeValue_noXml (x : Node) : NoXml (parseXhtmlAttributeValue x) := by
  unfold parseXhtmlAttributeValue
  noxml
  · exact stringifyNamespacedChildren_noXml _
  · exact convertChildren_noXml _
  · exact stringifyChildren_noXml _

theorem parseAttributeValue_noXml (x : Node) : NoXml (parseAttributeValue x) := by
  have h1 := parseXhtmlAttributeValue_noXml x
  have h2 : ∀ t r, NoXml (parseSimpleValue x t r) := by
    intro t r
    unfold parseSimpleValue
    noxml
  unfold parseAttributeValue
  noxml
  all_goals exact h2 _ _

theorem parseAttributeValues_noXml (o : Option Node) : NoXml (parseAttributeValues o) := by
  have := parseAttributeValue_noXml
  unfold parseAttributeValues
  noxml
  exact this _

theorem parseDefault_noXml (x : Node) : NoXml (parseDefaultString x) ∧ (∀ t, NoXml (parseDefaultSimple x t)) ∧
    NoXml (parseDefaultBoolean x) ∧ NoXml (parseDefaultXhtml x) ∧ NoXml (parseDefaultEnumeration x) := by
  refine ⟨?_, ?_, ?_, ?_, ?_⟩
  · unfold parseDefaultString; noxml
  · intro t; unfold parseDefaultSimple; noxml
  · unfold parseDefaultBoolean; noxml
  · unfold parseDefaultXhtml
    noxml
    exact stringifyNamespacedChildren_noXml _
  · unfold parseDefaultEnumeration; noxml

theorem parseAttributeDefinition_noXml (x : Node) : NoXml (parseAttributeDefinition x) := by
  obtain ⟨h1, h2, h3, h4, h5⟩ := parseDefault_noXml x
  have h6 : ∀ t, NoXml (parseDatatypeRef x t) := fun t => NoXml.orNotImpl _
  have h7 : NoXml (parseDefinitionBody x) := by
    unfold parseDefinitionBody
    noxml
    all_goals first | exact h6 _ | exact h2 _
  unfold parseAttributeDefinition
  noxml

theorem parseAttributeDefinitions_noXml (x : Node) : NoXml (parseAttributeDefinitions x) := by
  have := parseAttributeDefinition_noXml
  unfold parseAttributeDefinitions
  noxml
  exact this _

theorem specAttributeMap_noXml (ds : List SpecAttributeDefinition) (m : Dict Str Str) :
    NoXml (specAttributeMap ds m) := by
  induction ds generalizing m with
  | nil => exact NoXml.ok _
  | cons d ds ih =>
    unfold specAttributeMap
    split
    · intro c h; cases h
    · exact ih _

theorem parseSpecType_noXml (x : Node) : NoXml (parseSpecType x) := by
  have h := parseAttributeDefinitions_noXml x
  unfold parseSpecType parseSpecObjectType parseSpecRelationType parseSpecificationType parseRelationGroupType
  noxml
  exact specAttributeMap_noXml _ _

theorem parseSpecObject_noXml (x : Node) : NoXml (parseSpecObject x) := by
  have h := parseAttributeValues_noXml (x.find c!"VALUES")
  unfold parseSpecObject
  noxml

theorem parseRelationValues_noXml (o : Option Node) : NoXml (parseRelationValues o) := by
  have := parseXhtmlAttributeValue_noXml
  unfold parseRelationValues
  noxml
  exact this _

theorem parseSpecRelation_noXml (x : Node) : NoXml (parseSpecRelation x) := by
  have h := parseRelationValues_noXml (x.find c!"VALUES")
  unfold parseSpecRelation
  noxml

theorem relationItem_noXml (x : Node) : NoXml (relationItem x) := by
  unfold relationItem
  split
  · rename_i e he; exact (parseSpecRelation_noXml x).of_eq he
  · exact NoXml.ok _
  · split
    · rename_i e he; exact (stringifyNode_noXml _ _).of_eq he
    · exact NoXml.ok _

theorem parseRelationGroup_noXml (x : Node) : NoXml (parseRelationGroup x) := by
  unfold parseRelationGroup
  noxml

mutual
theorem parseHierarchy_noXml (l : Nat) (n : Node) : NoXml (parseHierarchy l n) := by
  match n with
  | .text _ => unfold parseHierarchy; noxml
  | .comment _ => unfold parseHierarchy; noxml
  | .pi _ _ => unfold parseHierarchy; noxml
  | .elem i ks =>
    have ih := parseFirstChildren_noXml (l + 1) ks
    unfold parseHierarchy
    dsimp only
    split
    · split
      · rename_i e he; exact (NoXml.attrReqNI _ _).of_eq he
      · split
        · intro c h; cases h
        · split
          · intro c h; cases h
          · split
            · exact NoXml.ok _
            · rename_i e he; exact (ih _ he).of_eq rfl
            · exact NoXml.ok _
    · intro c h; cases h
theorem parseFirstChildren_noXml (l : Nat) (ns : List Node) : ∀ r, parseFirstChildren l ns = some r → NoXml r := by
  match ns with
  | [] => intro r h; cases h
  | .text _ :: ns => unfold parseFirstChildren; exact parseFirstChildren_noXml l ns
  | .comment _ :: ns => unfold parseFirstChildren; exact parseFirstChildren_noXml l ns
  | .pi _ _ :: ns => unfold parseFirstChildren; exact parseFirstChildren_noXml l ns
  | .elem i ks :: ns =>
    have ih1 := parseHierarchies_noXml l ks
    have ih2 := parseFirstChildren_noXml l ns
    unfold parseFirstChildren
    intro r h
    split at h
    · split at h
      · rename_i e he
        cases h
        exact ih1.of_eq he
      · cases h; exact NoXml.ok _
    · exact ih2 r h
theorem parseHierarchies_noXml (l : Nat) (ns : List Node) : NoXml (parseHierarchies l ns) := by
  match ns with
  | [] => unfold parseHierarchies; noxml
  | .text _ :: ns => unfold parseHierarchies; exact parseHierarchies_noXml l ns
  | .elem i ks :: ns =>
    have ih1 := parseHierarchy_noXml l (.elem i ks)
    have ih2 := parseHierarchies_noXml l ns
    unfold parseHierarchies
    split
    · rename_i e he; exact ih1.of_eq he
    · split
      · rename_i e he; exact ih2.of_eq he
      · exact NoXml.ok _
  | .comment s :: ns =>
    unfold parseHierarchies
    split
    · rename_i e he; unfold parseHierarchy at he; cases he; intro c h; cases h
    · rename_i e he; unfold parseHierarchy at he; cases he
  | .pi s t :: ns =>
    unfold parseHierarchies
    split
    · rename_i e he; unfold parseHierarchy at he; cases he; intro c h; cases h
    · rename_i e he; unfold parseHierarchy at he; cases he
end

theorem parseSpecification_noXml (x : Node) : NoXml (parseSpecification x) := by
  have h := parseAttributeValues_noXml (x.find c!"VALUES")
  have h2 := parseHierarchy_noXml 1
  unfold parseSpecification
  noxml
  exact h2 _

theorem parseHeader_noXml (x : Node) : NoXml (parseHeader x) := by
  unfold parseHeader
  noxml

end ReqIF
