import Verif.Proofs.Rename
import Verif.Proofs.Hierarchy
import Verif.Props.C92
/-!
# C104: identifiers are opaque

Nothing depends on what identifiers look like.  Giving other identifiers to everything in a document, and
changing the references along with them, gives the bundle with the other identifiers: the same links, the
same iteration, the same dangling references.  `Rename.root` (`Spec/Rename.lean`) is the changed document, `Rename.bundle` the changed
bundle.
-/
namespace ReqIF.Rename
open Spec

/-- `σ` gives different texts to different texts. -/
def Injective (σ : Str → Str) : Prop := ∀ s t, σ s = σ t → s = t

/-- **C104**: for all injective `σ` and all documents `s` and `s'`, of which the second is the first with
`σ` applied to identifiers and references: they are parsed to bundles of which the second is the first with `σ` applied to
identifiers and references, or both fail with the same exception. -/
theorem C104_document (σ : Str → Str) (hσ : Injective σ) (s s' : Str) (d d' : Doc) (hs : readDoc s = some d) (hs' : readDoc s' = some d')
    (hd : d.decl = d'.decl) (hr : d'.root = root σ d.root) :
    (∃ b, parseString s = .ok b ∧ parseString s' = .ok (bundle σ b)) ∨
    ∃ e, parseString s = .error e ∧ parseString s' = .error e := by
  have h := document_ σ hσ hd hr
  rw [← parseString_ofDoc hs, ← parseString_ofDoc hs'] at h
  cases hp : parseString s with
  | error e => rw [hp] at h; exact .inr ⟨e, rfl, h⟩
  | ok b => rw [hp] at h; exact .inl ⟨b, rfl, h⟩

/-! ## The lookup -/

section
variable (σ : Str → Str) (hσ : Injective σ)
include hσ

theorem getItem_ {α : Type} (f : α → α) (d : Dict Str α) (k : Str) : (dict σ f d).getItem (σ k) = pyMap f (d.getItem k) := by
  unfold Dict.getItem
  rw [show (dict σ f d).get? (σ k) = _ from get_keys σ hσ f d k]
  cases d.get? k <;> rfl

theorem has_ {α : Type} (f : α → α) (d : Dict Str α) (k : Str) : (dict σ f d).has (σ k) = d.has k := by
  unfold Dict.has
  rw [show (dict σ f d).get? (σ k) = _ from get_keys σ hσ f d k]
  cases d.get? k <;> rfl

theorem exists_ (l : Lookup) (r : Option Str) : (lookup σ l).specObjectExists (r.map σ) = l.specObjectExists r := by
  cases r with
  | none => rfl
  | some r => exact has_ σ hσ (object σ) l.specObjects r

/-- The renamed bundle answers the renamed questions with the renamed answers. -/
theorem C104_lookup (b : Bundle) (r : Str) :
    (bundle σ b).lookup.specObjectByRef (σ r) = pyMap (object σ) (b.lookup.specObjectByRef r) ∧
    (bundle σ b).lookup.specTypeByRef (σ r) = pyMap (type σ) (b.lookup.specTypeByRef r) ∧
    (bundle σ b).lookup.dataTypeByRef (σ r) = pyMap (dataType σ) (b.lookup.dataTypeByRef r) ∧
    (bundle σ b).lookup.specObjectExists (some (σ r)) = b.lookup.specObjectExists (some r) ∧
    ((bundle σ b).lookup.specObjectParents (some (σ r))).1 =
      pyMap (List.map (Option.map σ)) (b.lookup.specObjectParents (some r)).1 ∧
    (bundle σ b).specObjectTypeByRef (σ r) = (b.specObjectTypeByRef r).map (objectType σ) := by
  refine ⟨getItem_ σ hσ _ _ r, getItem_ σ hσ _ _ r, getItem_ σ hσ _ _ r, exists_ σ hσ b.lookup (some r), ?_, ?_⟩
  · have e : (lookup σ b.lookup).parents.get? (some (σ r)) = (b.lookup.parents.get? (some r)).map (List.map (Option.map σ)) :=
      get_keys (Option.map σ) (optKeys σ hσ) (List.map (Option.map σ)) b.lookup.parents (some r)
    unfold Lookup.specObjectParents
    show (match (lookup σ b.lookup).parents.get? (some (σ r)) with | some ps => _ | none => _ : Py (List (Option Str)) × Lookup).1 = _
    rw [e]
    have e2 : (bundle σ b).lookup.parentsDefault = b.lookup.parentsDefault := rfl
    cases b.lookup.parents.get? (some r) with
    | some ps => rfl
    | none =>
      simp only [Option.map_none, e2]
      split <;> rfl
  · have hf : ∀ ts : List SpecType, findSpecObjectType (σ r) (ts.map (type σ)) = (findSpecObjectType r ts).map (objectType σ) := by
      intro ts
      induction ts with
      | nil => rfl
      | cons t ts ih =>
        cases t with
        | object t =>
          simp only [List.map_cons, type, findSpecObjectType, ih]
          by_cases h : t.identifier = r
          · rw [if_pos h, if_pos (show (objectType σ t).identifier = σ r from congrArg σ h)]; rfl
          · rw [if_neg h, if_neg (show ¬ (objectType σ t).identifier = σ r from fun e => h (hσ _ _ e))]
        | relation t => exact ih
        | specification t => exact ih
        | relationGroup t => exact ih
    unfold Bundle.specObjectTypeByRef
    show (match b.coreContent.map (Option.map (content σ)) with | none => _ | some none => _ | some (some c) => _ : Option SpecObjectType) = _
    match b.coreContent with
    | none => rfl
    | some none => rfl
    | some (some c) =>
      simp only [Option.map_some, content]
      cases c.specTypes with
      | none => rfl
      | some ts => exact hf ts

/-! ## Iteration and validation -/

omit hσ in
mutual
theorem preorder_ (h : Hierarchy) : preorder (hierarchy σ h) = (preorder h).map (hierarchy σ) :=
  match h with
  | .leaf i => rfl
  | .node i cs => by simp only [hierarchy, preorder, List.map_cons, preorderList_ cs]

theorem preorderList_ (hs : List Hierarchy) : preorderList (hierarchies σ hs) = (preorderList hs).map (hierarchy σ) :=
  match hs with
  | [] => rfl
  | h :: hs => by simp only [hierarchies, preorderList, List.map_append, preorder_ h, preorderList_ hs]
end

omit hσ in
/-- The renamed bundle is iterated over in the same order. -/
theorem C104_iterate (b : Bundle) (i : Nat) : (bundle σ b).iterate i = pyMap (List.map (hierarchy σ)) (b.iterate i) := by
  have e : (bundle σ b).specifications? = b.specifications?.map (List.map (specification σ)) := by
    unfold Bundle.specifications?
    show (match b.coreContent.map (Option.map (content σ)) with | some (some c) => _ | _ => _ : Option (List Specification)) = _
    match b.coreContent with
    | none => rfl
    | some none => rfl
    | some (some c) => rfl
  unfold Bundle.iterate
  rw [e]
  cases b.specifications? with
  | none => rfl
  | some ss =>
    simp only [Option.map_some, List.getElem?_map]
    cases ss[i]? with
    | none => rfl
    | some s =>
      simp only [Option.map_some, specification]
      cases s.children with
      | none => rfl
      | some hs => simp only [Option.map_some, iterLoop_eq, preorderList_, pyMap]

theorem relationIssues_ (l : Lookup) (r : SpecRelation) :
    relationIssues (lookup σ l) (relation σ r) = (relationIssues l r).map (semanticIssue σ) := by
  unfold relationIssues
  simp only [relation, exists_ σ hσ]
  cases l.specObjectExists r.source <;> cases l.specObjectExists r.target <;> rfl

theorem relationsIssues_ (l : Lookup) (rs : List SpecRelation) :
    validateRelations (lookup σ l) (rs.map (relation σ)) = (validateRelations l rs).map (semanticIssue σ) := by
  induction rs with
  | nil => rfl
  | cons r rs ih => simp only [List.map_cons, validateRelations, ih, relationIssues_ σ hσ, List.map_append]

theorem hierarchyIssues_ (l : Lookup) (hs : List Hierarchy) :
    hierarchyIssues (lookup σ l) (hs.map (hierarchy σ)) = (hierarchyIssues l hs).map (semanticIssue σ) := by
  induction hs with
  | nil => rfl
  | cons h hs ih =>
    have e : (hierarchy σ h).info = hinfo σ h.info := by cases h <;> rfl
    simp only [List.map_cons, hierarchyIssues, ih, e, hinfo, exists_ σ hσ]
    split <;> rfl

theorem specificationIssues_ (b : Bundle) (i : Nat) (ss : List Specification) :
    validateSpecificationsFrom (bundle σ b) i (ss.map (specification σ)) =
      pyMap (List.map (semanticIssue σ)) (validateSpecificationsFrom b i ss) := by
  induction ss generalizing i with
  | nil => rfl
  | cons s ss ih =>
    simp only [List.map_cons, validateSpecificationsFrom, C104_iterate, ih]
    cases b.iterate i with
    | error e => rfl
    | ok hs =>
      simp only [pyMap]
      cases validateSpecificationsFrom b (i + 1) ss with
      | error e => rfl
      | ok r =>
        simp only [List.map_append]
        congr 2
        exact hierarchyIssues_ σ hσ b.lookup hs

/-- Validation finds the same problems in the renamed bundle, with the other identifiers. -/
theorem C104_validate (b : Bundle) : validateBundle (bundle σ b) = pyMap (report σ) (validateBundle b) := by
  have h : contentIssues (bundle σ b) = pyMap (List.map (semanticIssue σ)) (contentIssues b) := by
    unfold contentIssues
    show (match b.coreContent.map (Option.map (content σ)) with | none => _ | some none => _ | some (some c) => _ : Py (List SemanticIssue)) = _
    match b.coreContent with
    | none => rfl
    | some none => rfl
    | some (some c) =>
      have e : (match c.specRelations.map (List.map (relation σ)) with | none => [] | some rs => validateRelations (lookup σ b.lookup) rs) =
          (match c.specRelations with | none => [] | some rs => validateRelations b.lookup rs).map (semanticIssue σ) := by
        cases c.specRelations with
        | none => rfl
        | some rs => exact relationsIssues_ σ hσ b.lookup rs
      simp only [Option.map_some, content]
      cases hsp : c.specifications with
      | none =>
        simp only [Option.map_none, pyMap]
        exact congrArg _ e
      | some ss =>
        simp only [Option.map_some, specificationIssues_ σ hσ]
        cases validateSpecificationsFrom b 0 ss with
        | error e => rfl
        | ok hs =>
          simp only [pyMap, List.map_append]
          exact congrArg (fun a => Except.ok (a ++ List.map (semanticIssue σ) hs)) e
  have hdoc : (bundle σ b).namespaceInfo = b.namespaceInfo := rfl
  have hex : (bundle σ b).exceptions.map SchemaIssue.missingTag = (b.exceptions.map SchemaIssue.missingTag).map (schemaIssue σ) := by
    show (b.exceptions.map _).map _ = _
    rw [List.map_map, List.map_map]
    rfl
  unfold validateBundle
  simp only [h, hdoc, hex]
  cases contentIssues b with
  | error e => rfl
  | ok is =>
    simp only [pyMap, report, List.map_append]
    congr 3
    congr 1
    · split <;> rfl
    · split <;> rfl

/-- **C104**: the documents are valid together: their reports are the same but for the identifiers. -/
theorem C104_valid (s s' : Str) (d d' : Doc) (hs : readDoc s = some d) (hs' : readDoc s' = some d')
    (hd : d.decl = d'.decl) (hr : d'.root = root σ d.root) (b b' : Bundle) (hb : parseString s = .ok b) (hb' : parseString s' = .ok b') :
    validateBundle b' = pyMap (report σ) (validateBundle b) := by
  rcases C104_document σ hσ s s' d d' hs hs' hd hr with ⟨c, h1, h2⟩ | ⟨e, h1, -⟩
  · rw [hb] at h1; rw [hb'] at h2
    cases h1; cases h2
    exact C104_validate σ hσ b
  · rw [hb] at h1; cases h1
end

/-! ## Concrete cases -/

/-- A document with two objects, a relation to an object that is not there, and a specification, for a text in front of all
identifiers. -/
def namedDoc (p : Str) : Str :=
  c!"<REQ-IF xmlns=\"u\"><CORE-CONTENT><REQ-IF-CONTENT><SPEC-OBJECTS>" ++
  c!"<SPEC-OBJECT IDENTIFIER=\"" ++ p ++ c!"a\"><TYPE><SPEC-OBJECT-TYPE-REF>" ++ p ++ c!"t</SPEC-OBJECT-TYPE-REF></TYPE></SPEC-OBJECT>" ++
  c!"<SPEC-OBJECT IDENTIFIER=\"" ++ p ++ c!"b\"><TYPE><SPEC-OBJECT-TYPE-REF>" ++ p ++ c!"t</SPEC-OBJECT-TYPE-REF></TYPE></SPEC-OBJECT>" ++
  c!"</SPEC-OBJECTS><SPEC-RELATIONS><SPEC-RELATION IDENTIFIER=\"" ++ p ++ c!"r\"><TYPE><SPEC-RELATION-TYPE-REF>" ++ p ++
  c!"q</SPEC-RELATION-TYPE-REF></TYPE><SOURCE><SPEC-OBJECT-REF>" ++ p ++ c!"a</SPEC-OBJECT-REF></SOURCE><TARGET><SPEC-OBJECT-REF>" ++ p ++
  c!"z</SPEC-OBJECT-REF></TARGET></SPEC-RELATION></SPEC-RELATIONS></REQ-IF-CONTENT></CORE-CONTENT></REQ-IF>"

/-- Its tree. -/
def namedTree (p : Str) : Node :=
  .elem ⟨some c!"u", none, c!"REQ-IF", [(none, c!"u")], [(none, c!"u")], []⟩ [
    noted c!"CORE-CONTENT" [] [noted c!"REQ-IF-CONTENT" [] [
      noted c!"SPEC-OBJECTS" [] [
        noted c!"SPEC-OBJECT" [(c!"IDENTIFIER", p ++ c!"a")] [
          noted c!"TYPE" [] [noted c!"SPEC-OBJECT-TYPE-REF" [] [.text (p ++ c!"t")]]],
        noted c!"SPEC-OBJECT" [(c!"IDENTIFIER", p ++ c!"b")] [
          noted c!"TYPE" [] [noted c!"SPEC-OBJECT-TYPE-REF" [] [.text (p ++ c!"t")]]]],
      noted c!"SPEC-RELATIONS" [] [noted c!"SPEC-RELATION" [(c!"IDENTIFIER", p ++ c!"r")] [
        noted c!"TYPE" [] [noted c!"SPEC-RELATION-TYPE-REF" [] [.text (p ++ c!"q")]],
        noted c!"SOURCE" [] [noted c!"SPEC-OBJECT-REF" [] [.text (p ++ c!"a")]],
        noted c!"TARGET" [] [noted c!"SPEC-OBJECT-REF" [] [.text (p ++ c!"z")]]]]]]]

set_option maxRecDepth 20000 in
theorem named_read : readDoc (namedDoc []) = some ⟨none, [namedTree []], namedTree []⟩ := isRootOnly_eq (by decide +kernel)

set_option maxRecDepth 20000 in
theorem named_read2 : readDoc (namedDoc c!"x-") = some ⟨none, [namedTree c!"x-"], namedTree c!"x-"⟩ := isRootOnly_eq (by decide +kernel)

theorem prefix_injective (p : Str) : Injective (p ++ ·) := fun _ _ h => List.append_cancel_left h

theorem named_renamed : namedTree c!"x-" = root (c!"x-" ++ ·) (namedTree []) := by rfl

/-- The hypotheses of `C104_document` are met. -/
example : Injective (c!"x-" ++ ·) ∧ ∃ d d', readDoc (namedDoc []) = some d ∧ readDoc (namedDoc c!"x-") = some d' ∧ d.decl = d'.decl ∧
    d'.root = root (c!"x-" ++ ·) d.root :=
  ⟨prefix_injective _, _, _, named_read, named_read2, rfl, named_renamed⟩

set_option maxRecDepth 20000 in
/-- It is parsed, and one reference of it is reported (besides the missing XML declaration). -/
example : (parseString (namedDoc [])).toOption.isSome = true ∧
    ((parseString (namedDoc [])).toOption.bind fun b => (validateBundle b).toOption.map fun e => e.semanticWarnings.length) = some 2 := by
  decide +kernel

/-- Objects with the same identifier are one for the lookup: `σ` has to be injective. -/
theorem C104_injective : ∃ (σ : Str → Str) (b : Bundle) (r : Str), ∃ o, b.lookup.specObjectByRef r = .ok o ∧
    (bundle σ b).lookup.specObjectByRef (σ r) ≠ pyMap (object σ) (b.lookup.specObjectByRef r) := by
  let o (t : Str) : SpecObject := ⟨t, [], none, none, none, some t, none⟩
  let b : Bundle := { Bundle.createEmpty none none with
    lookup := { Lookup.empty with specObjects := [(c!"a", o c!"a"), (c!"b", o c!"b")] } }
  refine ⟨fun s => if s = c!"a" then c!"b" else s, b, c!"b", o c!"b", rfl, ?_⟩
  intro h
  have h1 := congrArg (fun r : Py SpecObject => match r with | .ok o => o.longName | .error _ => none) h
  revert h1
  decide

end ReqIF.Rename
