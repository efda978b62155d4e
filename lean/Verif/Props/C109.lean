import Verif.Proofs.Jumbled
import Verif.Props.C88
import Verif.Props.C18_23
import Verif.Proofs.NodeEq
import Verif.Props.C52_55
import Verif.Props.C25_31
/-!
# C109: the order of the items

Data types, types, objects, relations, specifications and groups may come in any order: lookups find the same, and
validation reports the same.
-/
namespace ReqIF
open Spec Items Jumbled

theorem parsed_content {s : Str} {b : Bundle} (h : parseString s = .ok b) {x : Node} (hx : contentNode s = some x) :
    ∃ c, b.coreContent = some (some c) ∧ (parseContent (none : Option (Callback Unit)) x ()).1 = .ok (c, b.lookup, b.exceptions) := by
  rcases parseString_inv h with ⟨h1, -⟩ | ⟨y, c, h1, h2, h3⟩
  · rw [hx] at h1; cases h1
  · rw [hx] at h1
    cases h1
    exact ⟨c, h2, h3⟩

/-- **C109**: if the content elements of two documents, as the parser sees them, hold the same items in any order, then the lists of the
two bundles hold the same items, and the same relations are reported as incomplete. -/
theorem C109_lists (s s' : Str) (b b' : Bundle) (h : parseString s = .ok b) (h' : parseString s' = .ok b') (x x' : Node)
    (hx : contentNode s = some x) (hx' : contentNode s' = some x') (hi : SameItems x x') :
    (dataTypesOf b).Perm (dataTypesOf b') ∧ (specTypesOf b).Perm (specTypesOf b') ∧
    (specObjectsOf b).Perm (specObjectsOf b') ∧ (specRelationsOf b).Perm (specRelationsOf b') ∧
    (specificationsOf b).Perm (specificationsOf b') ∧ b.exceptions.Perm b'.exceptions := by
  obtain ⟨c, h1, h2⟩ := parsed_content h hx
  obtain ⟨c', h1', h2'⟩ := parsed_content h' hx'
  obtain ⟨rs, d, t, p, r, o, -, g, e, -⟩ := parseContent_inv h2
  obtain ⟨rs', d', t', p', r', o', -, g', e', -⟩ := parseContent_inv h2'
  have hr : (rs.getD []).Perm (rs'.getD []) := held_perm (hi .specRelations) mapPy_perm r r'
  have hg : ∀ (o : Option (List (Except MissingTag SpecRelation))), (o.map goodRelations).getD [] = goodRelations (o.getD []) := by
    intro o; cases o <;> rfl
  simp only [dataTypesOf, specTypesOf, specObjectsOf, specRelationsOf, specificationsOf, h1, h1', g, g', e, e', hg]
  exact ⟨held_perm (hi .dataTypes) mapPy_perm d d', held_perm (hi .specTypes) filterMapPy_perm t t',
    held_perm (hi .specObjects) filterMapPy_perm o o', hr.filterMap _, held_perm (hi .specifications) mapPy_perm p p',
    hr.filterMap _⟩

/-- The groups of relations are the same as well. -/
theorem C109_groups (s s' : Str) (b b' : Bundle) (h : parseString s = .ok b) (h' : parseString s' = .ok b') (x x' : Node)
    (hx : contentNode s = some x) (hx' : contentNode s' = some x') (hi : SameItems x x') :
    ∃ c c', b.coreContent = some (some c) ∧ b'.coreContent = some (some c') ∧
      (c.specRelationGroups.getD []).Perm (c'.specRelationGroups.getD []) := by
  obtain ⟨c, h1, h2⟩ := parsed_content h hx
  obtain ⟨c', h1', h2'⟩ := parsed_content h' hx'
  obtain ⟨-, -, -, -, -, -, g, -⟩ := parseContent_inv h2
  obtain ⟨-, -, -, -, -, -, g', -⟩ := parseContent_inv h2'
  exact ⟨c, c', h1, h1', held_perm (hi .relationGroups) mapPy_perm g g'⟩

/-- With distinct identifiers, lookups give the same for both documents. -/
theorem C109_lookups (s s' : Str) (b b' : Bundle) (h : parseString s = .ok b) (h' : parseString s' = .ok b') (x x' : Node)
    (hx : contentNode s = some x) (hx' : contentNode s' = some x') (hi : SameItems x x')
    (hd : Distinct DataType.identifier (dataTypesOf b)) (ht : Distinct SpecType.identifier (specTypesOf b))
    (ho : Distinct SpecObject.identifier (specObjectsOf b)) (ref : Str) :
    b.lookup.specObjectExists (some ref) = b'.lookup.specObjectExists (some ref) ∧
    b.lookup.specObjectByRef ref = b'.lookup.specObjectByRef ref ∧
    b.lookup.dataTypeByRef ref = b'.lookup.dataTypeByRef ref ∧
    b.lookup.specTypeByRef ref = b'.lookup.specTypeByRef ref ∧
    b.specObjectTypeByRef ref = b'.specObjectTypeByRef ref := by
  obtain ⟨p1, p2, p3, -⟩ := C109_lists s s' b b' h h' x x' hx hx' hi
  obtain ⟨a1, a2, -⟩ := C18_spec_objects s b h ref
  obtain ⟨b1, b2, -⟩ := C18_spec_objects s' b' h' ref
  obtain ⟨c1, c2⟩ := C22_types s b h ref
  obtain ⟨d1, d2⟩ := C22_types s' b' h' ref
  refine ⟨?_, ?_, ?_, ?_, ?_⟩
  · rw [Bool.eq_iff_iff, a1, b1]
    exact ⟨fun ⟨o, h1, h2⟩ => ⟨o, p3.mem_iff.1 h1, h2⟩, fun ⟨o, h1, h2⟩ => ⟨o, p3.mem_iff.2 h1, h2⟩⟩
  · rw [a2, b2, lastWith_perm p3 ho]
  · rw [c1, d1, lastWith_perm p1 hd]
  · rw [c2, d2, lastWith_perm p2 ht]
  · rw [C20_type_by_ref, C20_type_by_ref]
    refine find_perm (p2.filterMap _) (filter_distinct (key := SpecObjectType.identifier) ?_ ref (fun t ht => by simpa using ht))
    unfold Distinct objectTypes
    have : ∀ ts : List SpecType, (((ts.filterMap (fun t => match t with | .object t => some t | _ => none)).map
        SpecObjectType.identifier).Sublist (ts.map SpecType.identifier)) := by
      intro ts
      induction ts with
      | nil => exact List.Sublist.refl _
      | cons t ts ih => cases t <;> first | exact ih.cons_cons _ | exact ih.cons _
    exact ht.sublist (this _)

/-- The parents of an object are the same, in the order of the relations. -/
theorem C109_parents (s s' : Str) (b b' : Bundle) (h : parseString s = .ok b) (h' : parseString s' = .ok b') (x x' : Node)
    (hx : contentNode s = some x) (hx' : contentNode s' = some x') (hi : SameItems x x') (ref : Option Str) :
    ∃ l l', (b.lookup.specObjectParents ref).1 = .ok l ∧ (b'.lookup.specObjectParents ref).1 = .ok l' ∧ l.Perm l' := by
  obtain ⟨c, h1, -⟩ := parsed_content h hx
  obtain ⟨c', h1', -⟩ := parsed_content h' hx'
  obtain ⟨-, -, -, p4, -⟩ := C109_lists s s' b b' h h' x x' hx hx' hi
  exact ⟨_, _, C19_parents s b h c h1 [] ref, C19_parents s' b' h' c' h1' [] ref, (p4.filter _).map _⟩

/-- Validation reports the same, in the order of the items; here identifiers may be repeated. -/
theorem C109_validated (bytes bytes' : ByteArray) (s s' : Str) (b b' : Bundle) (hs : decodeUtf8 bytes = .ok s)
    (hs' : decodeUtf8 bytes' = .ok s') (h : parseString (normEol s) = .ok b) (h' : parseString (normEol s') = .ok b')
    (d d' : Doc) (hd : readDoc (normEol s) = some d) (hd' : readDoc (normEol s') = some d') (he : d.decl = d'.decl)
    (x x' : Node) (hx : contentNode (normEol s) = some x) (hx' : contentNode (normEol s') = some x') (hi : SameItems x x') :
    ∃ r r', validateParsed (.ok bytes) = .ok r ∧ validateParsed (.ok bytes') = .ok r' ∧ r.xmlErrors = [] ∧ r'.xmlErrors = [] ∧
      r.schemaErrors.Perm r'.schemaErrors ∧ r.semanticWarnings.Perm r'.semanticWarnings := by
  obtain ⟨e, e1, e2⟩ := C28_semantic_issues bytes s b hs h
  obtain ⟨e', e1', e2'⟩ := C28_semantic_issues bytes' s' b' hs' h'
  rw [hd] at e1
  rw [hd'] at e1'
  cases e1
  cases e1'
  obtain ⟨-, -, p3, p4, p5, p6⟩ := C109_lists _ _ b b' h h' x x' hx hx' hi
  refine ⟨_, _, e2, e2', rfl, rfl, p6.map _, ?_⟩
  have hne : ∀ {t : Str} {y : Node} {f : Doc}, contentNode t = some y → readDoc t = some f →
      f.root.children ≠ [] := by
    intro t y f h2 h3 h4
    unfold contentNode at h2
    rw [h3] at h2
    dsimp only at h2
    cases hr : strippedRoot f.root with
    | error e => rw [hr] at h2; cases h2
    | ok root =>
      rw [hr] at h2
      have hl := strippedRoot_len hr (readDoc_root h3)
      have hc : root.children = [] := by
        have : root.children.length = f.root.children.length := hl
        rw [h4] at this
        exact List.length_eq_zero_iff.1 this
      have hn : root.find c!"CORE-CONTENT" = none := by
        unfold Node.find
        rw [List.find?_eq_none]
        intro z hz hb
        simp only [Bool.and_eq_true] at hb
        have : z ∈ root.children := List.mem_filter.mpr ⟨hz, hb.1⟩
        rw [hc] at this
        cases this
      have h2 : contentOf root = some y := h2
      rw [contentOf, hn] at h2
      cases h2
  have hdang : dangling (specObjectsOf b) = dangling (specObjectsOf b') := by
    funext r
    cases r with
    | none => rfl
    | some r =>
      simp only [dangling]
      congr 1
      rw [Bool.eq_iff_iff, List.any_eq_true, List.any_eq_true]
      exact ⟨fun ⟨o, h1, h2⟩ => ⟨o, p3.mem_iff.1 h1, h2⟩, fun ⟨o, h1, h2⟩ => ⟨o, p3.mem_iff.2 h1, h2⟩⟩
  have hf : fileIssues d = fileIssues d' := by
    unfold fileIssues
    rw [if_neg (hne hx hd), if_neg (hne hx' hd'), he]
  have hr : relationEnds (specObjectsOf b) = relationEnds (specObjectsOf b') := by
    funext r; simp only [relationEnds, hdang]
  have hh : hierarchyRefs (specObjectsOf b) = hierarchyRefs (specObjectsOf b') := by
    funext r; simp only [hierarchyRefs, hdang]
  show (semanticIssues d b).Perm (semanticIssues d' b')
  unfold semanticIssues
  rw [hf, hr, hh]
  exact ((List.Perm.refl _).append (p4.flatMap_right _)).append (p5.flatMap_right _)

/-- Documents that differ in the order of their items: both are parsed or none is. -/
theorem C109_accepted (s s' : Str) (d d' : Doc) (hd : readDoc s = some d) (hd' : readDoc s' = some d')
    (hj : JumbledDocs d.root d'.root) : (∃ b, parseString s = .ok b) ↔ ∃ b, parseString s' = .ok b := by
  rw [C88_read, C88_read]
  constructor
  · rintro ⟨e, r, h1, h2, h3⟩
    rw [hd] at h1
    cases h1
    obtain ⟨r', h4, h5⟩ := docs_accepted hj h2 h3
    exact ⟨d', r', hd', h4, h5⟩
  · rintro ⟨e, r, h1, h2, h3⟩
    rw [hd'] at h1
    cases h1
    obtain ⟨r', h4, h5⟩ := docs_accepted (jumbled_kept.flip hj) h2 h3
    exact ⟨d, r', hd, h4, h5⟩

/-- Their content elements, as the parser sees them, hold the same items, or both have none. With this the other theorems apply. -/
theorem C109_documents (s s' : Str) (d d' : Doc) (hd : readDoc s = some d) (hd' : readDoc s' = some d')
    (hj : JumbledDocs d.root d'.root) :
    (contentNode s = none ∧ contentNode s' = none) ∨
      ∃ x x', contentNode s = some x ∧ contentNode s' = some x' ∧ SameItems x x' := by
  unfold contentNode
  rw [hd, hd']
  dsimp only
  cases hr : strippedRoot d.root with
  | error e =>
    cases hr' : strippedRoot d'.root with
    | error e => exact .inl ⟨rfl, rfl⟩
    | ok r' =>
      obtain ⟨r, h⟩ := jumbled_strippable (jumbled_kept.flip hj) hr'
      rw [hr] at h
      cases h
  | ok r =>
    obtain ⟨r', hr'⟩ := jumbled_strippable hj hr
    rw [hr']
    exact docs_same hj hr hr'

/-! ## A case -/

/-- An element in no namespace. -/
def jumbledElem (name : Str) (attrs : List Attr) (ks : List Node) : Node := .elem ⟨none, none, name, [], [], attrs⟩ ks

/-- An object, as an element. -/
def jumbledObject (id type : Str) : Node :=
  jumbledElem c!"SPEC-OBJECT" [⟨none, none, c!"IDENTIFIER", id⟩]
    [jumbledElem c!"TYPE" [] [jumbledElem c!"SPEC-OBJECT-TYPE-REF" [] [.text type]]]

/-- The same as text. -/
def jumbledText (id type : Str) : Str :=
  c!"<SPEC-OBJECT IDENTIFIER=\"" ++ id ++ c!"\"><TYPE><SPEC-OBJECT-TYPE-REF>" ++ type ++ c!"</SPEC-OBJECT-TYPE-REF></TYPE></SPEC-OBJECT>"

/-- A document with objects. -/
def jumbledDoc (objects : Str) : Str :=
  c!"<REQ-IF><CORE-CONTENT><REQ-IF-CONTENT><SPEC-OBJECTS>" ++ objects ++ c!"</SPEC-OBJECTS></REQ-IF-CONTENT></CORE-CONTENT></REQ-IF>"

/-- Its content. -/
def jumbledContent (objects : List Node) : Node := jumbledElem c!"REQ-IF-CONTENT" [] [jumbledElem c!"SPEC-OBJECTS" [] objects]

def isContent (n : Node) : Option Node → Bool
  | some x => sameNode x n
  | none => false

theorem isContent_eq {n : Node} {o : Option Node} (h : isContent n o = true) : o = some n := by
  cases o with
  | none => cases h
  | some x => exact congrArg some (sameNode_eq x n h)

theorem jumbled_same {a b : Node} (ha : a.isText = false) (hb : b.isText = false) :
    SameItems (jumbledContent [a, b]) (jumbledContent [b, a]) := by
  intro c
  cases c with
  | specObjects =>
    refine .inr ⟨jumbledElem c!"SPEC-OBJECTS" [] [a, b], jumbledElem c!"SPEC-OBJECTS" [] [b, a], rfl, rfl, ?_⟩
    simp only [jumbledElem, Node.children, Node.kids, List.filter_cons, ha, hb]
    exact List.Perm.swap _ _ _
  | _ => exact .inl ⟨rfl, rfl⟩

def parses (s : Str) : Bool := match parseString s with | .ok _ => true | .error _ => false

theorem parses_ok {s : Str} (h : parses s = true) : ∃ b, parseString s = .ok b := by
  unfold parses at h
  cases hp : parseString s with
  | ok b => exact ⟨b, rfl⟩
  | error e => rw [hp] at h; cases h

/-- What is found for a reference: the type of the object. -/
def typeFound (s : Str) (ref : Str) : Option (Option Str) :=
  match parseString s with
  | .ok b => match b.lookup.specObjectByRef ref with
    | .ok o => some o.specObjectType
    | .error _ => none
  | .error _ => none

set_option maxRecDepth 20000 in
/-- The hypotheses of `C109_lists` and the others are met by two documents with two objects in different order. -/
example : ∃ b b' x x', parseString (jumbledDoc (jumbledText c!"o" c!"t" ++ jumbledText c!"p" c!"u")) = .ok b ∧
    parseString (jumbledDoc (jumbledText c!"p" c!"u" ++ jumbledText c!"o" c!"t")) = .ok b' ∧
    contentNode (jumbledDoc (jumbledText c!"o" c!"t" ++ jumbledText c!"p" c!"u")) = some x ∧
    contentNode (jumbledDoc (jumbledText c!"p" c!"u" ++ jumbledText c!"o" c!"t")) = some x' ∧ SameItems x x' := by
  obtain ⟨b, hb⟩ := parses_ok (s := jumbledDoc (jumbledText c!"o" c!"t" ++ jumbledText c!"p" c!"u")) (by decide +kernel)
  obtain ⟨b', hb'⟩ := parses_ok (s := jumbledDoc (jumbledText c!"p" c!"u" ++ jumbledText c!"o" c!"t")) (by decide +kernel)
  exact ⟨b, b', jumbledContent [jumbledObject c!"o" c!"t", jumbledObject c!"p" c!"u"],
    jumbledContent [jumbledObject c!"p" c!"u", jumbledObject c!"o" c!"t"], hb, hb', isContent_eq (by decide +kernel),
    isContent_eq (by decide +kernel), jumbled_same rfl rfl⟩

set_option maxRecDepth 20000 in
/-- Those of `C109_validated`: files with these texts. -/
example : ∃ bytes bytes', decodeUtf8 bytes = .ok (jumbledDoc (jumbledText c!"o" c!"t" ++ jumbledText c!"p" c!"u")) ∧
    decodeUtf8 bytes' = .ok (jumbledDoc (jumbledText c!"p" c!"u" ++ jumbledText c!"o" c!"t")) ∧
    normEol (jumbledDoc (jumbledText c!"o" c!"t" ++ jumbledText c!"p" c!"u")) =
      jumbledDoc (jumbledText c!"o" c!"t" ++ jumbledText c!"p" c!"u") ∧
    normEol (jumbledDoc (jumbledText c!"p" c!"u" ++ jumbledText c!"o" c!"t")) =
      jumbledDoc (jumbledText c!"p" c!"u" ++ jumbledText c!"o" c!"t") :=
  ⟨_, _, decodeUtf8_encode _, decodeUtf8_encode _, normEol_of_noCr (by decide +kernel), normEol_of_noCr (by decide +kernel)⟩

set_option maxRecDepth 20000 in
/-- The objects have distinct identifiers, and each is found in both documents. -/
example : (match parseString (jumbledDoc (jumbledText c!"o" c!"t" ++ jumbledText c!"p" c!"u")) with
      | .ok b => (specObjectsOf b).map SpecObject.identifier
      | .error _ => []) = [c!"o", c!"p"] ∧
    typeFound (jumbledDoc (jumbledText c!"o" c!"t" ++ jumbledText c!"p" c!"u")) c!"o" = some (some c!"t") ∧
    typeFound (jumbledDoc (jumbledText c!"p" c!"u" ++ jumbledText c!"o" c!"t")) c!"o" = some (some c!"t") := by
  decide +kernel

set_option maxRecDepth 20000 in
/-- Where two objects have the same identifier, the order decides which of them is found: the last. -/
theorem C109_repeated : typeFound (jumbledDoc (jumbledText c!"o" c!"t" ++ jumbledText c!"o" c!"u")) c!"o" = some (some c!"u") ∧
    typeFound (jumbledDoc (jumbledText c!"o" c!"u" ++ jumbledText c!"o" c!"t")) c!"o" = some (some c!"t") := by
  decide +kernel

/-- A document as a tree. -/
def jumbledRoot (objects : List Node) : Node :=
  jumbledElem c!"REQ-IF" [] [jumbledElem c!"CORE-CONTENT" [] [jumbledContent objects]]

theorem jumbled_docs {a b : Node} (ha : a.isText = false) (hb : b.isText = false) :
    JumbledDocs (jumbledRoot [a, b]) (jumbledRoot [b, a]) := by
  refine ⟨_, _, _, rfl, rfl, .rel ⟨_, _, _, rfl, rfl, .rel ⟨_, _, _, rfl, rfl, .rel ⟨_, _, _, rfl, rfl, ?_⟩ .nil⟩ .nil⟩ .nil⟩
  simp only [Node.children, Node.kids, List.filter_cons, ha, hb]
  exact List.Perm.swap _ _ _

set_option maxRecDepth 20000 in
/-- The hypotheses of `C109_accepted` and `C109_documents` are met by these documents. -/
example : ∃ d d', readDoc (jumbledDoc (jumbledText c!"o" c!"t" ++ jumbledText c!"p" c!"u")) = some d ∧
    readDoc (jumbledDoc (jumbledText c!"p" c!"u" ++ jumbledText c!"o" c!"t")) = some d' ∧ JumbledDocs d.root d'.root :=
  ⟨_, _, isRootOnly_eq (n := jumbledRoot [jumbledObject c!"o" c!"t", jumbledObject c!"p" c!"u"]) (by decide +kernel),
    isRootOnly_eq (n := jumbledRoot [jumbledObject c!"p" c!"u", jumbledObject c!"o" c!"t"]) (by decide +kernel),
    jumbled_docs rfl rfl⟩

end ReqIF
