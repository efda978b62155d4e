import Verif.Spec.Schema
import Verif.Proofs.ParseInv
import Verif.Proofs.Attrs
import Verif.Proofs.Path
/-!
# C58-C60: flags, the commands' effects, skipped comments
-/
namespace ReqIF
open Spec

set_option linter.unusedSimpArgs false

/-! ## C58 -/

theorem parseDefinitionBody_multi {x : Node} {t : AttrType} {dt : Option Str} {dv : DefaultPart} {m : Option Bool}
    (h : parseDefinitionBody x = .ok (t, dt, dv, m)) :
    (x.tag = .name t.specTypeTag) ∧
    m = if t = .enumeration then multiFlag (x.attr? c!"MULTI-VALUED") else none := by
  have hm : parseMultiValued x = multiFlag (x.attr? c!"MULTI-VALUED") := by
    unfold parseMultiValued multiFlag
    cases x.attr? c!"MULTI-VALUED" with
    | none => rfl
    | some s =>
      cases s with
      | nil => rfl
      | cons c s => simp [Bool.beq_eq_decide_eq]
  unfold parseDefinitionBody at h
  repeat' (split at h)
  all_goals first
    | (obtain ⟨a, _, h⟩ := py_bind_inv h
       obtain ⟨c, _, h⟩ := py_bind_inv h
       cases h
       refine ⟨by assumption, ?_⟩
       first
         | exact hm
         | rfl)
    | cases h

/-- **C58**, reading: the flags of an attribute definition. -/
theorem C58_definition_flags (x : Node) (d : SpecAttributeDefinition) (h : parseAttributeDefinition x = .ok d) :
    d.editable = flag (x.attr? c!"IS-EDITABLE") ∧
    d.multiValued =
      if x.tag = .name c!"ATTRIBUTE-DEFINITION-ENUMERATION" then multiFlag (x.attr? c!"MULTI-VALUED") else none := by
  unfold parseAttributeDefinition at h
  obtain ⟨i, _, h⟩ := py_bind_inv h
  obtain ⟨⟨t, dt, ⟨r, v⟩, m⟩, hb, h⟩ := py_bind_inv h
  obtain ⟨ht, hm⟩ := parseDefinitionBody_multi hb
  cases h
  refine ⟨?_, ?_⟩
  · dsimp only
    unfold editableOf flag
    cases x.attr? c!"IS-EDITABLE" with
    | none => rfl
    | some s => simp [Bool.beq_eq_decide_eq]
  · dsimp only
    rw [hm, ht]
    cases t <;> rfl

/-- **C58**, reading: the flags of a hierarchy node. -/
theorem C58_hierarchy_flags (level : Nat) (x : Node) (h : Hierarchy) (hp : parseHierarchy level x = .ok h) :
    h.info.editable = flag (x.attr? c!"IS-EDITABLE") ∧
    h.info.isTableInternal = flag (x.attr? c!"IS-TABLE-INTERNAL") := by
  have hb : ∀ k, boolAttr x k = flag (x.attr? k) := by
    intro k
    unfold boolAttr flag
    cases x.attr? k with
    | none => rfl
    | some s => simp [Bool.beq_eq_decide_eq]
  cases x with
  | elem i ks =>
    rw [parseHierarchy] at hp
    dsimp only at hp
    repeat' (split at hp)
    all_goals first
      | (cases hp; exact ⟨hb _, hb _⟩)
      | cases hp
  | text s => cases hp
  | comment s => cases hp
  | pi t d => cases hp

theorem lookup_optA {n k : Str} {f : Str → Str} {o : Option Str} (h : k ≠ n) : (optA n f o).lookup k = none := by
  cases o with
  | none => rfl
  | some v =>
    have : (k == n) = false := by simpa using h
    simp [optA, List.lookup, this]

theorem lookup_truthyA {n k : Str} {f : Str → Str} {o : Option Str} (h : k ≠ n) : (truthyA n f o).lookup k = none :=
  lookup_optA h

theorem lookup_boolA_ne {n k : Str} {o : Option Bool} (h : k ≠ n) : (boolA n o).lookup k = none := by
  cases o with
  | none => rfl
  | some v =>
    have : (k == n) = false := by simpa using h
    simp [boolA, List.lookup, this]

theorem lookup_boolA {n : Str} {o : Option Bool} : (boolA n o).lookup n = o.map flagText := by
  cases o with
  | none => rfl
  | some v =>
    have : (n == n) = true := by simp
    cases v <;> simp [boolA, List.lookup, boolOut, flagText, this]

theorem lookup_one_ne {n k v : Str} (h : k ≠ n) : [(n, v)].lookup k = none := by
  have : (k == n) = false := by simpa using h
  simp [List.lookup, this]

/-- **C58**, writing: a printed attribute definition begins with a tag whose attributes
hold each flag as `true` or `false`, and not at all if it is absent. -/
theorem C58_definition_printed (a : SpecAttributeDefinition) (s : Str) (h : unparseAttributeDefinition a = .ok s) :
    ∃ attrs rest, s = spaces 12 ++ c!"<" ++ a.type.specTypeTag ++ attrsText attrs ++ c!">" ++ rest ∧
      attrs.lookup c!"IS-EDITABLE" = a.editable.map flagText ∧
      attrs.lookup c!"MULTI-VALUED" = a.multiValued.map flagText := by
  unfold unparseAttributeDefinition at h
  obtain ⟨body, _, h⟩ := py_bind_inv h
  cases h
  refine ⟨definitionAttrs a, c!"\n" ++ body ++ lineClose 12 a.type.specTypeTag, ?_, ?_, ?_⟩
  · rw [definitionAttrs_text]
    simp only [List.append_assoc]
    rfl
  · simp only [definitionAttrs, List.lookup_append]
    rw [lookup_optA (by decide), lookup_one_ne (by decide), lookup_boolA, lookup_truthyA (by decide),
      lookup_optA (by decide), lookup_boolA_ne (by decide)]
    simp
  · simp only [definitionAttrs, List.lookup_append]
    rw [lookup_optA (by decide), lookup_one_ne (by decide), lookup_boolA_ne (by decide), lookup_truthyA (by decide),
      lookup_optA (by decide), lookup_boolA]
    simp

/-- **C58**, writing: the same for a hierarchy node. -/
theorem C58_hierarchy_printed (h : Hierarchy) (s : Str) (hu : unparseHierarchy h = .ok s) :
    ∃ base attrs rest, s = spaces base ++ c!"<SPEC-HIERARCHY" ++ attrsText attrs ++ c!">" ++ rest ∧
      attrs.lookup c!"IS-EDITABLE" = h.info.editable.map flagText ∧
      attrs.lookup c!"IS-TABLE-INTERNAL" = h.info.isTableInternal.map flagText := by
  have key : ∀ (i : HInfo), (hierarchyAttrs i).lookup c!"IS-EDITABLE" = i.editable.map flagText ∧
      (hierarchyAttrs i).lookup c!"IS-TABLE-INTERNAL" = i.isTableInternal.map flagText := by
    intro i
    simp only [hierarchyAttrs, List.lookup_append]
    rw [lookup_one_ne (by decide), lookup_boolA, lookup_boolA_ne (by decide), lookup_truthyA (by decide),
      lookup_truthyA (by decide), lookup_one_ne (by decide), lookup_boolA_ne (by decide), lookup_boolA,
      lookup_truthyA (by decide), lookup_truthyA (by decide)]
    simp
  cases h with
  | leaf i =>
    rw [unparseHierarchy] at hu
    split at hu
    · cases hu
    · rename_i base _
      cases hu
      refine ⟨base, hierarchyAttrs i,
        c!"\n" ++ unparseHierarchyObject base i ++ lineClose base c!"SPEC-HIERARCHY", ?_, key i⟩
      rw [hierarchyHead_eq]
      simp only [List.append_assoc]
      rfl
  | node i cs =>
    rw [unparseHierarchy] at hu
    split at hu
    · cases hu
    · rename_i base _
      split at hu
      · cases hu
      · rename_i body _
        dsimp only at hu
        cases hu
        rw [hierarchyHead_eq]
        refine ⟨base, hierarchyAttrs i, ?_, ?_, key i⟩
        rotate_left
        · simp only [List.append_assoc]
          rfl

/-! ## C59 -/

/-- What a command may do to the files: nothing unless it succeeds, and then exactly the
output file holds `bytes`. -/
theorem writeFile_cases (os : OsEnv) (path : Str) (bytes : ByteArray) (fs : Files) :
    (∃ e, os.openError path = some e ∧
      M.bind (writeFile os path bytes) (fun _ => M.pure CommandEnd.success) fs = (.error e, fs)) ∨
    (os.openError path = none ∧
      M.bind (writeFile os path bytes) (fun _ => M.pure CommandEnd.success) fs =
        (.ok .success, update fs path bytes)) := by
  cases h : os.openError path with
  | some e => left; exact ⟨e, rfl, by simp [M.bind, writeFile, h]⟩
  | none => right; exact ⟨rfl, by simp [M.bind, writeFile, h, M.pure]; rfl⟩

theorem passthroughBytes_ok {input out : ByteArray} :
    passthroughBytes (.ok input) = .ok out ↔ PassthroughOf input out := by
  unfold passthroughBytes PassthroughOf parseFile bundleBytes
  simp only [M.bind, M.lift]
  cases decodeUtf8 input with
  | error e => simp
  | ok text =>
    dsimp only
    cases hp : parseString (normEol text) with
    | error e =>
      unfold parseString at hp
      rw [hp]
      simp [parseString, hp]
    | ok b =>
      unfold parseString at hp
      rw [hp]
      dsimp only
      cases hu : unparse b with
      | error e => simp [parseString, hp, hu]
      | ok s => simp [parseString, hp, hu, eq_comm]

/-- **C59**, passthrough.  A run ends in one of two ways: it succeeds, and then exactly the
output file has changed and holds the complete output; or it stops, and then no
file has changed. -/
theorem C59_passthrough (os : OsEnv) (input output : Str) (fs : Files) :
    (∃ src bytes, (fs input) = some src ∧
      (if endsWith input c!".reqifz" = true then passthroughZBytes os (.ok src) = .ok bytes
       else PassthroughOf src bytes) ∧
      passthroughCommand os input output fs = (.ok .success, update fs output bytes)) ∨
    ((passthroughCommand os input output fs).1 ≠ .ok .success ∧ (passthroughCommand os input output fs).2 = fs) := by
  unfold passthroughCommand
  cases hi : fs input with
  | none => right; simp
  | some src =>
    simp only [Option.isNone_some, Bool.false_eq_true, if_false]
    by_cases ho : outputDirOk os output = true
    · simp only [ho, Bool.not_true, Bool.false_eq_true, if_false]
      have hr : readFile fs input = .ok src := by simp [readFile, hi]
      rw [hr]
      by_cases hz : endsWith input c!".reqifz" = true
      · simp only [hz, if_true]
        cases hb : passthroughZBytes os (.ok src) with
        | error e => right; simp
        | ok bytes =>
          dsimp only
          rcases writeFile_cases os output bytes fs with ⟨e, _, hw⟩ | ⟨_, hw⟩
          · right; rw [hw]; simp
          · left; exact ⟨src, bytes, rfl, hb, hw⟩
      · simp only [hz, Bool.false_eq_true, if_false]
        cases hb : passthroughBytes (.ok src) with
        | error e => right; simp
        | ok bytes =>
          dsimp only
          rcases writeFile_cases os output bytes fs with ⟨e, _, hw⟩ | ⟨_, hw⟩
          · right; rw [hw]; simp
          · left; exact ⟨src, bytes, rfl, passthroughBytes_ok.mp hb, hw⟩
    · right; simp [ho]

/-- **C59**, passthrough: exit code 1 exactly without input file or output directory. -/
theorem C59_passthrough_exit (os : OsEnv) (input output : Str) (fs : Files) :
    (passthroughCommand os input output fs).1 = .ok .exit1 ↔
      fs input = none ∨ ∃ d, DirectoryPart output d ∧ d ≠ [] ∧ os.isDir d = false := by
  have hd : outputDirOk os output = true ↔ ¬ (∃ d, DirectoryPart output d ∧ d ≠ [] ∧ os.isDir d = false) := by
    rw [← outputDirOk_false, Bool.not_eq_false]
  unfold passthroughCommand
  cases hi : fs input with
  | none => simp
  | some src =>
    simp only [Option.isNone_some, Bool.false_eq_true, if_false]
    by_cases ho : outputDirOk os output = true
    · simp only [ho, Bool.not_true, Bool.false_eq_true, if_false]
      have : ∀ r : Py ByteArray, (match r with
          | .error e => ((.error e : Py CommandEnd), fs)
          | .ok bytes => M.bind (writeFile os output bytes) (fun _ => M.pure CommandEnd.success) fs).1 ≠ .ok .exit1 := by
        intro r
        cases r with
        | error e => simp
        | ok bytes =>
          dsimp only
          rcases writeFile_cases os output bytes fs with ⟨e, _, hw⟩ | ⟨_, hw⟩ <;> rw [hw] <;> simp
      constructor
      · intro h; exact absurd h (this _)
      · rintro (h | h)
        · cases h
        · exact absurd h (hd.mp ho)
    · have hn := ho
      rw [hd, Classical.not_not] at hn
      simp only [Bool.not_eq_true] at ho
      simp only [ho, Bool.not_false, if_true, true_iff]
      exact Or.inr hn

/-- **C59**, anonymize: the same. -/
theorem C59_anonymize (os : OsEnv) (hash : Str → Nat) (print : Doc → Str) (input output : Str) (fs : Files) :
    (∃ src text, fs input = some src ∧ anonymize hash print (.ok src) = .ok text ∧
      anonymizeCommand os hash print input output fs = (.ok .success, update fs output text.utf8Encode)) ∨
    ((anonymizeCommand os hash print input output fs).1 ≠ .ok .success ∧
      (anonymizeCommand os hash print input output fs).2 = fs) := by
  unfold anonymizeCommand
  cases hi : fs input with
  | none => right; simp
  | some src =>
    simp only [Option.isNone_some, Bool.false_eq_true, if_false]
    have hr : readFile fs input = .ok src := by simp [readFile, hi]
    rw [hr]
    cases ha : anonymize hash print (.ok src) with
    | error e => right; simp
    | ok text =>
      dsimp only
      by_cases ho : outputDirOk os output = true
      · simp only [ho, Bool.not_true, Bool.false_eq_true, if_false]
        rcases writeFile_cases os output text.utf8Encode fs with ⟨e, _, hw⟩ | ⟨_, hw⟩
        · right; rw [hw]; simp
        · left; exact ⟨src, text, rfl, ha, hw⟩
      · right; simp [ho]

/-- **C59**, anonymize: it stops with exit code 1 without input file, or, if the document
could be anonymized, without output directory. -/
theorem C59_anonymize_exit (os : OsEnv) (hash : Str → Nat) (print : Doc → Str) (input output : Str) (fs : Files) :
    (anonymizeCommand os hash print input output fs).1 = .ok .exit1 ↔
      fs input = none ∨ ((∃ src text, fs input = some src ∧ anonymize hash print (.ok src) = .ok text) ∧
        ∃ d, DirectoryPart output d ∧ d ≠ [] ∧ os.isDir d = false) := by
  have hd : outputDirOk os output = true ↔ ¬ (∃ d, DirectoryPart output d ∧ d ≠ [] ∧ os.isDir d = false) := by
    rw [← outputDirOk_false, Bool.not_eq_false]
  unfold anonymizeCommand
  cases hi : fs input with
  | none => simp
  | some src =>
    simp only [Option.isNone_some, Bool.false_eq_true, if_false]
    have hr : readFile fs input = .ok src := by simp [readFile, hi]
    rw [hr]
    cases ha : anonymize hash print (.ok src) with
    | error e => simp [ha]
    | ok text =>
      dsimp only
      by_cases ho : outputDirOk os output = true
      · simp only [ho, Bool.not_true, Bool.false_eq_true, if_false]
        constructor
        · intro h
          rcases writeFile_cases os output text.utf8Encode fs with ⟨e, _, hw⟩ | ⟨_, hw⟩ <;> rw [hw] at h <;> simp at h
        · rintro (h | ⟨_, h⟩)
          · cases h
          · exact absurd h (hd.mp ho)
      · have hn := ho
        rw [hd, Classical.not_not] at hn
        simp only [Bool.not_eq_true] at ho
        simp only [ho, Bool.not_false, if_true, true_iff]
        exact Or.inr ⟨⟨src, text, rfl, ha⟩, hn⟩

/-! ## C60 -/

theorem filterMapPy_filter {α β : Type} (f : α → Py (Option β)) (p : α → Bool) (l : List α)
    (h : ∀ x ∈ l, p x = false → f x = .ok none) : filterMapPy f (l.filter p) = filterMapPy f l := by
  induction l with
  | nil => rfl
  | cons x l ih =>
    have ih := ih (fun y hy => h y (by simp [hy]))
    cases hp : p x with
    | true =>
      rw [List.filter_cons_of_pos hp]
      simp only [filterMapPy, ih]
    | false =>
      rw [List.filter_cons_of_neg (by simp [hp])]
      simp only [filterMapPy, ih, h x (by simp) hp]
      cases filterMapPy f l <;> rfl

theorem parseSpecType_comment {x : Node} (h : isCommentNode x = true) : parseSpecType x = .ok none := by
  unfold isCommentNode at h
  have h : x.tag = .comment := by simpa using h
  unfold parseSpecType isCommentNode
  simp [h]

theorem parsedItems_comments {β : Type} {x y : Node} {tag : Str} {f : Node → Py (Option β)}
    (hf : ∀ c, isCommentNode c = true → f c = .ok none)
    (h : SameUpToCommentsOpt (x.find tag) (y.find tag)) :
    parsedItems x tag (filterMapPy f) = parsedItems y tag (filterMapPy f) := by
  unfold parsedItems
  cases hx : x.find tag with
  | none =>
    cases hy : y.find tag with
    | none => rfl
    | some b => rw [hx, hy] at h; exact h.elim
  | some a =>
    cases hy : y.find tag with
    | none => rw [hx, hy] at h; exact h.elim
    | some b =>
      rw [hx, hy] at h
      obtain ⟨i, ks, ks', _, _, hc⟩ := h
      dsimp only
      have key : ∀ l : List Node, filterMapPy f (l.filter (fun c => !isCommentNode c)) = filterMapPy f l := by
        intro l
        apply filterMapPy_filter
        intro c _ hcn
        exact hf c (by simpa using hcn)
      rw [← key a.children, hc, key]

/-- The result of `parseContent` in terms of the containers. -/
theorem parseContent_eq (x y : Node)
    (h1 : parsedItems x c!"DATATYPES" (mapPy parseDataType) = parsedItems y c!"DATATYPES" (mapPy parseDataType))
    (h2 : parsedItems x c!"SPEC-TYPES" (filterMapPy parseSpecType) =
      parsedItems y c!"SPEC-TYPES" (filterMapPy parseSpecType))
    (h3 : parsedItems x c!"SPECIFICATIONS" (mapPy parseSpecification) =
      parsedItems y c!"SPECIFICATIONS" (mapPy parseSpecification))
    (h4 : parsedItems x c!"SPEC-RELATIONS" (mapPy relationItem) =
      parsedItems y c!"SPEC-RELATIONS" (mapPy relationItem))
    (h5 : parsedItems x c!"SPEC-OBJECTS" (filterMapPy objectItem) =
      parsedItems y c!"SPEC-OBJECTS" (filterMapPy objectItem))
    (h6 : parsedItems x c!"SPEC-RELATION-GROUPS" (mapPy parseRelationGroup) =
      parsedItems y c!"SPEC-RELATION-GROUPS" (mapPy parseRelationGroup)) :
    parseContent (none : Option (Callback Unit)) x () = parseContent (none : Option (Callback Unit)) y () := by
  have e1 : containerResult x c!"DATATYPES" dataTypeStep ([], []) =
      containerResult y c!"DATATYPES" dataTypeStep ([], []) := by
    rw [containerResult_eq dataTypes_fold, containerResult_eq dataTypes_fold, h1]
  have e2 : containerResult x c!"SPEC-TYPES" specTypeStep ([], []) =
      containerResult y c!"SPEC-TYPES" specTypeStep ([], []) := by
    rw [containerResult_eq specTypes_fold, containerResult_eq specTypes_fold, h2]
  have f3 : ∀ xs, foldPy specificationStep [] xs = pyMap id (mapPy parseSpecification xs) :=
    fun xs => by rw [specifications_fold]; cases mapPy parseSpecification xs <;> rfl
  have e3 : containerResult x c!"SPECIFICATIONS" specificationStep [] =
      containerResult y c!"SPECIFICATIONS" specificationStep [] := by
    rw [containerResult_eq f3, containerResult_eq f3, h3]
  have e4 : containerResult x c!"SPEC-RELATIONS" relationStep ⟨[], [], []⟩ =
      containerResult y c!"SPEC-RELATIONS" relationStep ⟨[], [], []⟩ := by
    rw [containerResult_eq (fun xs => relations_fold xs _), containerResult_eq (fun xs => relations_fold xs _), h4]
  have e5 : containerResult x c!"SPEC-OBJECTS" specObjectStep ([], []) =
      containerResult y c!"SPEC-OBJECTS" specObjectStep ([], []) := by
    rw [containerResult_eq specObjects_fold, containerResult_eq specObjects_fold, h5]
  have f6 : ∀ xs, foldPy relationGroupStep [] xs = pyMap id (mapPy parseRelationGroup xs) :=
    fun xs => by rw [groups_fold]; cases mapPy parseRelationGroup xs <;> rfl
  have e6 : containerResult x c!"SPEC-RELATION-GROUPS" relationGroupStep [] =
      containerResult y c!"SPEC-RELATION-GROUPS" relationGroupStep [] := by
    rw [containerResult_eq f6, containerResult_eq f6, h6]
  simp only [parseContent, M.bind, parseContainer_none, e1, e2, e3, e4, e5, e6]

/-- **C60**, spec types and spec objects: two content elements that differ only in the comments
among the children of SPEC-TYPES and of SPEC-OBJECTS are parsed to the same content, lookup
and errors (or fail alike). -/
theorem C60_containers (x y : Node)
    (ht : SameUpToCommentsOpt (x.find c!"SPEC-TYPES") (y.find c!"SPEC-TYPES"))
    (ho : SameUpToCommentsOpt (x.find c!"SPEC-OBJECTS") (y.find c!"SPEC-OBJECTS"))
    (hr : ∀ tag, tag ≠ c!"SPEC-TYPES" → tag ≠ c!"SPEC-OBJECTS" → x.find tag = y.find tag) :
    (parseContent (none : Option (Callback Unit)) x ()).1 = (parseContent (none : Option (Callback Unit)) y ()).1 := by
  have other : ∀ {β : Type} (tag : Str) (f : List Node → Py β), tag ≠ c!"SPEC-TYPES" → tag ≠ c!"SPEC-OBJECTS" →
      parsedItems x tag f = parsedItems y tag f := by
    intro β tag f h1 h2
    unfold parsedItems
    rw [hr tag h1 h2]
  rw [parseContent_eq x y (other _ _ (by decide) (by decide))
    (parsedItems_comments (fun _ => parseSpecType_comment) ht)
    (other _ _ (by decide) (by decide)) (other _ _ (by decide) (by decide))
    (parsedItems_comments (fun c hc => by unfold objectItem; rw [if_pos hc]) ho)
    (other _ _ (by decide) (by decide))]

/-- **C60**, attribute values. -/
theorem C60_values (x y : Option Node) (h : SameUpToCommentsOpt x y) :
    parseAttributeValues x = parseAttributeValues y := by
  cases x with
  | none =>
    cases y with
    | none => rfl
    | some b => exact h.elim
  | some a =>
    cases y with
    | none => exact h.elim
    | some b =>
      obtain ⟨_, _, _, _, _, hc⟩ := h
      simp only [parseAttributeValues, hc]

/-- Two elements with the same tag and attributes that differ, as far as the parser looks,
only in the comments inside their VALUES child. -/
def SameButValues (x y : Node) : Prop :=
  x.tag = y.tag ∧ (∀ k, x.attr? k = y.attr? k) ∧ SameUpToCommentsOpt (x.find c!"VALUES") (y.find c!"VALUES") ∧
  x.find c!"TYPE" = y.find c!"TYPE" ∧ findLast x c!"CHILDREN" = findLast y c!"CHILDREN"

/-- **C60**, attribute values of a spec object: comments in its VALUES do not matter (the
object only remembers another source element). -/
theorem C60_spec_object (x y : Node) (h : SameButValues x y) :
    pyMap (fun o => { o with xmlNode := none }) (parseSpecObject x) =
      pyMap (fun o => { o with xmlNode := none }) (parseSpecObject y) := by
  obtain ⟨h1, h2, h3, h4, _⟩ := h
  unfold parseSpecObject tagContains attrReqNI attrReq findReq
  rw [h1, h2, h4, C60_values _ _ h3, h2, h2, h2]
  match y.tag with
  | .comment => rfl
  | .pi => rfl
  | .name t =>
    simp only [py_bind_ok]
    cases pyAssert (containsStr c!"SPEC-OBJECT" t) with
    | error e => rfl
    | ok _ =>
      simp only [py_bind_ok]
      cases orNotImpl (orKey (y.attr? c!"IDENTIFIER")) with
      | error e => rfl
      | ok i =>
        simp only [py_bind_ok]
        cases orAttr (y.find c!"TYPE") with
        | error e => rfl
        | ok t =>
          simp only [py_bind_ok]
          cases orAttr (t.find c!"SPEC-OBJECT-TYPE-REF") with
          | error e => rfl
          | ok r =>
            simp only [py_bind_ok]
            cases parseAttributeValues (y.find c!"VALUES") with
            | error e => rfl
            | ok v => rfl

/-- **C60**, attribute values of a specification. -/
theorem C60_specification (x y : Node) (h : SameButValues x y) :
    pyMap (fun o => { o with xmlNode := none }) (parseSpecification x) =
      pyMap (fun o => { o with xmlNode := none }) (parseSpecification y) := by
  obtain ⟨h1, h2, h3, h4, h5⟩ := h
  unfold parseSpecification tagContains attrReqNI attrReq optRef
  rw [h1, h2, h4, C60_values _ _ h3, h2, h2, h2, h5]
  match y.tag with
  | .comment => rfl
  | .pi => rfl
  | .name t =>
    simp only [py_bind_ok]
    cases pyAssert (containsStr c!"SPECIFICATION" t) with
    | error e => rfl
    | ok _ =>
      simp only [py_bind_ok]
      cases orNotImpl (orKey (y.attr? c!"IDENTIFIER")) with
      | error e => rfl
      | ok i =>
        simp only [py_bind_ok]
        cases findLast y c!"CHILDREN" with
        | none =>
          simp only [py_bind_ok]
          cases parseAttributeValues (y.find c!"VALUES") with
          | error e => rfl
          | ok v => rfl
        | some c =>
          dsimp only
          cases mapPy (parseHierarchy 1) c.children with
          | error e => rfl
          | ok hs =>
            simp only [py_bind_ok, py_pure]
            cases parseAttributeValues (y.find c!"VALUES") with
            | error e => rfl
            | ok v => rfl

/-! ## Concrete cases -/

/-- An element without namespace. -/
def plainElem (name : Str) (attrs : List (Str × Str)) (kids : List Node) : Node :=
  .elem ⟨none, none, name, [], [], attrs.map (fun a => ⟨none, none, a.1, a.2⟩)⟩ kids

def exEnumDef (multi : Str) : Node :=
  plainElem c!"ATTRIBUTE-DEFINITION-ENUMERATION"
    [(c!"IDENTIFIER", c!"d"), (c!"IS-EDITABLE", c!"True"), (c!"MULTI-VALUED", multi)]
    [plainElem c!"TYPE" [] [plainElem c!"DATATYPE-DEFINITION-ENUMERATION-REF" [] [.text c!"t"]]]

example : ∃ d s, parseAttributeDefinition (exEnumDef c!"true") = .ok d ∧ d.editable = some false ∧
    d.multiValued = some true ∧ unparseAttributeDefinition d = .ok s := ⟨_, _, rfl, rfl, rfl, rfl⟩

example : ∃ d, parseAttributeDefinition (exEnumDef []) = .ok d ∧ d.multiValued = none := ⟨_, rfl, rfl⟩

def exHierarchyNode : Node :=
  plainElem c!"SPEC-HIERARCHY" [(c!"IDENTIFIER", c!"h"), (c!"IS-TABLE-INTERNAL", c!"true")]
    [plainElem c!"OBJECT" [] [plainElem c!"SPEC-OBJECT-REF" [] [.text c!"o"]]]

example : ∃ h s, parseHierarchy 1 exHierarchyNode = .ok h ∧ h.info.editable = none ∧
    h.info.isTableInternal = some true ∧ unparseHierarchy h = .ok s := ⟨_, _, rfl, rfl, rfl, rfl⟩

/-- A machine where `a` is a file and no directory exists. -/
def exOs : OsEnv := ⟨fun _ => false, fun _ => none, fun _ => .error .io, fun _ => .empty⟩

example : ∃ fs : Files, (passthroughCommand exOs c!"a" c!"b/c" fs).1 = .ok .exit1 ∧
    (passthroughCommand exOs c!"x" c!"b" fs).1 = .ok .exit1 :=
  ⟨fun p => if p = c!"a" then some .empty else none,
    (C59_passthrough_exit _ _ _ _).mpr (Or.inr ⟨c!"b", .below (d := []) (slashes := c!"/") (name := c!"c") (by decide) (by decide) (by decide) (by decide), by decide, rfl⟩),
    (C59_passthrough_exit _ _ _ _).mpr (Or.inl rfl)⟩

/-- A successful run, on a file holding any text that can be parsed and written. -/
theorem passthrough_succeeds {text out : Str} {b : Bundle} (hp : parseString (normEol text) = .ok b)
    (hu : unparse b = .ok out) (fs : Files) (hf : fs c!"a" = some text.utf8Encode) :
    passthroughCommand exOs c!"a" c!"b" fs = (.ok .success, update fs c!"b" out.utf8Encode) := by
  have hb : passthroughBytes (.ok text.utf8Encode) = .ok out.utf8Encode :=
    passthroughBytes_ok.mpr ⟨text, b, out, by simp [decodeUtf8, List.utf8Decode?_utf8Encode], hp, hu, rfl⟩
  have hr : readFile fs c!"a" = .ok text.utf8Encode := by simp [readFile, hf]
  have hz : endsWith c!"a" c!".reqifz" = false := by decide
  have ho : outputDirOk exOs c!"b" = true := by decide
  unfold passthroughCommand
  simp only [hf, hr, hz, ho, hb, Option.isNone_some, Bool.not_true, Bool.false_eq_true, if_false]
  rfl

set_option maxRecDepth 20000 in
example : ∃ b out, parseString (normEol c!"<REQ-IF xmlns=\"u\"><TOOL-EXTENSIONS/></REQ-IF>") = .ok b ∧
    unparse b = .ok out := by
  have h : (match parseString (normEol c!"<REQ-IF xmlns=\"u\"><TOOL-EXTENSIONS/></REQ-IF>") with
      | .ok b => (match unparse b with | .ok _ => true | .error _ => false)
      | .error _ => false) = true := by decide +kernel
  cases hb : parseString (normEol c!"<REQ-IF xmlns=\"u\"><TOOL-EXTENSIONS/></REQ-IF>") with
  | error e => rw [hb] at h; cases h
  | ok b =>
    rw [hb] at h
    dsimp only at h
    cases hu : unparse b with
    | error e => rw [hu] at h; cases h
    | ok out => exact ⟨b, out, rfl, hu⟩

def exObjectNode (kids : List Node) : Node :=
  plainElem c!"SPEC-OBJECT" [(c!"IDENTIFIER", c!"o")]
    [plainElem c!"TYPE" [] [plainElem c!"SPEC-OBJECT-TYPE-REF" [] [.text c!"t"]],
     plainElem c!"VALUES" [] kids]

def exValueNode : Node :=
  plainElem c!"ATTRIBUTE-VALUE-STRING" [(c!"THE-VALUE", c!"v")]
    [plainElem c!"DEFINITION" [] [plainElem c!"ATTRIBUTE-DEFINITION-STRING-REF" [] [.text c!"d"]]]

def exContentNode (objs : List Node) : Node :=
  plainElem c!"REQ-IF-CONTENT" [] [plainElem c!"SPEC-OBJECTS" [] objs]

/-- Comments in two places, and one object parsed. -/
example : ∃ c l, (parseContent (none : Option (Callback Unit)) (exContentNode [exObjectNode [exValueNode]]) ()).1 =
      .ok (c, l, []) ∧ (c.specObjects.map List.length = some 1) ∧
    (parseContent (none : Option (Callback Unit))
      (exContentNode [.comment c!"a", exObjectNode [exValueNode], .comment c!"b"]) ()).1 = .ok (c, l, []) := by
  refine ⟨_, _, rfl, rfl, ?_⟩
  rw [C60_containers _ (exContentNode [exObjectNode [exValueNode]])]
  · rfl
  · exact True.intro
  · exact ⟨_, _, _, rfl, rfl, rfl⟩
  · intro tag h1 h2
    have : ∀ ks, (exContentNode ks).find tag = none := by
      intro ks
      unfold exContentNode plainElem Node.find
      rw [List.find?_eq_none]
      intro x hx
      obtain rfl := List.mem_singleton.mp hx
      simp [Node.isText, Node.tag, Info.tag, clark, Ne.symm h2]
    rw [this, this]

example : ∃ o, parseSpecObject (exObjectNode [exValueNode, .comment c!"x"]) = .ok o ∧ o.attributes.length = 1 :=
  ⟨_, rfl, rfl⟩

example : SameButValues (exObjectNode [exValueNode, .comment c!"x"]) (exObjectNode [exValueNode]) := by
  exact ⟨rfl, fun _ => rfl, ⟨_, _, _, rfl, rfl, rfl⟩, rfl, rfl⟩

end ReqIF
