import Verif.Spec.Sources
import Verif.Spec.Decorate
import Verif.Proofs.Comments
import Verif.Model.Format
/-!
# Changes of a document that do not matter

`Harmless φ`: the change `φ` of elements leaves everything the parser asks of an element as it is, or changes
the elements inside in the same way.  Then the parser gives the same bundle, but for its source elements, and
the unparser the same text.
-/
set_option linter.unusedSimpArgs false
namespace ReqIF
open Spec

theorem filter_text (ks : List Node) (h : ks.all Node.isText = true) : ks.filter (fun k => !k.isText) = [] := by
  rw [List.filter_eq_nil_iff]
  intro k hk
  rw [List.all_eq_true] at h
  simp [h k hk]

theorem find_in_children (n : Node) (t : Str) : n.find t = n.children.find? (fun k => k.tag == .name t) := by
  unfold Node.find Node.children
  induction n.kids with
  | nil => rfl
  | cons k ks ih =>
    simp only [List.find?_cons, List.filter_cons]
    cases k.isText
    · simp only [Bool.not_false, Bool.true_and, if_true, List.find?_cons]
      split
      · rfl
      · simpa using ih
    · simpa using ih

/-- The tags the parser asks for. -/
def plainTag (t : Str) : Bool := !t.contains '}' && !t.isEmpty

theorem localName_of_plain {k : Node} {t : Str} (h : k.tag = .name t) (ht : plainTag t = true) : localName k = t := by
  simp only [plainTag, Bool.and_eq_true, Bool.not_eq_true', List.isEmpty_eq_false_iff] at ht
  exact localName_of_tag h (by simpa using ht.1) ht.2

/-- What the parser asks of elements is left alone. -/
structure Harmless (φ : Part → Node → Node) : Prop where
  fixed : ∀ n, φ .fixed n = n
  word : ∀ n, (φ .word n).text? = n.text?
  others : ∀ p n, Format.isElem n = false → φ p n = n
  isElem : ∀ p n, Format.isElem (φ p n) = Format.isElem n
  tag : ∀ p n, (φ p n).tag = n.tag
  attr : ∀ p n k, isReadName k = true → (φ p n).attr? k = n.attr? k
  nsmap : ∀ p n, (φ p n).nsmap = n.nsmap
  children : ∀ p n, (φ p n).children = n.children.map (fun k => φ (p.inner (localName k)) k)
  selfClosed : ∀ p n, isSelfClosedTag (φ p n) = isSelfClosedTag n
  /-- printing it for a message fails in the same cases -/
  tried_ : ∀ p r n, pyMap (fun _ => ()) (stringifyNode r (φ p n)) = pyMap (fun _ => ()) (stringifyNode r n)
  strip : ∀ full p n, stripTags full (φ p n) = pyMap (φ p) (stripTags full n)
  cleanup_ : ∀ m p n, ReqIF.cleanup m (φ p n) = φ p (ReqIF.cleanup m n)
  tagDump : ∀ n, tagDumpOf (φ .root n) = tagDumpOf n

/-- What the parser asks of elements is left alone, apart from the order of elements where it is not read. -/
structure Tolerant (φ : Part → Node → Node) : Prop where
  fixed : ∀ n, φ .fixed n = n
  word : ∀ n, (φ .word n).text? = n.text?
  others : ∀ p n, Format.isElem n = false → φ p n = n
  isElem : ∀ p n, Format.isElem (φ p n) = Format.isElem n
  tag : ∀ p n, (φ p n).tag = n.tag
  attr : ∀ p n k, isReadName k = true → (φ p n).attr? k = n.attr? k
  nsmap : ∀ p n, (φ p n).nsmap = n.nsmap
  grouped : ∀ p n t, plainTag t = true →
    (φ p n).children.filter (fun k => k.tag == .name t) = (n.children.filter (fun k => k.tag == .name t)).map (φ (p.inner t))
  kept : ∀ p n, p.inOrder (localName n) = true → (φ p n).children = n.children.map (fun k => φ (p.inner (localName k)) k)
  len_ : ∀ p n, (φ p n).len = n.len
  selfClosed : ∀ p n, isSelfClosedTag (φ p n) = isSelfClosedTag n
  /-- printing it for a message fails in the same cases -/
  tried_ : ∀ p r n, pyMap (fun _ => ()) (stringifyNode r (φ p n)) = pyMap (fun _ => ()) (stringifyNode r n)
  strip : ∀ full p n, stripTags full (φ p n) = pyMap (φ p) (stripTags full n)
  cleanup_ : ∀ m p n, ReqIF.cleanup m (φ p n) = φ p (ReqIF.cleanup m n)
  tagDump : ∀ n, tagDumpOf (φ .root n) = tagDumpOf n

variable {φ : Part → Node → Node}

theorem Harmless.len_ (H : Harmless φ) (p : Part) (n : Node) : (φ p n).len = n.len := by
  simp only [Node.len, H.children, List.length_map]

theorem Harmless.childTags_ (H : Harmless φ) (p : Part) (n : Node) : ReqIF.childTags (φ p n) = ReqIF.childTags n := by
  simp only [ReqIF.childTags, H.children, List.map_map]
  congr 1
  funext k
  exact H.tag _ _

theorem find_of_filter (l : List Node) (q : Node → Bool) : l.find? q = (l.filter q).head? := by
  induction l with
  | nil => rfl
  | cons k l ih =>
    rw [List.find?_cons, List.filter_cons]
    cases q k
    · exact ih
    · rfl

theorem Harmless.tolerant (H : Harmless φ) : Tolerant φ where
  fixed := H.fixed
  word := H.word
  others := H.others
  isElem := H.isElem
  tag := H.tag
  attr := H.attr
  nsmap := H.nsmap
  grouped p n t ht := by
    rw [H.children, List.filter_map]
    have e : ((fun k => k.tag == Tag.name t) ∘ fun k => φ (p.inner (localName k)) k) = (fun k => k.tag == Tag.name t) := by
      funext k
      simp only [Function.comp, H.tag]
    rw [e]
    apply List.map_congr_left
    intro k hk
    have := (List.mem_filter.1 hk).2
    rw [localName_of_plain (by simpa using this) ht]
  kept p n _ := H.children p n
  len_ := H.len_
  selfClosed := H.selfClosed
  tried_ := H.tried_
  strip := H.strip
  cleanup_ := H.cleanup_
  tagDump := H.tagDump

theorem Tolerant.find_ (H : Tolerant φ) (p : Part) (n : Node) (t : Str) (ht : plainTag t = true) :
    (φ p n).find t = (n.find t).map (φ (p.inner t)) := by
  rw [find_in_children, find_in_children, find_of_filter, find_of_filter, H.grouped p n t ht, List.head?_map]

theorem contains_of_filter (n : Node) (t : Str) :
    (childTags n).contains (.name t) = !(n.children.filter (fun k => k.tag == .name t)).isEmpty := by
  unfold childTags
  induction n.children with
  | nil => rfl
  | cons k ks ih =>
    rw [List.map_cons, List.contains_cons, ih, List.filter_cons]
    by_cases h : k.tag = .name t
    · simp [h]
    · have h1 : (k.tag == Tag.name t) = false := by simpa using h
      have h2 : (Tag.name t == k.tag) = false := by simpa using fun e => h e.symm
      simp [h1, h2]

theorem Tolerant.hasTag_ (H : Tolerant φ) (p : Part) (n : Node) (t : Str) (ht : plainTag t = true) :
    (childTags (φ p n)).contains (.name t) = (childTags n).contains (.name t) := by
  rw [contains_of_filter, contains_of_filter, H.grouped p n t ht, List.isEmpty_map]

theorem Tolerant.childTags_ (H : Tolerant φ) (p : Part) (n : Node) (h : p.inOrder (localName n) = true) :
    ReqIF.childTags (φ p n) = ReqIF.childTags n := by
  simp only [ReqIF.childTags, H.kept p n h, List.map_map]
  congr 1
  funext k
  exact H.tag _ _

theorem Tolerant.findReq_ (H : Tolerant φ) (p : Part) (n : Node) (t : Str) (ht : plainTag t = true) :
    findReq (φ p n) t = pyMap (φ (p.inner t)) (findReq n t) := by
  unfold findReq
  rw [H.find_ p n t ht]
  cases n.find t <;> rfl

theorem Tolerant.attrReq_ (H : Tolerant φ) (p : Part) (n : Node) (k : Str) (hk : isReadName k = true) :
    attrReq (φ p n) k = attrReq n k := by
  unfold attrReq
  rw [H.attr _ _ _ hk]

theorem Tolerant.attrReqNI_ (H : Tolerant φ) (p : Part) (n : Node) (k : Str) (hk : isReadName k = true) :
    attrReqNI (φ p n) k = attrReqNI n k := by
  unfold attrReqNI
  rw [H.attrReq_ _ _ _ hk]

theorem Tolerant.tagContains_ (H : Tolerant φ) (p : Part) (n : Node) (s : Str) : tagContains (φ p n) s = tagContains n s := by
  unfold tagContains
  rw [H.tag]

theorem Tolerant.isComment_ (H : Tolerant φ) (p : Part) (n : Node) : isCommentNode (φ p n) = isCommentNode n := by
  unfold isCommentNode
  rw [H.tag]

theorem Tolerant.firstChild_ (H : Tolerant φ) (p : Part) (n : Node) (h : p.inOrder (localName n) = true) :
    firstChild (φ p n) = pyMap (fun k => φ (p.inner (localName k)) k) (firstChild n) := by
  unfold firstChild
  rw [H.kept p n h]
  cases n.children <;> rfl

theorem Tolerant.value_inner2 (H : Tolerant φ) (s t : Str) (k : Node) :
    (φ ((Part.value.inner s).inner t) k).text? = k.text? := by
  show (φ ((if s = c!"THE-VALUE" then Part.fixed else .flat).inner t) k).text? = _
  by_cases h : s = c!"THE-VALUE"
  · rw [if_pos h]; exact congrArg Node.text? (H.fixed k)
  · rw [if_neg h]; exact H.word k

theorem Tolerant.ref_ (H : Tolerant φ) (x : Node) (h : Part.value.inOrder (localName x) = true) {β : Type} (f : Node → Py β)
    (hf : ∀ k k' : Node, k.text? = k'.text? → f k = f k') :
    (firstChild (φ .value x) >>= fun d => firstChild d >>= f) = (firstChild x >>= fun d => firstChild d >>= f) := by
  rw [H.firstChild_ _ _ h]
  cases firstChild x with
  | error e => rfl
  | ok d =>
    show (firstChild (φ (Part.value.inner (localName d)) d) >>= f) = (firstChild d >>= f)
    have ho : (Part.value.inner (localName d)).inOrder (localName d) = true := by
      show (if localName d = c!"THE-VALUE" then Part.fixed else .flat).inOrder _ = true
      split <;> rfl
    rw [H.firstChild_ _ _ ho]
    cases firstChild d with
    | error e => rfl
    | ok k =>
      show f (φ ((Part.value.inner (localName d)).inner (localName k)) k) = f k
      exact hf _ _ (H.value_inner2 _ _ k)

theorem Tolerant.texts_ (H : Tolerant φ) (ks : List Node) :
    (ks.map (fun k => φ (Part.flat.inner (localName k)) k)).map Node.text? = ks.map Node.text? := by
  rw [List.map_map]
  congr 1
  funext k
  exact H.word k

theorem mapPy_maps {α β γ : Type} (f : β → Py γ) (g : α → β) (xs : List α) :
    mapPy f (xs.map g) = mapPy (fun x => f (g x)) xs := by
  induction xs with
  | nil => rfl
  | cons x xs ih => simp only [List.map_cons, mapPy, ih]

theorem mapPy_pyMap {α β γ : Type} (f : α → Py β) (g : β → γ) (xs : List α) :
    mapPy (fun x => pyMap g (f x)) xs = pyMap (List.map g) (mapPy f xs) := by
  induction xs with
  | nil => rfl
  | cons x xs ih =>
    simp only [mapPy, ih]
    cases f x with
    | error e => rfl
    | ok y => cases mapPy f xs <;> rfl

theorem bind_pyMap {α β γ : Type} (f : α → β) (a : Py α) (g : β → Py γ) : (pyMap f a >>= g) = (a >>= fun x => g (f x)) := by
  cases a <;> rfl

theorem pyMap_bind {α β γ : Type} (f : β → γ) (a : Py α) (g : α → Py β) :
    pyMap f (a >>= g) = (a >>= fun x => pyMap f (g x)) := by
  cases a <;> rfl

theorem pyMap_pure {α β : Type} (f : α → β) (a : α) : pyMap f (pure a) = pure (f a) := rfl

theorem pyMap_throw {α β : Type} (f : α → β) (e : PyErr) : pyMap f (.error e) = .error e := rfl

theorem pyMap_id' {α : Type} (a : Py α) : pyMap (fun x => x) a = a := by cases a <;> rfl

/-! ## Where each element stands -/

section
open Part
theorem in1 : root.inner c!"THE-HEADER" = header := rfl
theorem in2 : root.inner c!"CORE-CONTENT" = core := rfl
theorem in3 : header.inner c!"REQ-IF-HEADER" = fields := rfl
theorem in46 (s : Str) : fields.inner s = word := rfl
theorem in4 : core.inner c!"REQ-IF-CONTENT" = content := rfl
theorem in5 : content.inner c!"DATATYPES" = datatypes := rfl
theorem in6 : content.inner c!"SPEC-TYPES" = types := rfl
theorem in7 : content.inner c!"SPEC-OBJECTS" = objects := rfl
theorem in8 : content.inner c!"SPEC-RELATIONS" = relations := rfl
theorem in9 : content.inner c!"SPECIFICATIONS" = specifications := rfl
theorem in10 : content.inner c!"SPEC-RELATION-GROUPS" = groups := rfl
theorem in11 : datatype.inner c!"SPECIFIED-VALUES" = specified := rfl
theorem in12 : enumValue.inner c!"PROPERTIES" = flat := rfl
theorem in13 : type.inner c!"SPEC-ATTRIBUTES" = definitions := rfl
theorem in14 : definition.inner c!"TYPE" = flat := rfl
theorem in15 : definition.inner c!"DEFAULT-VALUE" = default := rfl
theorem in16 (s : Str) : default.inner s = value := rfl
theorem in17 (s : Str) : values.inner s = value := rfl
theorem in18 : value.inner c!"DEFINITION" = flat := rfl
theorem in19 : value.inner c!"VALUES" = flat := rfl
theorem in20 : value.inner c!"THE-VALUE" = fixed := rfl
theorem in21 : object.inner c!"VALUES" = values := rfl
theorem in22 : object.inner c!"TYPE" = flat := rfl
theorem in23 : relation.inner c!"VALUES" = values := rfl
theorem in24 : relation.inner c!"TYPE" = flat := rfl
theorem in25 : relation.inner c!"SOURCE" = flat := rfl
theorem in26 : relation.inner c!"TARGET" = flat := rfl
theorem in27 : specification.inner c!"VALUES" = values := rfl
theorem in28 : specification.inner c!"CHILDREN" = hierarchies := rfl
theorem in29 : specification.inner c!"TYPE" = flat := rfl
theorem in30 : hierarchy.inner c!"CHILDREN" = hierarchies := rfl
theorem in31 : hierarchy.inner c!"OBJECT" = flat := rfl
theorem in32 : group.inner c!"TYPE" = flat := rfl
theorem in33 : group.inner c!"SOURCE-SPECIFICATION" = flat := rfl
theorem in34 : group.inner c!"TARGET-SPECIFICATION" = flat := rfl
theorem in35 : group.inner c!"SPEC-RELATIONS" = flat := rfl
theorem in36 (s : Str) : flat.inner s = word := rfl
theorem in37 (s : Str) : datatypes.inner s = datatype := rfl
theorem in38 (s : Str) : specified.inner s = enumValue := rfl
theorem in39 (s : Str) : types.inner s = type := rfl
theorem in40 (s : Str) : definitions.inner s = definition := rfl
theorem in41 (s : Str) : objects.inner s = object := rfl
theorem in42 (s : Str) : relations.inner s = relation := rfl
theorem in43 (s : Str) : specifications.inner s = specification := rfl
theorem in44 (s : Str) : hierarchies.inner s = hierarchy := rfl
theorem in45 (s : Str) : groups.inner s = group := rfl
end

/-- Removes `φ` from what the parser asks of an element. -/
syntax "unsp " ident : tactic
macro_rules
  | `(tactic| unsp $H) => `(tactic| simp (maxSteps := 2000000) (disch := decide) only [($(H).tag), ($(H).attr), ($(H).attrReq_), ($(H).attrReqNI_),
      ($(H).tagContains_), ($(H).isComment_), ($(H).hasTag_), ($(H).selfClosed), ($(H).find_), ($(H).findReq_),
      ($(H).fixed), ($(H).word), ($(H).nsmap), bind_pyMap, pyMap_bind, pyMap_pure, pyMap_throw, ($(H).value_inner2),
      in1, in2, in3, in4, in5, in6, in7, in8, in9, in10, in11, in12, in13, in14, in15, in16, in17, in18, in19, in20,
      in21, in22, in23, in24, in25, in26, in27, in28, in29, in30, in31, in32, in33, in34, in35, in36, in37, in38, in39, in40,
      in41, in42, in43, in44, in45, in46])

/-! ## The items -/

theorem Tolerant.enumValue_ (H : Tolerant φ) (x : Node) : parseEnumValue (φ .enumValue x) = parseEnumValue x := by
  unfold parseEnumValue
  unsp H

theorem Tolerant.dataType_ (H : Tolerant φ) (x : Node) : parseDataType (φ .datatype x) = parseDataType x := by
  unfold parseDataType
  unsp H
  cases x.find c!"SPECIFIED-VALUES" with
  | none => rfl
  | some sv =>
    have e : mapPy parseEnumValue (φ .specified sv).children = mapPy parseEnumValue sv.children := by
      rw [H.kept .specified sv rfl, mapPy_maps]
      simp only [in38, H.enumValue_]
    simp only [Option.map_some, e]

theorem map_ite {α β : Type} (f : α → β) (c : Prop) [Decidable c] (a b : Py α) :
    pyMap f (if c then a else b) = if c then pyMap f a else pyMap f b := by
  split <;> rfl

theorem Tolerant.xhtmlValue_ (H : Tolerant φ) (x : Node) :
    parseXhtmlAttributeValue (φ .value x) = pyMap (valueBy φ) (parseXhtmlAttributeValue x) := by
  unfold parseXhtmlAttributeValue
  unsp H
  simp only [map_ite]
  unsp H
  rfl

theorem Tolerant.simpleValue_ (H : Tolerant φ) (x : Node) (t : AttrType) (r : Str) (hr : plainTag r = true) :
    parseSimpleValue (φ .value x) t r = pyMap (valueBy φ) (parseSimpleValue x t r) := by
  unfold parseSimpleValue
  rw [H.attrReq_ _ _ _ (by decide), H.findReq_ _ _ c!"DEFINITION" (by decide), in18]
  simp only [bind_pyMap, pyMap_bind, H.findReq_ _ _ _ hr, in36, H.fixed, H.word, pyMap_pure]
  rfl

theorem Tolerant.value_ (H : Tolerant φ) (x : Node) :
    parseAttributeValue (φ .value x) = pyMap (valueBy φ) (parseAttributeValue x) := by
  unfold parseAttributeValue
  rw [H.tag]
  by_cases hs : x.tag = .name c!"ATTRIBUTE-VALUE-STRING"
  · have ho : Part.value.inOrder (localName x) = true := by rw [localName_of_plain hs (by decide)]; rfl
    rw [if_pos hs, if_pos hs]
    simp (disch := first | decide | (intro k k' hk; simp only [hk])) only [H.attrReq_, H.ref_ x ho, pyMap_bind]
    rfl
  rw [if_neg hs, if_neg hs]
  simp (disch := decide) only [H.simpleValue_, H.xhtmlValue_, map_ite]
  unsp H
  cases x.find c!"VALUES" with
  | none => rfl
  | some vs =>
    simp only [Option.map_some, H.kept .flat vs rfl, H.texts_]
    rfl

theorem Tolerant.values_ (H : Tolerant φ) (o : Option Node) :
    parseAttributeValues (o.map (φ .values)) = pyMap (Option.map (List.map (valueBy φ))) (parseAttributeValues o) := by
  cases o with
  | none => rfl
  | some x =>
    simp only [Option.map_some, parseAttributeValues, H.kept .values x rfl, List.filter_map, mapPy_maps]
    have e : ((fun c => !isCommentNode c) ∘ fun k => φ .value k) = (fun c => !isCommentNode c) := by
      funext k
      simp only [Function.comp, H.isComment_]
    simp only [in17, e, H.value_, mapPy_pyMap, bind_pyMap, pyMap_bind]
    rfl

theorem Tolerant.datatypeRef_ (H : Tolerant φ) (x : Node) (t : Str) (ht : plainTag t = true) :
    parseDatatypeRef (φ .definition x) t = parseDatatypeRef x t := by
  unfold parseDatatypeRef
  rw [H.findReq_ _ _ c!"TYPE" (by decide), in14]
  simp only [bind_pyMap, H.findReq_ _ _ _ ht, in36, H.fixed, H.word]

theorem Tolerant.default_ (H : Tolerant φ) (x : Node) :
    (φ .definition x).find c!"DEFAULT-VALUE" = (x.find c!"DEFAULT-VALUE").map (φ .default) := by
  rw [H.find_ _ _ _ (by decide), in15]

theorem Tolerant.defaultString_ (H : Tolerant φ) (x : Node) : parseDefaultString (φ .definition x) = parseDefaultString x := by
  unfold parseDefaultString
  rw [H.default_]
  cases x.find c!"DEFAULT-VALUE" with
  | none => rfl
  | some d =>
    simp only [Option.map_some]
    unsp H
    cases d.find c!"ATTRIBUTE-VALUE-STRING" <;> simp (disch := decide) only [Option.map_some, Option.map_none, H.attrReq_]

theorem Tolerant.defaultSimple_ (H : Tolerant φ) (x : Node) (t : Str) (ht : plainTag t = true) :
    parseDefaultSimple (φ .definition x) t = parseDefaultSimple x t := by
  unfold parseDefaultSimple
  rw [H.default_]
  cases x.find c!"DEFAULT-VALUE" with
  | none => rfl
  | some d =>
    simp only [Option.map_some, H.find_ _ _ _ ht]
    cases d.find t <;> simp (disch := decide) only [Option.map_some, Option.map_none, H.attrReq_]

theorem Tolerant.defaultBoolean_ (H : Tolerant φ) (x : Node) : parseDefaultBoolean (φ .definition x) = parseDefaultBoolean x := by
  unfold parseDefaultBoolean
  rw [H.default_]
  cases x.find c!"DEFAULT-VALUE" with
  | none => rfl
  | some d =>
    simp only [Option.map_some]
    unsp H
    cases d.find c!"ATTRIBUTE-VALUE-BOOLEAN" with
    | none => rfl
    | some v =>
      simp only [Option.map_some]
      unsp H
      cases v.find c!"DEFINITION" with
      | none => rfl
      | some df =>
        simp only [Option.map_some]
        unsp H
        cases df.find c!"ATTRIBUTE-DEFINITION-BOOLEAN-REF" <;> simp only [Option.map_some, Option.map_none, H.fixed, H.word]

theorem Tolerant.defaultXhtml_ (H : Tolerant φ) (x : Node) : parseDefaultXhtml (φ .definition x) = parseDefaultXhtml x := by
  unfold parseDefaultXhtml
  rw [H.default_]
  cases x.find c!"DEFAULT-VALUE" with
  | none => rfl
  | some d =>
    simp only [Option.map_some]
    unsp H
    cases d.find c!"ATTRIBUTE-VALUE-XHTML" with
    | none => rfl
    | some v =>
      simp only [Option.map_some]
      unsp H
      cases v.find c!"DEFINITION" with
      | none => rfl
      | some df =>
        simp only [Option.map_some]
        unsp H
        cases df.find c!"ATTRIBUTE-DEFINITION-XHTML-REF" <;> simp only [Option.map_some, Option.map_none, H.fixed, H.word]

theorem Tolerant.defaultEnumeration_ (H : Tolerant φ) (x : Node) :
    parseDefaultEnumeration (φ .definition x) = parseDefaultEnumeration x := by
  unfold parseDefaultEnumeration
  rw [H.default_]
  cases x.find c!"DEFAULT-VALUE" with
  | none => rfl
  | some d =>
    simp only [Option.map_some]
    unsp H
    cases d.find c!"ATTRIBUTE-VALUE-ENUMERATION" with
    | none => rfl
    | some v =>
      simp only [Option.map_some]
      unsp H
      cases v.find c!"DEFINITION" with
      | none =>
        cases v.find c!"VALUES" with
        | none => rfl
        | some vs =>
          simp only [Option.map_some, Option.map_none]
          unsp H
          cases vs.find c!"ENUM-VALUE-REF" <;> simp only [Option.map_some, Option.map_none, H.fixed, H.word]
      | some df =>
        simp only [Option.map_some]
        unsp H
        cases v.find c!"VALUES" with
        | none => rfl
        | some vs =>
          simp only [Option.map_some, Option.map_none]
          unsp H
          cases vs.find c!"ENUM-VALUE-REF" <;> simp only [Option.map_some, Option.map_none, H.fixed, H.word]

theorem Tolerant.body_ (H : Tolerant φ) (x : Node) : parseDefinitionBody (φ .definition x) = parseDefinitionBody x := by
  unfold parseDefinitionBody parseMultiValued
  simp (disch := decide) only [H.datatypeRef_, H.defaultString_, H.defaultSimple_, H.defaultBoolean_,
    H.defaultXhtml_, H.defaultEnumeration_, H.tag, H.attr]

theorem Tolerant.definition_ (H : Tolerant φ) (x : Node) :
    parseAttributeDefinition (φ .definition x) = pyMap (definitionBy φ) (parseAttributeDefinition x) := by
  unfold parseAttributeDefinition
  simp (disch := decide) only [H.body_, H.attrReq_, H.attr, pyMap_bind]
  rfl

theorem Tolerant.definitions_ (H : Tolerant φ) (x : Node) : parseAttributeDefinitions (φ .type x) =
    pyMap (Option.map (List.map (definitionBy φ))) (parseAttributeDefinitions x) := by
  unfold parseAttributeDefinitions
  rw [H.find_ _ _ _ (by decide), in13]
  cases x.find c!"SPEC-ATTRIBUTES" with
  | none => rfl
  | some sa =>
    simp only [Option.map_some, H.kept .definitions sa rfl, mapPy_maps, in40, H.definition_, mapPy_pyMap, bind_pyMap, pyMap_bind]
    rfl

theorem Tolerant.attributeMap_ (_H : Tolerant φ) (ds : List SpecAttributeDefinition) (m : Dict Str Str) :
    specAttributeMap (ds.map (definitionBy φ)) m = specAttributeMap ds m := by
  induction ds generalizing m with
  | nil => rfl
  | cons d ds ih =>
    simp only [List.map_cons, specAttributeMap]
    show (match d.longName with | none => _ | some n => specAttributeMap (ds.map (definitionBy φ)) (m.set d.identifier n)) = _
    cases d.longName with
    | none => rfl
    | some n => exact ih _

theorem Tolerant.objectType_ (H : Tolerant φ) (x : Node) : parseSpecObjectType (φ .type x) =
    pyMap (fun t => { t with attributeDefinitions := t.attributeDefinitions.map (List.map (definitionBy φ)) })
      (parseSpecObjectType x) := by
  unfold parseSpecObjectType
  simp (disch := decide) only [H.tag, H.attr, H.attrReqNI_, H.definitions_, bind_pyMap, pyMap_bind]
  rfl

theorem Tolerant.relationType_ (H : Tolerant φ) (x : Node) : parseSpecRelationType (φ .type x) =
    pyMap (fun t => { t with attributeDefinitions := t.attributeDefinitions.map (List.map (definitionBy φ)) })
      (parseSpecRelationType x) := by
  unfold parseSpecRelationType
  simp (disch := decide) only [H.tag, H.attr, H.attrReqNI_, H.definitions_, bind_pyMap, pyMap_bind, H.selfClosed]
  rfl

theorem Tolerant.groupType_ (H : Tolerant φ) (x : Node) : parseRelationGroupType (φ .type x) =
    pyMap (fun t => { t with attributeDefinitions := t.attributeDefinitions.map (List.map (definitionBy φ)) })
      (parseRelationGroupType x) := by
  unfold parseRelationGroupType
  simp (disch := decide) only [H.tag, H.attr, H.attrReqNI_, H.definitions_, bind_pyMap, pyMap_bind, H.selfClosed]
  rfl

theorem Tolerant.specificationType_ (H : Tolerant φ) (x : Node) : parseSpecificationType (φ .type x) =
    pyMap (fun t => { t with specAttributes := t.specAttributes.map (List.map (definitionBy φ)) })
      (parseSpecificationType x) := by
  unfold parseSpecificationType
  simp (disch := decide) only [H.tag, H.attr, H.attrReqNI_, H.definitions_, bind_pyMap, pyMap_bind, H.selfClosed]
  congr 1
  funext _
  congr 1
  funext _
  congr 1
  funext _
  congr 1
  funext o
  cases o with
  | none => rfl
  | some ds =>
    simp only [Option.map_some, H.attributeMap_]
    rfl

theorem Tolerant.type_ (H : Tolerant φ) (x : Node) :
    parseSpecType (φ .type x) = pyMap (Option.map (typeBy φ)) (parseSpecType x) := by
  unfold parseSpecType
  simp only [map_ite, H.tag, H.isComment_, H.objectType_, H.relationType_, H.groupType_,
    H.specificationType_, bind_pyMap, pyMap_bind]
  rfl

theorem Tolerant.object_ (H : Tolerant φ) (x : Node) : parseSpecObject (φ .object x) = pyMap (objectBy φ) (parseSpecObject x) := by
  unfold parseSpecObject
  unsp H
  simp only [H.values_, bind_pyMap]
  congr 1
  funext _
  congr 1
  funext _
  congr 1
  funext _
  congr 1
  funext _
  congr 1
  funext _
  congr 1
  funext o
  cases o <;> rfl

theorem Tolerant.relationValues_ (H : Tolerant φ) (o : Option Node) :
    parseRelationValues (o.map (φ .values)) = pyMap (Option.map (valueBy φ)) (parseRelationValues o) := by
  cases o with
  | none => rfl
  | some vs =>
    simp only [Option.map_some, parseRelationValues, H.kept .values vs rfl]
    cases vs.children with
    | nil => rfl
    | cons x xs =>
      simp only [List.map_cons, in17, H.xhtmlValue_]
      rw [H.tag]
      have ho : ∀ t, x.tag = .name t → plainTag t = true → Part.value.inOrder t = true → Part.value.inOrder (localName x) = true :=
        fun t h1 h2 h3 => by rw [localName_of_plain h1 h2]; exact h3
      by_cases h1 : x.tag = .name c!"ATTRIBUTE-VALUE-STRING"
      · rw [if_pos h1, if_pos h1]
        simp (disch := first | decide | (intro k k' hk; simp only [hk])) only [H.attrReq_, H.ref_ x (ho _ h1 (by decide) rfl), pyMap_bind]
        rfl
      · rw [if_neg h1, if_neg h1]
        by_cases h2 : x.tag = .name c!"ATTRIBUTE-VALUE-XHTML"
        · rw [if_pos h2, if_pos h2]
          simp only [bind_pyMap, pyMap_bind]
          rfl
        · rw [if_neg h2, if_neg h2]
          by_cases h3 : x.tag = .name c!"ATTRIBUTE-VALUE-INTEGER"
          · rw [if_pos h3, if_pos h3]
            simp (disch := first | decide | (intro k k' hk; simp only [hk])) only [H.attrReq_, H.ref_ x (ho _ h3 (by decide) rfl), pyMap_bind]
            rfl
          · rw [if_neg h3, if_neg h3]
            rfl

theorem Tolerant.relation_ (H : Tolerant φ) (x : Node) : parseSpecRelation (φ .relation x) =
    pyMap (fun r => match r with
      | .ok r => .ok ((relationBy φ) r)
      | .error e => .error { e with node := φ .relation e.node }) (parseSpecRelation x) := by
  unfold parseSpecRelation
  unsp H
  simp only [H.relationValues_, bind_pyMap, map_ite, pyMap_bind]
  rfl

theorem Tolerant.optRef_ (H : Tolerant φ) (p : Part) (x : Node) (a b : Str) (ha : plainTag a = true) (hb : plainTag b = true)
    (h : p.inner a = .flat) : optRef (φ p x) a b = optRef x a b := by
  unfold optRef
  rw [H.find_ _ _ _ ha, h]
  cases x.find a with
  | none => rfl
  | some t =>
    simp only [Option.map_some, H.find_ _ _ _ hb, in36]
    cases t.find b <;> simp only [Option.map_some, Option.map_none, H.fixed, H.word]

theorem Tolerant.group_ (H : Tolerant φ) (x : Node) : parseRelationGroup (φ .group x) = parseRelationGroup x := by
  unfold parseRelationGroup
  simp (disch := decide) only [H.optRef_]
  unsp H
  cases x.find c!"SPEC-RELATIONS" with
  | none => rfl
  | some s => simp only [Option.map_some, H.kept .flat s rfl, H.texts_]

theorem Tolerant.optText_ (H : Tolerant φ) (x : Node) (t : Str) (ht : plainTag t = true) :
    optText (φ .fields x) t = optText x t := by
  unfold optText
  rw [H.find_ _ _ _ ht, in46]
  cases x.find t <;> simp only [Option.map_some, Option.map_none, H.fixed, H.word]

theorem Tolerant.header_ (H : Tolerant φ) (x : Node) : parseHeader (φ .header x) = parseHeader x := by
  unfold parseHeader
  unsp H
  cases x.find c!"REQ-IF-HEADER" with
  | none => rfl
  | some h =>
    simp only [Option.map_some]
    simp (disch := decide) only [H.optText_]
    unsp H
    cases h.find c!"REPOSITORY-ID" <;> simp only [Option.map_some, Option.map_none, H.fixed, H.word]

theorem Tolerant.findLast_ (H : Tolerant φ) (x : Node) (t : Str) (ht : plainTag t = true) (p : Part) :
    findLast (φ p x) t = (findLast x t).map (φ (p.inner t)) := by
  unfold findLast
  rw [H.grouped p x t ht, List.getLast?_map]

/-! ## Hierarchies -/

theorem firstChildren_kids (level : Nat) (ks : List Node) :
    parseFirstChildren level ks = (ks.find? (fun k => !k.isText && k.tag == .name c!"CHILDREN")).map (fun k =>
      match parseHierarchies level k.kids with
      | .error e => .error e
      | .ok cs => .ok (k.len == 0 && isSelfClosedTag k, cs)) := by
  induction ks with
  | nil => rfl
  | cons k ks ih =>
    cases k with
    | elem i ks' =>
      by_cases h : (Node.elem i ks').tag = .name c!"CHILDREN"
      · have : (!(Node.elem i ks').isText && (Node.elem i ks').tag == Tag.name c!"CHILDREN") = true := by
          rw [h]; rfl
        simp only [parseFirstChildren, List.find?_cons, if_pos h, this, Option.map_some, Node.kids]
        cases parseHierarchies level ks' <;> rfl
      · have : (!(Node.elem i ks').isText && (Node.elem i ks').tag == Tag.name c!"CHILDREN") = false := by
          simp [h]
        simp only [parseFirstChildren, List.find?_cons, if_neg h, this, ih]
    | text s =>
      simp only [parseFirstChildren]
      exact ih
    | comment s => simpa [parseFirstChildren, List.find?_cons, Node.isText, Node.tag] using ih
    | pi a b => simpa [parseFirstChildren, List.find?_cons, Node.isText, Node.tag] using ih

theorem hierarchies_kids (level : Nat) (ks : List Node) :
    parseHierarchies level ks = mapPy (parseHierarchy level) (ks.filter (fun k => !k.isText)) := by
  induction ks with
  | nil => rfl
  | cons k ks ih =>
    cases k <;> simp [parseHierarchies, List.filter_cons, Node.isText, mapPy, ih]
    all_goals (cases parseHierarchy level _ <;> simp <;> cases mapPy (parseHierarchy level) _ <;> rfl)

theorem Tolerant.hierarchiesEq_ (_H : Tolerant φ) (hs : List Hierarchy) : (hierarchiesBy φ) hs = hs.map (hierarchyBy φ) := by
  induction hs with
  | nil => rfl
  | cons h hs ih => simp only [hierarchiesBy, List.map_cons, ih]

/-- `parseHierarchy` in terms of what it asks of the element. -/
def hierarchyFrom (level : Nat) (x : Node) (object : Option Node) (children : Option (Py (Bool × List Hierarchy))) :
    Py Hierarchy :=
  if x.tag = .name c!"SPEC-HIERARCHY" then
    match attrReqNI x c!"IDENTIFIER" with
    | .error e => .error e
    | .ok identifier =>
      match object with
      | none => .error .attributeError
      | some o =>
        match o.find c!"SPEC-OBJECT-REF" with
        | none => .error .attributeError
        | some r =>
          let info (selfClosed : Bool) : HInfo :=
            { identifier, specObject := r.text?, level, longName := x.attr? c!"LONG-NAME",
              refThenChildrenOrder := childTags x == [.name c!"OBJECT", .name c!"CHILDREN"],
              lastChange := x.attr? c!"LAST-CHANGE", editable := boolAttr x c!"IS-EDITABLE",
              isTableInternal := boolAttr x c!"IS-TABLE-INTERNAL", isSelfClosed := selfClosed,
              xmlNode := some x }
          match children with
          | none => .ok (.leaf (info false))
          | some (.error e) => .error e
          | some (.ok (selfClosed, cs)) => .ok (.node (info selfClosed) cs)
  else .error .assertion

/-- The content of a `CHILDREN` element. -/
def childrenFrom (level : Nat) (k : Node) : Py (Bool × List Hierarchy) :=
  pyMap (fun cs => (k.len == 0 && isSelfClosedTag k, cs)) (mapPy (parseHierarchy level) k.children)

theorem hierarchy_from (level : Nat) (x : Node) (hx : Format.isElem x = true) :
    parseHierarchy level x =
      hierarchyFrom level x (x.find c!"OBJECT") ((x.find c!"CHILDREN").map (childrenFrom (level + 1))) := by
  cases x with
  | elem i ks =>
    have e : parseFirstChildren (level + 1) ks = ((Node.elem i ks).find c!"CHILDREN").map (childrenFrom (level + 1)) := by
      rw [firstChildren_kids]
      unfold Node.find
      congr 1
      funext k
      rw [hierarchies_kids]
      unfold childrenFrom
      show (match mapPy (parseHierarchy (level + 1)) k.children with | .error e => _ | .ok cs => _) = _
      cases mapPy (parseHierarchy (level + 1)) k.children <;> rfl
    simp only [parseHierarchy, hierarchyFrom, e]
    rfl
  | text s => cases hx
  | comment s => cases hx
  | pi a b => cases hx

theorem hierarchy_lt {x k c : Node} {t : Str} (hk : x.find t = some k) (hc : c ∈ k.children) : sizeOf c < sizeOf x := by
  have h1 : sizeOf k < sizeOf x := by
    have := List.mem_of_find?_eq_some hk
    cases x with
    | elem i ks => have := List.sizeOf_lt_of_mem this; simp only [Node.kids] at this; simp; omega
    | text s => cases this
    | comment s => cases this
    | pi a b => cases this
  have h2 : sizeOf c < sizeOf k := by
    have := (List.mem_filter.1 hc).1
    cases k with
    | elem i ks => have := List.sizeOf_lt_of_mem this; simp only [Node.kids] at this; simp; omega
    | text s => cases this
    | comment s => cases this
    | pi a b => cases this
  omega

theorem mapPy_congr {α β : Type} {f g : α → Py β} {xs : List α} (h : ∀ x ∈ xs, f x = g x) : mapPy f xs = mapPy g xs := by
  induction xs with
  | nil => rfl
  | cons x xs ih =>
    simp only [mapPy]
    rw [h x (by simp), ih (fun y hy => h y (by simp [hy]))]

theorem Tolerant.hierarchy_ (H : Tolerant φ) (level : Nat) (x : Node) :
    parseHierarchy level (φ .hierarchy x) = pyMap (hierarchyBy φ) (parseHierarchy level x) := by
  by_cases hx : Format.isElem x = true
  · rw [hierarchy_from level x hx, hierarchy_from level _ (by rw [H.isElem]; exact hx)]
    have hc : ((φ .hierarchy x).find c!"CHILDREN").map (childrenFrom (level + 1)) =
        ((x.find c!"CHILDREN").map (childrenFrom (level + 1))).map
          (pyMap (fun r => (r.1, (hierarchiesBy φ) r.2))) := by
      rw [H.find_ _ _ _ (by decide), in30]
      cases hf : x.find c!"CHILDREN" with
      | none => rfl
      | some k =>
        have ih : ∀ c ∈ k.children, parseHierarchy (level + 1) (φ .hierarchy c) =
            pyMap (hierarchyBy φ) (parseHierarchy (level + 1) c) := fun c hc =>
          have := hierarchy_lt hf hc
          H.hierarchy_ (level + 1) c
        simp only [Option.map_some, childrenFrom, H.kept .hierarchies k rfl, H.len_, H.selfClosed, mapPy_maps, in44,
          mapPy_congr ih, mapPy_pyMap, pyMap_pyMap, Option.some.injEq]
        congr 1
        funext cs
        simp [H.hierarchiesEq_]
    rw [hc, H.find_ _ _ c!"OBJECT" (by decide), in31]
    unfold hierarchyFrom boolAttr
    rw [map_ite, H.childTags_ .hierarchy x rfl]
    unsp H
    cases attrReqNI x c!"IDENTIFIER" with
    | error e => rfl
    | ok identifier =>
      cases x.find c!"OBJECT" with
      | none => rfl
      | some o =>
        simp only [Option.map_some]
        unsp H
        cases o.find c!"SPEC-OBJECT-REF" with
        | none => rfl
        | some r =>
          cases x.find c!"CHILDREN" with
          | none => simp only [Option.map_some, Option.map_none, H.fixed, H.word]; rfl
          | some k =>
            simp only [Option.map_some, Option.map_none, H.fixed, H.word]
            cases childrenFrom (level + 1) k with
            | error e => rfl
            | ok r => rfl
  · cases x with
    | elem i ks => exact absurd rfl hx
    | text s => rw [H.others _ _ rfl]; simp [parseHierarchy, pyMap]
    | comment s => rw [H.others _ _ rfl]; simp [parseHierarchy, pyMap]
    | pi a b => rw [H.others _ _ rfl]; simp [parseHierarchy, pyMap]
termination_by sizeOf x

theorem Tolerant.specification_ (H : Tolerant φ) (x : Node) :
    parseSpecification (φ .specification x) = pyMap (specificationBy φ) (parseSpecification x) := by
  unfold parseSpecification
  simp (disch := decide) only [H.optRef_, H.findLast_]
  unsp H
  simp only [H.values_, bind_pyMap]
  congr 1
  funext _
  congr 1
  funext _
  congr 1
  funext _
  cases findLast x c!"CHILDREN" with
  | none => rfl
  | some c =>
    simp only [Option.map_some, H.kept .hierarchies c rfl, mapPy_maps, in44, H.hierarchy_, mapPy_pyMap, bind_pyMap]
    cases mapPy (parseHierarchy 1) c.children with
    | error e => rfl
    | ok hs =>
      simp only [py_bind_ok, py_pure]
      congr 1
      funext vs
      simp only [pyMap, specificationBy, Option.map_some, H.hierarchiesEq_]

/-! ## Printing an element only for the message -/

/-- Whether a function succeeds, and the exception. -/
abbrev tried {α : Type} (a : Py α) : Py Unit := pyMap (fun _ => ()) a

theorem tried_kids {n : Node} {ns : List Node} :
    tried (stringifyKids (n :: ns)) = (tried (stringifyNode false n) >>= fun _ => tried (stringifyKids ns)) := by
  simp only [stringifyKids, tried]
  cases stringifyNode false n with
  | error e => rfl
  | ok a => cases stringifyKids ns <;> rfl

theorem tried_elem (r : Bool) (i : Info) (ks : List Node) :
    tried (stringifyNode r (.elem i ks)) = tried (stringifyKids ks) := by
  simp only [stringifyNode, tried]
  split
  · cases stringifyKids ks <;> rfl
  · rename_i h
    have : ks = [] := by cases ks <;> simp_all
    subst this
    rfl

/-- A relation, or the missing tag, with the source taken without spacing. -/
def resultBy (φ : Part → Node → Node) : Except MissingTag SpecRelation → Except MissingTag SpecRelation
  | .ok r => .ok ((relationBy φ) r)
  | .error e => .error { e with node := φ .relation e.node }

theorem Tolerant.relationItem_ (H : Tolerant φ) (x : Node) : relationItem (φ .relation x) = pyMap (resultBy φ) (relationItem x) := by
  have h := H.relation_ x
  unfold relationItem
  rw [h]
  cases parseSpecRelation x with
  | error e => rfl
  | ok r =>
    cases r with
    | ok r => rfl
    | error m =>
      have ht := H.tried_ .relation false m.node
      simp only [pyMap]
      revert ht
      generalize stringifyNode false (φ .relation m.node) = a
      generalize stringifyNode false m.node = b
      intro ht
      cases a <;> cases b <;> simp_all [tried, pyMap, resultBy]

theorem Tolerant.objectItem_ (H : Tolerant φ) (x : Node) : objectItem (φ .object x) = pyMap (Option.map (objectBy φ)) (objectItem x) := by
  unfold objectItem someItem
  rw [H.isComment_, H.object_]
  split
  · rfl
  · cases parseSpecObject x <;> rfl

/-! ## The content -/

theorem filterMapPy_maps {α β γ : Type} (f : β → Py (Option γ)) (g : α → β) (xs : List α) :
    filterMapPy f (xs.map g) = filterMapPy (fun x => f (g x)) xs := by
  induction xs with
  | nil => rfl
  | cons x xs ih => simp only [List.map_cons, filterMapPy, ih]

theorem filterMapPy_pyMap {α β γ : Type} (f : α → Py (Option β)) (g : β → γ) (xs : List α) :
    filterMapPy (fun x => pyMap (Option.map g) (f x)) xs = pyMap (List.map g) (filterMapPy f xs) := by
  induction xs with
  | nil => rfl
  | cons x xs ih =>
    simp only [filterMapPy, ih]
    cases f x with
    | error e => rfl
    | ok y => cases filterMapPy f xs <;> cases y <;> rfl

theorem Tolerant.items_ (H : Tolerant φ) {β : Type} (x : Node) (tag : Str) (ht : plainTag tag = true) (f : List Node → Py β) (g : β → β)
    (q : Part) (hq : ∀ s, (Part.content.inner tag).inner s = q) (ho : ∀ s, (Part.content.inner tag).inOrder s = true) (h : ∀ xs, f (xs.map (φ q)) = pyMap g (f xs)) :
    parsedItems (φ .content x) tag f = pyMap (Option.map g) (parsedItems x tag f) := by
  unfold parsedItems
  rw [H.find_ _ _ _ ht]
  cases x.find tag with
  | none => rfl
  | some c =>
    simp only [Option.map_some, H.kept _ c (ho _), hq, h]
    cases f c.children <;> rfl

theorem Tolerant.goodRelations_ (_H : Tolerant φ) (rs : List (Except MissingTag SpecRelation)) :
    goodRelations (rs.map (resultBy φ)) = (goodRelations rs).map (relationBy φ) := by
  unfold goodRelations
  rw [List.filterMap_map, List.map_filterMap]
  congr 1
  funext r
  cases r <;> rfl

theorem Tolerant.relationErrors_ (_H : Tolerant φ) (rs : List (Except MissingTag SpecRelation)) :
    relationErrors (rs.map (resultBy φ)) =
      (relationErrors rs).map (fun e => { e with node := φ .relation e.node }) := by
  unfold relationErrors
  rw [List.filterMap_map, List.map_filterMap]
  congr 1
  funext r
  cases r <;> rfl

theorem Tolerant.parents_ (_H : Tolerant φ) (rs : List SpecRelation) (d : Dict (Option Str) (List (Option Str))) :
    (rs.map (relationBy φ)).foldl (fun d r => appendParent d r.source r.target) d =
      rs.foldl (fun d r => appendParent d r.source r.target) d := by
  rw [List.foldl_map]
  rfl

/-- The results of `parseContent` with the sources taken without spacing. -/
def partsBy (φ : Part → Node → Node) (r : Content × Lookup × List MissingTag) : Content × Lookup × List MissingTag :=
  ((contentBy φ) r.1,
    { r.2.1 with
      specTypes := r.2.1.specTypes.map fun e => (e.1, (typeBy φ) e.2),
      specObjects := r.2.1.specObjects.map fun e => (e.1, (objectBy φ) e.2) },
    r.2.2.map fun e => { e with node := φ .relation e.node })

theorem Tolerant.typeIdentifier_ (_H : Tolerant φ) (t : SpecType) : ((typeBy φ) t).identifier = t.identifier := by
  cases t <;> rfl

theorem Tolerant.assembled_ (H : Tolerant φ) (a : Py (Option (List DataType))) (b : Py (Option (List SpecType)))
    (c : Py (Option (List Specification))) (d : Py (Option (List (Except MissingTag SpecRelation))))
    (e : Py (Option (List SpecObject))) (f : Py (Option (List RelationGroup))) :
    assembled a (pyMap (Option.map (List.map (typeBy φ))) b) (pyMap (Option.map (List.map (specificationBy φ))) c)
      (pyMap (Option.map (List.map (resultBy φ))) d) (pyMap (Option.map (List.map (objectBy φ))) e) f =
      pyMap (partsBy φ) (assembled a b c d e f) := by
  unfold assembled
  simp only [bind_pyMap, pyMap_bind, pyMap_pure]
  congr 1; funext dts
  congr 1; funext sts
  congr 1; funext sps
  congr 1; funext rels
  congr 1; funext objs
  congr 1; funext groups
  have h1 : ∀ {α : Type} (g : α → α) (o : Option (List α)), (o.map (List.map g)).getD [] = (o.getD []).map g := by
    intro α g o; cases o <;> rfl
  simp only [partsBy, contentBy, indexBy_map _ _ H.typeIdentifier_,
    indexBy_map SpecObject.identifier (objectBy φ) (fun _ => rfl), h1, H.goodRelations_, H.relationErrors_,
    H.parents_, Option.map_map]
  congr 3
  cases rels with
  | none => rfl
  | some rs => simp only [Option.map_some, Function.comp, H.goodRelations_]

theorem Tolerant.content_ (H : Tolerant φ) (x : Node) :
    (parseContent (none : Option (Callback Unit)) (φ .content x) ()).1 =
      pyMap (partsBy φ) (parseContent (none : Option (Callback Unit)) x ()).1 := by
  rw [parseContent_assembled, parseContent_assembled, ← H.assembled_]
  rw [H.items_ x c!"DATATYPES" (by decide) _ id .datatype (fun _ => rfl) (fun _ => rfl)
      (fun xs => by simp only [mapPy_maps, H.dataType_]; cases mapPy parseDataType xs <;> rfl),
    H.items_ x c!"SPEC-TYPES" (by decide) _ (List.map (typeBy φ)) .type (fun _ => rfl) (fun _ => rfl)
      (fun xs => by simp only [filterMapPy_maps, H.type_, filterMapPy_pyMap]),
    H.items_ x c!"SPECIFICATIONS" (by decide) _ (List.map (specificationBy φ)) .specification (fun _ => rfl) (fun _ => rfl)
      (fun xs => by simp only [mapPy_maps, H.specification_, mapPy_pyMap]),
    H.items_ x c!"SPEC-RELATIONS" (by decide) _ (List.map (resultBy φ)) .relation (fun _ => rfl) (fun _ => rfl)
      (fun xs => by simp only [mapPy_maps, H.relationItem_, mapPy_pyMap]),
    H.items_ x c!"SPEC-OBJECTS" (by decide) _ (List.map (objectBy φ)) .object (fun _ => rfl) (fun _ => rfl)
      (fun xs => by simp only [filterMapPy_maps, H.objectItem_, filterMapPy_pyMap]),
    H.items_ x c!"SPEC-RELATION-GROUPS" (by decide) _ id .group (fun _ => rfl) (fun _ => rfl)
      (fun xs => by simp only [mapPy_maps, H.group_]; cases mapPy parseRelationGroup xs <;> rfl)]
  have hid : ∀ {α : Type} (a : Py (Option α)), pyMap (Option.map id) a = a := by
    intro α a
    cases a with
    | error e => rfl
    | ok o => cases o <;> rfl
  rw [hid, hid]

/-! ## The document -/

theorem Tolerant.root_ (H : Tolerant φ) (p : Part) (n : Node) : strippedRoot (φ p n) = pyMap (φ p) (strippedRoot n) := by
  unfold strippedRoot
  rw [H.nsmap]
  split
  · unfold stripNamespace
    rw [H.strip]
    cases stripTags false n with
    | error e => rfl
    | ok r => simp only [pyMap, H.cleanup_]
  · rfl

theorem Tolerant.core_ (H : Tolerant φ) (x : Node) :
    (parseCore (none : Option (Callback Unit)) (φ .root x) ()).1 =
      pyMap (fun r => (r.1.map (Option.map (contentBy φ)),
        { r.2.1 with
          specTypes := r.2.1.specTypes.map fun e => (e.1, (typeBy φ) e.2),
          specObjects := r.2.1.specObjects.map fun e => (e.1, (objectBy φ) e.2) },
        r.2.2.map fun e => { e with node := φ .relation e.node }))
        (parseCore (none : Option (Callback Unit)) x ()).1 := by
  unfold parseCore
  rw [H.find_ _ _ _ (by decide), in2]
  cases x.find c!"CORE-CONTENT" with
  | none => rfl
  | some c =>
    simp only [Option.map_some]
    rw [H.find_ _ _ _ (by decide), in4]
    cases c.find c!"REQ-IF-CONTENT" with
    | none => rfl
    | some y =>
      have e := H.content_ y
      simp only [Option.map_some, M.bind, M.pure]
      revert e
      generalize parseContent (none : Option (Callback Unit)) (φ .content y) () = a
      generalize parseContent (none : Option (Callback Unit)) y () = b
      intro e
      obtain ⟨a, _⟩ := a
      obtain ⟨b, _⟩ := b
      dsimp only at e
      rw [e]
      cases b <;> rfl

theorem Tolerant.document_ (H : Tolerant φ) {d d' : Doc} (hd : d.decl = d'.decl) (hr : d'.root = φ .root d.root) :
    (parseReqif (none : Option (Callback Unit)) d' ()).1 =
      pyMap (bundleBy φ) (parseReqif (none : Option (Callback Unit)) d ()).1 := by
  have hm : d'.root.nsmap = d.root.nsmap := by rw [hr, H.nsmap]
  have hdump : tagDumpOf d'.root = tagDumpOf d.root := by
    rw [hr, H.tagDump]
  unfold parseReqif
  simp only [M.bind, M.lift]
  rw [hr, H.root_, ← hr]
  cases strippedRoot d.root with
  | error e => rfl
  | ok r =>
    have hn : namespaceInfoOf d' (φ .root r) = namespaceInfoOf d r := by
      unfold namespaceInfoOf
      have ha : ∀ u k : Str, (φ .root r).attr? (clark (some u) k) = r.attr? (clark (some u) k) :=
        fun u k => H.attr _ _ _ (by simp [isReadName, clark])
      simp only [hm, hd, hdump, ha]
    have hc := H.core_ r
    have hh : optPy parseHeader ((φ .root r).find c!"THE-HEADER") = optPy parseHeader (r.find c!"THE-HEADER") := by
      rw [H.find_ _ _ _ (by decide), in1]
      cases r.find c!"THE-HEADER" with
      | none => rfl
      | some h => simp only [Option.map_some, optPy, H.header_]
    have hte : ((φ .root r).find c!"TOOL-EXTENSIONS").isSome = (r.find c!"TOOL-EXTENSIONS").isSome := by
      rw [H.find_ _ _ _ (by decide)]
      cases r.find c!"TOOL-EXTENSIONS" <;> rfl
    simp only [pyMap]
    rw [H.tag, H.len_, hh, hte, hn, hm]
    split
    · split
      · rfl
      · cases optPy parseHeader (r.find c!"THE-HEADER") with
        | error e => rfl
        | ok hdr =>
          simp only [M.bind, M.pure]
          rw [parseCore_state r, parseCore_state (φ .root r), hc]
          cases (parseCore (none : Option (Callback Unit)) r ()).1 <;> rfl
    · rfl

/-! ## The output -/

theorem Harmless.document_ (H : Harmless φ) {d d' : Doc} (hd : d.decl = d'.decl) (hr : d'.root = φ .root d.root) :
    (parseReqif (none : Option (Callback Unit)) d' ()).1 =
      pyMap (bundleBy φ) (parseReqif (none : Option (Callback Unit)) d ()).1 := H.tolerant.document_ hd hr

theorem Harmless.unparseValue_ (H : Harmless φ) (a : SpecObjectAttribute) :
    unparseAttributeValue ((valueBy φ) a) = unparseAttributeValue a := by
  have e : valuesBeforeDefinition ((valueBy φ) a) = valuesBeforeDefinition a := by
    unfold valuesBeforeDefinition valueBy
    cases a.xmlNode with
    | none => rfl
    | some n => simp only [Option.map_some, H.childTags_]
  unfold unparseAttributeValue
  rw [e]
  rfl

theorem concatPy_map {α : Type} (f : α → Py Str) (g : α → α) (hg : ∀ a, f (g a) = f a) (xs : List α) :
    concatPy f (xs.map g) = concatPy f xs := by
  induction xs with
  | nil => rfl
  | cons x xs ih => simp only [List.map_cons, concatPy, hg, ih]

theorem Harmless.unparseValues_ (H : Harmless φ) (o : Option (List SpecObjectAttribute)) :
    unparseAttributeValues (o.map (List.map (valueBy φ))) = unparseAttributeValues o := by
  match o with
  | none => rfl
  | some [] => rfl
  | some (v :: vs) =>
    have e := concatPy_map unparseAttributeValue (valueBy φ) H.unparseValue_ (v :: vs)
    simp only [List.map_cons] at e
    simp only [Option.map_some, List.map_cons, unparseAttributeValues, e]

theorem Harmless.unparseDefinition_ (H : Harmless φ) (a : SpecAttributeDefinition) :
    unparseAttributeDefinition ((definitionBy φ) a) = unparseAttributeDefinition a := by
  have e : definitionChildTags ((definitionBy φ) a) = definitionChildTags a := by
    unfold definitionChildTags definitionBy
    cases a.xmlNode with
    | none => rfl
    | some n => simp only [Option.map_some, H.childTags_]
  have h : unparseDefinitionChild ((definitionBy φ) a) = unparseDefinitionChild a := by
    funext t
    unfold unparseDefinitionChild
    rfl
  unfold unparseAttributeDefinition
  rw [e, h]
  rfl

theorem Harmless.unparseAttributes_ (H : Harmless φ) (o : Option (List SpecAttributeDefinition)) :
    unparseSpecAttributes (o.map (List.map (definitionBy φ))) = unparseSpecAttributes o := by
  cases o with
  | none => rfl
  | some ds =>
    simp only [Option.map_some, unparseSpecAttributes, unparseAttributeDefinitions,
      concatPy_map _ _ H.unparseDefinition_]

theorem Harmless.hasAttributes_ (_H : Harmless φ) (o : Option (List SpecAttributeDefinition)) :
    hasAttributes (o.map (List.map (definitionBy φ))) = hasAttributes o := by
  cases o <;> simp [hasAttributes]

theorem Harmless.unparseType_ (H : Harmless φ) (t : SpecType) : unparseSpecType ((typeBy φ) t) = unparseSpecType t := by
  cases t <;> simp only [typeBy, unparseSpecType, unparseSpecObjectType, unparseRelationType, unparseSpecificationType,
    H.unparseAttributes_, H.hasAttributes_]

theorem Harmless.unparseObject_ (H : Harmless φ) (o : SpecObject) : unparseSpecObject ((objectBy φ) o) = unparseSpecObject o := by
  have e : specObjectChildTags ((objectBy φ) o) = specObjectChildTags o := by
    unfold specObjectChildTags objectBy
    cases o.xmlNode with
    | none => rfl
    | some n => simp only [Option.map_some, H.childTags_]
  have h : unparseSpecObjectChild ((objectBy φ) o) = unparseSpecObjectChild o := by
    funext t
    unfold unparseSpecObjectChild
    have := H.unparseValues_ (some o.attributes)
    simp only [Option.map_some] at this
    show (if _ then unparseAttributeValues (some (o.attributes.map (valueBy φ))) else _) = _
    rw [this]
    rfl
  unfold unparseSpecObject
  rw [e, h]
  rfl

theorem Harmless.unparseRelation_ (H : Harmless φ) (r : SpecRelation) : unparseSpecRelation ((relationBy φ) r) = unparseSpecRelation r := by
  have e : specRelationChildTags ((relationBy φ) r) = specRelationChildTags r := by
    unfold specRelationChildTags relationBy
    cases r.xmlNode with
    | none => rfl
    | some n => simp only [Option.map_some, H.childTags_]
  have h : unparseSpecRelationChild ((relationBy φ) r) = unparseSpecRelationChild r := by
    funext t
    unfold unparseSpecRelationChild relationBy
    cases r.valuesAttribute with
    | none => rfl
    | some a =>
      have := H.unparseValues_ (some [a])
      simp only [Option.map_some, List.map_cons, List.map_nil] at this
      simp only [Option.map_some, this]
  unfold unparseSpecRelation
  rw [e, h]
  rfl

mutual
theorem Harmless.unparseHierarchy_ (H : Harmless φ) (h : Hierarchy) : unparseHierarchy ((hierarchyBy φ) h) = unparseHierarchy h :=
  match h with
  | .leaf i => rfl
  | .node i cs => by
    simp only [hierarchyBy, unparseHierarchy, H.unparseHierarchies_ cs]
    have : ((hierarchiesBy φ) cs).isEmpty = cs.isEmpty := by cases cs <;> rfl
    rw [this]
    rfl

theorem Harmless.unparseHierarchies_ (H : Harmless φ) (hs : List Hierarchy) : unparseHierarchies ((hierarchiesBy φ) hs) = unparseHierarchies hs :=
  match hs with
  | [] => rfl
  | h :: hs => by
    simp only [hierarchiesBy, unparseHierarchies, H.unparseHierarchy_ h, H.unparseHierarchies_ hs]
end

theorem Harmless.unparseSpecification_ (H : Harmless φ) (s : Specification) :
    unparseSpecification ((specificationBy φ) s) = unparseSpecification s := by
  have e : specificationChildTags ((specificationBy φ) s) = specificationChildTags s := by
    unfold specificationChildTags specificationBy
    cases s.xmlNode with
    | none => rfl
    | some n => simp only [Option.map_some, H.childTags_]
  have h : unparseSpecificationChild ((specificationBy φ) s) = unparseSpecificationChild s := by
    funext t
    unfold unparseSpecificationChild specificationBy
    simp only [H.unparseValues_]
    cases s.children with
    | none => rfl
    | some hs => simp only [Option.map_some, H.unparseHierarchies_]
  unfold unparseSpecification
  rw [e, h]
  rfl

theorem Harmless.unparse_ (H : Harmless φ) (b : Bundle) : unparse ((bundleBy φ) b) = unparse b := by
  have hc : unparseCore (none : Option (Callback Unit)) ((bundleBy φ) b).coreContent =
      unparseCore (none : Option (Callback Unit)) b.coreContent := by
    unfold bundleBy
    match b.coreContent with
    | none => rfl
    | some none => rfl
    | some (some c) =>
      simp only [Option.map_some, unparseCore, unparseContent, contentBy,
        unparseContainer_map _ _ _ _ H.unparseObject_, unparseContainer_map _ _ _ _ H.unparseSpecification_,
        unparseContainer_map _ _ _ _ H.unparseType_, unparseContainer_map _ _ _ _ H.unparseRelation_]
  unfold unparse unparseM
  rw [hc]
  rfl

end ReqIF
