import Verif.Spec.Hidden
import Verif.Proofs.Harmless
import Verif.Proofs.Disguise
/-! What the parser reads from a tree with the covered strings replaced. -/
set_option linter.unusedSimpArgs false
namespace ReqIF
open Spec

/-- The zones of a document, told apart by the names of the elements. -/
inductive Zone
  | fixed | flat | skipped | blob | note
  | root | header | headerBody | core | content
  | datatypes | datatype | specified | enumValue
  | types | type | definitions | definition | default
  | values | value | stringValue | xhtml
  | objects | object | relations | relation | specifications | specification
  | hierarchies | hierarchy | groups | group
deriving DecidableEq

/-- The zone of an attribute value. -/
def valueZone (n : Str) : Zone :=
  if n = c!"ATTRIBUTE-VALUE-XHTML" then .xhtml else if n = c!"ATTRIBUTE-VALUE-STRING" then .stringValue else .value

def Zone.inner : Zone → Str → Zone
  | .root, n => if n = c!"THE-HEADER" then .header else if n = c!"CORE-CONTENT" then .core else .skipped
  | .header, n => if n = c!"REQ-IF-HEADER" then .headerBody else .skipped
  | .headerBody, n => if n = c!"COMMENT" ∨ n = c!"TITLE" then .note else .fixed
  | .core, n => if n = c!"REQ-IF-CONTENT" then .content else .skipped
  | .content, n =>
    if n = c!"DATATYPES" then .datatypes
    else if n = c!"SPEC-TYPES" then .types
    else if n = c!"SPEC-OBJECTS" then .objects
    else if n = c!"SPEC-RELATIONS" then .relations
    else if n = c!"SPECIFICATIONS" then .specifications
    else if n = c!"SPEC-RELATION-GROUPS" then .groups
    else .skipped
  | .datatypes, _ => .datatype
  | .datatype, n => if n = c!"SPECIFIED-VALUES" then .specified else .skipped
  | .specified, _ => .enumValue
  | .enumValue, n => if n = c!"PROPERTIES" then .flat else .skipped
  | .types, _ => .type
  | .type, n => if n = c!"SPEC-ATTRIBUTES" then .definitions else .skipped
  | .definitions, _ => .definition
  | .definition, n => if n = c!"TYPE" then .flat else if n = c!"DEFAULT-VALUE" then .default else .skipped
  | .default, n => valueZone n
  | .values, n => valueZone n
  | .value, _ => .flat
  | .stringValue, _ => .flat
  | .xhtml, n => if n = c!"THE-VALUE" then .blob else if n = c!"DEFINITION" then .flat else .skipped
  | .objects, _ => .object
  | .object, n => if n = c!"VALUES" then .values else if n = c!"TYPE" then .flat else .skipped
  | .relations, _ => .relation
  | .relation, n =>
    if n = c!"VALUES" then .values
    else if n = c!"TYPE" ∨ n = c!"SOURCE" ∨ n = c!"TARGET" then .flat
    else .skipped
  | .specifications, _ => .specification
  | .specification, n =>
    if n = c!"VALUES" then .values
    else if n = c!"CHILDREN" then .hierarchies
    else if n = c!"TYPE" then .flat
    else .skipped
  | .hierarchies, _ => .hierarchy
  | .hierarchy, n => if n = c!"CHILDREN" then .hierarchies else if n = c!"OBJECT" then .flat else .skipped
  | .groups, _ => .group
  | .group, n =>
    if n = c!"TYPE" ∨ n = c!"SOURCE-SPECIFICATION" ∨ n = c!"TARGET-SPECIFICATION" ∨ n = c!"SPEC-RELATIONS" then .flat
    else .skipped
  | .flat, _ => .fixed
  | .fixed, _ => .fixed
  | .note, _ => .fixed
  | .blob, _ => .skipped
  | .skipped, _ => .skipped

/-- The zones whose elements keep their child nodes. -/
def Zone.isOpen : Zone → Bool
  | .fixed | .skipped | .blob | .note => false
  | _ => true

/-- The zones whose elements keep their attributes. -/
def Zone.keeps : Zone → Bool
  | .skipped | .specification | .stringValue => false
  | _ => true

/-- The text before the first child node of another kind. -/
def leadingNodes : List Node → List Node
  | .text s :: _ => [.text s]
  | _ => []

def veilAttrs (f : Str → Str) : Zone → List Attr → List Attr
  | .skipped, _ => []
  | .specification, as => mapAttr c!"LONG-NAME" f as
  | .stringValue, as => mapAttr c!"THE-VALUE" f as
  | _, as => as

def veilInfo (f : Str → Str) (z : Zone) (i : Info) : Info :=
  { i with nsdefs := [], nsmap := [(none, [])], attrs := veilAttrs f z i.attrs }

mutual
/-- A tree with the covered strings replaced, and without what the parser does not look at. -/
def veil (f : Str → Str) (z : Zone) : Node → Node
  | .elem i ks => .elem (veilInfo f z i) (match z with
    | .skipped => []
    | .blob => [.text c!"*"]
    | .fixed => leadingNodes ks
    | .note => mapLeading f (leadingNodes ks)
    | z => veilAll f z ks)
  | n => n

def veilAll (f : Str → Str) (z : Zone) : List Node → List Node
  | [] => []
  | n :: ns => veil f (z.inner (localName n)) n :: veilAll f z ns
end

theorem veilAll_map (f : Str → Str) (z : Zone) (ns : List Node) :
    veilAll f z ns = ns.map (fun k => veil f (z.inner (localName k)) k) := by
  induction ns with
  | nil => simp [veilAll]
  | cons n ns ih => simp [veilAll, ih]

theorem veil_open {f : Str → Str} {z : Zone} (hz : z.isOpen = true) (i : Info) (ks : List Node) :
    veil f z (.elem i ks) = .elem (veilInfo f z i) (veilAll f z ks) := by
  cases z <;> first | rfl | exact absurd hz (by decide)

section
variable {f : Str → Str} {z : Zone}

theorem veil_isText (n : Node) : (veil f z n).isText = n.isText := by cases n <;> rfl

theorem veil_tag (n : Node) : (veil f z n).tag = n.tag := by cases n <;> rfl

theorem veil_isElem (n : Node) : Format.isElem (veil f z n) = Format.isElem n := by cases n <;> rfl

theorem veil_isComment (n : Node) : isCommentNode (veil f z n) = isCommentNode n := by
  unfold isCommentNode; rw [veil_tag]

theorem veil_tagContains (n : Node) (s : Str) : tagContains (veil f z n) s = tagContains n s := by
  unfold tagContains; rw [veil_tag]

theorem veil_children (hz : z.isOpen = true) (n : Node) :
    (veil f z n).children = n.children.map (fun k => veil f (z.inner (localName k)) k) := by
  cases n with
  | elem i ks =>
    rw [veil_open hz]
    simp only [Node.children, Node.kids, veilAll_map, List.filter_map]
    congr 1
    apply List.filter_congr
    intro k _
    simp [Function.comp, veil_isText]
  | text s => rfl
  | comment s => rfl
  | pi a b => rfl

theorem veil_childTags (hz : z.isOpen = true) (n : Node) : childTags (veil f z n) = childTags n := by
  simp only [ReqIF.childTags, veil_children hz, List.map_map]
  congr 1
  funext k
  exact veil_tag _

theorem veil_len (hz : z.isOpen = true) (n : Node) : (veil f z n).len = n.len := by
  simp only [Node.len, veil_children hz, List.length_map]

theorem veil_find (hz : z.isOpen = true) (n : Node) (t : Str) (ht : plainTag t = true) :
    (veil f z n).find t = (n.find t).map (veil f (z.inner t)) := by
  rw [find_in_children, find_in_children, veil_children hz]
  induction n.children with
  | nil => rfl
  | cons k ks ih =>
    simp only [List.map_cons, List.find?_cons, veil_tag]
    by_cases h : k.tag = .name t
    · have : (k.tag == Tag.name t) = true := by simpa using h
      rw [this, localName_of_plain h ht]
      rfl
    · have : (k.tag == Tag.name t) = false := by simpa using h
      rw [this]
      exact ih

theorem veil_findReq (hz : z.isOpen = true) (n : Node) (t : Str) (ht : plainTag t = true) :
    findReq (veil f z n) t = pyMap (veil f (z.inner t)) (findReq n t) := by
  unfold findReq
  rw [veil_find hz n t ht]
  cases n.find t <;> rfl

theorem veil_firstChild (hz : z.isOpen = true) (n : Node) :
    firstChild (veil f z n) = pyMap (fun k => veil f (z.inner (localName k)) k) (firstChild n) := by
  unfold firstChild
  rw [veil_children hz]
  cases n.children <;> rfl

theorem veil_attrs (hz : z.keeps = true) (n : Node) : (veil f z n).attrs = n.attrs := by
  cases n with
  | elem i ks => cases z <;> first | rfl | exact absurd hz (by decide)
  | text s => rfl
  | comment s => rfl
  | pi a b => rfl

theorem veil_attr (hz : z.keeps = true) (n : Node) (k : Str) : (veil f z n).attr? k = n.attr? k := by
  unfold Node.attr?; rw [veil_attrs hz]

theorem veil_attrReq (hz : z.keeps = true) (n : Node) (k : Str) : attrReq (veil f z n) k = attrReq n k := by
  unfold attrReq; rw [veil_attr hz]

theorem veil_attrReqNI (hz : z.keeps = true) (n : Node) (k : Str) : attrReqNI (veil f z n) k = attrReqNI n k := by
  unfold attrReqNI; rw [veil_attrReq hz]

theorem find_mapAttr (key : Str) (as : List Attr) (k : Str) :
    ((mapAttr key f as).find? (fun a => a.key == k)).map Attr.value =
      if k = key then ((as.find? (fun a => a.key == k)).map Attr.value).map f else (as.find? (fun a => a.key == k)).map Attr.value := by
  induction as with
  | nil => simp [mapAttr]
  | cons a as ih =>
    simp only [mapAttr, List.map_cons] at ih ⊢
    by_cases ha : a.key = key
    · have e : (Attr.key { a with value := f a.value }) = a.key := rfl
      by_cases hk : a.key = k
      · have : k = key := hk ▸ ha
        simp [List.find?_cons, ha, e, hk, this]
      · have hne : ¬ key = k := fun e => hk (ha.trans e)
        simp only [ha, beq_self_eq_true, if_true, List.find?_cons, e]
        have : (key == k) = false := by simpa using hne
        rw [this]
        exact ih
    · by_cases hk : a.key = k
      · have hne : ¬ k = key := fun e => ha (hk.trans e)
        simp [List.find?_cons, ha, hk, hne]
      · have h1 : (a.key == key) = false := by simpa using ha
        have h2 : (a.key == k) = false := by simpa using hk
        simp only [h1, Bool.false_eq_true, if_false, List.find?_cons, h2]
        exact ih

theorem veil_spec_attr (n : Node) (k : Str) : (veil f .specification n).attr? k =
    if k = c!"LONG-NAME" then (n.attr? k).map f else n.attr? k := by
  cases n with
  | elem i ks => exact find_mapAttr _ _ _
  | _ => simp [veil, Node.attr?, Node.attrs]

theorem veil_string_attr (n : Node) (k : Str) : (veil f .stringValue n).attr? k =
    if k = c!"THE-VALUE" then (n.attr? k).map f else n.attr? k := by
  cases n with
  | elem i ks => exact find_mapAttr _ _ _
  | _ => simp [veil, Node.attr?, Node.attrs]

theorem veil_text (n : Node) : (veil f .fixed n).text? = n.text? := by
  cases n with
  | elem i ks =>
    show (Node.elem _ (leadingNodes ks)).text? = _
    match ks with
    | [] => rfl
    | .text s :: ks => rfl
    | .elem j js :: ks => rfl
    | .comment s :: ks => rfl
    | .pi a b :: ks => rfl
  | _ => rfl

theorem veil_noteText (n : Node) (hn : Format.isElem n = true) : (veil f .note n).text? = n.text?.map f := by
  cases n with
  | elem i ks =>
    show (Node.elem _ (mapLeading f (leadingNodes ks))).text? = _
    match ks with
    | [] => rfl
    | .text s :: ks => rfl
    | .elem j js :: ks => rfl
    | .comment s :: ks => rfl
    | .pi a b :: ks => rfl
  | _ => cases hn

theorem veil_openText (hz : z.isOpen = true) (n : Node) : (veil f z n).text? = n.text? := by
  cases n with
  | elem i ks =>
    rw [veil_open hz]
    match ks with
    | [] => simp [veilAll, Node.text?]
    | .text s :: ks => simp [veilAll, veil, Node.text?]
    | .elem j js :: ks => simp [veilAll, veil, Node.text?]
    | .comment s :: ks => simp [veilAll, veil, Node.text?]
    | .pi a b :: ks => simp [veilAll, veil, Node.text?]
  | _ => rfl

theorem veil_selfClosed (hz : z.isOpen = true) (n : Node) : isSelfClosedTag (veil f z n) = isSelfClosedTag n := by
  unfold isSelfClosedTag
  rw [veil_len hz, veil_openText hz]

theorem veil_findLast (hz : z.isOpen = true) (n : Node) (t : Str) (ht : plainTag t = true) :
    findLast (veil f z n) t = (findLast n t).map (veil f (z.inner t)) := by
  unfold findLast
  rw [veil_children hz, List.filter_map, ← List.getLast?_map]
  congr 1
  have e : ((fun k => k.tag == Tag.name t) ∘ fun k => veil f (z.inner (localName k)) k) = (fun k => k.tag == Tag.name t) := by
    funext k
    simp only [Function.comp, veil_tag]
  rw [e]
  apply List.map_congr_left
  intro k hk
  have := (List.mem_filter.1 hk).2
  rw [localName_of_plain (by simpa using this) ht]

theorem veil_texts (ks : List Node) :
    (ks.map (fun k => veil f (Zone.flat.inner (localName k)) k)).map Node.text? = ks.map Node.text? := by
  rw [List.map_map]
  congr 1
  funext k
  exact veil_text k
end

section
open Zone
theorem zo1 : root.inner c!"THE-HEADER" = header := rfl
theorem zo2 : root.inner c!"CORE-CONTENT" = core := rfl
theorem zo3 : header.inner c!"REQ-IF-HEADER" = headerBody := rfl
theorem zo4 : core.inner c!"REQ-IF-CONTENT" = content := rfl
theorem zo5 : content.inner c!"DATATYPES" = datatypes := rfl
theorem zo6 : content.inner c!"SPEC-TYPES" = types := rfl
theorem zo7 : content.inner c!"SPEC-OBJECTS" = objects := rfl
theorem zo8 : content.inner c!"SPEC-RELATIONS" = relations := rfl
theorem zo9 : content.inner c!"SPECIFICATIONS" = specifications := rfl
theorem zo10 : content.inner c!"SPEC-RELATION-GROUPS" = groups := rfl
theorem zo11 : datatype.inner c!"SPECIFIED-VALUES" = specified := rfl
theorem zo12 : enumValue.inner c!"PROPERTIES" = flat := rfl
theorem zo13 : type.inner c!"SPEC-ATTRIBUTES" = definitions := rfl
theorem zo14 : definition.inner c!"TYPE" = flat := rfl
theorem zo15 : definition.inner c!"DEFAULT-VALUE" = default := rfl
theorem zo16 (s : Str) : value.inner s = flat := rfl
theorem zo17 (s : Str) : stringValue.inner s = flat := rfl
theorem zo18 : xhtml.inner c!"THE-VALUE" = blob := rfl
theorem zo19 : xhtml.inner c!"DEFINITION" = flat := rfl
theorem zo21 : object.inner c!"VALUES" = values := rfl
theorem zo22 : object.inner c!"TYPE" = flat := rfl
theorem zo23 : relation.inner c!"VALUES" = values := rfl
theorem zo24 : relation.inner c!"TYPE" = flat := rfl
theorem zo25 : relation.inner c!"SOURCE" = flat := rfl
theorem zo26 : relation.inner c!"TARGET" = flat := rfl
theorem zo27 : specification.inner c!"VALUES" = values := rfl
theorem zo28 : specification.inner c!"CHILDREN" = hierarchies := rfl
theorem zo29 : specification.inner c!"TYPE" = flat := rfl
theorem zo30 : hierarchy.inner c!"CHILDREN" = hierarchies := rfl
theorem zo31 : hierarchy.inner c!"OBJECT" = flat := rfl
theorem zo32 : group.inner c!"TYPE" = flat := rfl
theorem zo33 : group.inner c!"SOURCE-SPECIFICATION" = flat := rfl
theorem zo34 : group.inner c!"TARGET-SPECIFICATION" = flat := rfl
theorem zo35 : group.inner c!"SPEC-RELATIONS" = flat := rfl
theorem zo36 (s : Str) : flat.inner s = fixed := rfl
theorem zo37 (s : Str) : datatypes.inner s = datatype := rfl
theorem zo38 (s : Str) : specified.inner s = enumValue := rfl
theorem zo39 (s : Str) : types.inner s = type := rfl
theorem zo40 (s : Str) : definitions.inner s = definition := rfl
theorem zo41 (s : Str) : objects.inner s = object := rfl
theorem zo42 (s : Str) : relations.inner s = relation := rfl
theorem zo43 (s : Str) : specifications.inner s = specification := rfl
theorem zo44 (s : Str) : hierarchies.inner s = hierarchy := rfl
theorem zo45 (s : Str) : groups.inner s = group := rfl
theorem zo46 : default.inner c!"ATTRIBUTE-VALUE-XHTML" = xhtml := rfl
theorem zo47 : default.inner c!"ATTRIBUTE-VALUE-STRING" = stringValue := rfl
theorem zo48 : default.inner c!"ATTRIBUTE-VALUE-BOOLEAN" = value := rfl
theorem zo49 : default.inner c!"ATTRIBUTE-VALUE-ENUMERATION" = value := rfl
theorem zo50 : default.inner c!"ATTRIBUTE-VALUE-INTEGER" = value := rfl
theorem zo51 : default.inner c!"ATTRIBUTE-VALUE-REAL" = value := rfl
theorem zo52 : default.inner c!"ATTRIBUTE-VALUE-DATE" = value := rfl
theorem zo53 : headerBody.inner c!"COMMENT" = note := rfl
theorem zo54 : headerBody.inner c!"TITLE" = note := rfl
theorem zo55 : headerBody.inner c!"REPOSITORY-ID" = fixed := rfl
theorem zo56 : headerBody.inner c!"CREATION-TIME" = fixed := rfl
theorem zo57 : headerBody.inner c!"REQ-IF-TOOL-ID" = fixed := rfl
theorem zo58 : headerBody.inner c!"REQ-IF-VERSION" = fixed := rfl
theorem zo59 : headerBody.inner c!"SOURCE-TOOL-ID" = fixed := rfl
end

/-- Removes `veil` from what the parser asks of an element. -/
macro "unveil" : tactic => `(tactic| simp (maxSteps := 2000000) (disch := decide) only [veil_tag, veil_attr, veil_attrReq, veil_attrReqNI,
      veil_tagContains, veil_isComment, veil_childTags, veil_selfClosed, veil_find, veil_findReq, veil_text,
      bind_pyMap, pyMap_bind, pyMap_pure, pyMap_throw, veil_firstChild,
      zo1, zo2, zo3, zo4, zo5, zo6, zo7, zo8, zo9, zo10, zo11, zo12, zo13, zo14, zo15, zo16, zo17, zo18, zo19,
      zo21, zo22, zo23, zo24, zo25, zo26, zo27, zo28, zo29, zo30, zo31, zo32, zo33, zo34, zo35, zo36, zo37, zo38, zo39, zo40,
      zo41, zo42, zo43, zo44, zo45, zo46, zo47, zo48, zo49, zo50, zo51, zo52, zo53, zo54, zo55, zo56, zo57, zo58, zo59])

/-! ## Two results -/

/-- If the one succeeds, so does the other, and then the results are the same up to `g` and `h`. -/
def Same {α β γ : Type} (g : α → γ) (h : β → γ) (a : Py α) (b : Py β) : Prop :=
  ∀ x, a = .ok x → ∃ y, b = .ok y ∧ h y = g x

theorem Same.refl {α γ : Type} {g : α → γ} (a : Py α) : Same g g a a := fun x hx => ⟨x, hx, rfl⟩

theorem Same.eq_ {α γ : Type} {g : α → γ} {a b : Py α} (h : b = a) : Same g g a b := by rw [h]; exact Same.refl a

theorem Same.pure_ {α β γ : Type} {g : α → γ} {h : β → γ} {x : α} {y : β} (e : h y = g x) : Same g h (pure x) (pure y) := by
  intro x' hx
  cases hx
  exact ⟨y, rfl, e⟩

theorem Same.ok_ {α β γ : Type} {g : α → γ} {h : β → γ} {x : α} {y : β} (e : h y = g x) : Same g h (.ok x) (.ok y) := Same.pure_ e

theorem Same.error_ {α β γ : Type} {g : α → γ} {h : β → γ} {e : PyErr} {b : Py β} : Same g h (.error e) b := by
  intro x hx
  cases hx

theorem Same.bind_ {α β γ α' β' γ' : Type} {g : α → γ} {h : β → γ} {g' : α' → γ'} {h' : β' → γ'} {a : Py α} {b : Py β}
    {k : α → Py α'} {l : β → Py β'} (hab : Same g h a b) (hk : ∀ x y, h y = g x → Same g' h' (k x) (l y)) :
    Same g' h' (a >>= k) (b >>= l) := by
  intro z hz
  cases ha : a with
  | error e => rw [ha] at hz; cases hz
  | ok x =>
    obtain ⟨y, hb, e⟩ := hab x ha
    rw [ha] at hz
    obtain ⟨w, hw, e'⟩ := hk x y e z hz
    exact ⟨w, by rw [hb]; exact hw, e'⟩

/-- Two binds of the same first part. -/
theorem Same.then_ {α α' β' γ' : Type} {g' : α' → γ'} {h' : β' → γ'} {a : Py α} {k : α → Py α'} {l : α → Py β'}
    (hk : ∀ x, Same g' h' (k x) (l x)) : Same g' h' (a >>= k) (a >>= l) :=
  Same.bind_ (Same.refl (g := id) a) (fun x y e => by cases e; exact hk x)

theorem Same.ite_ {α β γ : Type} {g : α → γ} {h : β → γ} {c : Prop} [Decidable c] {a a' : Py α} {b b' : Py β}
    (h1 : c → Same g h a b) (h2 : ¬ c → Same g h a' b') : Same g h (if c then a else a') (if c then b else b') := by
  by_cases hc : c
  · simp only [if_pos hc]; exact h1 hc
  · simp only [if_neg hc]; exact h2 hc

theorem Same.mapPy_ {α β β' γ : Type} {g : β → γ} {h : β' → γ} {k : α → Py β} {l : α → Py β'} :
    ∀ (xs : List α), (∀ x ∈ xs, Same g h (k x) (l x)) → Same (List.map g) (List.map h) (mapPy k xs) (mapPy l xs)
  | [], _ => Same.ok_ rfl
  | x :: xs, hx => by
    intro z hz
    simp only [mapPy] at hz ⊢
    cases ha : k x with
    | error e => rw [ha] at hz; cases hz
    | ok u =>
      obtain ⟨v, hv, e⟩ := hx x (by simp) u ha
      rw [ha] at hz
      dsimp only at hz
      cases hb : mapPy k xs with
      | error e => rw [hb] at hz; cases hz
      | ok us =>
        obtain ⟨vs, hvs, e'⟩ := Same.mapPy_ xs (fun y hy => hx y (by simp [hy])) us hb
        rw [hb] at hz
        cases hz
        exact ⟨v :: vs, by rw [hv, hvs], by simp [e, e']⟩

theorem Same.filterMapPy_ {α β β' γ : Type} {g : β → γ} {h : β' → γ} {k : α → Py (Option β)} {l : α → Py (Option β')} :
    ∀ (xs : List α), (∀ x ∈ xs, Same (Option.map g) (Option.map h) (k x) (l x)) →
      Same (List.map g) (List.map h) (filterMapPy k xs) (filterMapPy l xs)
  | [], _ => Same.ok_ rfl
  | x :: xs, hx => by
    intro z hz
    simp only [filterMapPy] at hz ⊢
    cases ha : k x with
    | error e => rw [ha] at hz; cases hz
    | ok u =>
      obtain ⟨v, hv, e⟩ := hx x (by simp) u ha
      rw [ha] at hz
      dsimp only at hz
      cases hb : filterMapPy k xs with
      | error e => rw [hb] at hz; cases u <;> cases hz
      | ok us =>
        obtain ⟨vs, hvs, e'⟩ := Same.filterMapPy_ xs (fun y hy => hx y (by simp [hy])) us hb
        rw [hb] at hz
        rw [hv, hvs]
        cases u with
        | none =>
          cases v with
          | some v => cases e
          | none => cases hz; exact ⟨vs, rfl, e'⟩
        | some u =>
          cases v with
          | none => cases e
          | some v =>
            cases hz
            refine ⟨v :: vs, rfl, ?_⟩
            simp only [Option.map_some, Option.some.injEq] at e
            simp [e, e']

end ReqIF
