import Verif.Spec.Rename
import Verif.Proofs.Shuffle
/-!
# The parser on documents with other identifiers
-/
set_option linter.unusedSimpArgs false
namespace ReqIF.Rename
open ReqIF Spec

variable (σ : Str → Str)

/-- An element of the content, renamed. -/
abbrev ren (n : Node) : Node := node σ false n

/-! ## What the parser asks of an element -/

theorem attr_key (a : Attr) : (attr σ a).key = a.key := by unfold attr; split <;> rfl

theorem kids_eq (f x : Bool) (ks : List Node) :
    kids σ f x ks = ks.map fun k => if x && localName k == c!"THE-VALUE" then k else node σ f k := by
  induction ks with
  | nil => rfl
  | cons k ks ih => simp only [kids, List.map_cons, ih]

theorem isText_ (f : Bool) (n : Node) : (node σ f n).isText = n.isText := by cases n <;> rfl

theorem tag_ (f : Bool) (n : Node) : (node σ f n).tag = n.tag := by cases n <;> rfl

theorem localName_ (f : Bool) (n : Node) : localName (node σ f n) = localName n := by cases n <;> rfl

theorem nsmap_ (f : Bool) (n : Node) : (node σ f n).nsmap = n.nsmap := by cases n <;> rfl

theorem text_ (f : Bool) (n : Node) : (node σ f n).text? = n.text?.map σ := by
  match n with
  | .elem i [] => rfl
  | .elem i (.text s :: ks) =>
    have : (localName (Node.text s) == c!"THE-VALUE") = false := rfl
    simp only [node, kids, this, Bool.and_false, Bool.false_eq_true, if_false]
    rfl
  | .elem i (.comment s :: ks) =>
    have : (localName (Node.comment s) == c!"THE-VALUE") = false := rfl
    simp only [node, kids, this, Bool.and_false, Bool.false_eq_true, if_false]
    rfl
  | .elem i (.pi s t :: ks) =>
    have : (localName (Node.pi s t) == c!"THE-VALUE") = false := rfl
    simp only [node, kids, this, Bool.and_false, Bool.false_eq_true, if_false]
    rfl
  | .elem i (.elem j js :: ks) =>
    simp only [node, kids]
    split <;> rfl
  | .text s => rfl
  | .comment s => rfl
  | .pi _ _ => rfl

theorem attrs_find (l : List Attr) (k : Str) :
    (((l.map (attr σ)).find? fun a => a.key == k).map (·.value)) =
      if k = c!"IDENTIFIER" then ((l.find? fun a => a.key == k).map (·.value)).map σ else (l.find? fun a => a.key == k).map (·.value) := by
  induction l with
  | nil => split <;> rfl
  | cons a l ih =>
    rw [List.map_cons, List.find?_cons, List.find?_cons, attr_key]
    by_cases h : a.key = k
    · have : (a.key == k) = true := by simpa using h
      rw [this]
      simp only [Option.map_some]
      unfold attr
      rw [h]
      split <;> rfl
    · have : (a.key == k) = false := by simpa using h
      rw [this]
      exact ih

theorem attr_ (f : Bool) (n : Node) (k : Str) (hk : k ≠ c!"IDENTIFIER") : (node σ f n).attr? k = n.attr? k := by
  cases n with
  | elem i ks =>
    have := attrs_find σ i.attrs k
    rw [if_neg hk] at this
    exact this
  | _ => rfl

theorem attrId_ (f : Bool) (n : Node) : (node σ f n).attr? c!"IDENTIFIER" = (n.attr? c!"IDENTIFIER").map σ := by
  cases n with
  | elem i ks =>
    have := attrs_find σ i.attrs c!"IDENTIFIER"
    rw [if_pos rfl] at this
    exact this
  | _ => rfl

theorem attrReq_ (f : Bool) (n : Node) (k : Str) (hk : k ≠ c!"IDENTIFIER") : attrReq (node σ f n) k = attrReq n k := by
  unfold attrReq
  rw [attr_ σ f n k hk]

theorem attrReqId_ (f : Bool) (n : Node) : attrReq (node σ f n) c!"IDENTIFIER" = pyMap σ (attrReq n c!"IDENTIFIER") := by
  unfold attrReq
  rw [attrId_]
  cases n.attr? c!"IDENTIFIER" <;> rfl

theorem attrReqNI_ (f : Bool) (n : Node) (k : Str) (hk : k ≠ c!"IDENTIFIER") : attrReqNI (node σ f n) k = attrReqNI n k := by
  unfold attrReqNI
  rw [attrReq_ σ f n k hk]

theorem attrReqNIId_ (f : Bool) (n : Node) : attrReqNI (node σ f n) c!"IDENTIFIER" = pyMap σ (attrReqNI n c!"IDENTIFIER") := by
  unfold attrReqNI
  rw [attrReqId_]
  cases attrReq n c!"IDENTIFIER" <;> rfl

theorem tagContains_ (f : Bool) (n : Node) (s : Str) : tagContains (node σ f n) s = tagContains n s := by
  unfold tagContains
  rw [tag_]

theorem isComment_ (f : Bool) (n : Node) : isCommentNode (node σ f n) = isCommentNode n := by
  unfold isCommentNode
  rw [tag_]

/-- The children, where none is left alone. -/
theorem children_ (f : Bool) (n : Node) (h : f = true ∨ localName n ≠ c!"ATTRIBUTE-VALUE-XHTML") :
    (node σ f n).children = n.children.map (node σ (positional (localName n))) := by
  cases n with
  | elem i ks =>
    have hx : (!f && i.name == c!"ATTRIBUTE-VALUE-XHTML") = false := by
      rcases h with rfl | h
      · rfl
      · have : (i.name == c!"ATTRIBUTE-VALUE-XHTML") = false := by simpa [localName] using h
        rw [this, Bool.and_false]
    show (kids σ (positional i.name) (!f && i.name == c!"ATTRIBUTE-VALUE-XHTML") ks).filter (fun k => !k.isText) =
      (ks.filter (fun k => !k.isText)).map (node σ (positional i.name))
    rw [kids_eq, hx, List.filter_map]
    simp only [Bool.false_and, Bool.false_eq_true, if_false]
    congr 1
    apply List.filter_congr
    intro k _
    simp only [Function.comp, isText_]
  | _ => rfl

/-- Outside of a value in which the first element counts. -/
theorem node_first {n : Node} (f g : Bool) (h : localName n ≠ c!"ATTRIBUTE-VALUE-XHTML") : node σ f n = node σ g n := by
  cases n with
  | elem i ks =>
    have : (i.name == c!"ATTRIBUTE-VALUE-XHTML") = false := by simpa [localName] using h
    simp only [node, this, Bool.and_false]
  | _ => rfl

theorem len_ (f : Bool) (n : Node) : (node σ f n).len = n.len := by
  cases n with
  | elem i ks =>
    show ((kids σ (positional i.name) (!f && i.name == c!"ATTRIBUTE-VALUE-XHTML") ks).filter (fun k => !k.isText)).length =
      (ks.filter (fun k => !k.isText)).length
    rw [kids_eq, List.filter_map, List.length_map]
    congr 1
    apply List.filter_congr
    intro k _
    simp only [Function.comp]
    split
    · rfl
    · rw [isText_]
  | _ => rfl

theorem selfClosed_ (f : Bool) (n : Node) : isSelfClosedTag (node σ f n) = isSelfClosedTag n := by
  unfold isSelfClosedTag
  rw [len_, text_, Option.isSome_map]

theorem childTags_ (f : Bool) (n : Node) : childTags (node σ f n) = childTags n := by
  cases n with
  | elem i ks =>
    show ((kids σ (positional i.name) (!f && i.name == c!"ATTRIBUTE-VALUE-XHTML") ks).filter (fun k => !k.isText)).map Node.tag =
      (ks.filter (fun k => !k.isText)).map Node.tag
    rw [kids_eq, List.filter_map, List.map_map]
    have e1 : (ks.filter ((fun k : Node => !k.isText) ∘ fun k => if (!f && i.name == c!"ATTRIBUTE-VALUE-XHTML") && localName k == c!"THE-VALUE" then k
        else node σ (positional i.name) k)) = ks.filter (fun k => !k.isText) := by
      apply List.filter_congr
      intro k _
      simp only [Function.comp]
      split
      · rfl
      · rw [isText_]
    rw [e1]
    apply List.map_congr_left
    intro k _
    simp only [Function.comp]
    split
    · rfl
    · rw [tag_]
  | _ => rfl

/-- The first child element of a name. -/
theorem find_any (f : Bool) (n : Node) (t : Str) (ht : plainTag t = true) (hv : t ≠ c!"THE-VALUE") :
    (node σ f n).find t = (n.find t).map (node σ (positional (localName n))) := by
  cases n with
  | elem i ks =>
    show (kids σ (positional i.name) (!f && i.name == c!"ATTRIBUTE-VALUE-XHTML") ks).find? (fun k => !k.isText && k.tag == .name t) =
      (ks.find? (fun k => !k.isText && k.tag == .name t)).map (node σ (positional i.name))
    rw [kids_eq]
    induction ks with
    | nil => rfl
    | cons k ks ih =>
      rw [List.map_cons, List.find?_cons, List.find?_cons]
      by_cases hk : (!k.isText && k.tag == .name t) = true
      · have hn : localName k ≠ c!"THE-VALUE" := by
          rw [localName_of_plain (by have h2 := (Bool.and_eq_true _ _).mp hk; simpa using h2.2) ht]
          exact hv
        have : (localName k == c!"THE-VALUE") = false := by simpa using hn
        simp only [this, Bool.and_false, Bool.false_eq_true, if_false, isText_, tag_, hk, Option.map_some]
      · rw [Bool.not_eq_true] at hk
        rw [hk]
        have : (!(if (!f && i.name == c!"ATTRIBUTE-VALUE-XHTML") && localName k == c!"THE-VALUE" then k else node σ (positional i.name) k).isText &&
            (if (!f && i.name == c!"ATTRIBUTE-VALUE-XHTML") && localName k == c!"THE-VALUE" then k else node σ (positional i.name) k).tag == Tag.name t) = false := by
          split
          · exact hk
          · rw [isText_, tag_]; exact hk
        rw [this]
        exact ih
  | _ => rfl

theorem find_name {n k : Node} {t : Str} (h : n.find t = some k) : k.tag = .name t := by
  have := List.find?_some h
  have h2 := (Bool.and_eq_true _ _).mp this
  simpa using h2.2

theorem find_local {n k : Node} {t : Str} (h : n.find t = some k) (ht : plainTag t = true) : localName k = t :=
  localName_of_plain (find_name h) ht

theorem find_ (f : Bool) (n : Node) (t : Str) (ht : plainTag t = true) (hv : t ≠ c!"THE-VALUE") (hx : t ≠ c!"ATTRIBUTE-VALUE-XHTML") :
    (node σ f n).find t = (n.find t).map (ren σ) := by
  rw [find_any σ f n t ht hv]
  cases hf : n.find t with
  | none => rfl
  | some k =>
    simp only [Option.map_some]
    rw [node_first σ _ false (by rw [find_local hf ht]; exact hx)]

theorem findReq_ (f : Bool) (n : Node) (t : Str) (ht : plainTag t = true) (hv : t ≠ c!"THE-VALUE") (hx : t ≠ c!"ATTRIBUTE-VALUE-XHTML") :
    findReq (node σ f n) t = pyMap (ren σ) (findReq n t) := by
  unfold findReq
  rw [find_ σ f n t ht hv hx]
  cases n.find t <;> rfl

/-- The content of an XHTML value. -/
theorem findValue_ (n : Node) (h : localName n = c!"ATTRIBUTE-VALUE-XHTML") : (ren σ n).find c!"THE-VALUE" = n.find c!"THE-VALUE" := by
  cases n with
  | elem i ks =>
    have hx : (!false && i.name == c!"ATTRIBUTE-VALUE-XHTML") = true := by simpa [localName] using h
    show (kids σ (positional i.name) (!false && i.name == c!"ATTRIBUTE-VALUE-XHTML") ks).find? (fun k => !k.isText && k.tag == .name c!"THE-VALUE") =
      ks.find? (fun k => !k.isText && k.tag == .name c!"THE-VALUE")
    rw [kids_eq, hx]
    clear hx h
    induction ks with
    | nil => rfl
    | cons k ks ih =>
      rw [List.map_cons, List.find?_cons, List.find?_cons, ih]
      by_cases hk : localName k = c!"THE-VALUE"
      · have : (localName k == c!"THE-VALUE") = true := by simpa using hk
        simp only [this, Bool.and_true, if_true]
      · have h1 : (localName k == c!"THE-VALUE") = false := by simpa using hk
        have h2 : (k.tag == Tag.name c!"THE-VALUE") = false := by
          apply Bool.eq_false_iff.2
          intro e
          exact hk (localName_of_plain (by simpa using e) (by decide))
        simp only [h1, Bool.and_false, Bool.false_eq_true, if_false, tag_, h2]
  | _ => rfl

theorem firstChild_ (f : Bool) (n : Node) (h : f = true ∨ localName n ≠ c!"ATTRIBUTE-VALUE-XHTML") :
    firstChild (node σ f n) = pyMap (node σ (positional (localName n))) (firstChild n) := by
  unfold firstChild
  rw [children_ σ f n h]
  cases n.children <;> rfl

/-- A reference in the first element of the first element. -/
theorem ref_ (x : Node) (h : positional (localName x) = true) {β : Type} (g : Option Str → Py β) :
    (firstChild (ren σ x) >>= fun d => firstChild d >>= fun r => g r.text?) =
      (firstChild x >>= fun d => firstChild d >>= fun r => g (r.text?.map σ)) := by
  rw [firstChild_ σ false x (.inr (by intro e; rw [e] at h; cases h)), h]
  cases firstChild x with
  | error e => rfl
  | ok d =>
    show (firstChild (node σ true d) >>= _) = _
    rw [firstChild_ σ true d (.inl rfl)]
    cases hc : firstChild d with
    | error e =>
      show _ = firstChild d >>= _
      rw [hc]
      rfl
    | ok k =>
      show g (node σ _ k).text? = firstChild d >>= _
      rw [hc, text_]
      rfl

/-- Removes the renaming from what the parser asks of an element. -/
syntax "rn " term : tactic
macro_rules
  | `(tactic| rn $s) => `(tactic| simp (maxSteps := 2000000) (disch := decide) only [tag_ $s, attr_ $s, attrId_ $s, attrReq_ $s, attrReqId_ $s,
      attrReqNI_ $s, attrReqNIId_ $s, tagContains_ $s, isComment_ $s, childTags_ $s, selfClosed_ $s, find_ $s, findReq_ $s, text_ $s, nsmap_ $s,
      len_ $s, bind_pyMap, pyMap_bind, pyMap_pure, pyMap_throw, map_ite, Option.isSome_map])

/-! ## The items -/

theorem enumValue_ (x : Node) : parseEnumValue (ren σ x) = pyMap (enumValue σ) (parseEnumValue x) := by
  unfold parseEnumValue
  rn σ
  rfl

theorem dataType_ (x : Node) : parseDataType (ren σ x) = pyMap (dataType σ) (parseDataType x) := by
  unfold parseDataType
  rn σ
  congr 1; funext _
  congr 1; funext _
  congr 1; funext i
  cases hf : x.find c!"SPECIFIED-VALUES" with
  | none =>
    cases x.attr? c!"ACCURACY" with
    | none => rfl
    | some a => simp only [Option.map_none]; cases pyInt a <;> rfl
  | some sv =>
    have hl := find_local hf (by decide)
    have e : mapPy parseEnumValue (ren σ sv).children = pyMap (List.map (enumValue σ)) (mapPy parseEnumValue sv.children) := by
      rw [children_ σ false sv (.inr (by rw [hl]; decide)), hl, mapPy_maps, ← mapPy_pyMap]
      exact mapPy_congr (fun x _ => enumValue_ σ x)
    simp only [Option.map_some, e, bind_pyMap, pyMap_bind, pyMap_pure]
    cases x.attr? c!"ACCURACY" with
    | none => rfl
    | some a => simp only []; cases pyInt a <;> rfl

theorem xhtmlValue_ (x : Node) (h : x.tag = .name c!"ATTRIBUTE-VALUE-XHTML") :
    parseXhtmlAttributeValue (ren σ x) = pyMap (value σ) (parseXhtmlAttributeValue x) := by
  have hv : findReq (ren σ x) c!"THE-VALUE" = findReq x c!"THE-VALUE" := by
    unfold findReq
    rw [findValue_ σ x (localName_of_plain h (by decide))]
  unfold parseXhtmlAttributeValue
  rw [hv]
  rn σ
  rfl

theorem simpleValue_ (x : Node) (t : AttrType) (r : Str) (hr : plainTag r = true) (h1 : r ≠ c!"THE-VALUE") (h2 : r ≠ c!"ATTRIBUTE-VALUE-XHTML") :
    parseSimpleValue (ren σ x) t r = pyMap (value σ) (parseSimpleValue x t r) := by
  unfold parseSimpleValue
  rn σ
  simp only [findReq_ σ false _ r hr h1 h2, bind_pyMap, text_]
  rfl

theorem value_ (x : Node) : parseAttributeValue (ren σ x) = pyMap (value σ) (parseAttributeValue x) := by
  unfold parseAttributeValue
  rw [tag_]
  by_cases hs : x.tag = .name c!"ATTRIBUTE-VALUE-STRING"
  · rw [if_pos hs, if_pos hs, attrReq_ σ _ _ _ (by decide)]
    simp only [pyMap_bind]
    congr 1; funext v
    exact ref_ σ x (by rw [localName_of_plain hs (by decide)]; rfl) (fun r => (pure ⟨.string, r, .str v, none, some (ren σ x)⟩ : Py SpecObjectAttribute))
  rw [if_neg hs, if_neg hs]
  by_cases he : x.tag = .name c!"ATTRIBUTE-VALUE-ENUMERATION"
  · rw [if_pos he, if_pos he]
    rn σ
    congr 1; funext d
    congr 1; funext r
    cases hf : x.find c!"VALUES" with
    | none => rfl
    | some vs =>
      have hl := find_local hf (by decide)
      simp only [Option.map_some]
      rw [children_ σ false vs (.inr (by rw [hl]; decide)), hl, List.map_map]
      have : Node.text? ∘ node σ (positional c!"VALUES") = Option.map σ ∘ Node.text? := by funext k; exact text_ σ _ k
      rw [this, ← List.map_map]
      rfl
  rw [if_neg he, if_neg he]
  simp (disch := decide) only [simpleValue_, map_ite]
  by_cases hx : x.tag = .name c!"ATTRIBUTE-VALUE-XHTML"
  · rw [xhtmlValue_ σ x hx]; rfl
  · simp only [if_neg hx]; rfl

theorem values_ {n : Node} (o : Option Node) (ho : o = n.find c!"VALUES") :
    parseAttributeValues (o.map (ren σ)) = pyMap (Option.map (List.map (value σ))) (parseAttributeValues o) := by
  cases o with
  | none => rfl
  | some x =>
    have hl := find_local ho.symm (by decide)
    simp only [Option.map_some, parseAttributeValues]
    rw [children_ σ false x (.inr (by rw [hl]; decide)), hl, List.filter_map, mapPy_maps]
    have e : ((fun c => !isCommentNode c) ∘ node σ (positional c!"VALUES")) = (fun c => !isCommentNode c) := by
      funext k
      simp only [Function.comp, isComment_]
    rw [e, mapPy_congr (f := fun x => parseAttributeValue (node σ (positional c!"VALUES") x)) (g := fun x => pyMap (value σ) (parseAttributeValue x))
      (fun x _ => value_ σ x), mapPy_pyMap, bind_pyMap, pyMap_bind]
    rfl

theorem datatypeRef_ (x : Node) (t : Str) (ht : plainTag t = true) (h1 : t ≠ c!"THE-VALUE") (h2 : t ≠ c!"ATTRIBUTE-VALUE-XHTML") :
    parseDatatypeRef (ren σ x) t = pyMap (Option.map σ) (parseDatatypeRef x t) := by
  unfold parseDatatypeRef
  rn σ
  simp only [findReq_ σ false _ t ht h1 h2, bind_pyMap, text_]
  cases findReq x c!"TYPE" with
  | error e => rfl
  | ok d => cases hr : findReq d t <;> simp only [py_bind_ok, hr] <;> rfl

theorem default_ (x : Node) : (ren σ x).find c!"DEFAULT-VALUE" = (x.find c!"DEFAULT-VALUE").map (ren σ) :=
  find_ σ false x _ (by decide) (by decide) (by decide)

/-- The reference and the value of a default. -/
def part (t : AttrType) (d : DefaultPart) : DefaultPart := (d.1.map σ, d.2.map (preset σ t))

theorem defaultString_ (x : Node) : parseDefaultString (ren σ x) = pyMap (part σ .string) (parseDefaultString x) := by
  unfold parseDefaultString
  rw [default_]
  cases x.find c!"DEFAULT-VALUE" with
  | none => rfl
  | some d =>
    simp only [Option.map_some]
    rn σ
    congr 1
    cases d.find c!"ATTRIBUTE-VALUE-STRING" with
    | none => rfl
    | some v =>
      simp only [Option.map_some]
      rn σ
      rfl

theorem defaultSimple_ (x : Node) (t : Str) (y : AttrType) (hy : y ≠ .enumeration) (ht : plainTag t = true) (h1 : t ≠ c!"THE-VALUE")
    (h2 : t ≠ c!"ATTRIBUTE-VALUE-XHTML") : parseDefaultSimple (ren σ x) t = pyMap (part σ y) (parseDefaultSimple x t) := by
  unfold parseDefaultSimple
  rw [default_]
  cases x.find c!"DEFAULT-VALUE" with
  | none => rfl
  | some d =>
    simp only [Option.map_some, find_ σ false _ t ht h1 h2]
    cases d.find t with
    | none => rfl
    | some v =>
      simp only [Option.map_some]
      rn σ
      congr 1; funext s
      cases y <;> first | rfl | exact absurd rfl hy

theorem defaultBoolean_ (x : Node) : parseDefaultBoolean (ren σ x) = pyMap (part σ .boolean) (parseDefaultBoolean x) := by
  unfold parseDefaultBoolean
  rw [default_]
  cases x.find c!"DEFAULT-VALUE" with
  | none => rfl
  | some d =>
    simp only [Option.map_some]
    rn σ
    cases d.find c!"ATTRIBUTE-VALUE-BOOLEAN" with
    | none => rfl
    | some v =>
      simp only [Option.map_some]
      rn σ
      congr 1; funext s
      cases v.find c!"DEFINITION" with
      | none => rfl
      | some df =>
        simp only [Option.map_some]
        rn σ
        cases df.find c!"ATTRIBUTE-DEFINITION-BOOLEAN-REF" with
        | none => rfl
        | some r => simp only [Option.map_some, text_]; rfl

theorem defaultXhtml_ (x : Node) : parseDefaultXhtml (ren σ x) = pyMap (part σ .xhtml) (parseDefaultXhtml x) := by
  unfold parseDefaultXhtml
  rw [default_]
  cases hd : x.find c!"DEFAULT-VALUE" with
  | none => rfl
  | some d =>
    have hl := find_local hd (by decide)
    simp only [Option.map_some]
    rn σ
    congr 1
    rw [find_any σ false d _ (by decide) (by decide), hl]
    cases hv : d.find c!"ATTRIBUTE-VALUE-XHTML" with
    | none => rfl
    | some v =>
      have hf : findReq (ren σ v) c!"THE-VALUE" = findReq v c!"THE-VALUE" := by
        unfold findReq
        rw [findValue_ σ v (find_local hv (by decide))]
      simp only [Option.map_some]
      rw [show node σ (positional c!"DEFAULT-VALUE") v = ren σ v from rfl, hf]
      rn σ
      cases v.find c!"DEFINITION" with
      | none => rfl
      | some df =>
        simp only [Option.map_some]
        rn σ
        cases df.find c!"ATTRIBUTE-DEFINITION-XHTML-REF" with
        | none => rfl
        | some r => simp only [Option.map_some, text_]; rfl

theorem defaultEnumeration_ (x : Node) : parseDefaultEnumeration (ren σ x) = pyMap (part σ .enumeration) (parseDefaultEnumeration x) := by
  unfold parseDefaultEnumeration
  rw [default_]
  cases x.find c!"DEFAULT-VALUE" with
  | none => rfl
  | some d =>
    simp only [Option.map_some]
    rn σ
    congr 1
    cases d.find c!"ATTRIBUTE-VALUE-ENUMERATION" with
    | none => rfl
    | some v =>
      simp only [Option.map_some]
      rn σ
      have e : ∀ vs : Node, (match (ren σ vs).find c!"ENUM-VALUE-REF" with
            | none => none
            | some r => r.text?.map DefaultValue.str : Option DefaultValue) =
          (match vs.find c!"ENUM-VALUE-REF" with
            | none => none
            | some r => r.text?.map DefaultValue.str : Option DefaultValue).map (preset σ .enumeration) := by
        intro vs
        rn σ
        cases vs.find c!"ENUM-VALUE-REF" with
        | none => rfl
        | some r =>
          simp only [Option.map_some, text_]
          cases r.text? <;> rfl
      cases v.find c!"DEFINITION" with
      | none =>
        cases v.find c!"VALUES" with
        | none => rfl
        | some vs => exact congrArg (fun o => Except.ok (none, o)) (e vs)
      | some df =>
        simp only [Option.map_some]
        rn σ
        cases findReq df c!"ATTRIBUTE-DEFINITION-ENUMERATION-REF" with
        | error _ => rfl
        | ok r =>
          cases v.find c!"VALUES" with
          | none => rfl
          | some vs => exact congrArg (fun o => Except.ok (r.text?.map σ, o)) (e vs)

/-- What is read of a definition. -/
def body (r : AttrType × Option Str × DefaultPart × Option Bool) : AttrType × Option Str × DefaultPart × Option Bool :=
  (r.1, r.2.1.map σ, part σ r.1 r.2.2.1, r.2.2.2)

theorem body_ (x : Node) : parseDefinitionBody (ren σ x) = pyMap (body σ) (parseDefinitionBody x) := by
  unfold parseDefinitionBody parseMultiValued
  have e : ∀ t y, y ≠ .enumeration → plainTag t = true → t ≠ c!"THE-VALUE" → t ≠ c!"ATTRIBUTE-VALUE-XHTML" →
      parseDefaultSimple (ren σ x) t = pyMap (part σ y) (parseDefaultSimple x t) := fun t y hy h1 h2 h3 => defaultSimple_ σ x t y hy h1 h2 h3
  rw [e c!"ATTRIBUTE-VALUE-INTEGER" .integer (by decide) (by decide) (by decide) (by decide),
    e c!"ATTRIBUTE-VALUE-REAL" .real (by decide) (by decide) (by decide) (by decide),
    e c!"ATTRIBUTE-VALUE-DATE" .date (by decide) (by decide) (by decide) (by decide),
    defaultString_, defaultBoolean_, defaultXhtml_, defaultEnumeration_, tag_, attr_ σ _ _ _ (by decide)]
  simp only [map_ite]
  rw [datatypeRef_ σ x c!"DATATYPE-DEFINITION-STRING-REF" (by decide) (by decide) (by decide),
    datatypeRef_ σ x c!"DATATYPE-DEFINITION-INTEGER-REF" (by decide) (by decide) (by decide),
    datatypeRef_ σ x c!"DATATYPE-DEFINITION-REAL-REF" (by decide) (by decide) (by decide),
    datatypeRef_ σ x c!"DATATYPE-DEFINITION-BOOLEAN-REF" (by decide) (by decide) (by decide),
    datatypeRef_ σ x c!"DATATYPE-DEFINITION-XHTML-REF" (by decide) (by decide) (by decide),
    datatypeRef_ σ x c!"DATATYPE-DEFINITION-ENUMERATION-REF" (by decide) (by decide) (by decide),
    datatypeRef_ σ x c!"DATATYPE-DEFINITION-DATE-REF" (by decide) (by decide) (by decide)]
  simp only [bind_pyMap, pyMap_bind]
  rfl

theorem definition_ (x : Node) : parseAttributeDefinition (ren σ x) = pyMap (definition σ) (parseAttributeDefinition x) := by
  unfold parseAttributeDefinition
  rw [body_]
  rn σ
  rfl

theorem definitions_ (x : Node) : parseAttributeDefinitions (ren σ x) =
    pyMap (Option.map (List.map (definition σ))) (parseAttributeDefinitions x) := by
  unfold parseAttributeDefinitions
  rn σ
  cases hf : x.find c!"SPEC-ATTRIBUTES" with
  | none => rfl
  | some sa =>
    have hl := find_local hf (by decide)
    simp only [Option.map_some]
    rw [children_ σ false sa (.inr (by rw [hl]; decide)), hl, mapPy_maps,
      mapPy_congr (f := fun x => parseAttributeDefinition (node σ (positional c!"SPEC-ATTRIBUTES") x))
        (g := fun x => pyMap (definition σ) (parseAttributeDefinition x)) (fun x _ => definition_ σ x), mapPy_pyMap, bind_pyMap, pyMap_bind]
    rfl

/-! ## Dictionaries -/

variable (hσ : ∀ s t, σ s = σ t → s = t)

theorem set_keys {κ α β : Type} [DecidableEq κ] (τ : κ → κ) (hτ : ∀ s t, τ s = τ t → s = t) (g : α → β) (d : Dict κ α) (k : κ) (v : α) :
    (Dict.set d k v).map (fun e => (τ e.1, g e.2)) = Dict.set (d.map (fun e => (τ e.1, g e.2))) (τ k) (g v) := by
  induction d with
  | nil => rfl
  | cons e d ih =>
    obtain ⟨k', v'⟩ := e
    simp only [Dict.set, List.map_cons]
    by_cases h : k' = k
    · simp only [if_pos h, if_pos (congrArg τ h), List.map_cons]
    · simp only [if_neg h, if_neg (fun e => h (hτ _ _ e)), List.map_cons, ih]

theorem get_keys {κ α β : Type} [DecidableEq κ] (τ : κ → κ) (hτ : ∀ s t, τ s = τ t → s = t) (g : α → β) (d : Dict κ α) (k : κ) :
    Dict.get? (d.map (fun e => (τ e.1, g e.2))) (τ k) = (Dict.get? d k).map g := by
  induction d with
  | nil => rfl
  | cons e d ih =>
    obtain ⟨k', v'⟩ := e
    simp only [Dict.get?, List.map_cons]
    by_cases h : k' = k
    · simp only [if_pos h, if_pos (congrArg τ h), Option.map_some]
    · simp only [if_neg h, if_neg (fun e => h (hτ _ _ e)), ih]

theorem index_keys {κ α : Type} [DecidableEq κ] (τ : κ → κ) (hτ : ∀ s t, τ s = τ t → s = t) (key : α → κ) (g : α → α)
    (hg : ∀ a, key (g a) = τ (key a)) (l : List α) : (indexBy key l).map (fun e => (τ e.1, g e.2)) = indexBy key (l.map g) := by
  unfold indexBy
  have : ∀ d : Dict κ α, (l.foldl (fun d x => Dict.set d (key x) x) d).map (fun e => (τ e.1, g e.2)) =
      (l.map g).foldl (fun d x => Dict.set d (key x) x) (d.map (fun e => (τ e.1, g e.2))) := by
    induction l with
    | nil => intro d; rfl
    | cons a l ih =>
      intro d
      simp only [List.foldl_cons, List.map_cons, hg]
      rw [ih, set_keys τ hτ]
  exact this []

include hσ

theorem attributeMap_ (ds : List SpecAttributeDefinition) (m : Dict Str Str) :
    specAttributeMap (ds.map (definition σ)) (dict σ id m) = pyMap (dict σ id) (specAttributeMap ds m) := by
  induction ds generalizing m with
  | nil => rfl
  | cons d ds ih =>
    simp only [List.map_cons, specAttributeMap]
    show (match d.longName with | none => _ | some n => specAttributeMap (ds.map (definition σ)) ((dict σ id m).set (σ d.identifier) n)) = _
    cases d.longName with
    | none => rfl
    | some n =>
      have := set_keys σ hσ id m d.identifier n
      show specAttributeMap (ds.map (definition σ)) ((dict σ id m).set (σ d.identifier) n) = _
      rw [show (dict σ id m).set (σ d.identifier) n = dict σ id (m.set d.identifier n) from this.symm]
      exact ih _

omit hσ in
theorem objectType_ (x : Node) : parseSpecObjectType (ren σ x) = pyMap (objectType σ) (parseSpecObjectType x) := by
  unfold parseSpecObjectType
  rw [definitions_]
  rn σ
  rfl

omit hσ in
theorem relationType_ (x : Node) : parseSpecRelationType (ren σ x) = pyMap (relationType σ) (parseSpecRelationType x) := by
  unfold parseSpecRelationType
  rw [definitions_]
  rn σ
  rfl

omit hσ in
theorem groupType_ (x : Node) : parseRelationGroupType (ren σ x) = pyMap (relationType σ) (parseRelationGroupType x) := by
  unfold parseRelationGroupType
  rw [definitions_]
  rn σ
  rfl

theorem specificationType_ (x : Node) : parseSpecificationType (ren σ x) = pyMap (specificationType σ) (parseSpecificationType x) := by
  unfold parseSpecificationType
  rw [definitions_]
  rn σ
  congr 1; funext _
  congr 1; funext i
  congr 1; funext l
  congr 1; funext o
  cases o with
  | none => rfl
  | some ds =>
    have := attributeMap_ σ hσ ds []
    simp only [Option.map_some]
    rw [show specAttributeMap (ds.map (definition σ)) [] = _ from this, bind_pyMap]
    rfl

theorem type_ (x : Node) : parseSpecType (ren σ x) = pyMap (Option.map (type σ)) (parseSpecType x) := by
  unfold parseSpecType
  simp only [map_ite, tag_, isComment_, objectType_, relationType_, groupType_, specificationType_ σ hσ, bind_pyMap, pyMap_bind]
  rfl

omit hσ in
theorem object_ (x : Node) : parseSpecObject (ren σ x) = pyMap (object σ) (parseSpecObject x) := by
  unfold parseSpecObject
  rn σ
  rw [values_ σ (x.find c!"VALUES") rfl]
  simp only [bind_pyMap]
  congr 1; funext _
  congr 1; funext _
  congr 1; funext _
  congr 1; funext _
  congr 1; funext _
  congr 1; funext o
  cases o <;> rfl

omit hσ in
theorem relationValues_ {n : Node} (o : Option Node) (ho : o = n.find c!"VALUES") :
    parseRelationValues (o.map (ren σ)) = pyMap (Option.map (value σ)) (parseRelationValues o) := by
  cases o with
  | none => rfl
  | some vs =>
    have hl := find_local ho.symm (by decide)
    simp only [Option.map_some, parseRelationValues]
    rw [children_ σ false vs (.inr (by rw [hl]; decide)), hl]
    cases vs.children with
    | nil => rfl
    | cons x xs =>
      simp only [List.map_cons]
      rw [show node σ (positional c!"VALUES") x = ren σ x from rfl, tag_]
      by_cases h1 : x.tag = .name c!"ATTRIBUTE-VALUE-STRING"
      · rw [if_pos h1, if_pos h1, attrReq_ σ _ _ _ (by decide)]
        simp only [pyMap_bind]
        congr 1; funext v
        exact ref_ σ x (by rw [localName_of_plain h1 (by decide)]; rfl)
          (fun r => (pure (some ⟨.string, r, .str v, none, some (ren σ x)⟩) : Py (Option SpecObjectAttribute)))
      · rw [if_neg h1, if_neg h1]
        by_cases h2 : x.tag = .name c!"ATTRIBUTE-VALUE-XHTML"
        · rw [if_pos h2, if_pos h2, xhtmlValue_ σ x h2]
          simp only [bind_pyMap, pyMap_bind]
          rfl
        · rw [if_neg h2, if_neg h2]
          by_cases h3 : x.tag = .name c!"ATTRIBUTE-VALUE-INTEGER"
          · rw [if_pos h3, if_pos h3, attrReq_ σ _ _ _ (by decide)]
            simp only [pyMap_bind]
            congr 1; funext v
            exact ref_ σ x (by rw [localName_of_plain h3 (by decide)]; rfl)
              (fun r => (pure (some ⟨.integer, r, .str v, none, some (ren σ x)⟩) : Py (Option SpecObjectAttribute)))
          · rw [if_neg h3, if_neg h3]
            rfl

/-- A relation, or the missing tag, renamed. -/
def result : Except MissingTag SpecRelation → Except MissingTag SpecRelation
  | .ok r => .ok (relation σ r)
  | .error e => .error { e with node := ren σ e.node }

omit hσ in
theorem relation_ (x : Node) : parseSpecRelation (ren σ x) = pyMap (result σ) (parseSpecRelation x) := by
  unfold parseSpecRelation
  rn σ
  rw [relationValues_ σ (x.find c!"VALUES") rfl]
  simp only [bind_pyMap]
  rfl

omit hσ in
theorem optRef_ (x : Node) (a b : Str) (ha : plainTag a = true) (hb : plainTag b = true) (h1 : a ≠ c!"THE-VALUE") (h2 : b ≠ c!"THE-VALUE")
    (h3 : a ≠ c!"ATTRIBUTE-VALUE-XHTML") (h4 : b ≠ c!"ATTRIBUTE-VALUE-XHTML") : optRef (ren σ x) a b = (optRef x a b).map σ := by
  unfold optRef
  rw [find_ σ _ _ _ ha h1 h3]
  cases x.find a with
  | none => rfl
  | some t =>
    simp only [Option.map_some, find_ σ _ _ _ hb h2 h4]
    cases t.find b with
    | none => rfl
    | some r => simp only [Option.map_some, text_]

omit hσ in
theorem texts_ (f : Bool) (ks : List Node) : (ks.map (node σ f)).map Node.text? = (ks.map Node.text?).map (Option.map σ) := by
  rw [List.map_map, List.map_map]
  congr 1
  funext k
  exact text_ σ f k

omit hσ in
theorem group_ (x : Node) : parseRelationGroup (ren σ x) = pyMap (group σ) (parseRelationGroup x) := by
  unfold parseRelationGroup
  simp (disch := decide) only [optRef_]
  rn σ
  congr 1; funext _
  congr 1; funext _
  congr 1; funext i
  cases hf : x.find c!"SPEC-RELATIONS" with
  | none => rfl
  | some s =>
    have hl := find_local hf (by decide)
    simp only [Option.map_some]
    rw [children_ σ false s (.inr (by rw [hl]; decide)), texts_]
    simp only [group, Option.map_some]

/-! ## Hierarchies -/

omit hσ in
theorem grouped_ (f : Bool) (n : Node) (t : Str) (ht : plainTag t = true) (hv : t ≠ c!"THE-VALUE") (hx : t ≠ c!"ATTRIBUTE-VALUE-XHTML") :
    (node σ f n).children.filter (fun k => k.tag == .name t) = (n.children.filter (fun k => k.tag == .name t)).map (ren σ) := by
  cases n with
  | elem i ks =>
    show ((kids σ (positional i.name) (!f && i.name == c!"ATTRIBUTE-VALUE-XHTML") ks).filter (fun k => !k.isText)).filter (fun k => k.tag == .name t) =
      ((ks.filter (fun k => !k.isText)).filter (fun k => k.tag == .name t)).map (ren σ)
    rw [kids_eq, List.filter_filter, List.filter_filter, List.filter_map]
    have e1 : (ks.filter ((fun k : Node => (k.tag == .name t) && !k.isText) ∘ fun k =>
        if (!f && i.name == c!"ATTRIBUTE-VALUE-XHTML") && localName k == c!"THE-VALUE" then k
        else node σ (positional i.name) k)) = ks.filter (fun k => (k.tag == .name t) && !k.isText) := by
      apply List.filter_congr
      intro k _
      simp only [Function.comp]
      split
      · rfl
      · rw [isText_, tag_]
    rw [e1]
    apply List.map_congr_left
    intro k hk
    have h2 := (Bool.and_eq_true _ _).mp (List.mem_filter.1 hk).2
    have hl : localName k = t := localName_of_plain (by simpa using h2.1) ht
    have : (localName k == c!"THE-VALUE") = false := by rw [hl]; simpa using hv
    simp only [this, Bool.and_false, Bool.false_eq_true, if_false]
    exact node_first σ _ _ (by rw [hl]; exact hx)
  | _ => rfl

omit hσ in
theorem findLast_ (x : Node) (t : Str) (ht : plainTag t = true) (hv : t ≠ c!"THE-VALUE") (hx : t ≠ c!"ATTRIBUTE-VALUE-XHTML") :
    findLast (ren σ x) t = (findLast x t).map (ren σ) := by
  unfold findLast
  rw [grouped_ σ _ _ _ ht hv hx, List.getLast?_map]

omit hσ in
theorem hierarchiesEq_ (hs : List Hierarchy) : hierarchies σ hs = hs.map (hierarchy σ) := by
  induction hs with
  | nil => rfl
  | cons h hs ih => simp only [hierarchies, List.map_cons, ih]

omit hσ in
theorem hierarchy_ (level : Nat) (x : Node) : parseHierarchy level (ren σ x) = pyMap (hierarchy σ) (parseHierarchy level x) := by
  by_cases hx : Format.isElem x = true
  · rw [hierarchy_from level x hx, hierarchy_from level _ (by cases x <;> exact hx)]
    have hc : ((ren σ x).find c!"CHILDREN").map (childrenFrom (level + 1)) =
        ((x.find c!"CHILDREN").map (childrenFrom (level + 1))).map (pyMap (fun r => (r.1, hierarchies σ r.2))) := by
      rn σ
      cases hf : x.find c!"CHILDREN" with
      | none => rfl
      | some k =>
        have hl := find_local hf (by decide)
        have ih : ∀ c ∈ k.children, parseHierarchy (level + 1) (ren σ c) =
            pyMap (hierarchy σ) (parseHierarchy (level + 1) c) := fun c hc =>
          have := hierarchy_lt hf hc
          hierarchy_ (level + 1) c
        simp only [Option.map_some, childrenFrom, len_, selfClosed_, Option.some.injEq]
        rw [children_ σ false k (.inr (by rw [hl]; decide)), hl, mapPy_maps,
          mapPy_congr (f := fun x => parseHierarchy (level + 1) (node σ (positional c!"CHILDREN") x)) ih, mapPy_pyMap, pyMap_pyMap, pyMap_pyMap]
        congr 1
        funext cs
        simp [hierarchiesEq_]
    rw [hc]
    unfold hierarchyFrom boolAttr
    rn σ
    cases attrReqNI x c!"IDENTIFIER" with
    | error e => rfl
    | ok identifier =>
      cases x.find c!"OBJECT" with
      | none => rfl
      | some o =>
        simp only [Option.map_some, pyMap]
        rn σ
        cases o.find c!"SPEC-OBJECT-REF" with
        | none => rfl
        | some r =>
          cases x.find c!"CHILDREN" with
          | none => simp only [Option.map_some, Option.map_none, text_]; rfl
          | some k =>
            simp only [Option.map_some, Option.map_none, text_]
            cases childrenFrom (level + 1) k with
            | error e => rfl
            | ok r => rfl
  · cases x with
    | elem i ks => exact absurd rfl hx
    | text s => simp [parseHierarchy, node, pyMap]
    | comment s => simp [parseHierarchy, node, pyMap]
    | pi a b => simp [parseHierarchy, node, pyMap]
termination_by sizeOf x

omit hσ in
theorem specification_ (x : Node) : parseSpecification (ren σ x) = pyMap (specification σ) (parseSpecification x) := by
  unfold parseSpecification
  simp (disch := decide) only [optRef_, findLast_]
  rn σ
  rw [values_ σ (x.find c!"VALUES") rfl]
  simp only [bind_pyMap]
  congr 1; funext _
  congr 1; funext _
  congr 1; funext _
  cases hf : findLast x c!"CHILDREN" with
  | none => rfl
  | some c =>
    have hl : localName c = c!"CHILDREN" := by
      have := List.mem_of_getLast? hf
      exact localName_of_plain (by simpa using (List.mem_filter.1 this).2) (by decide)
    simp only [Option.map_some]
    rw [children_ σ false c (.inr (by rw [hl]; decide)), hl, mapPy_maps,
      mapPy_congr (f := fun x => parseHierarchy 1 (node σ (positional c!"CHILDREN") x)) (fun x _ => hierarchy_ σ 1 x), mapPy_pyMap, bind_pyMap]
    cases mapPy (parseHierarchy 1) c.children with
    | error e => rfl
    | ok hs =>
      simp only [py_bind_ok, py_pure]
      congr 1
      funext vs
      simp only [pyMap, specification, Option.map_some, hierarchiesEq_]

/-! ## Printing an element only for the message -/

omit hσ in
mutual
theorem node_tried (f r : Bool) (n : Node) : tried (stringifyNode r (node σ f n)) = tried (stringifyNode r n) :=
  match n with
  | .elem i ks => by
    rw [node, tried_elem, tried_elem]
    exact kids_tried _ _ ks
  | .text s => rfl
  | .comment s => rfl
  | .pi _ _ => rfl

theorem kids_tried (f x : Bool) (ks : List Node) : tried (stringifyKids (kids σ f x ks)) = tried (stringifyKids ks) :=
  match ks with
  | [] => rfl
  | k :: ks => by
    rw [kids, tried_kids, tried_kids, kids_tried f x ks]
    split
    · rfl
    · rw [node_tried f false k]
end

omit hσ in
theorem relationItem_ (x : Node) : relationItem (ren σ x) = pyMap (result σ) (relationItem x) := by
  unfold relationItem
  rw [relation_]
  cases parseSpecRelation x with
  | error e => rfl
  | ok r =>
    cases r with
    | ok r => rfl
    | error m =>
      have ht := node_tried σ false false m.node
      show (match stringifyNode false (ren σ m.node) with | .error e => _ | .ok _ => _) = _
      revert ht
      simp only
      generalize stringifyNode false (node σ false m.node) = a
      generalize stringifyNode false m.node = b
      intro ht
      cases a <;> cases b <;> simp_all [tried, pyMap, result]

omit hσ in
theorem objectItem_ (x : Node) : objectItem (ren σ x) = pyMap (Option.map (object σ)) (objectItem x) := by
  unfold objectItem someItem
  rw [isComment_, object_]
  split
  · rfl
  · cases parseSpecObject x <;> rfl

/-! ## The content -/

omit hσ in
theorem items_ {β : Type} (x : Node) (tag : Str) (ht : plainTag tag = true) (hv : tag ≠ c!"THE-VALUE") (hx : tag ≠ c!"ATTRIBUTE-VALUE-XHTML")
    (hp : positional tag = false) (f : List Node → Py β) (g : β → β) (h : ∀ xs, f (xs.map (ren σ)) = pyMap g (f xs)) :
    parsedItems (ren σ x) tag f = pyMap (Option.map g) (parsedItems x tag f) := by
  unfold parsedItems
  rw [find_ σ _ _ _ ht hv hx]
  cases hf : x.find tag with
  | none => rfl
  | some c =>
    have hl := find_local hf ht
    simp only [Option.map_some]
    rw [children_ σ false c (.inr (by rw [hl]; exact hx)), hl, hp, h]
    cases f c.children <;> rfl

omit hσ in
theorem goodRelations_ (rs : List (Except MissingTag SpecRelation)) :
    goodRelations (rs.map (result σ)) = (goodRelations rs).map (relation σ) := by
  unfold goodRelations
  rw [List.filterMap_map, List.map_filterMap]
  congr 1
  funext r
  cases r <;> rfl

omit hσ in
theorem relationErrors_ (rs : List (Except MissingTag SpecRelation)) :
    relationErrors (rs.map (result σ)) = (relationErrors rs).map (fun e => { e with node := ren σ e.node }) := by
  unfold relationErrors
  rw [List.filterMap_map, List.map_filterMap]
  congr 1
  funext r
  cases r <;> rfl

theorem optKeys (a b : Option Str) (h : a.map σ = b.map σ) : a = b := by
  cases a <;> cases b
  · rfl
  · cases h
  · cases h
  · rw [hσ _ _ (Option.some.inj h)]

theorem parents_ (rs : List SpecRelation) (d : Dict (Option Str) (List (Option Str))) :
    (rs.map (relation σ)).foldl (fun d r => appendParent d r.source r.target) (d.map fun e => (e.1.map σ, e.2.map (Option.map σ))) =
      (rs.foldl (fun d r => appendParent d r.source r.target) d).map fun e => (e.1.map σ, e.2.map (Option.map σ)) := by
  induction rs generalizing d with
  | nil => rfl
  | cons r rs ih =>
    simp only [List.map_cons, List.foldl_cons]
    rw [← ih]
    congr 1
    unfold appendParent
    rw [set_keys (Option.map σ) (optKeys σ hσ) (List.map (Option.map σ))]
    show Dict.set _ (r.source.map σ) ((Dict.get? _ (r.source.map σ)).getD [] ++ [r.target.map σ]) = _
    rw [get_keys (Option.map σ) (optKeys σ hσ) (List.map (Option.map σ))]
    congr 1
    cases Dict.get? d r.source <;> simp

/-- The results of `parseContent`, renamed. -/
def parts (r : Content × Lookup × List MissingTag) : Content × Lookup × List MissingTag :=
  (content σ r.1, lookup σ r.2.1, r.2.2.map fun e => { e with node := ren σ e.node })

theorem assembled_ (a : Py (Option (List DataType))) (b : Py (Option (List SpecType)))
    (c : Py (Option (List Specification))) (d : Py (Option (List (Except MissingTag SpecRelation))))
    (e : Py (Option (List SpecObject))) (f : Py (Option (List RelationGroup))) :
    assembled (pyMap (Option.map (List.map (dataType σ))) a) (pyMap (Option.map (List.map (type σ))) b)
      (pyMap (Option.map (List.map (specification σ))) c)
      (pyMap (Option.map (List.map (result σ))) d) (pyMap (Option.map (List.map (object σ))) e)
      (pyMap (Option.map (List.map (group σ))) f) =
      pyMap (parts σ) (assembled a b c d e f) := by
  unfold assembled
  simp only [bind_pyMap, pyMap_bind, pyMap_pure]
  congr 1; funext dts
  congr 1; funext sts
  congr 1; funext sps
  congr 1; funext rels
  congr 1; funext objs
  congr 1; funext groups
  have h1 : ∀ {α : Type} (g : α → α) (o : Option (List α)), (o.map (List.map g)).getD [] = (o.getD []).map g := by
    intro α g o; cases o <;> rfl
  have i1 := index_keys σ hσ DataType.identifier (dataType σ) (fun _ => rfl) (dts.getD [])
  have i2 := index_keys σ hσ SpecType.identifier (type σ) (fun t => by cases t <;> rfl) (sts.getD [])
  have i3 := index_keys σ hσ SpecObject.identifier (object σ) (fun _ => rfl) (objs.getD [])
  have i4 := parents_ σ hσ (goodRelations (rels.getD [])) []
  simp only [h1, ← i1, ← i2, ← i3, goodRelations_, relationErrors_]
  rw [show (List.map (relation σ) (goodRelations (rels.getD []))).foldl (fun d r => appendParent d r.source r.target) [] = _ from i4]
  simp only [parts, content, lookup, dict]
  congr 3
  cases rels with
  | none => rfl
  | some rs => simp only [Option.map_some, goodRelations_]

theorem content_ (x : Node) :
    (parseContent (none : Option (Callback Unit)) (ren σ x) ()).1 =
      pyMap (parts σ) (parseContent (none : Option (Callback Unit)) x ()).1 := by
  rw [parseContent_assembled, parseContent_assembled, ← assembled_ σ hσ]
  rw [items_ σ x c!"DATATYPES" (by decide) (by decide) (by decide) rfl _ (List.map (dataType σ))
      (fun xs => by simp only [mapPy_maps, dataType_, mapPy_pyMap]),
    items_ σ x c!"SPEC-TYPES" (by decide) (by decide) (by decide) rfl _ (List.map (type σ))
      (fun xs => by simp only [filterMapPy_maps, type_ σ hσ, filterMapPy_pyMap]),
    items_ σ x c!"SPECIFICATIONS" (by decide) (by decide) (by decide) rfl _ (List.map (specification σ))
      (fun xs => by simp only [mapPy_maps, specification_, mapPy_pyMap]),
    items_ σ x c!"SPEC-RELATIONS" (by decide) (by decide) (by decide) rfl _ (List.map (result σ))
      (fun xs => by simp only [mapPy_maps, relationItem_, mapPy_pyMap]),
    items_ σ x c!"SPEC-OBJECTS" (by decide) (by decide) (by decide) rfl _ (List.map (object σ))
      (fun xs => by simp only [filterMapPy_maps, objectItem_, filterMapPy_pyMap]),
    items_ σ x c!"SPEC-RELATION-GROUPS" (by decide) (by decide) (by decide) rfl _ (List.map (group σ))
      (fun xs => by simp only [mapPy_maps, group_, mapPy_pyMap])]

/-! ## Namespaces -/

/-- Functions on trees that namespaces do not notice. -/
structure Even (f : Node → Node) : Prop where
  uses : ∀ p b n, (f n).usesPfx p b = n.usesPfx p b
  strip : ∀ full n, stripTags full (f n) = pyMap f (stripTags full n)
  clean : ∀ m n, cleanup m (f n) = f (cleanup m n)
  tag : ∀ n, (f n).tag = n.tag
  isText : ∀ n, (f n).isText = n.isText

omit hσ in
theorem info_uses (p : Option Str) (i : Info) : Info.usesPfx p { i with attrs := i.attrs.map (attr σ) } = i.usesPfx p := by
  unfold Info.usesPfx
  simp only [List.any_map]
  congr 2
  funext a
  simp only [Function.comp, attr]
  split <;> rfl

omit hσ in
mutual
theorem node_uses (f : Bool) (p : Option Str) (b : Bool) (n : Node) : (node σ f n).usesPfx p b = n.usesPfx p b :=
  match n with
  | .elem i ks => by
    simp only [node, Node.usesPfx, info_uses, kids_uses _ _ p ks]
    rfl
  | .text _ => rfl
  | .comment _ => rfl
  | .pi _ _ => rfl

theorem kids_uses (f x : Bool) (p : Option Str) (ks : List Node) : usesPfxList p (kids σ f x ks) = usesPfxList p ks :=
  match ks with
  | [] => rfl
  | k :: ks => by
    simp only [kids, usesPfxList, kids_uses f x p ks]
    split
    · rfl
    · rw [node_uses f p true k]
end

omit hσ in
mutual
theorem node_strip (f full : Bool) (n : Node) : stripTags full (node σ f n) = pyMap (node σ f) (stripTags full n) :=
  match n with
  | .elem i ks => by
    simp only [node, stripTags]
    rw [kids_strip _ _ full ks]
    cases stripTagsList full ks with
    | error e => rfl
    | ok ks' =>
      simp only [pyMap]
      have e : Info.tag { i with attrs := i.attrs.map (attr σ) } = i.tag := rfl
      rw [e]
      by_cases h : (!full && containsStr xhtmlNs i.tag) = true
      · simp only [h, if_true, node]
      · simp only [h, if_false, node, Bool.false_eq_true]
  | .text _ => rfl
  | .comment _ => rfl
  | .pi _ _ => by cases full <;> rfl

theorem kids_strip (f x full : Bool) (ks : List Node) :
    stripTagsList full (kids σ f x ks) = pyMap (kids σ f x) (stripTagsList full ks) :=
  match ks with
  | [] => rfl
  | k :: ks => by
    simp only [kids, stripTagsList]
    rw [kids_strip f x full ks]
    have hk := node_strip f full k
    by_cases h : (x && localName k == c!"THE-VALUE") = true
    · rw [if_pos h]
      cases hs : stripTags full k with
      | error e => rfl
      | ok k' =>
        cases stripTagsList full ks with
        | error e => rfl
        | ok ks' =>
          rw [← localName_strip hs] at h
          simp only [pyMap, kids, h, if_true]
    · rw [if_neg h, hk]
      cases hs : stripTags full k with
      | error e => rfl
      | ok k' =>
        cases stripTagsList full ks with
        | error e => rfl
        | ok ks' =>
          rw [← localName_strip hs] at h
          simp only [pyMap, kids, h, if_false, Bool.false_eq_true]
end

omit hσ in
mutual
theorem node_clean (f : Bool) (m : NsMap) (n : Node) : cleanup m (node σ f n) = node σ f (cleanup m n) :=
  match n with
  | .elem i ks => by
    have e : ∀ p, Node.usesPfx p false (.elem { i with attrs := i.attrs.map (attr σ) }
        (kids σ (positional i.name) (!f && i.name == c!"ATTRIBUTE-VALUE-XHTML") ks)) = Node.usesPfx p false (.elem i ks) :=
      fun p => node_uses σ f p false (.elem i ks)
    simp only [node, cleanup, e, kids_clean _ _ _ ks]
  | .text _ => rfl
  | .comment _ => rfl
  | .pi _ _ => rfl

theorem kids_clean (f x : Bool) (m : NsMap) (ks : List Node) : cleanupList m (kids σ f x ks) = kids σ f x (cleanupList m ks) :=
  match ks with
  | [] => rfl
  | k :: ks => by
    simp only [kids, cleanupList, kids_clean f x m ks, localName_cleanup]
    split
    · rfl
    · rw [node_clean f m k]
end

omit hσ in
theorem node_even : Even (ren σ) where
  uses := fun p b n => node_uses σ false p b n
  strip := fun full n => node_strip σ false full n
  clean := fun m n => node_clean σ false m n
  tag := fun n => tag_ σ false n
  isText := fun n => isText_ σ false n

omit σ hσ

/-- The function applied to the children of a name. -/
def pick (name : Str) (f : Node → Node) (k : Node) : Node := if localName k = name then f k else k

theorem within_elem (name : Str) (f : Node → Node) (i : Info) (ks : List Node) :
    within name f (.elem i ks) = .elem i (ks.map (pick name f)) := rfl

theorem pick_uses {f : Node → Node} (H : Even f) (name : Str) (p : Option Str) (ks : List Node) :
    usesPfxList p (ks.map (pick name f)) = usesPfxList p ks := by
  induction ks with
  | nil => rfl
  | cons k ks ih =>
    simp only [List.map_cons, usesPfxList, ih, pick]
    split
    · rw [H.uses]
    · rfl

theorem pick_strip {f : Node → Node} (H : Even f) (name : Str) (full : Bool) (ks : List Node) :
    stripTagsList full (ks.map (pick name f)) = pyMap (List.map (pick name f)) (stripTagsList full ks) := by
  induction ks with
  | nil => rfl
  | cons k ks ih =>
    simp only [List.map_cons, stripTagsList, ih]
    have e : stripTags full (pick name f k) = pyMap (pick name f) (stripTags full k) := by
      cases hs : stripTags full k with
      | error e =>
        unfold pick
        split
        · rw [H.strip, hs]; rfl
        · rw [hs]; rfl
      | ok k' =>
        simp only [pick, pyMap, localName_strip hs]
        split
        · rw [H.strip, hs]; rfl
        · rw [hs]
    rw [e]
    cases stripTags full k with
    | error e => rfl
    | ok k' => cases stripTagsList full ks <;> rfl

theorem pick_clean {f : Node → Node} (H : Even f) (name : Str) (m : NsMap) (ks : List Node) :
    cleanupList m (ks.map (pick name f)) = (cleanupList m ks).map (pick name f) := by
  induction ks with
  | nil => rfl
  | cons k ks ih =>
    simp only [List.map_cons, cleanupList, ih]
    congr 1
    unfold pick
    rw [localName_cleanup]
    split
    · exact H.clean m k
    · rfl

theorem within_uses {f : Node → Node} (H : Even f) (name : Str) (p : Option Str) (b : Bool) (n : Node) :
    (within name f n).usesPfx p b = n.usesPfx p b := by
  cases n with
  | elem i ks => simp only [within_elem, Node.usesPfx, pick_uses H]
  | _ => rfl

theorem within_even {f : Node → Node} (H : Even f) (name : Str) : Even (within name f) where
  uses := fun p b n => within_uses H name p b n
  strip := fun full n => by
    cases n with
    | elem i ks =>
      simp only [within_elem, stripTags, pick_strip H]
      cases stripTagsList full ks with
      | error e => rfl
      | ok ks' =>
        simp only [pyMap]
        split <;> rfl
    | pi a b => cases full <;> rfl
    | _ => rfl
  clean := fun m n => by
    cases n with
    | elem i ks =>
      have e : ∀ p, Node.usesPfx p false (.elem i (ks.map (pick name f))) = Node.usesPfx p false (.elem i ks) :=
        fun p => within_uses H name p false (.elem i ks)
      simp only [within_elem, cleanup, e, pick_clean H]
    | _ => rfl
  tag := fun n => by cases n <;> rfl
  isText := fun n => by cases n <;> rfl

theorem pick_tag {f : Node → Node} (H : Even f) (name : Str) (k : Node) : (pick name f k).tag = k.tag := by
  unfold pick; split
  · exact H.tag k
  · rfl

theorem pick_isText {f : Node → Node} (H : Even f) (name : Str) (k : Node) : (pick name f k).isText = k.isText := by
  unfold pick; split
  · exact H.isText k
  · rfl

theorem within_children {f : Node → Node} (H : Even f) (name : Str) (n : Node) :
    (within name f n).children = n.children.map (pick name f) := by
  cases n with
  | elem i ks =>
    show (ks.map (pick name f)).filter (fun k => !k.isText) = (ks.filter (fun k => !k.isText)).map (pick name f)
    rw [List.filter_map]
    congr 1
    apply List.filter_congr
    intro k _
    simp only [Function.comp, pick_isText H]
  | _ => rfl

theorem within_find {f : Node → Node} (H : Even f) (name t : Str) (n : Node) :
    (within name f n).find t = (n.find t).map (pick name f) := by
  have hk : (within name f n).kids = n.kids.map (pick name f) := by cases n <;> rfl
  unfold Node.find
  rw [hk, List.find?_map]
  congr 2
  funext k
  simp only [Function.comp, pick_tag H, pick_isText H]

theorem within_same {f : Node → Node} (H : Even f) (name t : Str) (ht : plainTag t = true) (hn : t ≠ name) (n : Node) :
    (within name f n).find t = n.find t := by
  rw [within_find H]
  cases h : n.find t with
  | none => rfl
  | some k => simp only [Option.map_some, pick, if_neg (by rw [find_local h ht]; exact hn : ¬ localName k = name)]

theorem within_own {f : Node → Node} (H : Even f) (t : Str) (ht : plainTag t = true) (n : Node) :
    (within t f n).find t = (n.find t).map f := by
  rw [within_find H]
  cases h : n.find t with
  | none => rfl
  | some k => simp only [Option.map_some, pick, if_pos (find_local h ht)]

theorem within_len {f : Node → Node} (H : Even f) (name : Str) (n : Node) : (within name f n).len = n.len := by
  unfold Node.len
  rw [within_children H, List.length_map]

theorem within_attr (f : Node → Node) (name t : Str) (n : Node) : (within name f n).attr? t = n.attr? t := by
  cases n <;> rfl

theorem within_nsmap (f : Node → Node) (name : Str) (n : Node) : (within name f n).nsmap = n.nsmap := by
  cases n <;> rfl

theorem within_dump (f : Node → Node) (name : Str) (n : Node) : tagDumpOf (within name f n) = tagDumpOf n := by
  cases n <;> rfl

/-! ## The document -/

theorem content_even (σ : Str → Str) : Even (within c!"REQ-IF-CONTENT" (node σ false)) := within_even (node_even σ) _

theorem root_even (σ : Str → Str) : Even (root σ) := within_even (content_even σ) _

theorem root_ (σ : Str → Str) (n : Node) : strippedRoot (root σ n) = pyMap (root σ) (strippedRoot n) := by
  have hm : (root σ n).nsmap = n.nsmap := within_nsmap _ _ n
  unfold strippedRoot
  rw [hm]
  split
  · unfold stripNamespace
    rw [(root_even σ).strip]
    cases stripTags false n with
    | error e => rfl
    | ok r => simp only [pyMap, (root_even σ).clean]
  · rfl

theorem core_ (σ : Str → Str) (hσ : ∀ s t, σ s = σ t → s = t) (x : Node) :
    (parseCore (none : Option (Callback Unit)) (root σ x) ()).1 =
      pyMap (fun r => (r.1.map (Option.map (content σ)), lookup σ r.2.1, r.2.2.map fun e => { e with node := ren σ e.node }))
        (parseCore (none : Option (Callback Unit)) x ()).1 := by
  unfold parseCore root
  rw [within_own (content_even σ) _ (by decide)]
  cases x.find c!"CORE-CONTENT" with
  | none => rfl
  | some c =>
    simp only [Option.map_some]
    rw [within_own (node_even σ) _ (by decide)]
    cases c.find c!"REQ-IF-CONTENT" with
    | none => rfl
    | some y =>
      have e := content_ σ hσ y
      simp only [Option.map_some, M.bind, M.pure]
      revert e
      generalize parseContent (none : Option (Callback Unit)) (ren σ y) () = a
      generalize parseContent (none : Option (Callback Unit)) y () = b
      intro e
      obtain ⟨a, _⟩ := a
      obtain ⟨b, _⟩ := b
      dsimp only at e
      rw [e]
      cases b <;> rfl

theorem document_ (σ : Str → Str) (hσ : ∀ s t, σ s = σ t → s = t) {d d' : Doc} (hd : d.decl = d'.decl) (hr : d'.root = root σ d.root) :
    (parseReqif (none : Option (Callback Unit)) d' ()).1 =
      pyMap (bundle σ) (parseReqif (none : Option (Callback Unit)) d ()).1 := by
  have hm : d'.root.nsmap = d.root.nsmap := by rw [hr]; exact within_nsmap _ _ _
  have hdump : tagDumpOf d'.root = tagDumpOf d.root := by rw [hr]; exact within_dump _ _ _
  unfold parseReqif
  simp only [M.bind, M.lift]
  rw [hr, root_, ← hr]
  cases strippedRoot d.root with
  | error e => rfl
  | ok r =>
    have ha : ∀ t, (root σ r).attr? t = r.attr? t := fun t => within_attr _ _ t r
    have hn : namespaceInfoOf d' (root σ r) = namespaceInfoOf d r := by
      unfold namespaceInfoOf
      simp only [hm, hd, hdump, ha]
    have hc := core_ σ hσ r
    have hh : (root σ r).find c!"THE-HEADER" = r.find c!"THE-HEADER" :=
      within_same (content_even σ) _ _ (by decide) (by decide) r
    have hte : (root σ r).find c!"TOOL-EXTENSIONS" = r.find c!"TOOL-EXTENSIONS" :=
      within_same (content_even σ) _ _ (by decide) (by decide) r
    have hl : (root σ r).len = r.len := within_len (content_even σ) _ r
    simp only [pyMap]
    rw [(root_even σ).tag, hl, hh, hte, hn, hm]
    split
    · split
      · rfl
      · cases optPy parseHeader (r.find c!"THE-HEADER") with
        | error e => rfl
        | ok hdr =>
          simp only [M.bind, M.pure]
          rw [parseCore_state r, parseCore_state (root σ r), hc]
          cases (parseCore (none : Option (Callback Unit)) r ()).1 <;> rfl
    · rfl

end ReqIF.Rename
