import Verif.Proofs.Survive
import Verif.Props.C32
set_option linter.unusedSimpArgs false
/-!
# C33: attribute values survive writing and reading
-/
namespace ReqIF
open Spec

/-! ## The templates -/

theorem simpleValue_shows {Γ : Ctx} {name : Str} (h1 : blockTag (c!"ATTRIBUTE-VALUE-" ++ name) = true)
    (h2 : textTag (c!"ATTRIBUTE-DEFINITION-" ++ name ++ c!"-REF") = true) {raw v : Str} (hv : AttrRaw raw v)
    {o : Option Str} (ho : PlainElem o) :
    ∃ n d r, IsEl n (c!"ATTRIBUTE-VALUE-" ++ name) [(c!"THE-VALUE", v)] [d] ∧ IsEl d c!"DEFINITION" [] [r] ∧
      IsEl r (c!"ATTRIBUTE-DEFINITION-" ++ name ++ c!"-REF") [] [] ∧ r.text? = o ∧
      Shows Γ false (simpleValueTemplate name raw (fmtOpt o)) [n] := by
  obtain ⟨d, r, hd, hr, ht, hs⟩ := Shows.ref (Γ := Γ) 14 16 (outer := c!"DEFINITION") (by decide) h2 ho
  have ha : Attributes [(c!"THE-VALUE", raw)] [(c!"THE-VALUE", v)] :=
    ⟨.one _ hv, okNames_attrs (NamesIn.one _ _) (by decide)⟩
  obtain ⟨n, n1, -, -, n2⟩ := Shows.elem 12 h1 ha hs
  refine ⟨n, d, r, n1, hd, hr, ht, n2.congr ?_⟩
  simp only [simpleValueTemplate, attrsText_one, List.append_assoc]; rfl

theorem xhtmlTemplate_tree {Γ : Ctx} (hc : Γ.Clean) (hp : isNCName Γ.pfx = true)
    {ts : List XTree} (hwf : AllWF ts) (hna : noAdjacentText ts = true)
    (hel : ts.all XTree.isText = false → Γ.Bound ∧ Γ.keep.firstKey = some Γ.pfx)
    (hno : Γ.keep = [] → ts.all XTree.isText = true ∧ escape (printAll Γ.pfx ts) = printAll Γ.pfx ts) {o : Option Str} (ho : PlainElem o) :
    ∃ n, Shows Γ ((printAll Γ.pfx ts).contains '<') (xhtmlTemplate (printAll Γ.pfx ts) (fmtOpt o)) [n] ∧ n.tag = .name c!"ATTRIBUTE-VALUE-XHTML" ∧
      (∃ s, parseXhtmlAttributeValue n = .ok ⟨.xhtml, o, .str (printAll Γ.pfx ts), some s, some n⟩) ∧
      (∃ w, n.find c!"THE-VALUE" = some w ∧ w.nsmap = Γ.keep ∧ w.kids = finalList Γ (xmlAll Γ.pfx ts)) ∧
      Xsd.said n = Xsd.recordOf c!"ATTRIBUTE-VALUE-XHTML" []
        [Xsd.refOf c!"DEFINITION" c!"ATTRIBUTE-DEFINITION-XHTML-REF" o, Xsd.xhtmlSaid c!"THE-VALUE" Γ.pfx (printAll Γ.pfx ts)] := by
  obtain ⟨d, r, hd, hr, ht, hs⟩ := Shows.ref (Γ := Γ) 14 16 (outer := c!"DEFINITION")
    (inner := c!"ATTRIBUTE-DEFINITION-XHTML-REF") (by decide) (by decide) ho
  obtain ⟨w, w0, w2, wk, w3, w4, w5, w6⟩ := Shows.xhtmlTree hc 14 (tag := c!"THE-VALUE") (by decide) hp hwf hna hel hno
  have w1 : w.tag = .name c!"THE-VALUE" := by rw [w0]; rfl
  obtain ⟨n, n1, -, n2⟩ := Shows.block 12 (tag := c!"ATTRIBUTE-VALUE-XHTML") (by decide) (hs.append w3)
  have f0 : n.find c!"THE-VALUE" = some w := by
    rw [find_eq, n1.children]
    simp [hd.tag, w1]
  have f1 : findReq n c!"THE-VALUE" = .ok w := by
    unfold findReq
    rw [f0]; rfl
  have f2 : findReq n c!"DEFINITION" = .ok d := by
    unfold findReq
    rw [find_eq, n1.children]
    simp [hd.tag, orAttr]
  have f3 : findReq d c!"ATTRIBUTE-DEFINITION-XHTML-REF" = .ok r := by
    unfold findReq
    rw [find_one hd hr.tag]; rfl
  obtain ⟨s, hs2⟩ := convert_ok w w4
  refine ⟨n, ?_, n1.tag, ?_, ⟨w, f0, w2, wk⟩, ?_⟩
  · rw [Bool.false_or] at n2
    refine n2.congr ?_
    simp only [xhtmlTemplate, List.append_assoc]
  · unfold parseXhtmlAttributeValue
    rw [f1]
    simp only [py_bind_ok, py_pure, w2]
    by_cases hk : Γ.keep = []
    · simp only [hk, List.length_nil, Nat.lt_irrefl, if_false, w6 hk, f2, f3, py_bind_ok, py_pure, ht]
      exact ⟨_, rfl⟩
    · have : Γ.keep.length > 0 := List.length_pos_iff.2 hk
      simp only [this, if_true, w5 hk, hs2, f2, f3, py_bind_ok, py_pure, ht]
      exact ⟨_, rfl⟩
  · rw [n1.saysRecord (by decide)]
    simp only [List.cons_append, List.nil_append, List.map_cons, List.map_nil]
    rw [hd.saysRef hr ht (by decide) (by decide), w0, Xsd.xhtml_said hp hwf hna (by decide)]

theorem xhtmlTemplate_shows {Γ : Ctx} (hc : Γ.Clean) {v : Str} (hv : SafeXhtml Γ v) {o : Option Str} (ho : PlainElem o) :
    ∃ n, Shows Γ (v.contains '<') (xhtmlTemplate v (fmtOpt o)) [n] ∧ n.tag = .name c!"ATTRIBUTE-VALUE-XHTML" ∧
      (∃ s, parseXhtmlAttributeValue n = .ok ⟨.xhtml, o, .str v, some s, some n⟩) ∧
      Xsd.said n = Xsd.recordOf c!"ATTRIBUTE-VALUE-XHTML" []
        [Xsd.refOf c!"DEFINITION" c!"ATTRIBUTE-DEFINITION-XHTML-REF" o, Xsd.xhtmlSaid c!"THE-VALUE" Γ.pfx v] := by
  obtain ⟨hp, ts, hwf, hna, rfl, hel, hno⟩ := hv
  obtain ⟨n, h1, h2, h3, -, h4⟩ := xhtmlTemplate_tree hc hp hwf hna hel hno ho
  exact ⟨n, h1, h2, h3, h4⟩

theorem rstrip_line (s : Str) : rstrip (s ++ c!">\n") = s ++ c!">" := by
  unfold rstrip
  rw [List.reverse_append]
  have : (c!">\n" : Str).reverse = '\n' :: '>' :: [] := rfl
  rw [this]
  simp only [List.cons_append, List.nil_append]
  rw [List.dropWhile_cons, if_pos (by decide), List.dropWhile_cons, if_neg (by decide)]
  simp

theorem rstrip_lines (k : Nat) (tag : Str) (v : Option Str) (vs : List (Option Str)) :
    rstrip ((v :: vs).flatMap (fun v => lineElem k tag (fmtOpt v))) ++ c!"\n" =
      (v :: vs).flatMap (fun v => lineElem k tag (fmtOpt v)) := by
  have h : ∀ (v : Option Str) (vs : List (Option Str)), ∃ s, (v :: vs).flatMap (fun v => lineElem k tag (fmtOpt v)) = s ++ c!">\n" := by
    intro v vs
    induction vs generalizing v with
    | nil => exact ⟨spaces k ++ c!"<" ++ tag ++ c!">" ++ fmtOpt v ++ c!"</" ++ tag, by simp [lineElem]⟩
    | cons w ws ih =>
      obtain ⟨s, hs⟩ := ih w
      refine ⟨lineElem k tag (fmtOpt v) ++ s, ?_⟩
      rw [List.flatMap_cons, hs, List.append_assoc]
  obtain ⟨s, hs⟩ := h v vs
  rw [hs, rstrip_line]
  simp

/-- The references of an enumeration value. -/
theorem enumRefs_shows (Γ : Ctx) (vs : List (Option Str)) (h : ∀ v ∈ vs, PlainElem v) :
    ∃ ns, Shows Γ false (rstrip (vs.flatMap (fun v => lineElem 16 c!"ENUM-VALUE-REF" (fmtOpt v))) ++ c!"\n") ns ∧
      ns.map Node.text? = vs ∧ ns.map Xsd.said = vs.map (Xsd.textSaid c!"ENUM-VALUE-REF") := by
  cases vs with
  | nil => exact ⟨[], Shows.layout (by intro c hc; simp [rstrip] at hc; exact Or.inr hc), rfl, rfl⟩
  | cons v vs =>
    rw [rstrip_lines]
    have key : ∀ ws : List (Option Str), (∀ v ∈ ws, PlainElem v) →
        ∃ ns, Shows Γ false (ws.flatMap (fun v => lineElem 16 c!"ENUM-VALUE-REF" (fmtOpt v))) ns ∧ ns.map Node.text? = ws ∧
          ns.map Xsd.said = ws.map (Xsd.textSaid c!"ENUM-VALUE-REF") := by
      intro ws
      induction ws with
      | nil => intro _; exact ⟨[], Shows.nil Γ, rfl, rfl⟩
      | cons w ws ih =>
        intro hw
        obtain ⟨ns, h1, h2, h3⟩ := ih (fun x hx => hw x (by simp [hx]))
        obtain ⟨x, rfl, hne, hp⟩ := hw w (by simp)
        obtain ⟨r, r1, r2, r3⟩ := Shows.plainLeaf (Γ := Γ) 16 (tag := c!"ENUM-VALUE-REF") (by decide) hne hp
        refine ⟨r :: ns, r3.append h1, ?_, ?_⟩
        · simp [r2, h2]
        · rw [List.map_cons, List.map_cons, r1.saysText (by decide), r2, h3]
    exact key (v :: vs) h

theorem findIdx_mem {l : List Tag} {t : Str} (h : .name t ∈ l) : ∃ i, tagIndex t l = some i := by
  unfold tagIndex
  cases hf : l.findIdx? (· == .name t) with
  | some i => exact ⟨i, rfl⟩
  | none =>
    rw [List.findIdx?_eq_none_iff] at hf
    have := hf _ h
    simp at this

theorem order_known {a : SpecObjectAttribute} (h : orderKnown a.xmlNode) : ∃ b, valuesBeforeDefinition a = .ok b := by
  unfold valuesBeforeDefinition
  cases hx : a.xmlNode with
  | none => exact ⟨true, rfl⟩
  | some x =>
    obtain ⟨h1, h2⟩ := h x hx
    obtain ⟨i, hi⟩ := findIdx_mem h1
    obtain ⟨j, hj⟩ := findIdx_mem h2
    dsimp only
    rw [hi, hj]
    exact ⟨_, rfl⟩

theorem enumeration_shows {Γ : Ctx} (b : Bool) (vs : List (Option Str)) (h : ∀ v ∈ vs, PlainElem v) {o : Option Str}
    (ho : PlainElem o) : ∃ n, Shows Γ false (enumerationTemplate b
        (rstrip (vs.flatMap (fun v => lineElem 16 c!"ENUM-VALUE-REF" (fmtOpt v)))) (fmtOpt o)) [n] ∧
      n.tag = .name c!"ATTRIBUTE-VALUE-ENUMERATION" ∧
      parseAttributeValue n = .ok ⟨.enumeration, o, .list vs, none, some n⟩ ∧
      (childTags n = if b then [.name c!"VALUES", .name c!"DEFINITION"] else [.name c!"DEFINITION", .name c!"VALUES"]) ∧
      Xsd.said n = Xsd.recordOf c!"ATTRIBUTE-VALUE-ENUMERATION" []
        [Xsd.refOf c!"DEFINITION" c!"ATTRIBUTE-DEFINITION-ENUMERATION-REF" o,
         Xsd.listOf c!"VALUES" (vs.map (Xsd.textSaid c!"ENUM-VALUE-REF"))] := by
  obtain ⟨d, r, hd, hr, ht, hs⟩ := Shows.ref (Γ := Γ) 14 16 (outer := c!"DEFINITION")
    (inner := c!"ATTRIBUTE-DEFINITION-ENUMERATION-REF") (by decide) (by decide) ho
  obtain ⟨ns, v1, v2, v3⟩ := enumRefs_shows Γ vs h
  obtain ⟨w, w1, -, w2⟩ := Shows.block 14 (tag := c!"VALUES") (by decide) v1
  have f3 : findReq d c!"ATTRIBUTE-DEFINITION-ENUMERATION-REF" = .ok r := by
    unfold findReq
    rw [find_one hd hr.tag]; rfl
  cases b with
  | true =>
    obtain ⟨n, n1, -, n2⟩ := Shows.block 12 (tag := c!"ATTRIBUTE-VALUE-ENUMERATION") (by decide) (w2.append hs)
    have f1 : n.find c!"VALUES" = some w := by rw [find_eq, n1.children]; simp [w1.tag]
    have f2 : n.find c!"DEFINITION" = some d := by rw [find_eq, n1.children]; simp [w1.tag, hd.tag]
    refine ⟨n, n2.congr ?_, n1.tag, ?_, ?_, ?_⟩
    · simp only [enumerationTemplate, if_true, List.append_assoc]
    · simp only [parseAttributeValue, n1.tag]
      have f4 : findReq n c!"DEFINITION" = .ok d := by unfold findReq; rw [f2]; rfl
      rw [if_neg (by decide), if_pos (by simp), f4, py_bind_ok, f3, py_bind_ok, f1]
      simp only [py_pure, ht, w1.children, v2]
    · simp [childTags, n1.children, w1.tag, hd.tag]
    · rw [n1.saysRecord (by decide)]
      simp only [List.cons_append, List.nil_append, List.map_cons, List.map_nil]
      rw [hd.saysRef hr ht (by decide) (by decide), w1.saysList (by decide), v3]
      exact Xsd.recordOf_swap (by rw [Xsd.refOf_name, Xsd.listOf_name]; decide)
  | false =>
    obtain ⟨n, n1, -, n2⟩ := Shows.block 12 (tag := c!"ATTRIBUTE-VALUE-ENUMERATION") (by decide) (hs.append w2)
    have f1 : n.find c!"VALUES" = some w := by rw [find_eq, n1.children]; simp [w1.tag, hd.tag]
    have f2 : n.find c!"DEFINITION" = some d := by rw [find_eq, n1.children]; simp [hd.tag]
    refine ⟨n, n2.congr ?_, n1.tag, ?_, ?_, ?_⟩
    · simp only [enumerationTemplate, Bool.false_eq_true, if_false, List.append_assoc]
    · simp only [parseAttributeValue, n1.tag]
      have f4 : findReq n c!"DEFINITION" = .ok d := by unfold findReq; rw [f2]; rfl
      rw [if_neg (by decide), if_pos (by simp), f4, py_bind_ok, f3, py_bind_ok, f1]
      simp only [py_pure, ht, w1.children, v2]
    · simp [childTags, n1.children, w1.tag, hd.tag]
    · rw [n1.saysRecord (by decide)]
      simp only [List.cons_append, List.nil_append, List.map_cons, List.map_nil]
      rw [hd.saysRef hr ht (by decide) (by decide), w1.saysList (by decide), v3]

/-! ## One value -/

theorem parseAttr_simple {n d r : Node} {name : Str} {v : Str} {o : Option Str}
    (hn : IsEl n (c!"ATTRIBUTE-VALUE-" ++ name) [(c!"THE-VALUE", v)] [d]) (hd : IsEl d c!"DEFINITION" [] [r])
    (hr : IsEl r (c!"ATTRIBUTE-DEFINITION-" ++ name ++ c!"-REF") [] []) (ht : r.text? = o) (t : AttrType) :
    parseSimpleValue n t (c!"ATTRIBUTE-DEFINITION-" ++ name ++ c!"-REF") = .ok ⟨t, o, .str v, none, some n⟩ := by
  unfold parseSimpleValue
  have h1 : attrReq n c!"THE-VALUE" = .ok v := by
    unfold attrReq
    rw [hn.attr]; rfl
  have h2 : findReq n c!"DEFINITION" = .ok d := by
    unfold findReq
    rw [find_one hn hd.tag]; rfl
  have h3 : findReq d (c!"ATTRIBUTE-DEFINITION-" ++ name ++ c!"-REF") = .ok r := by
    unfold findReq
    rw [find_one hd hr.tag]; rfl
  rw [h1, py_bind_ok, h2, py_bind_ok, h3, py_bind_ok, py_pure, ht]

theorem simple_said {n d r : Node} {name : Str} {v : Str} {o : Option Str}
    (hn : IsEl n (c!"ATTRIBUTE-VALUE-" ++ name) [(c!"THE-VALUE", v)] [d]) (hd : IsEl d c!"DEFINITION" [] [r])
    (hr : IsEl r (c!"ATTRIBUTE-DEFINITION-" ++ name ++ c!"-REF") [] []) (ht : r.text? = o)
    (h1 : Xsd.isRecordName (c!"ATTRIBUTE-VALUE-" ++ name) = true) (h2 : Xsd.isTextName (c!"ATTRIBUTE-DEFINITION-" ++ name ++ c!"-REF") = true) :
    Xsd.said n = Xsd.recordOf (c!"ATTRIBUTE-VALUE-" ++ name) [(c!"THE-VALUE", v)]
      [Xsd.refOf c!"DEFINITION" (c!"ATTRIBUTE-DEFINITION-" ++ name ++ c!"-REF") o] := by
  rw [hn.saysRecord h1, List.map_cons, List.map_nil, hd.saysRef hr ht (by decide) h2]

/-- One attribute value survives. -/
theorem value_survives {Γ : Ctx} (hc : Γ.Clean) {a : SpecObjectAttribute} (h : SafeValue Γ a) :
    Survives Γ (usesXhtml a) (fun n => n.tag = .name (c!"ATTRIBUTE-VALUE-" ++ a.type.pyName) ∧ Xsd.said n = Xsd.valueSaid Γ.pfx a) unparseAttributeValue
      parseAttributeValue bareValue bareValue a := by
  obtain ⟨ty, ref, val, sx, nd⟩ := a
  obtain ⟨href, hval⟩ := h
  dsimp only at href hval
  cases ty with
  | string =>
    cases val with
    | list l => exact hval.elim
    | str v =>
      obtain ⟨n, d, r, n1, d1, r1, r2, n2⟩ := simpleValue_shows (Γ := Γ) (name := c!"STRING") (by decide) (by decide) (attrRaw_html hval) href
      refine ⟨_, n, ⟨.string, ref, .str v, none, some n⟩, rfl, n2, ⟨n1.tag, simple_said (name := c!"STRING") n1 d1 r1 r2 (by decide) (by decide)⟩, ?_, rfl, rfl⟩
      unfold parseAttributeValue
      have e : n.tag = .name c!"ATTRIBUTE-VALUE-STRING" := n1.tag
      rw [if_pos e]
      have h1 : attrReq n c!"THE-VALUE" = .ok v := by
        unfold attrReq
        rw [n1.attr]; rfl
      have h2 : firstChild n = .ok d := by unfold firstChild; rw [n1.children]
      have h3 : firstChild d = .ok r := by unfold firstChild; rw [d1.children]
      rw [h1, py_bind_ok, h2, py_bind_ok, h3, py_bind_ok, py_pure, r2]
  | integer =>
    cases val with
    | list l => exact hval.elim
    | str v =>
      obtain ⟨n, d, r, n1, d1, r1, r2, n2⟩ := simpleValue_shows (Γ := Γ) (name := c!"INTEGER") (by decide) (by decide) (attrRaw_plain hval) href
      refine ⟨_, n, ⟨.integer, ref, .str v, none, some n⟩, rfl, n2, ⟨n1.tag, simple_said (name := c!"INTEGER") n1 d1 r1 r2 (by decide) (by decide)⟩, ?_, rfl, rfl⟩
      have := parseAttr_simple n1 d1 r1 r2 .integer
      simp only [parseAttributeValue, n1.tag]
      exact this
  | real =>
    cases val with
    | list l => exact hval.elim
    | str v =>
      obtain ⟨n, d, r, n1, d1, r1, r2, n2⟩ := simpleValue_shows (Γ := Γ) (name := c!"REAL") (by decide) (by decide) (attrRaw_plain hval) href
      refine ⟨_, n, ⟨.real, ref, .str v, none, some n⟩, rfl, n2, ⟨n1.tag, simple_said (name := c!"REAL") n1 d1 r1 r2 (by decide) (by decide)⟩, ?_, rfl, rfl⟩
      have := parseAttr_simple n1 d1 r1 r2 .real
      simp only [parseAttributeValue, n1.tag]
      exact this
  | boolean =>
    cases val with
    | list l => exact hval.elim
    | str v =>
      obtain ⟨n, d, r, n1, d1, r1, r2, n2⟩ := simpleValue_shows (Γ := Γ) (name := c!"BOOLEAN") (by decide) (by decide) (attrRaw_plain hval) href
      refine ⟨_, n, ⟨.boolean, ref, .str v, none, some n⟩, rfl, n2, ⟨n1.tag, simple_said (name := c!"BOOLEAN") n1 d1 r1 r2 (by decide) (by decide)⟩, ?_, rfl, rfl⟩
      have := parseAttr_simple n1 d1 r1 r2 .boolean
      simp only [parseAttributeValue, n1.tag]
      exact this
  | date =>
    cases val with
    | list l => exact hval.elim
    | str v =>
      obtain ⟨n, d, r, n1, d1, r1, r2, n2⟩ := simpleValue_shows (Γ := Γ) (name := c!"DATE") (by decide) (by decide) (attrRaw_plain hval) href
      refine ⟨_, n, ⟨.date, ref, .str v, none, some n⟩, rfl, n2, ⟨n1.tag, simple_said (name := c!"DATE") n1 d1 r1 r2 (by decide) (by decide)⟩, ?_, rfl, rfl⟩
      have := parseAttr_simple n1 d1 r1 r2 .date
      simp only [parseAttributeValue, n1.tag]
      exact this
  | xhtml =>
    cases val with
    | list l => exact hval.elim
    | str v =>
      obtain ⟨n, n1, n2, ⟨s, n3⟩, n4⟩ := xhtmlTemplate_shows hc hval href
      refine ⟨_, n, ⟨.xhtml, ref, .str v, some s, some n⟩, rfl, n1, ⟨n2, n4⟩, ?_, rfl, rfl⟩
      simp only [parseAttributeValue, n2]
      exact n3
  | enumeration =>
    cases val with
    | str v => exact hval.elim
    | list vs =>
      obtain ⟨b, hb⟩ := order_known (a := ⟨.enumeration, ref, .list vs, sx, nd⟩) hval.2
      obtain ⟨n, n1, n2, n3, n4, n5⟩ := enumeration_shows (Γ := Γ) b vs hval.1 href
      refine ⟨_, n, ⟨.enumeration, ref, .list vs, none, some n⟩, ?_, n1, ⟨n2, n5⟩, n3, rfl, ?_⟩
      · unfold unparseAttributeValue
        dsimp only
        rw [hb]
        rfl
      · unfold unparseAttributeValue
        dsimp only
        have : valuesBeforeDefinition ⟨.enumeration, ref, .list vs, none, some n⟩ = .ok b := by
          unfold valuesBeforeDefinition
          dsimp only
          rw [n4]
          cases b <;> rfl
        rw [this]
        rfl

/-- Any node is an attribute value node, not a comment. -/
def IsValueNode (n : Node) : Prop := ∃ t : AttrType, n.tag = .name (c!"ATTRIBUTE-VALUE-" ++ t.pyName)

theorem IsValueNode.notComment {n : Node} (h : IsValueNode n) : isCommentNode n = false := by
  obtain ⟨t, h⟩ := h
  exact isElem_notComment h

/-- A list of attribute values survives. -/
theorem values_survive {Γ : Ctx} (hc : Γ.Clean) {vs : List SpecObjectAttribute} (h : ∀ a ∈ vs, SafeValue Γ a) :
    ∃ t n vs', unparseAttributeValues (some vs) = .ok t ∧ Shows Γ (vs.any usesXhtml) t [n] ∧ n.tag = .name c!"VALUES" ∧
      parseAttributeValues (some n) = .ok (some vs') ∧ vs'.map bareValue = vs.map bareValue ∧
      unparseAttributeValues (some vs') = .ok t ∧ Xsd.said n = Xsd.valuesSaid Γ.pfx vs := by
  cases vs with
  | nil =>
    obtain ⟨n, n1, -, n3⟩ := Shows.empty (Γ := Γ) 10 (tag := c!"VALUES") (by decide) Attributes.nil
    refine ⟨_, n, [], rfl, n3.congr ?_, n1.tag, ?_, rfl, rfl, n1.saysList (by decide)⟩
    · simp [attrsText]
    · unfold parseAttributeValues; dsimp only
      rw [n1.children]
      rfl
  | cons v vs =>
    obtain ⟨t, ns, vs', h1, h2, h3, h4, h5, h6, h7⟩ := survive_list (Q := IsValueNode) (F := Xsd.valueSaid Γ.pfx) (use := usesXhtml) (v :: vs)
      (fun a ha => by
        obtain ⟨t, n, x', a1, a2, a3, a4, a5, a6⟩ := value_survives hc (h a ha)
        exact ⟨t, n, x', a1, a2, ⟨⟨_, a3.1⟩, a3.2⟩, a4, a5, a6⟩)
    obtain ⟨n, n1, -, n2⟩ := Shows.block 10 (tag := c!"VALUES") (by decide) h2
    refine ⟨_, n, vs', ?_, n2, n1.tag, ?_, h5, ?_, by rw [n1.saysList (by decide), h7]; rfl⟩
    · simp only [unparseAttributeValues, h1, py_bind_ok, py_pure]
    · unfold parseAttributeValues; dsimp only
      rw [n1.children]
      have : ns.filter (fun c => !isCommentNode c) = ns := by
        rw [List.filter_eq_self]
        intro m hm
        simp [(h3 m hm).notComment]
      simp only [this, h4, py_bind_ok, py_pure]
    · cases vs' with
      | nil => simp at h5
      | cons w ws => simp only [unparseAttributeValues, h6, py_bind_ok, py_pure]

/-! ## The property -/

/-- **C33.**  Every list of attribute values whose strings are safe where they are not
escaped is printed, and read back, in a document with any ordinary root tag, as
values of the same kinds with the same references and values in the same order;
printing what was read gives the same text, so the order of `DEFINITION` and
`VALUES` is kept. -/
theorem C33_roundtrip {as : List (Str × Str)} (hr : RootAttrs as) {p : Str} {vs : List SpecObjectAttribute} {Γ : Ctx}
    (hΓ : IsCtx as p (vs.any usesXhtml) Γ) (h : ∀ a ∈ vs, SafeValue Γ a) :
    ∃ t n vs', unparseAttributeValues (some vs) = .ok t ∧ ReadsAs as t [n] ∧
      parseAttributeValues (some n) = .ok (some vs') ∧ vs'.map bareValue = vs.map bareValue ∧
      unparseAttributeValues (some vs') = .ok t := by
  obtain ⟨hc, hs⟩ := IsCtx.spec hΓ hr
  obtain ⟨t, n, vs', h1, h2, -, h3, h4, h5, -⟩ := values_survive hc h
  exact ⟨t, n, vs', h1, hs _ _ h2, h3, h4, h5⟩

/-- **C33**, order: an enumeration value is printed with `VALUES` first exactly if it
was created through the API or read from an element in which `VALUES` comes first. -/
theorem C33_enum_order {a : SpecObjectAttribute} {t : Str} {vs : List (Option Str)} (ht : a.type = .enumeration)
    (hv : a.value = .list vs) (h : unparseAttributeValue a = .ok t) :
    ∃ b, t = enumerationTemplate b (rstrip (vs.flatMap (fun v => lineElem 16 c!"ENUM-VALUE-REF" (fmtOpt v)))) (fmtOpt a.definitionRef) ∧
      (b = true ↔ a.xmlNode = none ∨ ∃ x i j, a.xmlNode = some x ∧
        tagIndex c!"VALUES" (childTags x) = some i ∧ tagIndex c!"DEFINITION" (childTags x) = some j ∧ i < j) := by
  unfold unparseAttributeValue at h
  rw [ht, hv] at h
  dsimp only at h
  cases hb : valuesBeforeDefinition a with
  | error e => rw [hb] at h; cases h
  | ok b =>
    rw [hb] at h
    cases h
    refine ⟨b, rfl, ?_⟩
    unfold valuesBeforeDefinition at hb
    cases hx : a.xmlNode with
    | none =>
      rw [hx] at hb
      cases hb
      simp
    | some x =>
      rw [hx] at hb
      dsimp only at hb
      cases hi : tagIndex c!"VALUES" (childTags x) with
      | none => rw [hi] at hb; cases hb
      | some i =>
        cases hj : tagIndex c!"DEFINITION" (childTags x) with
        | none => rw [hi, hj] at hb; cases hb
        | some j =>
          rw [hi, hj] at hb
          cases hb
          simp only [decide_eq_true_iff, reduceCtorEq, false_or]
          constructor
          · intro hlt; exact ⟨x, i, j, rfl, hi, hj, hlt⟩
          · rintro ⟨x', i', j', rfl', hi', hj', hlt⟩
            cases rfl'
            rw [hi] at hi'; rw [hj] at hj'
            cases hi'; cases hj'
            exact hlt

/-- Values of all kinds. -/
def exampleValues : List SpecObjectAttribute :=
  [⟨.string, some c!"d1", .str c!"a < \"b\" & 'c'", none, none⟩,
   ⟨.enumeration, some c!"d2", .list [some c!"v1", some c!"v2"], none, none⟩,
   ⟨.integer, some c!"d3", .str c!"-5", none, none⟩,
   ⟨.real, some c!"d4", .str c!"1.5", none, none⟩,
   ⟨.boolean, some c!"d5", .str c!"true", none, none⟩,
   ⟨.date, some c!"d6", .str c!"2020-01-01", none, none⟩,
   ⟨.xhtml, some c!"d7", .str c!"\n  <xhtml:div class=\"a\">x &lt; <xhtml:br/> y</xhtml:div>\n", none, none⟩]

/-- The content of the last value. -/
def exampleContent : List XTree :=
  [.text c!"\n  ", .elem c!"div" [(c!"class", c!"a")] [.text c!"x < ", .elem c!"br" [] [], .text c!" y"], .text c!"\n"]

/-- Non-vacuity: the values are safe in a customary document. -/
theorem exampleValues_safe : ∃ Γ, IsCtx usualRoot c!"xhtml" (exampleValues.any usesXhtml) Γ ∧ ∀ a ∈ exampleValues, SafeValue Γ a := by
  refine ⟨_, ⟨_, rfl, rfl⟩, ?_⟩
  intro a ha
  simp only [exampleValues, List.mem_cons, List.not_mem_nil, or_false] at ha
  rcases ha with rfl | rfl | rfl | rfl | rfl | rfl | rfl
  · exact ⟨by decide, (by decide : HtmlAttr _)⟩
  · exact ⟨by decide, (by decide : ∀ v ∈ [some c!"v1", some c!"v2"], PlainElem v), by rintro x ⟨⟩⟩
  · exact ⟨by decide, (by decide : PlainAttr _)⟩
  · exact ⟨by decide, (by decide : PlainAttr _)⟩
  · exact ⟨by decide, (by decide : PlainAttr _)⟩
  · exact ⟨by decide, (by decide : PlainAttr _)⟩
  · refine ⟨by decide, ?_⟩
    show SafeXhtml _ _
    refine ⟨rfl, exampleContent, ?_, rfl, rfl, fun _ => ⟨⟨by decide, _, rfl, by decide⟩, rfl⟩, fun h => absurd h (by decide)⟩
    unfold exampleContent
    simp only [AllWF, XTree.WF]
    decide

/-! ## Values that do not survive -/

/-- Kind, reference and value. -/
structure ReadValue where
  type : AttrType
  ref : Option Str
  value : AttrValue
  deriving DecidableEq

/-- What printed values are read as (`none`: not well-formed). -/
def rereadValues (as : List (Str × Str)) (vs : List SpecObjectAttribute) : Option (Option (List ReadValue)) :=
  match unparseAttributeValues (some vs) with
  | .error _ => none
  | .ok t =>
    match readDoc (document as t) with
    | none => none
    | some doc =>
      match strippedRoot doc.root with
      | .error _ => none
      | .ok r =>
        match r.children with
        | [n] => (match parseAttributeValues (some n) with
          | .ok (some vs') => some (some (vs'.map (fun a => ⟨a.type, a.definitionRef, a.value⟩)))
          | _ => some none)
        | _ => some none

set_option maxRecDepth 20000 in
/-- **C33**, the opposite: a quotation mark in an integer value gives a document that is
not well-formed. -/
theorem C33_quote : rereadValues usualRoot [⟨.integer, some c!"d", .str c!"1\"", none, none⟩] = none := by decide +kernel

set_option maxRecDepth 20000 in
/-- **C33**, the opposite: an absent reference comes back as the text `None`. -/
theorem C33_none : rereadValues usualRoot [⟨.integer, none, .str c!"1", none, none⟩] =
    some (some [⟨.integer, some c!"None", .str c!"1"⟩]) := by decide +kernel

set_option maxRecDepth 20000 in
/-- **C33**, the opposite: a tab in a string value comes back as a space. -/
theorem C33_tab : rereadValues usualRoot [⟨.string, some c!"d", .str c!"a\tb", none, none⟩] =
    some (some [⟨.string, some c!"d", .str c!"a b"⟩]) := by decide +kernel

/-- A root tag that declares and uses the schema namespace before the XHTML one. -/
def schemaFirst : List (Str × Str) :=
  [(c!"xmlns", c!"http://r"), (c!"xmlns:xsi", c!"http://s"), (c!"xmlns:xhtml", c!"http://www.w3.org/1999/xhtml"),
   (c!"xsi:schemaLocation", c!"l")]

set_option maxRecDepth 20000 in
/-- **C33**, the opposite: if another prefix is declared first and in use, the elements of
XHTML values come back with that prefix. -/
theorem C33_wrong_prefix : rereadValues schemaFirst [⟨.xhtml, some c!"d", .str c!"<xhtml:p>t</xhtml:p>", none, none⟩] =
    some (some [⟨.xhtml, some c!"d", .str c!"<xsi:p>t</xsi:p>"⟩]) := by decide +kernel

set_option maxRecDepth 20000 in
/-- **C33**, the opposite: without any namespace declaration, text that needs escaping
comes back unescaped, so that the next document is not well-formed. -/
theorem C33_no_namespace : rereadValues [] [⟨.xhtml, some c!"d", .str c!"a &amp; b", none, none⟩] =
      some (some [⟨.xhtml, some c!"d", .str c!"a & b"⟩]) ∧
    rereadValues [] [⟨.xhtml, some c!"d", .str c!"a & b", none, none⟩] = none := by decide +kernel

end ReqIF
