import Verif.Props.C33
import Verif.Proofs.ChildLoop
import Verif.Proofs.Attrs
/-!
# C34: attribute definitions survive write and read
-/
set_option linter.unusedSimpArgs false
namespace ReqIF
open Spec

/-- Reading the default value, by kind. -/
def parseDefault (n : Node) : AttrType → Py DefaultPart
  | .string => parseDefaultString n
  | .integer => parseDefaultSimple n c!"ATTRIBUTE-VALUE-INTEGER"
  | .real => parseDefaultSimple n c!"ATTRIBUTE-VALUE-REAL"
  | .date => parseDefaultSimple n c!"ATTRIBUTE-VALUE-DATE"
  | .boolean => parseDefaultBoolean n
  | .xhtml => parseDefaultXhtml n
  | .enumeration => parseDefaultEnumeration n

def parseMulti (n : Node) : AttrType → Option Bool
  | .enumeration => parseMultiValued n
  | _ => none

theorem parseDefinitionBody_ok {n d r : Node} {ty : AttrType} (ht : n.tag = .name ty.specTypeTag)
    (hd : n.find c!"TYPE" = some d) (hr : d.find ty.definitionTag = some r) {p : DefaultPart}
    (hp : parseDefault n ty = .ok p) : parseDefinitionBody n = .ok (ty, r.text?, p, parseMulti n ty) := by
  have ref : parseDatatypeRef n ty.definitionTag = .ok r.text? := by
    unfold parseDatatypeRef findReq
    rw [hd]
    simp only [orAttr, py_bind_ok, hr, py_pure]
    rfl
  unfold parseDefinitionBody
  rw [ht]
  cases ty
  all_goals
    simp only [AttrType.specTypeTag]
    repeat rw [if_neg (by decide)]
    try rw [if_pos rfl]
    try erw [ref]
    simp only [parseDefault] at hp
    try rw [py_bind_ok, hp, py_bind_ok, py_pure]
    try rfl

/-- A default value is printed as one element that is read as the same value. -/
theorem default_shows {Γ : Ctx} (hc : Γ.Clean) {a : SpecAttributeDefinition} (h : SafeDefault Γ a) {dv : DefaultValue}
    (hd : a.defaultValue = some dv) :
    ∃ t d, unparseDefaultValue a dv = .ok t ∧ Shows Γ (definitionUses a) t [d] ∧ d.tag = .name c!"DEFAULT-VALUE" ∧ Xsd.said d = Xsd.defaultSaid Γ.pfx a dv ∧
      (∀ n, n.find c!"DEFAULT-VALUE" = some d → parseDefault n a.type = .ok (keptRef a, some dv)) ∧
      ∀ b : SpecAttributeDefinition, b.type = a.type → b.defaultValueDefinitionRef = keptRef a →
        unparseDefaultValue b dv = .ok t := by
  obtain ⟨ty, i, dt, nd, desc, lc, ln, ed, ref, val, mv⟩ := a
  dsimp only at hd
  subst hd
  cases dv with
  | selfClosed =>
    obtain ⟨d, d1, d2, d3⟩ := Shows.empty (Γ := Γ) 14 (tag := c!"DEFAULT-VALUE") (by decide) Attributes.nil
    have sc : isSelfClosedTag d = true := selfClosed_nil d1.elem d2
    refine ⟨_, d, rfl, ?_, d1.tag, d1.saysRecord (by decide), ?_, ?_⟩
    · have : definitionUses ⟨ty, i, dt, nd, desc, lc, ln, ed, ref, some .selfClosed, mv⟩ = false := by
        cases ty <;> rfl
      rw [this]
      exact d3.congr rfl
    · intro n hn
      cases ty
      case string => simp only [parseDefault, parseDefaultString, hn, sc, if_true]; rfl
      case xhtml => simp only [parseDefault, parseDefaultXhtml, hn, sc, if_true]; rfl
      case enumeration => simp only [parseDefault, parseDefaultEnumeration, hn, sc, if_true]; rfl
      all_goals exact h.elim
    · intro b _ _; rfl
  | str v =>
    have simple : ∀ (tag : Str), blockTag tag = true → PlainAttr v → ∃ w d, IsEl w tag [(c!"THE-VALUE", v)] [] ∧
        IsEl d c!"DEFAULT-VALUE" [] [w] ∧ d.kids ≠ [] ∧ Shows Γ false (lineOpen 14 c!"DEFAULT-VALUE" ++
          spaces 16 ++ c!"<" ++ tag ++ attrOut c!"THE-VALUE" v ++ c!"/>\n" ++ lineClose 14 c!"DEFAULT-VALUE") [d] := by
      intro tag ht hv
      obtain ⟨w, w1, -, w2⟩ := Shows.empty (Γ := Γ) 16 (blockTag_name ht) (as := [(c!"THE-VALUE", v)]) (vs := [(c!"THE-VALUE", v)]) (by attributes)
      obtain ⟨d, d1, d2, d3⟩ := Shows.block 14 (tag := c!"DEFAULT-VALUE") (by decide) w2
      refine ⟨w, d, w1, d1, d2, d3.congr ?_⟩
      simp only [attrsText_one, List.append_assoc]
    cases ty
    case string =>
      obtain ⟨w, d, w1, d1, d2, d3⟩ := simple c!"ATTRIBUTE-VALUE-STRING" (by decide) h
      refine ⟨_, d, rfl, d3.congr ?_, d1.tag, (by rw [d1.saysRecord (by decide), List.map_cons, List.map_nil, w1.saysRecord (by decide)]; rfl), ?_, ?_⟩
      · simp only [List.append_assoc]; rfl
      · intro n hn
        have a1 : attrReq w c!"THE-VALUE" = .ok v := by unfold attrReq; rw [w1.attr]; rfl
        simp only [parseDefault, parseDefaultString, hn, selfClosed_ne d1.elem d2, Bool.false_eq_true, if_false,
          find_one d1 w1.tag, a1, py_bind_ok, py_pure]
        rfl
      · rintro b hb -
        simp only [unparseDefaultValue, hb]
    case boolean =>
      obtain ⟨hv, hr⟩ := h
      obtain ⟨e, r, e1, r1, e2, e3⟩ := Shows.ref (Γ := Γ) 18 20 (outer := c!"DEFINITION") (inner := c!"ATTRIBUTE-DEFINITION-BOOLEAN-REF")
        (by decide) (by decide) hr
      dsimp only at hr
      obtain ⟨x, rfl, -⟩ := hr
      obtain ⟨w, w1, -, -, w2⟩ := Shows.elem 16 (tag := c!"ATTRIBUTE-VALUE-BOOLEAN") (by decide) (as := [(c!"THE-VALUE", v)])
        (vs := [(c!"THE-VALUE", v)]) (by attributes) e3
      obtain ⟨d, d1, d2, d3⟩ := Shows.block 14 (tag := c!"DEFAULT-VALUE") (by decide) w2
      refine ⟨_, d, rfl, d3.congr ?_, d1.tag, (by
        rw [d1.saysRecord (by decide), List.map_cons, List.map_nil, w1.saysRecord (by decide), List.map_cons, List.map_nil,
          e1.saysRef r1 e2 (by decide) (by decide)]
        rfl), ?_, ?_⟩
      · simp only [attrsText_one, List.append_assoc, fmtOpt]; rfl
      · intro n hn
        have a1 : attrReq w c!"THE-VALUE" = .ok v := by unfold attrReq; rw [w1.attr]; rfl
        simp only [parseDefault, parseDefaultBoolean, hn, find_one d1 w1.tag, a1, py_bind_ok, py_pure, find_one w1 e1.tag,
          find_one e1 r1.tag, e2]
        rfl
      · rintro b hb hr
        simp only [unparseDefaultValue, hb, hr, keptRef]
    case enumeration =>
      obtain ⟨hv, hr⟩ := h
      obtain ⟨e, r, e1, r1, e2, e3⟩ := Shows.ref (Γ := Γ) 18 20 (outer := c!"DEFINITION") (inner := c!"ATTRIBUTE-DEFINITION-ENUMERATION-REF")
        (by decide) (by decide) hr
      obtain ⟨f, s, f1, s1, f2, f3⟩ := Shows.ref (Γ := Γ) 18 20 (outer := c!"VALUES") (inner := c!"ENUM-VALUE-REF")
        (by decide) (by decide) hv
      dsimp only at hr
      obtain ⟨x, rfl, -⟩ := hr
      obtain ⟨w, w1, -, w2⟩ := Shows.block 16 (tag := c!"ATTRIBUTE-VALUE-ENUMERATION") (by decide) (e3.append f3)
      obtain ⟨d, d1, d2, d3⟩ := Shows.block 14 (tag := c!"DEFAULT-VALUE") (by decide) w2
      refine ⟨_, d, rfl, d3.congr ?_, d1.tag, (by
        rw [d1.saysRecord (by decide), List.map_cons, List.map_nil, w1.saysRecord (by decide)]
        simp only [List.cons_append, List.nil_append, List.map_cons, List.map_nil]
        rw [e1.saysRef r1 e2 (by decide) (by decide), f1.saysList (by decide), List.map_cons, List.map_nil, s1.saysText (by decide), f2]
        rfl), ?_, ?_⟩
      · simp only [List.append_assoc, fmtOpt]; rfl
      · intro n hn
        have g1 : w.find c!"DEFINITION" = some e := by rw [find_eq, w1.children]; simp [e1.tag]
        have g2 : w.find c!"VALUES" = some f := by rw [find_eq, w1.children]; simp [e1.tag, f1.tag]
        have g3 : findReq e c!"ATTRIBUTE-DEFINITION-ENUMERATION-REF" = .ok r := by unfold findReq; rw [find_one e1 r1.tag]; rfl
        simp only [parseDefault, parseDefaultEnumeration, hn, selfClosed_ne d1.elem d2, Bool.false_eq_true, if_false,
          find_one d1 w1.tag, py_bind_ok, py_pure, g1, g2, g3, find_one f1 s1.tag, e2, f2]
        rfl
      · rintro b hb hr
        simp only [unparseDefaultValue, hb, hr, keptRef]
    case xhtml =>
      obtain ⟨hv, hk, hr⟩ := h
      obtain ⟨e, r, e1, r1, e2, e3⟩ := Shows.ref (Γ := Γ) 18 20 (outer := c!"DEFINITION") (inner := c!"ATTRIBUTE-DEFINITION-XHTML-REF")
        (by decide) (by decide) hr
      have hp := hv.1
      obtain ⟨f, ⟨ts, ts1, ts2, ts3, f0⟩, -, f3, -, f5, -⟩ := Shows.xhtml hc 18 (tag := c!"THE-VALUE") (by decide) hv
      have f1 : f.tag = .name c!"THE-VALUE" := by rw [f0]; rfl
      dsimp only at hr
      obtain ⟨x, rfl, -⟩ := hr
      obtain ⟨w, w1, -, w2⟩ := Shows.block 16 (tag := c!"ATTRIBUTE-VALUE-XHTML") (by decide) (e3.append f3)
      obtain ⟨d, d1, d2, d3⟩ := Shows.block 14 (tag := c!"DEFAULT-VALUE") (by decide) w2
      refine ⟨_, d, rfl, ?_, d1.tag, (by
        rw [d1.saysRecord (by decide), List.map_cons, List.map_nil, w1.saysRecord (by decide)]
        simp only [List.cons_append, List.nil_append, List.map_cons, List.map_nil]
        rw [e1.saysRef r1 e2 (by decide) (by decide), f0, Xsd.xhtml_said hp ts1 ts2 (by decide), ← ts3]
        rfl), ?_, ?_⟩
      · rw [Bool.false_or] at d3
        refine d3.congr ?_
        simp only [List.append_assoc, fmtOpt]
      · intro n hn
        have g1 : w.find c!"DEFINITION" = some e := by rw [find_eq, w1.children]; simp [e1.tag]
        have g2 : findReq w c!"THE-VALUE" = .ok f := by unfold findReq; rw [find_eq, w1.children]; simp [e1.tag, f1, orAttr]
        simp only [parseDefault, parseDefaultXhtml, hn, selfClosed_ne d1.elem d2, Bool.false_eq_true, if_false,
          find_one d1 w1.tag, py_bind_ok, py_pure, g1, g2, find_one e1 r1.tag, e2, f5 hk]
        rfl
      · rintro b hb hr
        simp only [unparseDefaultValue, hb, hr, keptRef]
    case integer =>
      obtain ⟨w, d, w1, d1, d2, d3⟩ := simple c!"ATTRIBUTE-VALUE-INTEGER" (by decide) h
      refine ⟨_, d, rfl, d3.congr ?_, d1.tag, (by rw [d1.saysRecord (by decide), List.map_cons, List.map_nil, w1.saysRecord (by decide)]; rfl), ?_, ?_⟩
      · simp only [List.append_assoc]; rfl
      · intro n hn
        have a1 : attrReq w c!"THE-VALUE" = .ok v := by unfold attrReq; rw [w1.attr]; rfl
        simp only [parseDefault, parseDefaultSimple, hn, find_one d1 w1.tag, a1, py_bind_ok, py_pure]
        rfl
      · rintro b hb -
        simp only [unparseDefaultValue, hb]
    case real =>
      obtain ⟨w, d, w1, d1, d2, d3⟩ := simple c!"ATTRIBUTE-VALUE-REAL" (by decide) h
      refine ⟨_, d, rfl, d3.congr ?_, d1.tag, (by rw [d1.saysRecord (by decide), List.map_cons, List.map_nil, w1.saysRecord (by decide)]; rfl), ?_, ?_⟩
      · simp only [List.append_assoc]; rfl
      · intro n hn
        have a1 : attrReq w c!"THE-VALUE" = .ok v := by unfold attrReq; rw [w1.attr]; rfl
        simp only [parseDefault, parseDefaultSimple, hn, find_one d1 w1.tag, a1, py_bind_ok, py_pure]
        rfl
      · rintro b hb -
        simp only [unparseDefaultValue, hb]
    case date =>
      obtain ⟨w, d, w1, d1, d2, d3⟩ := simple c!"ATTRIBUTE-VALUE-DATE" (by decide) h
      refine ⟨_, d, rfl, d3.congr ?_, d1.tag, (by rw [d1.saysRecord (by decide), List.map_cons, List.map_nil, w1.saysRecord (by decide)]; rfl), ?_, ?_⟩
      · simp only [List.append_assoc]; rfl
      · intro n hn
        have a1 : attrReq w c!"THE-VALUE" = .ok v := by unfold attrReq; rw [w1.attr]; rfl
        simp only [parseDefault, parseDefaultSimple, hn, find_one d1 w1.tag, a1, py_bind_ok, py_pure]
        rfl
      · rintro b hb -
        simp only [unparseDefaultValue, hb]

theorem definitionAttrs_ok {Γ : Ctx} {a : SpecAttributeDefinition} (h : SafeDefinition Γ a) :
    Attributes (definitionAttrs a) (optA c!"DESC" id a.description ++ [(c!"IDENTIFIER", a.identifier)] ++
      boolA c!"IS-EDITABLE" a.editable ++ truthyA c!"LAST-CHANGE" id a.lastChange ++ optA c!"LONG-NAME" id a.longName ++
      boolA c!"MULTI-VALUED" a.multiValued) := by
  obtain ⟨h1, h2, h3, h4, -, -, -, -⟩ := h
  unfold definitionAttrs
  attributes

theorem definition_survives {Γ : Ctx} (hc : Γ.Clean) {a : SpecAttributeDefinition} (h : SafeDefinition Γ a) :
    Survives Γ (definitionUses a) (fun n => (n.tag = .name a.type.specTypeTag ∧ childTags n = definitionOrder a) ∧ Xsd.said n = Xsd.definitionSaid Γ.pfx a)
      unparseAttributeDefinition parseAttributeDefinition bareDefinition readDefinition a := by
  have hat := definitionAttrs_ok h
  obtain ⟨h1, h2, h3, h4, h5, h6, h7, h8, hT, hV⟩ := h
  obtain ⟨d, dr, d1, dr1, d2, d3⟩ := Shows.ref (Γ := Γ) 14 16 (outer := c!"TYPE") (inner := a.type.definitionTag)
    (by decide) (by cases a.type <;> decide) h5
  have hv : ∃ (vt : Str) (vn : Option Node),
      unparseDefinitionChild a (.name c!"DEFAULT-VALUE") = .ok vt ∧
      (∀ b : SpecAttributeDefinition, b.type = a.type → b.defaultValueDefinitionRef = keptRef a → b.defaultValue = a.defaultValue →
        unparseDefinitionChild b (.name c!"DEFAULT-VALUE") = .ok vt) ∧
      ((vn = none ∧ vt = [] ∧ a.defaultValue = none) ∨ ∃ n, vn = some n ∧ n.tag = .name c!"DEFAULT-VALUE" ∧
        Shows Γ (definitionUses a) vt [n] ∧ a.defaultValue.isSome = true) ∧
      vn.map Xsd.said = a.defaultValue.map (Xsd.defaultSaid Γ.pfx a) ∧
      ∀ n, n.find c!"DEFAULT-VALUE" = vn → parseDefault n a.type = .ok (keptRef a, a.defaultValue) := by
    cases hdv : a.defaultValue with
    | none =>
      refine ⟨[], none, ?_, ?_, .inl ⟨rfl, rfl, rfl⟩, rfl, ?_⟩
      · simp only [unparseDefinitionChild, if_true, hdv]
      · intro b _ _ hb
        simp only [unparseDefinitionChild, if_true, hb]
      · intro n hn
        have hk : keptRef a = none := by
          unfold keptRef
          rw [hdv]
          cases a.type <;> rfl
        rw [hk]
        cases a.type <;> simp only [parseDefault, parseDefaultString, parseDefaultSimple, parseDefaultBoolean,
          parseDefaultXhtml, parseDefaultEnumeration, hn]
    | some dv =>
      obtain ⟨t, w, e1, e2, e3, e6, e4, e5⟩ := default_shows hc h6 hdv
      refine ⟨t, some w, ?_, ?_, .inr ⟨w, rfl, e3, e2, rfl⟩, by rw [Option.map_some, e6]; rfl, e4⟩
      · simp only [unparseDefinitionChild, if_true, hdv, e1]
      · intro b b1 b2 b3
        simp only [unparseDefinitionChild, if_true, b3, e5 b b1 b2]
  obtain ⟨vt, vn, v0, v1, v2, vs, v3⟩ := hv
  generalize hts : sourceOrder a.xmlNode definitionTags = ts at h8 hT hV
  let node : Tag → Option Node := fun t => if t = .name c!"TYPE" then some d else if t = .name c!"DEFAULT-VALUE" then vn else none
  let use : Tag → Bool := fun t => if t = .name c!"DEFAULT-VALUE" then definitionUses a else false
  have htag : ∀ t n, node t = some n → n.tag = t := by
    intro t n hn
    simp only [node] at hn
    repeat' split at hn
    · rename_i e; cases hn; rw [e]; exact d1.tag
    · rename_i e
      rcases v2 with ⟨rfl, -, -⟩ | ⟨m, rfl, hm, -, -⟩
      · cases hn
      · cases hn; rw [e]; exact hm
    · cases hn
  have hsome : ∀ t ∈ ts, (node t).isSome = !(t == .name c!"DEFAULT-VALUE" && a.defaultValue.isNone) := by
    intro t ht
    have hk := h8 t ht
    simp only [definitionTags, List.map_cons, List.map_nil, List.mem_cons, List.not_mem_nil, or_false] at hk
    rcases hk with rfl | rfl
    · rcases v2 with ⟨rfl, -, e⟩ | ⟨m, rfl, hm, -, hs⟩
      · rw [e]; rfl
      · cases hdv : a.defaultValue with
        | none => rw [hdv] at hs; cases hs
        | some a => rfl
    · rfl
  have nouse : a.defaultValue = none → definitionUses a = false := by
    intro e
    unfold definitionUses
    rw [e]
    cases a.type <;> rfl
  obtain ⟨body, b1, b2, b3⟩ := childLoop (Γ := Γ) (g := unparseDefinitionChild a) (node := node)
    (use := use) ts (by
      intro t ht
      have hk := h8 t ht
      simp only [definitionTags, List.map_cons, List.map_nil, List.mem_cons, List.not_mem_nil, or_false] at hk
      rcases hk with rfl | rfl
      · refine ⟨vt, v0, ?_⟩
        rcases v2 with ⟨rfl, rfl, e⟩ | ⟨m, rfl, hm, hs, -⟩
        · exact .inl ⟨rfl, rfl, nouse e⟩
        · exact .inr ⟨m, rfl, hm, hs⟩
      · exact ⟨_, rfl, .inr ⟨d, rfl, d1.tag, d3⟩⟩)
  have hu : ts.any use = definitionUses a := by
    cases hdv : a.defaultValue with
    | none => simp [use, nouse hdv]
    | some w => exact any_use (hV (by rw [hdv]; rfl))
  rw [hu] at b2
  obtain ⟨n, n1, -, -, n3⟩ := Shows.elem 12 (tag := a.type.specTypeTag) (by cases a.type <;> decide) hat b2
  have hct : childTags n = ts.filter (fun t => (node t).isSome) := by
    unfold childTags; rw [n1.children]; exact b3
  have fd : n.find c!"TYPE" = some d := by
    rw [find_eq, n1.children, find_loop (fun t _ => htag t), if_pos hT]; rfl
  have fv : n.find c!"DEFAULT-VALUE" = vn := by
    rw [find_eq, n1.children, find_loop (fun t _ => htag t)]
    split
    · rfl
    · rename_i hn
      rcases v2 with ⟨rfl, -, -⟩ | ⟨m, -, -, -, hs⟩
      · rfl
      · exact absurd (hV hs) hn
  have order : definitionChildTags a = ts := by
    rw [← hts]
    unfold definitionChildTags sourceOrder
    cases a.xmlNode <;> rfl
  have hmv : parseMulti n a.type = a.multiValued := by
    cases hm : a.multiValued with
    | none =>
      have : parseMultiValued n = none := by
        unfold parseMultiValued
        rw [n1.attr]
        simp [look_append, look_opt, look_cons, look_truthy, look_nil, look_bool, hm]
      cases a.type <;> simp only [parseMulti, this]
    | some b =>
      rw [h7 (by rw [hm]; rfl)]
      unfold parseMulti parseMultiValued
      rw [n1.attr]
      simp only [look_append, look_opt, look_cons, look_truthy, look_nil, look_bool, hm]
      cases b <;> rfl
  refine ⟨_, n, { readDefinition a with xmlNode := some n }, ?_, n3, ⟨⟨n1.tag, ?_⟩, ?_⟩, ?_, rfl, ?_⟩
  · unfold unparseAttributeDefinition
    rw [order, b1, py_bind_ok, py_pure, definitionAttrs_text]
    simp only [List.append_assoc]
  · rw [hct]
    unfold definitionOrder
    rw [hts]
    exact List.filter_congr hsome
  · rw [n1.saysRecord (by cases a.type <;> decide)]
    unfold Xsd.definitionSaid
    rw [hts]
    congr 1
    refine Xsd.filterMap_said ts (fun t _ => ?_)
    simp only [node]
    split
    · rw [Option.map_some, d1.saysRef dr1 d2 (by decide) (by cases a.type <;> decide)]
    · split
      · exact vs
      · rfl
  · have a2 : attrReq n c!"IDENTIFIER" = .ok a.identifier := by
      unfold attrReq
      rw [n1.attr]
      simp [look_append, look_opt, look_cons, look_truthy, look_nil, look_bool, orKey]
    unfold parseAttributeDefinition
    rw [a2, py_bind_ok, parseDefinitionBody_ok n1.tag fd (find_one d1 dr1.tag) (v3 n fv), py_bind_ok]
    dsimp only
    rw [py_pure, hmv, d2]
    have e1 : n.attr? c!"DESC" = a.description := by
      rw [n1.attr]; simp [look_append, look_opt, look_cons, look_truthy, look_nil, look_bool]
    have e2 : n.attr? c!"LAST-CHANGE" = dropEmpty a.lastChange := by
      rw [n1.attr]; simp [look_append, look_opt, look_cons, look_truthy, look_nil, look_bool, dropEmpty]
    have e3 : n.attr? c!"LONG-NAME" = a.longName := by
      rw [n1.attr]; simp [look_append, look_opt, look_cons, look_truthy, look_nil, look_bool]
    have e4 : editableOf (n.attr? c!"IS-EDITABLE") = a.editable := by
      rw [n1.attr]
      have : editableOf (a.editable.map boolOut) = a.editable := by
        cases a.editable with
        | none => rfl
        | some b => cases b <;> rfl
      refine Eq.trans (congrArg editableOf ?_) this
      simp [look_append, look_opt, look_cons, look_truthy, look_nil, look_bool]
    rw [e1, e2, e3, e4]
    rfl
  · have tags : definitionChildTags { readDefinition a with xmlNode := some n } = ts.filter (fun t => (node t).isSome) := hct
    unfold unparseAttributeDefinition
    rw [tags, concat_filter (g := unparseDefinitionChild a), b1, py_bind_ok, py_pure, definitionAttrs_text]
    · simp only [readDefinition, bareDefinition, List.append_assoc]
      rw [attrTruthy_dropEmpty]
    · intro t ht
      have hk := h8 t ht
      simp only [definitionTags, List.map_cons, List.map_nil, List.mem_cons, List.not_mem_nil, or_false] at hk
      rcases hk with rfl | rfl
      · refine ⟨fun _ => ?_, fun hp => ?_⟩
        · exact (v1 { readDefinition a with xmlNode := some n } rfl rfl rfl).trans v0.symm
        · rw [v0]
          rcases v2 with ⟨-, rfl, -⟩ | ⟨m, rfl, -⟩
          · rfl
          · cases hp
      · exact ⟨fun _ => rfl, fun hp => by cases hp⟩

/-- **C34.**  Every safe attribute definition is printed, and read back, in a document
with any ordinary root tag, as a definition of the same kind with the same identifier,
datatype, description, time stamp, long name, flags and default value.  Its children
come in the order of the document it was read from, or the default value first; and it
is printed the same way again. -/
theorem C34_roundtrip {as : List (Str × Str)} (hr : RootAttrs as) {p : Str} {a : SpecAttributeDefinition} {Γ : Ctx}
    (hΓ : IsCtx as p (definitionUses a) Γ) (h : SafeDefinition Γ a) :
    ∃ t n a', unparseAttributeDefinition a = .ok t ∧ ReadsAs as t [n] ∧ childTags n = definitionOrder a ∧
      parseAttributeDefinition n = .ok a' ∧ bareDefinition a' = readDefinition a ∧ unparseAttributeDefinition a' = .ok t := by
  obtain ⟨hc, hs⟩ := IsCtx.spec hΓ hr
  obtain ⟨t, n, a', h1, h2, h3, h4, h5, h6⟩ := definition_survives hc h
  exact ⟨t, n, a', h1, hs _ _ h2, h3.1.2, h4, h5, h6⟩

/-- A definition of each kind. -/
def exampleDefinitions : List SpecAttributeDefinition := [
  ⟨.string, c!"d-1", some c!"t-1", none, some c!"a \"b\" <c>", some c!"2020", some c!"Name & more", some true, none, some (.str c!"x y"), none⟩,
  ⟨.string, c!"d-2", some c!"t-1", none, none, none, none, some false, none, some .selfClosed, none⟩,
  ⟨.integer, c!"d-3", some c!"t-2", none, none, none, none, none, none, some (.str c!"42"), none⟩,
  ⟨.real, c!"d-4", some c!"t-3", none, none, none, none, none, none, some (.str c!"4.2"), none⟩,
  ⟨.boolean, c!"d-5", some c!"t-4", none, none, none, none, none, some c!"d-5", some (.str c!"true"), none⟩,
  ⟨.date, c!"d-6", some c!"t-5", some (.elem ⟨none, none, c!"ATTRIBUTE-DEFINITION-DATE", [], [], []⟩
      [.elem ⟨none, none, c!"TYPE", [], [], []⟩ [], .elem ⟨none, none, c!"DEFAULT-VALUE", [], [], []⟩ []]),
    none, none, none, none, none, some (.str c!"2020"), none⟩,
  ⟨.enumeration, c!"d-7", some c!"t-6", none, none, none, none, none, some c!"d-7", some (.str c!"v-1"), some true⟩,
  ⟨.xhtml, c!"d-8", some c!"t-7", none, none, none, none, none, some c!"d-8", some (.str c!"<xhtml:div>a &lt; b</xhtml:div>"), none⟩,
  ⟨.xhtml, c!"d-9", some c!"t-7", none, none, none, none, none, none, none, none⟩]

/-- The content of the XHTML default. -/
def exampleDefault : List XTree := [.elem c!"div" [] [.text c!"a < b"]]

/-- Non-vacuity. -/
theorem exampleDefinitions_safe : ∃ Γ, IsCtx usualRoot c!"xhtml" true Γ ∧ exampleDefinitions.any definitionUses = true ∧
    ∀ a ∈ exampleDefinitions, SafeDefinition Γ a := by
  refine ⟨_, ⟨_, rfl, rfl⟩, by decide, ?_⟩
  intro a ha
  simp only [exampleDefinitions, List.mem_cons, List.not_mem_nil, or_false] at ha
  rcases ha with rfl | rfl | rfl | rfl | rfl | rfl | rfl | rfl | rfl
  · exact ⟨by decide, by decide, by decide, by decide, by decide, (by decide : PlainAttr _), by decide, by decide⟩
  · exact ⟨by decide, by decide, by decide, by decide, by decide, trivial, by decide, by decide⟩
  · exact ⟨by decide, by decide, by decide, by decide, by decide, (by decide : PlainAttr _), by decide, by decide⟩
  · exact ⟨by decide, by decide, by decide, by decide, by decide, (by decide : PlainAttr _), by decide, by decide⟩
  · exact ⟨by decide, by decide, by decide, by decide, by decide, (by decide : PlainAttr _ ∧ PlainElem (some c!"d-5")), by decide, by decide⟩
  · exact ⟨by decide, by decide, by decide, by decide, by decide, (by decide : PlainAttr _), by decide, by decide⟩
  · exact ⟨by decide, by decide, by decide, by decide, by decide, (by decide : PlainElem (some c!"v-1") ∧ PlainElem (some c!"d-7")),
      by decide, by decide⟩
  · refine ⟨by decide, by decide, by decide, by decide, by decide, ⟨?_, by decide, (by decide : PlainElem (some c!"d-8"))⟩, by decide, by decide⟩
    refine ⟨rfl, exampleDefault, ?_, rfl, rfl, fun _ => ⟨⟨by decide, _, rfl, by decide⟩, rfl⟩, fun h => absurd h (by decide)⟩
    unfold exampleDefault
    simp only [AllWF, XTree.WF]
    decide
  · exact ⟨by decide, by decide, by decide, by decide, by decide, trivial, by decide, by decide⟩

/-! ## Definitions that do not survive -/

/-- The fields of interest. -/
structure ReadDefault where
  type : AttrType
  ref : Option Str
  value : Option DefaultValue
  multi : Option Bool
  deriving DecidableEq

/-- What reading the printed definition gives. -/
inductive Reread
  | refused
  | malformed
  | unreadable
  | read (r : ReadDefault)
  deriving DecidableEq

def rereadDefinition (a : SpecAttributeDefinition) : Reread :=
  match unparseAttributeDefinition a with
  | .error _ => .refused
  | .ok t =>
    match readDoc (document usualRoot t) with
    | none => .malformed
    | some doc =>
      match strippedRoot doc.root with
      | .error _ => .unreadable
      | .ok r =>
        match r.children with
        | [n] => (match parseAttributeDefinition n with
          | .ok b => .read ⟨b.type, b.defaultValueDefinitionRef, b.defaultValue, b.multiValued⟩
          | _ => .unreadable)
        | _ => .unreadable

/-- A definition created through the API. -/
def apiDefinition (ty : AttrType) (ref : Option Str) (dv : Option DefaultValue) (mv : Option Bool) : SpecAttributeDefinition :=
  ⟨ty, c!"d", some c!"t", none, none, none, none, none, ref, dv, mv⟩

set_option maxRecDepth 20000 in
/-- **C34**, the opposite: default values are printed as they are; an ampersand makes
the document not well-formed, or changes the value. -/
theorem C34_ampersand :
    rereadDefinition (apiDefinition .string none (some (.str c!"R&D")) none) = .malformed ∧
    rereadDefinition (apiDefinition .string none (some (.str c!"&lt;")) none) = .read ⟨.string, none, some (.str c!"<"), none⟩ := by
  decide +kernel

set_option maxRecDepth 20000 in
/-- **C34**, the opposite: `MULTI-VALUED` is printed for every kind and read for
enumerations only. -/
theorem C34_multi_valued :
    rereadDefinition (apiDefinition .string none none (some true)) = .read ⟨.string, none, none, none⟩ ∧
    rereadDefinition (apiDefinition .enumeration none none (some true)) = .read ⟨.enumeration, none, none, some true⟩ := by
  decide +kernel

set_option maxRecDepth 20000 in
/-- **C34**, the opposite: an empty `DEFAULT-VALUE` of a number is printed but cannot
be read. -/
theorem C34_empty_default :
    rereadDefinition (apiDefinition .integer none (some .selfClosed) none) = .unreadable ∧
    rereadDefinition (apiDefinition .string none (some .selfClosed) none) = .read ⟨.string, none, some .selfClosed, none⟩ := by
  decide +kernel

set_option maxRecDepth 20000 in
/-- **C34**, the opposite: a default value of an XHTML attribute that is only text
cannot be read in a customary document, because no namespace is left in force. -/
theorem C34_xhtml_text :
    rereadDefinition (apiDefinition .xhtml (some c!"d") (some (.str c!"text")) none) = .unreadable ∧
    rereadDefinition (apiDefinition .xhtml (some c!"d") (some (.str c!"<xhtml:p>text</xhtml:p>")) none) =
      .read ⟨.xhtml, some c!"d", some (.str c!"<xhtml:p>text</xhtml:p>"), none⟩ := by
  decide +kernel

/-- A reference element. -/
def refNode (tag text : Str) : Node := .elem ⟨none, none, tag, [], [], []⟩ [.text text]

/-- An attribute definition element. -/
def definitionNode (kind : Str) (cs : List Node) : Node :=
  .elem ⟨none, none, c!"ATTRIBUTE-DEFINITION-" ++ kind, [], [], [⟨none, none, c!"IDENTIFIER", c!"d"⟩]⟩
    (.elem ⟨none, none, c!"TYPE", [], [], []⟩ [refNode (c!"DATATYPE-DEFINITION-" ++ kind ++ c!"-REF") c!"t"] :: cs)

/-- **C34**, the opposite: a definition with an alternative identifier is read but cannot
be printed. -/
theorem C34_extra_child : ∃ a, parseAttributeDefinition (definitionNode c!"STRING" [.elem ⟨none, none, c!"ALTERNATIVE-ID", [], [], []⟩ []]) = .ok a ∧
    unparseAttributeDefinition a = .error .notImplemented := ⟨_, rfl, rfl⟩

/-- **C34**, the opposite: a boolean default without reference to the definition is read
but cannot be printed. -/
theorem C34_no_reference : ∃ a, parseAttributeDefinition (definitionNode c!"BOOLEAN"
    [.elem ⟨none, none, c!"DEFAULT-VALUE", [], [], []⟩
      [.elem ⟨none, none, c!"ATTRIBUTE-VALUE-BOOLEAN", [], [], [⟨none, none, c!"THE-VALUE", c!"true"⟩]⟩ []]]) = .ok a ∧
    unparseAttributeDefinition a = .error .assertion := ⟨_, rfl, rfl⟩

/-- **C34**, the opposite: of several default values of an enumeration only the first is
kept. -/
theorem C34_two_defaults : ∃ a, parseAttributeDefinition (definitionNode c!"ENUMERATION"
    [.elem ⟨none, none, c!"DEFAULT-VALUE", [], [], []⟩
      [.elem ⟨none, none, c!"ATTRIBUTE-VALUE-ENUMERATION", [], [], []⟩
        [.elem ⟨none, none, c!"VALUES", [], [], []⟩ [refNode c!"ENUM-VALUE-REF" c!"v-1", refNode c!"ENUM-VALUE-REF" c!"v-2"]]]]) = .ok a ∧
    a.defaultValue = some (.str c!"v-1") := ⟨_, rfl, rfl⟩

end ReqIF
