import Verif.Props.C36
/-!
# C38, C39: hierarchies and specifications survive write and read
-/
set_option linter.unusedSimpArgs false
namespace ReqIF
open Spec

/-! ## C38 -/

theorem parseHierarchies_cons (level : Nat) {k : Node} (hk : k.isText = false) (ks : List Node) :
    parseHierarchies level (k :: ks) =
      match parseHierarchy level k with
      | .error e => .error e
      | .ok h =>
        match parseHierarchies level ks with
        | .error e => .error e
        | .ok hs => .ok (h :: hs) := by
  cases k with
  | text t => cases hk
  | elem i kk =>
    rw [parseHierarchies]
    · cases parseHierarchy level (.elem i kk) with
      | error e => rfl
      | ok h => dsimp only; cases parseHierarchies level ks <;> rfl
    · intro s e; cases e
  | comment c =>
    rw [parseHierarchies]
    · cases parseHierarchy level (.comment c) with
      | error e => rfl
      | ok h => dsimp only; cases parseHierarchies level ks <;> rfl
    · intro s e; cases e
  | pi t d =>
    rw [parseHierarchies]
    · cases parseHierarchy level (.pi t d) with
      | error e => rfl
      | ok h => dsimp only; cases parseHierarchies level ks <;> rfl
    · intro s e; cases e

theorem parseHierarchies_eq (level : Nat) (ks : List Node) :
    parseHierarchies level ks = mapPy (parseHierarchy level) (ks.filter (fun k => !k.isText)) := by
  induction ks with
  | nil => rw [parseHierarchies]; rfl
  | cons k ks ih =>
    cases hk : k.isText with
    | true =>
      cases k with
      | text t => rw [parseHierarchies, ih]; rfl
      | elem i kk => cases hk
      | comment c => cases hk
      | pi t d => cases hk
    | false =>
      rw [parseHierarchies_cons level hk, ih, List.filter_cons]
      simp only [hk, Bool.not_false, if_true, mapPy]
      cases parseHierarchy level k with
      | error e => rfl
      | ok x =>
        dsimp only
        cases mapPy (parseHierarchy level) (ks.filter (fun k => !k.isText)) <;> rfl

theorem parseFirstChildren_eq (level : Nat) (ks : List Node) :
    parseFirstChildren level ks =
      match ks.find? (fun k => !k.isText && k.tag == .name c!"CHILDREN") with
      | none => none
      | some c =>
        match mapPy (parseHierarchy level) c.children with
        | .error e => some (.error e)
        | .ok cs => some (.ok (c.len == 0 && isSelfClosedTag c, cs)) := by
  induction ks with
  | nil => rw [parseFirstChildren]; rfl
  | cons k ks ih =>
    cases k with
    | text t => rw [parseFirstChildren, ih, List.find?_cons]; rfl
    | comment t => rw [parseFirstChildren, ih, List.find?_cons]; rfl
    | pi t d => rw [parseFirstChildren, ih, List.find?_cons]; rfl
    | elem i kk =>
      rw [parseFirstChildren, List.find?_cons]
      by_cases h : (Node.elem i kk).tag = .name c!"CHILDREN"
      · have e : (!(Node.elem i kk).isText && (Node.elem i kk).tag == .name c!"CHILDREN") = true := by
          rw [h]; rfl
        rw [if_pos h, e]
        dsimp only
        rw [parseHierarchies_eq]
        rfl
      · have e : (!(Node.elem i kk).isText && (Node.elem i kk).tag == .name c!"CHILDREN") = false := by
          simpa [Node.isText] using h
        rw [if_neg h, e, ih]

theorem boolAttr_look {n : Node} {tag : Str} {vs : List (Str × Str)} {cs : List Node} (h : IsEl n tag vs cs) (k : Str) :
    boolAttr n k = (look vs k).map (fun s => s == c!"true") := by
  unfold boolAttr
  rw [h.attr]

theorem boolOut_back (o : Option Bool) : (o.map boolOut).map (fun s => s == c!"true") = o := by
  cases o with
  | none => rfl
  | some b => cases b <;> rfl

/-- The attributes that come back. -/
theorem hierarchyAttrs_look (i : HInfo) :
    look (hierarchyAttrs i) c!"IDENTIFIER" = some i.identifier ∧
    look (hierarchyAttrs i) c!"LAST-CHANGE" = dropEmpty i.lastChange ∧
    look (hierarchyAttrs i) c!"LONG-NAME" = dropEmpty i.longName ∧
    (look (hierarchyAttrs i) c!"IS-EDITABLE").map (fun s => s == c!"true") = i.editable ∧
    (look (hierarchyAttrs i) c!"IS-TABLE-INTERNAL").map (fun s => s == c!"true") = i.isTableInternal := by
  unfold hierarchyAttrs
  refine ⟨?_, ?_, ?_, ?_, ?_⟩
  · simp [look_append, look_cons, look_bool, look_truthy, look_nil]
  · simp [look_append, look_cons, look_bool, look_truthy, look_nil, dropEmpty]
  · simp [look_append, look_cons, look_bool, look_truthy, look_nil, dropEmpty]
  · refine Eq.trans ?_ (boolOut_back i.editable)
    simp [look_append, look_cons, look_bool, look_truthy, look_nil]
  · refine Eq.trans ?_ (boolOut_back i.isTableInternal)
    simp [look_append, look_cons, look_bool, look_truthy, look_nil]

/-- What parsing a printed node gives, once its `CHILDREN` are known. -/
theorem parseHierarchy_el {n : Node} {i : HInfo} {cs : List Node} {level : Nat} (h : IsEl n c!"SPEC-HIERARCHY" (hierarchyAttrs i) cs)
    {d r : Node} (hd : n.find c!"OBJECT" = some d) (hr : d.find c!"SPEC-OBJECT-REF" = some r) (ht : r.text? = i.specObject)
    {res : Option (Bool × List Hierarchy)} (hc : parseFirstChildren (level + 1) n.kids = res.map .ok) :
    parseHierarchy level n =
      (let info (b : Bool) : HInfo :=
        { i with level, lastChange := dropEmpty i.lastChange, longName := dropEmpty i.longName,
                 refThenChildrenOrder := childTags n == [.name c!"OBJECT", .name c!"CHILDREN"], isSelfClosed := b,
                 xmlNode := some n }
      match res with
      | none => .ok (.leaf (info false))
      | some (b, hs) => .ok (.node (info b) hs)) := by
  obtain ⟨l1, l2, l3, l4, l5⟩ := hierarchyAttrs_look i
  obtain ⟨ni, nks, rfl⟩ := h.elem
  have a2 : attrReqNI (.elem ni nks) c!"IDENTIFIER" = .ok i.identifier := by
    unfold attrReqNI attrReq
    rw [h.attr, l1]
    rfl
  have hc' : parseFirstChildren (level + 1) nks = res.map .ok := hc
  rw [parseHierarchy]
  simp only [if_pos h.tag, a2, hd, hr, hc', ht, h.attr, l2, l3, boolAttr_look h, l4, l5]
  cases res with
  | none => rfl
  | some p => rfl

theorem hierarchyAttrs_ok {level : Nat} {i : HInfo} (h : SafeHInfo level i) : Attributes (hierarchyAttrs i) (hierarchyAttrs i) := by
  obtain ⟨-, h1, h2, h3, -⟩ := h
  unfold hierarchyAttrs
  attributes

theorem hierarchyHead_read (base : Nat) (i : HInfo) (r s : Bool) (x : Option Node) (l : Nat) :
    unparseHierarchyHead base ⟨i.identifier, i.specObject, l, dropEmpty i.longName, r, dropEmpty i.lastChange, i.editable,
      i.isTableInternal, s, x⟩ = unparseHierarchyHead base i := by
  simp only [unparseHierarchyHead, attrTruthy_dropEmpty]

theorem hierarchyObject_shows (Γ : Ctx) {level : Nat} {i : HInfo} (h : SafeHInfo level i) (base : Nat) :
    ∃ d r, d.tag = .name c!"OBJECT" ∧ d.find c!"SPEC-OBJECT-REF" = some r ∧ r.text? = i.specObject ∧
      Shows Γ false (unparseHierarchyObject base i) [d] ∧ Xsd.said d = Xsd.refOf c!"OBJECT" c!"SPEC-OBJECT-REF" i.specObject := by
  obtain ⟨d, r, d1, r1, d2, d3⟩ := Shows.ref (Γ := Γ) (base + 2) (base + 4) (outer := c!"OBJECT") (inner := c!"SPEC-OBJECT-REF")
    (by decide) (by decide) h.specObject
  exact ⟨d, r, d1.tag, find_one d1 r1.tag, d2, d3, d1.saysRef r1 d2 (by decide) (by decide)⟩

theorem baseLevel_ok {level : Nat} {h : Hierarchy} (hl : 0 < level) (hi : h.info.level = level) :
    h.baseLevel = .ok (12 + (level - 1) * 4) := by
  unfold Hierarchy.baseLevel
  rw [hi, if_pos hl]

theorem readHierarchies_eq (hs : List Hierarchy) : readHierarchies hs = hs.map readHierarchy := by
  induction hs with
  | nil => rfl
  | cons h hs ih => rw [readHierarchies, ih]; rfl

theorem bareHierarchies_eq (hs : List Hierarchy) : bareHierarchies hs = hs.map bareHierarchy := by
  induction hs with
  | nil => rfl
  | cons h hs ih => rw [bareHierarchies, ih]; rfl

theorem Arranged.tags {h : Hierarchy} {n : Node} (hn : Arranged h n) : childTags n = (hierarchyTags h).map .name := by
  cases h with
  | leaf i => rw [Arranged] at hn; rw [hn]; rfl
  | node i cs =>
    rw [Arranged] at hn
    rw [hn.1, hierarchyTags]
    cases i.refThenChildrenOrder <;> rfl

mutual
theorem hierarchy_survives (Γ : Ctx) (level : Nat) (hl : 0 < level) (h : Hierarchy) (hs : SafeHierarchy level h) :
    Survives Γ false (fun n => (n.tag = .name c!"SPEC-HIERARCHY" ∧ Arranged h n) ∧
        Xsd.said n = Xsd.hierarchySaid h)
      unparseHierarchy (parseHierarchy level) bareHierarchy readHierarchy h := by
  match h, hs with
  | .leaf i, hs =>
    have hs : SafeHInfo level i := hs
    obtain ⟨d, r, d1, d2, d3, d4, d5⟩ := hierarchyObject_shows Γ hs (12 + (level - 1) * 4)
    obtain ⟨n, n1, -, -, n3⟩ := Shows.elem (12 + (level - 1) * 4) (tag := c!"SPEC-HIERARCHY") (by decide) (hierarchyAttrs_ok hs) d4
    have hct : childTags n = [.name c!"OBJECT"] := by
      unfold childTags; rw [n1.children]; simp [d1]
    have hf : n.find c!"OBJECT" = some d := find_one n1 d1
    have hn : n.find c!"CHILDREN" = none := by
      rw [find_eq, n1.children]; simp [d1]
    have hc : parseFirstChildren (level + 1) n.kids = none := by
      rw [parseFirstChildren_eq]
      unfold Node.find at hn
      rw [hn]
    refine ⟨_, n, _, ?_, n3, ⟨⟨n1.tag, by rw [Arranged]; exact hct⟩, (by
      rw [n1.saysRecord (by decide), List.map_cons, List.map_nil, d5, Xsd.hierarchySaid])⟩, parseHierarchy_el n1 hf d2 d3 (res := none) hc, ?_, ?_⟩
    · rw [unparseHierarchy, baseLevel_ok hl (show (Hierarchy.leaf i).info.level = level from hs.level)]
      dsimp only
      rw [hierarchyHead_eq]
      congr 1
      simp only [List.append_assoc]
      rfl
    · have e : (childTags n == [Tag.name c!"OBJECT", Tag.name c!"CHILDREN"]) = false := by rw [hct]; rfl
      simp only [bareHierarchy, bareHInfo, readHierarchy, e, hs.level]
    · rw [unparseHierarchy, baseLevel_ok hl rfl]
      dsimp only
      rw [hierarchyHead_read, hierarchyHead_eq]
      congr 1
      simp only [List.append_assoc]
      rfl
  | .node i cs, hs =>
    have h1 : SafeHInfo level i := hs.1
    have h2 : SafeHierarchies (level + 1) cs := hs.2
    obtain ⟨body, ns, cs', b1, b2, b3, b4, b5, b6, b7, b8⟩ := hierarchies_survive Γ (level + 1) (by omega) cs h2
    obtain ⟨d, r, d1, d2, d3, d4, d5⟩ := hierarchyObject_shows Γ h1 (12 + (level - 1) * 4)
    have hch : ∃ c, c.tag = .name c!"CHILDREN" ∧ Xsd.said c = Xsd.listOf c!"CHILDREN" (Xsd.hierarchiesSaid cs) ∧ c.children = ns ∧ (c.len == 0 && isSelfClosedTag c) = (cs.isEmpty && i.isSelfClosed) ∧
        Shows Γ false (if cs.isEmpty && i.isSelfClosed then spaces (12 + (level - 1) * 4 + 2) ++ c!"<CHILDREN/>\n"
          else lineOpen (12 + (level - 1) * 4 + 2) c!"CHILDREN" ++ body ++ lineClose (12 + (level - 1) * 4 + 2) c!"CHILDREN") [c] := by
      by_cases hb : (cs.isEmpty && i.isSelfClosed) = true
      · have hcs : cs = [] := by simp at hb; exact hb.1
        subst hcs
        have hns : ns = [] := by simpa using b6
        obtain ⟨c, c1, c2, c3⟩ := Shows.empty (Γ := Γ) (12 + (level - 1) * 4 + 2) (tag := c!"CHILDREN") (by decide) Attributes.nil
        refine ⟨c, c1.tag, by rw [c1.saysList (by decide), Xsd.hierarchiesSaid]; rfl, by rw [c1.children, hns], ?_, ?_⟩
        · rw [hb, selfClosed_nil c1.elem c2]
          unfold Node.len
          rw [c1.children]
          rfl
        · rw [if_pos hb]
          exact c3.congr (by simp [attrsText])
      · obtain ⟨c, c1, c2, c3⟩ := Shows.block (12 + (level - 1) * 4 + 2) (tag := c!"CHILDREN") (by decide) b2
        refine ⟨c, c1.tag, by rw [c1.saysList (by decide), b7], c1.children, ?_, ?_⟩
        · have hb' : (cs.isEmpty && i.isSelfClosed) = false := by simpa using hb
          rw [hb', selfClosed_ne c1.elem c2, Bool.and_false]
        · rw [if_neg hb]
          exact c3
    obtain ⟨c, c1, c5, c2, c3, c4⟩ := hch
    have hall : ∃ kids, Shows Γ false (if i.refThenChildrenOrder then
          unparseHierarchyObject (12 + (level - 1) * 4) i ++ (if cs.isEmpty && i.isSelfClosed then spaces (12 + (level - 1) * 4 + 2) ++ c!"<CHILDREN/>\n"
            else lineOpen (12 + (level - 1) * 4 + 2) c!"CHILDREN" ++ body ++ lineClose (12 + (level - 1) * 4 + 2) c!"CHILDREN")
        else (if cs.isEmpty && i.isSelfClosed then spaces (12 + (level - 1) * 4 + 2) ++ c!"<CHILDREN/>\n"
            else lineOpen (12 + (level - 1) * 4 + 2) c!"CHILDREN" ++ body ++ lineClose (12 + (level - 1) * 4 + 2) c!"CHILDREN") ++
          unparseHierarchyObject (12 + (level - 1) * 4) i) kids ∧
        kids.map Node.tag = (hierarchyTags (.node i cs)).map .name ∧
        kids.find? (fun k => k.tag == .name c!"OBJECT") = some d ∧ kids.find? (fun k => k.tag == .name c!"CHILDREN") = some c ∧
        (kids = [d, c] ∨ kids = [c, d]) := by
      unfold hierarchyTags
      by_cases hb : i.refThenChildrenOrder = true
      · refine ⟨[d, c], ?_, ?_, ?_, ?_, .inl rfl⟩
        · rw [if_pos hb]; exact d4.append c4
        · simp [hb, d1, c1]
        · simp [d1]
        · simp [d1, c1]
      · refine ⟨[c, d], ?_, ?_, ?_, ?_, .inr rfl⟩
        · rw [if_neg hb]; exact c4.append d4
        · simp [hb, d1, c1]
        · simp [d1, c1]
        · simp [c1]
    obtain ⟨kids, k1, k2, k3, k4, k5⟩ := hall
    obtain ⟨n, n1, -, -, n3⟩ := Shows.elem (12 + (level - 1) * 4) (tag := c!"SPEC-HIERARCHY") (by decide) (hierarchyAttrs_ok h1) k1
    have hct : childTags n = (hierarchyTags (.node i cs)).map .name := by
      unfold childTags; rw [n1.children, k2]
    have hf : n.find c!"OBJECT" = some d := by rw [find_eq, n1.children, k3]
    have hn : n.find c!"CHILDREN" = some c := by rw [find_eq, n1.children, k4]
    have hc : parseFirstChildren (level + 1) n.kids = some (.ok (cs.isEmpty && i.isSelfClosed, cs')) := by
      rw [parseFirstChildren_eq]
      unfold Node.find at hn
      rw [hn]
      dsimp only
      rw [c2, b3, c3]
    have e : (childTags n == [Tag.name c!"OBJECT", Tag.name c!"CHILDREN"]) = i.refThenChildrenOrder := by
      rw [hct]
      simp only [hierarchyTags]
      cases i.refThenChildrenOrder <;> simp <;> decide
    have hin : Arranged (.node i cs) n := by
      rw [Arranged]
      refine ⟨by rw [hct, hierarchyTags]; cases i.refThenChildrenOrder <;> rfl, c, hn, ?_⟩
      rw [c2]
      exact b8
    have hemp : cs'.isEmpty = cs.isEmpty := by
      have := congrArg List.length b4
      simp only [bareHierarchies_eq, readHierarchies_eq, List.length_map] at this
      cases cs <;> cases cs' <;> simp_all
    refine ⟨_, n, _, ?_, n3, ⟨⟨n1.tag, hin⟩, (by
      rw [n1.saysRecord (by decide), Xsd.hierarchySaid]
      rcases k5 with rfl | rfl
      · simp only [List.map_cons, List.map_nil, d5, c5]
      · simp only [List.map_cons, List.map_nil, d5, c5]
        exact Xsd.recordOf_swap (by rw [Xsd.refOf_name, Xsd.listOf_name]; decide))⟩, parseHierarchy_el n1 hf d2 d3 (res := some (cs.isEmpty && i.isSelfClosed, cs')) hc, ?_, ?_⟩
    · rw [unparseHierarchy, baseLevel_ok hl (show (Hierarchy.node i cs).info.level = level from h1.level)]
      dsimp only
      rw [b1, hierarchyHead_eq]
      dsimp only
      congr 1
      simp only [List.append_assoc]
      rfl
    · simp only [bareHierarchy, bareHInfo, readHierarchy, e, h1.level, b4]
    · rw [unparseHierarchy, baseLevel_ok hl rfl]
      dsimp only
      rw [b5, hierarchyHead_read, hierarchyHead_eq, e, hemp]
      dsimp only
      congr 1
      have e3 : (cs.isEmpty && (cs.isEmpty && i.isSelfClosed)) = (cs.isEmpty && i.isSelfClosed) := by
        cases cs.isEmpty <;> simp
      rw [e3]
      simp only [List.append_assoc]
      rfl

theorem hierarchies_survive (Γ : Ctx) (level : Nat) (hl : 0 < level) (hs : List Hierarchy) (h : SafeHierarchies level hs) :
    ∃ t ns hs', unparseHierarchies hs = .ok t ∧ Shows Γ false t ns ∧ mapPy (parseHierarchy level) ns = .ok hs' ∧
      bareHierarchies hs' = readHierarchies hs ∧ unparseHierarchies hs' = .ok t ∧ ns.length = hs.length ∧
      ns.map Xsd.said = Xsd.hierarchiesSaid hs ∧ AllArranged hs ns := by
  match hs, h with
  | [], _ => exact ⟨[], [], [], rfl, Shows.nil Γ, rfl, rfl, rfl, rfl, by rw [Xsd.hierarchiesSaid]; rfl, by rw [AllArranged]⟩
  | x :: xs, h =>
    obtain ⟨t, n, x', x1, x2, x3, x4, x5, x6⟩ := hierarchy_survives Γ level hl x h.1
    obtain ⟨ts, ns, xs', y1, y2, y3, y4, y5, y6, y7, y8⟩ := hierarchies_survive Γ level hl xs h.2
    refine ⟨t ++ ts, n :: ns, x' :: xs', ?_, ?_, ?_, ?_, ?_, ?_, ?_, ?_⟩
    · rw [unparseHierarchies, x1, y1]
    · exact x2.append y2
    · simp only [mapPy, x4, y3]
    · rw [bareHierarchies, readHierarchies, x5, y4]
    · rw [unparseHierarchies, x6, y5]
    · simp [y6]
    · rw [List.map_cons, x3.2, y7, Xsd.hierarchiesSaid]
    · rw [AllArranged]
      exact ⟨n, ns, rfl, x3.1.2, y8⟩
end

/-- **C38.**  Every safe hierarchy, of any depth and width, is printed, and read back, in
a document with any ordinary root tag, as the same tree: identifiers, references,
levels, names, flags, order of children.  It is printed the same way again.  At every
node, `OBJECT` and `CHILDREN` come in the order the node is marked with (`Arranged`). -/
theorem C38_roundtrip {as : List (Str × Str)} (hr : RootAttrs as) {level : Nat} (hl : 0 < level) {h : Hierarchy} (hs : SafeHierarchy level h) :
    ∃ t n h', unparseHierarchy h = .ok t ∧ ReadsAs as t [n] ∧ Arranged h n ∧
      parseHierarchy level n = .ok h' ∧ bareHierarchy h' = readHierarchy h ∧ unparseHierarchy h' = .ok t := by
  obtain ⟨Γ, hΓ⟩ := isCtx_exists hr [] false
  obtain ⟨-, hsh⟩ := IsCtx.spec hΓ hr
  obtain ⟨t, n, h', h1, h2, h3, h4, h5, h6⟩ := hierarchy_survives Γ level hl h hs
  exact ⟨t, n, h', h1, hsh _ _ h2, h3.1.2, h4, h5, h6⟩

/-- **C38**: a node with level 0 is refused. -/
theorem C38_level (h : Hierarchy) (h0 : h.info.level = 0) : unparseHierarchy h = .error .assertion := by
  have : h.baseLevel = .error .assertion := by
    unfold Hierarchy.baseLevel
    rw [h0]
    rfl
  cases h with
  | leaf i => rw [unparseHierarchy, this]
  | node i cs => rw [unparseHierarchy, this]

def exampleHierarchy : Hierarchy :=
  .node ⟨c!"h-1", some c!"o-1", 1, some c!"name", true, some c!"2020", some true, none, false, none⟩
    [.leaf ⟨c!"h-2", some c!"o-2", 2, none, false, none, none, some false, false, none⟩,
     .node ⟨c!"h-3", some c!"o-1", 2, none, false, none, none, none, true, none⟩ [],
     .node ⟨c!"h-4", some c!"o-3", 2, none, true, none, none, none, false, none⟩
       [.leaf ⟨c!"h-5", some c!"o-4", 3, none, false, none, none, none, false, none⟩]]

/-- Non-vacuity: a tree that comes back equal. -/
theorem exampleHierarchy_safe : SafeHierarchy 1 exampleHierarchy ∧ readHierarchy exampleHierarchy = exampleHierarchy := by
  refine ⟨⟨⟨rfl, by decide, by decide, by decide, by decide⟩, ⟨rfl, by decide, by decide, by decide, by decide⟩,
    ⟨⟨rfl, by decide, by decide, by decide, by decide⟩, trivial⟩,
    ⟨⟨rfl, by decide, by decide, by decide, by decide⟩, ⟨rfl, by decide, by decide, by decide, by decide⟩, trivial⟩, trivial⟩, rfl⟩

/-- What a printed node is read as (`none`: not well-formed). -/
def rereadHierarchy (h : Hierarchy) : Option (Option (Nat × Option Str)) :=
  match unparseHierarchy h with
  | .error _ => none
  | .ok t =>
    match readDoc (document usualRoot t) with
    | none => none
    | some doc =>
      match strippedRoot doc.root with
      | .error _ => none
      | .ok r =>
        match r.children with
        | [n] => (match parseHierarchy 1 n with
          | .ok h' => some (some (h'.info.level, h'.info.longName))
          | _ => some none)
        | _ => some none

set_option maxRecDepth 20000 in
/-- **C38**, the opposite: an ampersand in the long name gives a document that is not
well-formed; a level that does not fit the place comes back changed. -/
theorem C38_opposite :
    rereadHierarchy (.leaf ⟨c!"h", some c!"o", 1, some c!"a & b", false, none, none, none, false, none⟩) = none ∧
    rereadHierarchy (.leaf ⟨c!"h", some c!"o", 3, some c!"a", false, none, none, none, false, none⟩) = some (some (1, some c!"a")) := by
  decide +kernel

/-! ## C39 -/

theorem specification_survives {Γ : Ctx} (hc : Γ.Clean) {s : Specification} (h : SafeSpecification Γ s) :
    Survives Γ ((s.values.getD []).any usesXhtml) (fun n => (n.tag = .name c!"SPECIFICATION" ∧ childTags n = specificationOrder s) ∧
        Xsd.said n = Xsd.specificationSaid Γ.pfx s)
      unparseSpecification parseSpecification bareSpecification readSpecification s := by
  obtain ⟨i, desc, lc, ln, vals, ty, chs, nd⟩ := s
  obtain ⟨h1, h2, h3, h4, h5, h6, h7, h8⟩ := h
  dsimp only at h1 h2 h3 h4 h5 h6 h7 h8
  generalize hts : sourceOrder nd specificationTags = ts at h8
  -- the three parts
  have tyPart : ∃ o : Option Node, o.isSome = (dropEmpty ty).isSome ∧
      o.map Xsd.said = (dropEmpty ty).map (fun v => Xsd.refOf c!"TYPE" c!"SPECIFICATION-TYPE-REF" (some v)) ∧
      (match dropEmpty ty with
        | none => o = none
        | some v => ∃ d r, o = some d ∧ d.tag = .name c!"TYPE" ∧ d.find c!"SPECIFICATION-TYPE-REF" = some r ∧ r.text? = some v ∧
          Shows Γ false (lineOpen 10 c!"TYPE" ++ lineElem 12 c!"SPECIFICATION-TYPE-REF" v ++ lineClose 10 c!"TYPE") [d]) := by
    cases ty with
    | none => exact ⟨none, rfl, rfl, rfl⟩
    | some v =>
      cases v with
      | nil => exact ⟨none, rfl, rfl, rfl⟩
      | cons a v =>
        obtain ⟨d, r, d1, r1, d2, d3⟩ := Shows.ref (Γ := Γ) 10 12 (outer := c!"TYPE") (inner := c!"SPECIFICATION-TYPE-REF")
          (by decide) (by decide) (o := some (a :: v)) ⟨_, rfl, by simp, h5 _ rfl⟩
        exact ⟨some d, rfl, by rw [Option.map_some, d1.saysRef r1 d2 (by decide) (by decide)]; rfl, d, r, rfl, d1.tag, find_one d1 r1.tag, d2, d3⟩
  obtain ⟨tn, tn1, tn4, tn2⟩ := tyPart
  have chPart : ∃ (o : Option Node) (chs' : Option (List Hierarchy)), o.isSome = chs.isSome ∧ chs'.map bareHierarchies = chs.map readHierarchies ∧
      o.map Xsd.said = chs.map (fun cs => Xsd.listOf c!"CHILDREN" (Xsd.hierarchiesSaid cs)) ∧
      (match chs with
        | none => o = none ∧ chs' = none
        | some hs => ∃ d body hs', o = some d ∧ chs' = some hs' ∧ d.tag = .name c!"CHILDREN" ∧ unparseHierarchies hs = .ok body ∧
          unparseHierarchies hs' = .ok body ∧ mapPy (parseHierarchy 1) d.children = .ok hs' ∧
          Shows Γ false (lineOpen 10 c!"CHILDREN" ++ body ++ lineClose 10 c!"CHILDREN") [d]) := by
    cases chs with
    | none => exact ⟨none, none, rfl, rfl, rfl, rfl, rfl⟩
    | some hs =>
      obtain ⟨body, ns, hs', b1, b2, b3, b4, b5, -, b7, b8⟩ := hierarchies_survive Γ 1 (by omega) hs (h7 _ rfl)
      obtain ⟨d, d1, -, d2⟩ := Shows.block 10 (tag := c!"CHILDREN") (by decide) b2
      refine ⟨some d, some hs', rfl, by simp [b4], by rw [Option.map_some, d1.saysList (by decide), b7]; rfl, d, body, hs', rfl, rfl, d1.tag, b1, b5, ?_, d2⟩
      rw [d1.children]; exact b3
  obtain ⟨cn, chs', cn1, cn2, cn4, cn3⟩ := chPart
  have vPart : ∃ (o : Option Node) (vals' : Option (List SpecObjectAttribute)), o.isSome = vals.isSome ∧
      o.map Xsd.said = vals.map (Xsd.valuesSaid Γ.pfx) ∧
      vals'.map (·.map bareValue) = vals.map (·.map bareValue) ∧ parseAttributeValues o = .ok vals' ∧
      ∃ t, unparseAttributeValues vals = .ok t ∧ unparseAttributeValues vals' = .ok t ∧
      (match o with
        | none => t = []
        | some d => d.tag = .name c!"VALUES" ∧ Shows Γ ((vals.getD []).any usesXhtml) t [d]) := by
    cases vals with
    | none => exact ⟨none, none, rfl, rfl, rfl, rfl, [], rfl, rfl, rfl⟩
    | some vs =>
      obtain ⟨vt, v, as', v1, v2, v3, v4, v5, v6, v7⟩ := values_survive hc (h6 _ rfl)
      exact ⟨some v, some as', rfl, by rw [Option.map_some, v7]; rfl, by simp [v5], v4, vt, v1, v6, v3, v2⟩
  obtain ⟨vn, vals', vn1, vn4, vn2, vn3, vt, vt1, vt2, vt3⟩ := vPart
  let node : Tag → Option Node := fun t =>
    if t = .name c!"TYPE" then tn else if t = .name c!"CHILDREN" then cn else if t = .name c!"VALUES" then vn else none
  let use : Tag → Bool := fun t => if t = .name c!"VALUES" then (vals.getD []).any usesXhtml else false
  have hsome : ∀ t, (node t).isSome = specificationHas ⟨i, desc, lc, ln, vals, ty, chs, nd⟩ t := by
    intro t
    simp only [node, specificationHas]
    by_cases e1 : t = .name c!"TYPE"
    · subst e1
      rw [if_pos rfl, tn1]
      show _ = ((true && _) || (false && _) || (false && _))
      simp
    · by_cases e2 : t = .name c!"CHILDREN"
      · subst e2
        rw [if_neg (by decide), if_pos rfl, cn1]
        show _ = ((false && _) || (true && _) || (false && _))
        simp
      · by_cases e3 : t = .name c!"VALUES"
        · subst e3
          rw [if_neg (by decide), if_neg (by decide), if_pos rfl, vn1]
          show _ = ((false && _) || (false && _) || (true && _))
          simp
        · simp [e1, e2, e3]
  have htag : ∀ t n, node t = some n → n.tag = t := by
    intro t n hn
    simp only [node] at hn
    split at hn
    · rename_i e
      cases hd : dropEmpty ty with
      | none => rw [hd] at tn2; rw [tn2] at hn; cases hn
      | some v =>
        rw [hd] at tn2
        obtain ⟨d, r, rfl, d1, -⟩ := tn2
        cases hn; rw [e]; exact d1
    · split at hn
      · rename_i e
        cases chs with
        | none => rw [cn3.1] at hn; cases hn
        | some hs =>
          obtain ⟨d, body, hs', rfl, -, d1, -⟩ := cn3
          cases hn; rw [e]; exact d1
      · split at hn
        · rename_i e
          subst hn
          rw [e]; exact vt3.1
        · cases hn
  obtain ⟨body, b1, b2, b3⟩ := childLoop (Γ := Γ) (g := unparseSpecificationChild ⟨i, desc, lc, ln, vals, ty, chs, nd⟩) (node := node)
    (use := use) ts (by
      intro t _
      simp only [Piece, unparseSpecificationChild, node, use]
      by_cases e1 : t = .name c!"TYPE"
      · subst e1
        refine ⟨_, rfl, ?_⟩
        cases ty with
        | none => exact .inl ⟨tn2, rfl, rfl⟩
        | some v =>
          cases v with
          | nil => exact .inl ⟨tn2, rfl, rfl⟩
          | cons a v =>
            obtain ⟨d, r, rfl, d1, -, -, d4⟩ := tn2
            exact .inr ⟨d, rfl, d1, d4⟩
      · simp only [if_neg e1]
        by_cases e2 : t = .name c!"CHILDREN"
        · subst e2
          cases chs with
          | none => exact ⟨_, rfl, .inl ⟨cn3.1, rfl, rfl⟩⟩
          | some hs =>
            obtain ⟨d, body, hs', rfl, -, d1, d2, -, -, d4⟩ := cn3
            refine ⟨_, ?_, .inr ⟨d, rfl, d1, d4⟩⟩
            simp only [if_pos, d2, py_bind_ok, py_pure]
        · simp only [if_neg e2]
          by_cases e3 : t = .name c!"VALUES"
          · subst e3
            refine ⟨vt, by simp only [if_pos, vt1], ?_⟩
            cases vn with
            | none =>
              cases vals with
              | none => exact .inl ⟨rfl, vt3, rfl⟩
              | some vs => cases vn1
            | some d => exact .inr ⟨d, rfl, vt3⟩
          · simp only [if_neg e3]
            exact ⟨[], rfl, .inl (by simp)⟩)
  have hu : ts.any use = (vals.getD []).any usesXhtml := by
    cases hv : vals with
    | none => simp [use, hv]
    | some vs =>
      have := h8 (.name c!"VALUES") (by simp [specificationHas, hv])
      rw [← hv]
      exact any_use this
  rw [hu] at b2
  obtain ⟨n, n1, -, -, n3⟩ := Shows.elem 8 (tag := c!"SPECIFICATION") (by decide)
    (as := optA c!"DESC" lxmlEscapeForHtml desc ++ [(c!"IDENTIFIER", i)] ++ optA c!"LAST-CHANGE" id lc ++ optA c!"LONG-NAME" lxmlEscapeForHtml ln)
    (vs := optA c!"DESC" id desc ++ [(c!"IDENTIFIER", i)] ++ optA c!"LAST-CHANGE" id lc ++ optA c!"LONG-NAME" id ln)
    (by attributes) b2
  have hct : childTags n = ts.filter (fun t => (node t).isSome) := by
    unfold childTags; rw [n1.children]; exact b3
  have hin : ∀ t, t ∈ ts ∨ node t = none := by
    intro t
    cases hn : node t with
    | none => exact .inr rfl
    | some x =>
      left
      refine h8 t ?_
      have := hsome t
      rw [hn] at this
      exact this.symm
  have hfind : ∀ t : Str, n.find t = node (.name t) := by
    intro t
    rw [find_eq, n1.children, find_loop (fun t _ => htag t)]
    rcases hin (.name t) with h | h
    · rw [if_pos h]
    · rw [h]; simp
  have fc : findLast n c!"CHILDREN" = cn := by
    unfold findLast
    rw [n1.children, findLast_loop (fun t _ => htag t)]
    rcases hin (.name c!"CHILDREN") with h | h
    · rw [if_pos h]; rfl
    · have : cn = none := h
      rw [this]
      split
      · rw [h]
      · rfl
  have fv : n.find c!"VALUES" = vn := hfind _
  have ft : n.find c!"TYPE" = tn := hfind _
  have order : specificationChildTags ⟨i, desc, lc, ln, vals, ty, chs, nd⟩ = ts := by
    unfold specificationChildTags
    cases nd with
    | none => rw [← hts]; rfl
    | some x => exact hts
  refine ⟨_, n, ⟨i, desc, lc, ln, vals', dropEmpty ty, chs', some n⟩, ?_, n3, ⟨⟨n1.tag, ?_⟩, ?_⟩, ?_, ?_, ?_⟩
  · unfold unparseSpecification
    rw [order, b1, py_bind_ok, py_pure]
    congr 1
    attrs_text
  · rw [hct]
    unfold specificationOrder
    dsimp only
    rw [hts]
    congr 1
    funext t
    exact hsome t
  · rw [n1.saysRecord (by decide)]
    unfold Xsd.specificationSaid
    dsimp only
    rw [hts]
    congr 1
    refine Xsd.filterMap_said ts (fun t _ => ?_)
    simp only [node]
    split
    · exact tn4
    · split
      · exact cn4
      · split
        · exact vn4
        · rfl
  · have a1 : tagContains n c!"SPECIFICATION" = .ok true := by
      unfold tagContains; rw [n1.tag]; rfl
    have a0 : pyAssert true = .ok () := rfl
    have a2 : attrReqNI n c!"IDENTIFIER" = .ok i := by
      unfold attrReqNI attrReq
      rw [n1.attr]
      simp [look_append, look_opt, look_cons, look_truthy, look_nil, orKey, orNotImpl]
    have a3 : optRef n c!"TYPE" c!"SPECIFICATION-TYPE-REF" = dropEmpty ty := by
      unfold optRef
      rw [ft]
      cases hd : dropEmpty ty with
      | none => rw [hd] at tn2; rw [tn2]
      | some v =>
        rw [hd] at tn2
        obtain ⟨d, r, rfl, -, d2, d3, -⟩ := tn2
        dsimp only
        rw [d2]
        exact d3
    unfold parseSpecification
    rw [a1, py_bind_ok, a0, py_bind_ok, a2, py_bind_ok, fc]
    have tail : (do
        let values ← parseAttributeValues (n.find c!"VALUES")
        return { identifier := i, description := n.attr? c!"DESC", lastChange := n.attr? c!"LAST-CHANGE",
                 longName := n.attr? c!"LONG-NAME", values,
                 specificationType := optRef n c!"TYPE" c!"SPECIFICATION-TYPE-REF",
                 children := chs', xmlNode := some n } : Py Specification) = .ok ⟨i, desc, lc, ln, vals', dropEmpty ty, chs', some n⟩ := by
      rw [fv, vn3, py_bind_ok, py_pure, a3]
      simp [n1.attr, look_append, look_opt, look_cons, look_truthy, look_nil, dropEmpty]
    cases chs with
    | none =>
      obtain ⟨rfl, rfl⟩ := cn3
      dsimp only
      rw [py_bind_ok]
      exact tail
    | some hs =>
      obtain ⟨d, body, hs', rfl, rfl, -, -, -, d3, -⟩ := cn3
      dsimp only
      rw [d3, py_bind_ok, py_pure, py_bind_ok]
      exact tail
  · simp only [bareSpecification, readSpecification, vn2, cn2]
  · unfold unparseSpecification
    have o' : specificationChildTags ⟨i, desc, lc, ln, vals', dropEmpty ty, chs', some n⟩ = childTags n := rfl
    rw [o', hct, concat_filter (g := unparseSpecificationChild ⟨i, desc, lc, ln, vals, ty, chs, nd⟩), b1, py_bind_ok, py_pure]
    · congr 1
      attrs_text
    · intro t ht
      refine ⟨fun hp => ?_, fun hp => ?_⟩
      · simp only [unparseSpecificationChild]
        split
        · cases ty with
          | none => rfl
          | some v => cases v <;> rfl
        · split
          · cases chs with
            | none => rw [cn3.2]
            | some hs =>
              obtain ⟨d, body, hs', -, rfl, -, d2, d3, -⟩ := cn3
              dsimp only
              rw [d2, d3]
          · rw [vt1, vt2]
      · have hp : node t = none := by simpa using hp
        simp only [node] at hp
        simp only [unparseSpecificationChild]
        split at hp
        · rename_i e1
          rw [if_pos e1]
          cases ty with
          | none => rfl
          | some v =>
            cases v with
            | nil => rfl
            | cons a v => rw [hp] at tn1; cases tn1
        · rename_i e1
          rw [if_neg e1]
          split at hp
          · rename_i e2
            rw [if_pos e2]
            cases chs with
            | none => rfl
            | some hs => rw [hp] at cn1; cases cn1
          · rename_i e2
            rw [if_neg e2]
            split at hp
            · rename_i e3
              rw [if_pos e3]
              subst hp
              rw [vt1, vt3]
            · rename_i e3
              rw [if_neg e3]

/-- **C39.**  Every safe specification is printed, and read back, in a document with any
ordinary root tag, as a specification with the same fields, type, values and
hierarchy.  Its children come in the order of the document it was read from, or
type, children, values; and it is printed the same way again. -/
theorem C39_roundtrip {as : List (Str × Str)} (hr : RootAttrs as) {p : Str} {s : Specification} {Γ : Ctx}
    (hΓ : IsCtx as p ((s.values.getD []).any usesXhtml) Γ) (h : SafeSpecification Γ s) :
    ∃ t n s', unparseSpecification s = .ok t ∧ ReadsAs as t [n] ∧ childTags n = specificationOrder s ∧
      parseSpecification n = .ok s' ∧ bareSpecification s' = readSpecification s ∧ unparseSpecification s' = .ok t := by
  obtain ⟨hc, hs⟩ := IsCtx.spec hΓ hr
  obtain ⟨t, n, s', h1, h2, h3, h4, h5, h6⟩ := specification_survives hc h
  exact ⟨t, n, s', h1, hs _ _ h2, h3.1.2, h4, h5, h6⟩

def exampleSpecification : Specification :=
  ⟨c!"s-1", some c!"R & D", some c!"2020", some c!"<name>", some exampleValues, some c!"t-1", some [exampleHierarchy], none⟩

/-- The same, read from an element whose children come in another order. -/
def exampleSpecificationRead : Specification :=
  { exampleSpecification with xmlNode := some (.elem ⟨none, none, c!"SPECIFICATION", [], [], []⟩
      [.elem ⟨none, none, c!"VALUES", [], [], []⟩ [], .comment c!"x", .elem ⟨none, none, c!"CHILDREN", [], [], []⟩ [],
       .elem ⟨none, none, c!"TYPE", [], [], []⟩ []]) }

/-- Non-vacuity. -/
theorem exampleSpecification_safe : ∃ Γ, IsCtx usualRoot c!"xhtml" (exampleValues.any usesXhtml) Γ ∧
    SafeSpecification Γ exampleSpecification ∧ SafeSpecification Γ exampleSpecificationRead := by
  obtain ⟨Γ, h1, h2⟩ := exampleValues_safe
  have hh : ∀ hs, some [exampleHierarchy] = some hs → SafeHierarchies 1 hs := by
    rintro hs ⟨⟩
    exact ⟨exampleHierarchy_safe.1, trivial⟩
  have hv : ∀ vs, some exampleValues = some vs → ∀ a ∈ vs, SafeValue Γ a := by
    rintro vs ⟨⟩
    exact h2
  have ho : ∀ x : Tag, (x == .name c!"TYPE" || x == .name c!"CHILDREN" || x == .name c!"VALUES") = true →
      x ∈ [Tag.name c!"TYPE", .name c!"CHILDREN", .name c!"VALUES"] := by
    intro x hx
    simpa [or_assoc] using hx
  refine ⟨Γ, h1, ⟨by decide, by decide, by decide, by decide, by decide, hv, hh, ?_⟩,
    ⟨by decide, by decide, by decide, by decide, by decide, hv, hh, ?_⟩⟩
  · intro t ht
    refine ho t ?_
    simpa [specificationHas, exampleSpecification, dropEmpty] using ht
  · intro t ht
    have := ho t (by simpa [specificationHas, exampleSpecificationRead, exampleSpecification, dropEmpty] using ht)
    show t ∈ [Tag.name c!"VALUES", .comment, .name c!"CHILDREN", .name c!"TYPE"]
    simp at this
    rcases this with h | h | h <;> simp [h]

/-- An element of a specification with two `CHILDREN`. -/
def twoChildren : Node := .elem ⟨none, none, c!"SPECIFICATION", [], [], [⟨none, none, c!"IDENTIFIER", c!"s"⟩]⟩
  [.elem ⟨none, none, c!"CHILDREN", [], [], []⟩ [.elem ⟨none, none, c!"SPEC-HIERARCHY", [], [], [⟨none, none, c!"IDENTIFIER", c!"h"⟩]⟩
    [.elem ⟨none, none, c!"OBJECT", [], [], []⟩ [.elem ⟨none, none, c!"SPEC-OBJECT-REF", [], [], []⟩ [.text c!"o"]]]],
   .elem ⟨none, none, c!"CHILDREN", [], [], []⟩ []]

/-- **C39**, the opposite: of two `CHILDREN` elements the last one is read, and printed
twice. -/
theorem C39_two_children : ∃ s, parseSpecification twoChildren = .ok s ∧ s.children.map List.length = some 0 ∧
    unparseSpecification s = .ok (c!"        <SPECIFICATION IDENTIFIER=\"s\">\n          <CHILDREN>\n          </CHILDREN>\n" ++
      c!"          <CHILDREN>\n          </CHILDREN>\n        </SPECIFICATION>\n") := ⟨_, rfl, rfl, rfl⟩

end ReqIF
