import Verif.Props.C37
/-!
# C40, C41, C04: relation groups and the header survive write and read
-/
set_option linter.unusedSimpArgs false
namespace ReqIF
open Spec

/-! ## C40 -/

theorem optRef_shows {Γ : Ctx} {outer inner : Str} (ho : blockTag outer = true) (hi : textTag inner = true) {o : Option Str}
    (h : o = none ∨ PlainElem o) (hr : Xsd.isRecordName outer = true) (ht : Xsd.isTextName inner = true) :
    ∃ ns : List Node, Shows Γ false (unparseOptRef outer inner o) ns ∧
      (∀ n ∈ ns, n.tag = .name outer) ∧ (∀ x : Node, x.find outer = ns.head? → optRef x outer inner = o) ∧
      ns.map Xsd.said = Xsd.optRefSaid outer inner o := by
  rcases h with rfl | h
  · refine ⟨[], Shows.nil Γ, by simp, ?_, rfl⟩
    intro x hx
    unfold optRef
    rw [hx]; rfl
  · obtain ⟨d, r, d1, r1, r2, d2⟩ := Shows.ref (Γ := Γ) 10 12 ho hi h
    refine ⟨[d], ?_, by simp [d1.tag], ?_, ?_⟩
    · obtain ⟨v, rfl, -, -⟩ := h
      exact d2
    · intro x hx
      unfold optRef
      rw [hx]
      simp only [List.head?_cons]
      rw [find_one d1 r1.tag]
      exact r2
    · rw [List.map_cons, List.map_nil, d1.saysRef r1 r2 hr ht]
      obtain ⟨v, rfl, -, -⟩ := h
      rfl

/-- A list of references. -/
theorem refs_shows (Γ : Ctx) (k : Nat) {tag : Str} (ht : textTag tag = true) (rs : List (Option Str)) (h : ∀ r ∈ rs, PlainElem r)
    (hx : Xsd.isTextName tag = true) :
    ∃ ns : List Node, Shows Γ false (rs.flatMap (fun r => lineElem k tag (fmtOpt r))) ns ∧ ns.map Node.text? = rs ∧
      ns.map Xsd.said = rs.map (Xsd.textSaid tag) := by
  induction rs with
  | nil => exact ⟨[], Shows.nil Γ, rfl, rfl⟩
  | cons r rs ih =>
    obtain ⟨ns, h1, h2, h3⟩ := ih (fun r hr => h r (by simp [hr]))
    obtain ⟨v, rfl, hne, hp⟩ := h r (by simp)
    obtain ⟨n, n1, n2, n3⟩ := Shows.plainLeaf (Γ := Γ) k ht hne hp
    refine ⟨n :: ns, n3.append h1, ?_, ?_⟩
    · simp [n2, h2]
    · rw [List.map_cons, List.map_cons, h3, n1.saysText hx, n2]

/-- The first node with a tag in a concatenation of lists of nodes of one tag each. -/
theorem find_tagged {ns : List Node} {t : Str} (h : ∀ n ∈ ns, n.tag = .name t) :
    ns.find? (fun k => k.tag == .name t) = ns.head? := by
  cases ns with
  | nil => rfl
  | cons n ns => simp [h n (by simp)]

theorem find_other {ns : List Node} {t u : Str} (h : ∀ n ∈ ns, n.tag = .name t) (hne : t ≠ u) :
    ns.find? (fun k => k.tag == .name u) = none := by
  rw [List.find?_eq_none]
  intro n hn
  rw [h n hn]
  simpa using hne

theorem group_shows (Γ : Ctx) {g : RelationGroup} (h : SafeGroup g) :
    ∃ n, Shows Γ false (unparseRelationGroup g) [n] ∧ n.tag = .name c!"RELATION-GROUP" ∧ parseRelationGroup n = .ok (readGroup g) ∧
      Xsd.said n = Xsd.groupSaid g := by
  obtain ⟨i, desc, lc, ln, ty, sr, tg, rels, sc⟩ := g
  obtain ⟨h1, h2, h3, h4, h5, h6, h7, h8⟩ := h
  dsimp only at h1 h2 h3 h4 h5 h6 h7 h8
  have hrel : ∃ ns : List Node, Shows Γ false (match rels with
        | none => []
        | some rs => lineOpen 10 c!"SPEC-RELATIONS" ++ rs.flatMap (fun r => lineElem 12 c!"SPEC-RELATION-REF" (fmtOpt r)) ++
          lineClose 10 c!"SPEC-RELATIONS") ns ∧ (∀ n ∈ ns, n.tag = .name c!"SPEC-RELATIONS") ∧
      ns.head?.map (fun s => s.children.map Node.text?) = rels ∧
      ns.map Xsd.said = (rels.map (fun rs => Xsd.listOf c!"SPEC-RELATIONS" (rs.map (Xsd.textSaid c!"SPEC-RELATION-REF")))).toList := by
    clear h5 h6 h7
    cases rels with
    | none => exact ⟨[], Shows.nil Γ, by simp, rfl, rfl⟩
    | some rs =>
      obtain ⟨ns, e1, e2, e3⟩ := refs_shows Γ 12 (tag := c!"SPEC-RELATION-REF") (by decide) rs (h8 rs rfl) (by decide)
      obtain ⟨n, n1, -, n2⟩ := Shows.block 10 (tag := c!"SPEC-RELATIONS") (by decide) e1
      exact ⟨[n], n2, by simp [n1.tag], by simp [n1.children, e2], by
        rw [List.map_cons, List.map_nil, n1.saysList (by decide), e3]; rfl⟩
  obtain ⟨rn, r1, r2, r3, r4⟩ := hrel
  obtain ⟨tn, t1, t2, t3, t4⟩ := optRef_shows (Γ := Γ) (outer := c!"TYPE") (inner := c!"RELATION-GROUP-TYPE-REF") (by decide) (by decide) h5
    (by decide) (by decide)
  obtain ⟨sn, s1, s2, s3, s4⟩ := optRef_shows (Γ := Γ) (outer := c!"SOURCE-SPECIFICATION") (inner := c!"SPECIFICATION-REF") (by decide) (by decide) h6
    (by decide) (by decide)
  obtain ⟨gn, g1, g2, g3, g4⟩ := optRef_shows (Γ := Γ) (outer := c!"TARGET-SPECIFICATION") (inner := c!"SPECIFICATION-REF") (by decide) (by decide) h7
    (by decide) (by decide)
  obtain ⟨n, n1, -, -, n3⟩ := Shows.elem 8 (tag := c!"RELATION-GROUP") (by decide)
    (as := optA c!"DESC" id desc ++ [(c!"IDENTIFIER", i)] ++ optA c!"LAST-CHANGE" id lc ++ truthyA c!"LONG-NAME" id ln)
    (vs := optA c!"DESC" id desc ++ [(c!"IDENTIFIER", i)] ++ optA c!"LAST-CHANGE" id lc ++ truthyA c!"LONG-NAME" id ln)
    (by attributes) (((r1.append t1).append s1).append g1)
  have f1 : n.find c!"SPEC-RELATIONS" = rn.head? := by
    rw [find_eq, n1.children]
    simp only [List.find?_append, find_tagged r2, find_other t2 (u := c!"SPEC-RELATIONS") (by decide),
      find_other s2 (u := c!"SPEC-RELATIONS") (by decide), find_other g2 (u := c!"SPEC-RELATIONS") (by decide), Option.or_none]
  have f2 : n.find c!"TYPE" = tn.head? := by
    rw [find_eq, n1.children]
    simp only [List.find?_append, find_tagged t2, find_other r2 (u := c!"TYPE") (by decide),
      find_other s2 (u := c!"TYPE") (by decide), find_other g2 (u := c!"TYPE") (by decide), Option.or_none, Option.none_or]
  have f3 : n.find c!"SOURCE-SPECIFICATION" = sn.head? := by
    rw [find_eq, n1.children]
    simp only [List.find?_append, find_tagged s2, find_other r2 (u := c!"SOURCE-SPECIFICATION") (by decide),
      find_other t2 (u := c!"SOURCE-SPECIFICATION") (by decide), find_other g2 (u := c!"SOURCE-SPECIFICATION") (by decide),
      Option.or_none, Option.none_or]
  have f4 : n.find c!"TARGET-SPECIFICATION" = gn.head? := by
    rw [find_eq, n1.children]
    simp only [List.find?_append, find_tagged g2, find_other r2 (u := c!"TARGET-SPECIFICATION") (by decide),
      find_other t2 (u := c!"TARGET-SPECIFICATION") (by decide), find_other s2 (u := c!"TARGET-SPECIFICATION") (by decide),
      Option.or_none, Option.none_or]
  refine ⟨n, n3.congr ?_, n1.tag, ?_, ?_⟩
  · unfold unparseRelationGroup
    cases rels <;> attrs_text
  · have a0 : pyAssert true = .ok () := rfl
    have a1 : tagContains n c!"RELATION-GROUP" = .ok true := by
      unfold tagContains; rw [n1.tag]; rfl
    have a2 : attrReqNI n c!"IDENTIFIER" = .ok i := by
      unfold attrReqNI attrReq
      rw [n1.attr]
      simp [look_append, look_opt, look_cons, look_truthy, look_nil, orKey, orNotImpl]
    unfold parseRelationGroup
    rw [a1, py_bind_ok, a0, py_bind_ok, a2, py_bind_ok, py_pure, f1, r3, t3 n f2, s3 n f3, g3 n f4]
    simp [n1.attr, look_append, look_opt, look_cons, look_truthy, look_nil, readGroup, dropEmpty]
  · rw [n1.saysRecord (by decide)]
    simp only [List.map_append, r4, t4, s4, g4]
    rfl

theorem unparseGroup_read (g : RelationGroup) : unparseRelationGroup (readGroup g) = unparseRelationGroup g := by
  unfold unparseRelationGroup readGroup
  simp only [attrTruthy_dropEmpty]

/-- **C40.**  Every safe relation group is printed, and read back, in a document with any
ordinary root tag, as the same group, up to an empty long name and the unused mark
for empty tags; and it is printed the same way again. -/
theorem C40_roundtrip {as : List (Str × Str)} (hr : RootAttrs as) {g : RelationGroup} (h : SafeGroup g) :
    ∃ n, ReadsAs as (unparseRelationGroup g) [n] ∧ parseRelationGroup n = .ok (readGroup g) ∧
      unparseRelationGroup (readGroup g) = unparseRelationGroup g := by
  obtain ⟨Γ, hΓ⟩ := isCtx_exists hr [] false
  obtain ⟨-, hs⟩ := IsCtx.spec hΓ hr
  obtain ⟨n, h1, -, h2, -⟩ := group_shows Γ h
  exact ⟨n, hs _ _ h1, h2, unparseGroup_read g⟩

def exampleGroup : RelationGroup :=
  ⟨c!"g", some c!"d", none, some c!"name", some c!"t", none, some c!"s-2", some [some c!"r-1", some c!"r-2"], false⟩

/-- Non-vacuity: a group that comes back equal. -/
example : SafeGroup exampleGroup ∧ readGroup exampleGroup = exampleGroup := by
  refine ⟨⟨by decide, by decide, by decide, by decide, by decide, by decide, by decide, ?_⟩, rfl⟩
  rintro rs ⟨⟩
  decide

/-- What a printed group is read as (`none`: not well-formed). -/
def rereadGroup (g : RelationGroup) : Option (Option RelationGroup) :=
  match readDoc (document usualRoot (unparseRelationGroup g)) with
  | none => none
  | some doc =>
    match strippedRoot doc.root with
    | .error _ => none
    | .ok r =>
      match r.children with
      | [n] => (match parseRelationGroup n with
        | .ok g' => some (some g')
        | _ => some none)
      | _ => some none

set_option maxRecDepth 20000 in
/-- **C40**, the opposite: an ampersand in the long name gives a document that is not
well-formed. -/
theorem C40_ampersand : rereadGroup { exampleGroup with longName := some c!"a & b" } = none := by decide +kernel

set_option maxRecDepth 20000 in
/-- **C40**, the opposite: an empty reference comes back as an absent one. -/
theorem C40_empty : rereadGroup { exampleGroup with typeRef := some [] } = some (some { exampleGroup with typeRef := none }) := by
  decide +kernel

/-! ## The title -/

/-- How `lxml_escape_title` prints a character. -/
def titleChar (c : Char) : Str := if c = '&' then c!"&amp;" else [c]

theorem titleEscape_eq (s : Str) : lxmlEscapeTitle s = s.flatMap titleChar := by
  unfold lxmlEscapeTitle
  rw [replaceChar_eq_flatMap]
  rfl

theorem decodeGo_titleChar (c : Char) (rest : Str) : decodeGo litText none (titleChar c ++ rest) =
    match (if c = '&' then some '&' else litText c) with
    | none => none
    | some d => (decodeGo litText none rest).map (d :: ·) := by
  unfold titleChar
  by_cases h : c = '&'
  · subst h; simp [decodeGo, entityChar]
  · rw [if_neg h, if_neg h]
    exact decodeGo_lit litText c h rest

theorem title_prefix (s : Str) : (c!"]]>").isPrefixOf (s.flatMap titleChar) = (c!"]]>").isPrefixOf s := by
  have key : ∀ (d : Char) (p s : Str), d ≠ '&' → (d :: p).isPrefixOf (s.flatMap titleChar) =
      (match s with
       | [] => false
       | c :: s => d == c && p.isPrefixOf (s.flatMap titleChar)) := by
    intro d p s hd
    cases s with
    | nil => rfl
    | cons c s =>
      rw [List.flatMap_cons]
      unfold titleChar
      by_cases h : c = '&'
      · subst h
        have : (d == '&') = false := by simpa using hd
        show (d == '&' && _) = (d == '&' && _)
        rw [this, Bool.false_and, Bool.false_and]
      · rw [if_neg h]
        rfl
  rw [key _ _ _ (by decide)]
  cases s with
  | nil => rfl
  | cons a s =>
    dsimp only
    rw [List.isPrefixOf_cons₂, key _ _ _ (by decide)]
    cases s with
    | nil => rfl
    | cons b s =>
      dsimp only
      rw [List.isPrefixOf_cons₂, key _ _ _ (by decide)]
      cases s with
      | nil => rfl
      | cons c s =>
        dsimp only
        rw [List.isPrefixOf_cons₂]
        rfl

theorem contains_title (s : Str) : containsStr c!"]]>" (s.flatMap titleChar) = containsStr c!"]]>" s := by
  induction s with
  | nil => rfl
  | cons c s ih =>
    have h1 := title_prefix (c :: s)
    rw [List.flatMap_cons] at h1 ⊢
    by_cases h : c = '&'
    · subst h
      have : titleChar '&' = c!"&amp;" := rfl
      rw [this] at h1 ⊢
      show (false || (false || (false || (false || (false || containsStr c!"]]>" (s.flatMap titleChar)))))) = (false || containsStr c!"]]>" s)
      rw [ih]
      simp
    · have : titleChar c = [c] := by simp [titleChar, h]
      rw [this] at h1 ⊢
      simp only [List.cons_append, List.nil_append] at h1 ⊢
      simp only [containsStr, ih, h1]

theorem decodeText_title (s : Str) : decodeText (lxmlEscapeTitle s) =
    if containsStr c!"]]>" s then none else mapChars (fun c => if c = '&' then some '&' else litText c) s := by
  rw [titleEscape_eq]
  unfold decodeText
  rw [contains_title, decodeGo_flatMap litText titleChar _ decodeGo_titleChar]

theorem title_back {s : Str} (h : TitleText s) : decodeText (lxmlEscapeTitle s) = some s := by
  rw [decodeText_title, h.2]
  simp only [Bool.false_eq_true, if_false]
  apply mapChars_eq_self.2
  intro c hc
  obtain ⟨h1, h2, -⟩ := h.1 c hc
  by_cases e : c = '&'
  · simp [e]
  · simp [e, litText, h1, h2]

theorem title_notMem {s : Str} {d : Char} (h : d ∉ s) (h' : d ∉ c!"&amp;") : d ∉ lxmlEscapeTitle s := by
  rw [titleEscape_eq]
  intro hm
  obtain ⟨c, hc, hm⟩ := List.mem_flatMap.1 hm
  unfold titleChar at hm
  split at hm
  · exact h' hm
  · simp at hm; exact h (hm ▸ hc)

theorem title_ne {s : Str} (h : s ≠ []) : lxmlEscapeTitle s ≠ [] := by
  rw [titleEscape_eq]
  cases s with
  | nil => exact absurd rfl h
  | cons c s =>
    rw [List.flatMap_cons]
    unfold titleChar
    split <;> simp

/-! ## C41 -/

/-- A line of the header. -/
theorem headerLine_shows {Γ : Ctx} {tag : Str} (ht : textTag tag = true) {f : Str → Str} {o : Option Str}
    (h : ∀ v, o = some v → v ≠ [] → f v ≠ [] ∧ '<' ∉ f v ∧ '\r' ∉ f v ∧ decodeText (f v) = some v) (hx : Xsd.isTextName tag = true) :
    ∃ ns : List Node, Shows Γ false (headerLine tag f o) ns ∧ (∀ n ∈ ns, n.tag = .name tag) ∧
      (∀ x : Node, x.find tag = ns.head? → optText x tag = dropEmpty o) ∧ ns.map Xsd.said = Xsd.fieldSaid tag o := by
  cases o with
  | none =>
    refine ⟨[], Shows.nil Γ, by simp, ?_, rfl⟩
    intro x hx
    unfold optText
    rw [hx]; rfl
  | some v =>
    cases v with
    | nil =>
      refine ⟨[], Shows.nil Γ, by simp, ?_, rfl⟩
      intro x hx
      unfold optText
      rw [hx]; rfl
    | cons c v =>
      obtain ⟨h1, h2, h3, h4⟩ := h _ rfl (by simp)
      obtain ⟨n, n1, n2, n3⟩ := Shows.leaf (Γ := Γ) 6 ht h1 h2 h3 h4
      refine ⟨[n], n3, by simp [n1.tag], ?_, by rw [List.map_cons, List.map_nil, n1.saysText hx, n2]; rfl⟩
      intro x hx
      unfold optText
      rw [hx]
      exact n2

theorem plain_line {o : Option Str} (h : Opt PlainText o) : ∀ v, o = some v → v ≠ [] →
    id v ≠ [] ∧ '<' ∉ id v ∧ '\r' ∉ id v ∧ decodeText (id v) = some v := by
  intro v hv hne
  have hp := h v hv
  exact ⟨hne, fun hm => (hp.1 _ hm).2.1 rfl, fun hm => (hp.1 _ hm).2.2.2 rfl, decodeText_plain hp⟩

theorem title_line {o : Option Str} (h : Opt TitleText o) : ∀ v, o = some v → v ≠ [] →
    lxmlEscapeTitle v ≠ [] ∧ '<' ∉ lxmlEscapeTitle v ∧ '\r' ∉ lxmlEscapeTitle v ∧ decodeText (lxmlEscapeTitle v) = some v := by
  intro v hv hne
  have hp := h v hv
  exact ⟨title_ne hne, title_notMem (fun hm => (hp.1 _ hm).2.1 rfl) (by decide),
    title_notMem (fun hm => (hp.1 _ hm).2.2 rfl) (by decide), title_back hp⟩

/-- The repository id. -/
theorem repositoryId_shows (Γ : Ctx) {r : RepositoryId} (h : ∀ s, r = .text s → PlainText s) :
    ∃ ns : List Node, Shows Γ false (repositoryIdOut r) ns ∧ (∀ n ∈ ns, n.tag = .name c!"REPOSITORY-ID") ∧
      (match ns.head? with
       | none => RepositoryId.none
       | some r => match r.text? with
         | some s => .text s
         | none => .emptyTag) = (if r = .text [] then .emptyTag else r) ∧ ns.map Xsd.said = Xsd.repositorySaid r := by
  cases r with
  | none => exact ⟨[], Shows.nil Γ, by simp, rfl, rfl⟩
  | emptyTag =>
    obtain ⟨n, n1, n2, n3⟩ := Shows.empty (Γ := Γ) 6 (tag := c!"REPOSITORY-ID") (by decide) Attributes.nil
    have n4 : n.text? = none := by
      obtain ⟨i, ks, rfl⟩ := n1.elem
      have : ks = [] := n2
      subst this
      rfl
    refine ⟨[n], n3.congr ?_, by simp [n1.tag], ?_, ?_⟩
    · simp [repositoryIdOut, attrsText]
    · simp [n4]
    · rw [List.map_cons, List.map_nil, n1.saysText (by decide), n4]; rfl
  | text s =>
    by_cases hs : s = []
    · subst hs
      have := Shows.source (Γ := Γ) 6 (tag := c!"REPOSITORY-ID") (by decide) (ks := []) (xs := []) rfl (by simp [renderList]) rfl (by simp)
        (fits_nil (by decide))
      refine ⟨_, this, ?_, rfl, ?_⟩
      rotate_left
      · rw [List.map_cons, List.map_nil, Xsd.said_text (show Xsd.isTextName c!"REPOSITORY-ID" = true by decide)]
        rfl
      intro n hn
      simp only [List.mem_cons, List.not_mem_nil, or_false] at hn
      rw [hn]; rfl
    · obtain ⟨n, n1, n2, n3⟩ := Shows.plainLeaf (Γ := Γ) 6 (tag := c!"REPOSITORY-ID") (by decide) hs (h s rfl)
      refine ⟨[n], n3, by simp [n1.tag], ?_, ?_⟩
      · simp [n2, hs]
      · rw [List.map_cons, List.map_nil, n1.saysText (by decide), n2]
        cases s with
        | nil => exact absurd rfl hs
        | cons c s => rfl

theorem header_shows (Γ : Ctx) {h : Header} (hh : SafeHeader h) :
    ∃ t n, unparseHeader h = .ok t ∧ Shows Γ false t [n] ∧ n.tag = .name c!"THE-HEADER" ∧ parseHeader n = .ok (readHeader h) ∧
      Xsd.said n = Xsd.headerSaid h := by
  obtain ⟨i, co, ct, ri, ti, ve, st, tt⟩ := h
  obtain ⟨⟨i', h1, hne, h1p⟩, h2, h3, h4, h5, h6, h7, h8⟩ := hh
  dsimp only at h1 h2 h3 h4 h5 h6 h7 h8
  subst h1
  obtain ⟨cn, c1, c2, c3, c4⟩ := headerLine_shows (Γ := Γ) (tag := c!"COMMENT") (by decide) (plain_line h2) (by decide)
  obtain ⟨tn, t1, t2, t3, t4⟩ := headerLine_shows (Γ := Γ) (tag := c!"CREATION-TIME") (by decide) (plain_line h3) (by decide)
  obtain ⟨rn, r1, r2, r3, r4⟩ := repositoryId_shows Γ h4
  obtain ⟨un, u1, u2, u3, u4⟩ := headerLine_shows (Γ := Γ) (tag := c!"REQ-IF-TOOL-ID") (by decide) (plain_line h5) (by decide)
  obtain ⟨vn, v1, v2, v3, v4⟩ := headerLine_shows (Γ := Γ) (tag := c!"REQ-IF-VERSION") (by decide) (plain_line h6) (by decide)
  obtain ⟨sn, s1, s2, s3, s4⟩ := headerLine_shows (Γ := Γ) (tag := c!"SOURCE-TOOL-ID") (by decide) (plain_line h7) (by decide)
  obtain ⟨ln, l1, l2, l3, l4⟩ := headerLine_shows (Γ := Γ) (tag := c!"TITLE") (by decide) (title_line h8) (by decide)
  obtain ⟨n, n1, -, -, n3⟩ := Shows.nest 4 (tag := c!"REQ-IF-HEADER") (by decide) (as := [(c!"IDENTIFIER", i')]) (vs := [(c!"IDENTIFIER", i')])
    (by attributes) ((((((c1.append t1).append r1).append u1).append v1).append s1).append l1) (by
      intro l hl
      cases (show some Xsd.headerNames = some l from hl)
      simp only [Xsd.childNames_append]
      exact ((((((Xsd.names_sub c2 c4 (Xsd.fieldSaid_names _ _) (by decide)).append
        (Xsd.names_sub t2 t4 (Xsd.fieldSaid_names _ _) (by decide))).append
        (Xsd.names_sub r2 r4 (Xsd.repositorySaid_names _) (by decide))).append
        (Xsd.names_sub u2 u4 (Xsd.fieldSaid_names _ _) (by decide))).append
        (Xsd.names_sub v2 v4 (Xsd.fieldSaid_names _ _) (by decide))).append
        (Xsd.names_sub s2 s4 (Xsd.fieldSaid_names _ _) (by decide))).append
        (Xsd.names_sub l2 l4 (Xsd.fieldSaid_names _ _) (by decide)))
  obtain ⟨m, m1, -, m3⟩ := Shows.block 2 (tag := c!"THE-HEADER") (by decide) n3
  have fc : n.find c!"COMMENT" = cn.head? := by
    rw [find_eq, n1.children]
    simp only [List.find?_append, find_tagged c2, find_other t2 (u := c!"COMMENT") (by decide), find_other r2 (u := c!"COMMENT") (by decide),
      find_other u2 (u := c!"COMMENT") (by decide), find_other v2 (u := c!"COMMENT") (by decide), find_other s2 (u := c!"COMMENT") (by decide),
      find_other l2 (u := c!"COMMENT") (by decide), Option.or_none, Option.none_or]
  have ft : n.find c!"CREATION-TIME" = tn.head? := by
    rw [find_eq, n1.children]
    simp only [List.find?_append, find_tagged t2, find_other c2 (u := c!"CREATION-TIME") (by decide), find_other r2 (u := c!"CREATION-TIME") (by decide),
      find_other u2 (u := c!"CREATION-TIME") (by decide), find_other v2 (u := c!"CREATION-TIME") (by decide), find_other s2 (u := c!"CREATION-TIME") (by decide),
      find_other l2 (u := c!"CREATION-TIME") (by decide), Option.or_none, Option.none_or]
  have fr : n.find c!"REPOSITORY-ID" = rn.head? := by
    rw [find_eq, n1.children]
    simp only [List.find?_append, find_tagged r2, find_other c2 (u := c!"REPOSITORY-ID") (by decide), find_other t2 (u := c!"REPOSITORY-ID") (by decide),
      find_other u2 (u := c!"REPOSITORY-ID") (by decide), find_other v2 (u := c!"REPOSITORY-ID") (by decide), find_other s2 (u := c!"REPOSITORY-ID") (by decide),
      find_other l2 (u := c!"REPOSITORY-ID") (by decide), Option.or_none, Option.none_or]
  have fu : n.find c!"REQ-IF-TOOL-ID" = un.head? := by
    rw [find_eq, n1.children]
    simp only [List.find?_append, find_tagged u2, find_other c2 (u := c!"REQ-IF-TOOL-ID") (by decide), find_other t2 (u := c!"REQ-IF-TOOL-ID") (by decide),
      find_other r2 (u := c!"REQ-IF-TOOL-ID") (by decide), find_other v2 (u := c!"REQ-IF-TOOL-ID") (by decide), find_other s2 (u := c!"REQ-IF-TOOL-ID") (by decide),
      find_other l2 (u := c!"REQ-IF-TOOL-ID") (by decide), Option.or_none, Option.none_or]
  have fv : n.find c!"REQ-IF-VERSION" = vn.head? := by
    rw [find_eq, n1.children]
    simp only [List.find?_append, find_tagged v2, find_other c2 (u := c!"REQ-IF-VERSION") (by decide), find_other t2 (u := c!"REQ-IF-VERSION") (by decide),
      find_other r2 (u := c!"REQ-IF-VERSION") (by decide), find_other u2 (u := c!"REQ-IF-VERSION") (by decide), find_other s2 (u := c!"REQ-IF-VERSION") (by decide),
      find_other l2 (u := c!"REQ-IF-VERSION") (by decide), Option.or_none, Option.none_or]
  have fs : n.find c!"SOURCE-TOOL-ID" = sn.head? := by
    rw [find_eq, n1.children]
    simp only [List.find?_append, find_tagged s2, find_other c2 (u := c!"SOURCE-TOOL-ID") (by decide), find_other t2 (u := c!"SOURCE-TOOL-ID") (by decide),
      find_other r2 (u := c!"SOURCE-TOOL-ID") (by decide), find_other u2 (u := c!"SOURCE-TOOL-ID") (by decide), find_other v2 (u := c!"SOURCE-TOOL-ID") (by decide),
      find_other l2 (u := c!"SOURCE-TOOL-ID") (by decide), Option.or_none, Option.none_or]
  have fl : n.find c!"TITLE" = ln.head? := by
    rw [find_eq, n1.children]
    simp only [List.find?_append, find_tagged l2, find_other c2 (u := c!"TITLE") (by decide), find_other t2 (u := c!"TITLE") (by decide),
      find_other r2 (u := c!"TITLE") (by decide), find_other u2 (u := c!"TITLE") (by decide), find_other v2 (u := c!"TITLE") (by decide),
      find_other s2 (u := c!"TITLE") (by decide), Option.or_none, Option.none_or]
  refine ⟨_, m, ?_, m3, m1.tag, ?_, ?_⟩
  · unfold unparseHeader
    dsimp only
    rw [if_neg (by simpa using hne)]
    congr 1
    attrs_text
  · have a0 : pyAssert (m.tag == .name c!"THE-HEADER") = .ok () := by rw [m1.tag]; rfl
    have a2 : attrReqNI n c!"IDENTIFIER" = .ok i' := by
      unfold attrReqNI attrReq
      rw [n1.attr]
      simp [look_append, look_opt, look_cons, look_truthy, look_nil, orKey, orNotImpl]
    unfold parseHeader
    rw [a0, py_bind_ok, find_one m1 n1.tag]
    dsimp only
    rw [a2, py_bind_ok, py_pure, c3 n fc, t3 n ft, u3 n fu, v3 n fv, s3 n fs, l3 n fl, fr]
    unfold readHeader
    rw [← r3]
    cases rn.head? with
    | none => rfl
    | some x => cases h : x.text? <;> simp [h]
  · rw [m1.saysRecord (by decide), List.map_cons, List.map_nil, n1.saysRecord (by decide)]
    simp only [List.map_append, c4, t4, r4, u4, v4, s4, l4]
    rfl

/-- **C41.**  Every header with a non-empty identifier and safe strings is printed, and
read back, in a document with any ordinary root tag, as the same header, up to empty
strings. -/
theorem C41_roundtrip {as : List (Str × Str)} (hr : RootAttrs as) {h : Header} (hh : SafeHeader h) :
    ∃ t n, unparseHeader h = .ok t ∧ ReadsAs as t [n] ∧ parseHeader n = .ok (readHeader h) := by
  obtain ⟨Γ, hΓ⟩ := isCtx_exists hr [] false
  obtain ⟨-, hs⟩ := IsCtx.spec hΓ hr
  obtain ⟨t, n, h1, h2, -, h3, -⟩ := header_shows Γ hh
  exact ⟨t, n, h1, hs _ _ h2, h3⟩

/-- **C41**: what was read is printed the same way again (unless an empty repository id
was given, which is printed as an empty element and then as an empty tag). -/
theorem C41_stable {h : Header} (hne : h.repositoryId ≠ .text []) : unparseHeader (readHeader h) = unparseHeader h := by
  have e : ∀ tag f o, headerLine tag f (dropEmpty o) = headerLine tag f o := by
    intro tag f o
    cases o with
    | none => rfl
    | some v => cases v <;> rfl
  unfold unparseHeader readHeader
  simp only [e, if_neg hne]

/-- **C41**: a header without identifier, or with an empty one, is refused. -/
theorem C41_refused (h : Header) : unparseHeader h = .error .notImplemented ↔ h.identifier = none ∨ h.identifier = some [] := by
  unfold unparseHeader
  cases hi : h.identifier with
  | none => simp
  | some i =>
    cases i with
    | nil => simp
    | cons c i => simp

def exampleHeader : Header :=
  ⟨some c!"h-1", some c!"a comment", some c!"2020-01-01", .text c!"repo", none, some c!"1.0", some c!"tool", some c!"R & D \"x\""⟩

/-- Non-vacuity: a header that comes back equal. -/
example : SafeHeader exampleHeader ∧ readHeader exampleHeader = exampleHeader := by
  refine ⟨⟨⟨_, rfl, by decide, by decide⟩, by decide, by decide, ?_, by decide, by decide, by decide, by decide⟩, rfl⟩
  rintro s ⟨⟩
  decide

/-- What a printed header is read as (`none`: not well-formed). -/
def rereadHeader (h : Header) : Option (Option Header) :=
  match unparseHeader h with
  | .error _ => none
  | .ok t =>
    match readDoc (document usualRoot t) with
    | none => none
    | some doc =>
      match strippedRoot doc.root with
      | .error _ => none
      | .ok r =>
        match r.children with
        | [n] => (match parseHeader n with
          | .ok g' => some (some g')
          | _ => some none)
        | _ => some none

set_option maxRecDepth 20000 in
/-- **C41**, the opposite: `&` in the comment gives a document that is not well-formed. -/
theorem C41_comment : rereadHeader { exampleHeader with comment := some c!"R & D" } = none := by decide +kernel

/-- **C04.**  A title with XML characters, without `<`, carriage return and `]]>`, is read
back unchanged. -/
theorem C04_title {as : List (Str × Str)} (hr : RootAttrs as) {h : Header} (hh : SafeHeader h) {s : Str} (hs : h.title = some s)
    (hne : s ≠ []) : ∃ t n h', unparseHeader h = .ok t ∧ ReadsAs as t [n] ∧ parseHeader n = .ok h' ∧ h'.title = some s := by
  obtain ⟨t, n, h1, h2, h3⟩ := C41_roundtrip hr hh
  refine ⟨t, n, _, h1, h2, h3, ?_⟩
  show dropEmpty h.title = some s
  rw [hs]
  cases s with
  | nil => exact absurd rfl hne
  | cons c s => rfl

set_option maxRecDepth 20000 in
/-- **C04**, the opposite: a title with `<` gives a document that is not well-formed, or
one with further elements, or another title. -/
theorem C04_markup : rereadHeader { exampleHeader with title := some c!"a < b" } = none ∧
    rereadHeader { exampleHeader with title := some c!"a</TITLE><TITLE>b" } = some (some { exampleHeader with title := some c!"a" }) ∧
    rereadHeader { exampleHeader with title := some c!"a<!--b-->c" } = some (some { exampleHeader with title := some c!"a" }) ∧
    rereadHeader { exampleHeader with title := some c!"<![CDATA[x]]>" } = some (some { exampleHeader with title := some c!"x" }) := by
  decide +kernel

end ReqIF
