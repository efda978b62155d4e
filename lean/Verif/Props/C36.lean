import Verif.Props.C33
import Verif.Proofs.ChildLoop
/-!
# C36: spec objects survive write and read
-/
set_option linter.unusedSimpArgs false
namespace ReqIF
open Spec

theorem object_survives {Γ : Ctx} (hc : Γ.Clean) {o : SpecObject} (h : SafeObject Γ o) :
    Survives Γ (o.attributes.any usesXhtml) (fun n => (n.tag = .name c!"SPEC-OBJECT" ∧
        childTags n = keepTags [c!"VALUES", c!"TYPE"] (sourceOrder o.xmlNode [c!"VALUES", c!"TYPE"])) ∧ Xsd.said n = Xsd.objectSaid Γ.pfx o)
      unparseSpecObject parseSpecObject bareObject readObject o := by
  obtain ⟨i, as, ty, desc, lc, ln, nd⟩ := o
  obtain ⟨h1, h2, h3, h4, h5, h6, h7, h8⟩ := h
  dsimp only at h1 h2 h3 h4 h5 h6 h7 h8
  obtain ⟨vt, v, as', v1, v2, v3, v4, v5, v6, v7⟩ := values_survive hc h6
  obtain ⟨d, r, d1, r1, d2, d3⟩ := Shows.ref (Γ := Γ) 10 12 (outer := c!"TYPE") (inner := c!"SPEC-OBJECT-TYPE-REF")
    (by decide) (by decide) h5
  generalize hts : sourceOrder nd [c!"VALUES", c!"TYPE"] = ts at h7 h8 ⊢
  let node : Tag → Option Node := fun t => if t = .name c!"VALUES" then some v else if t = .name c!"TYPE" then some d else none
  let use : Tag → Bool := fun t => if t = .name c!"VALUES" then as.any usesXhtml else false
  have hsome : ∀ t, (node t).isSome = ([c!"VALUES", c!"TYPE"].map Tag.name).contains t := by
    intro t
    simp only [node]
    by_cases e1 : t = .name c!"VALUES"
    · subst e1; rfl
    · rw [if_neg e1]
      by_cases e2 : t = .name c!"TYPE"
      · subst e2; rfl
      · rw [if_neg e2]
        simp [e1, e2]
  have htag : ∀ t n, node t = some n → n.tag = t := by
    intro t n hn
    simp only [node] at hn
    split at hn
    · rename_i e; cases hn; rw [e]; exact v3
    · split at hn
      · rename_i e; cases hn; rw [e]; exact d1.tag
      · cases hn
  obtain ⟨body, b1, b2, b3⟩ := childLoop (Γ := Γ) (g := unparseSpecObjectChild ⟨i, as, ty, desc, lc, ln, nd⟩) (node := node)
    (use := use) ts (by
      intro t _
      simp only [Piece, unparseSpecObjectChild, node, use]
      by_cases e1 : t = .name c!"VALUES"
      · simp only [if_pos e1]
        exact ⟨vt, v1, .inr ⟨v, rfl, by rw [e1]; exact v3, v2⟩⟩
      · simp only [if_neg e1]
        by_cases e2 : t = .name c!"TYPE"
        · simp only [if_pos e2]
          exact ⟨_, rfl, .inr ⟨d, rfl, by rw [e2]; exact d1.tag, d3⟩⟩
        · simp only [if_neg e2]
          exact ⟨[], rfl, .inl (by simp)⟩)
  have hu : ts.any use = as.any usesXhtml := any_use h7
  rw [hu] at b2
  obtain ⟨n, n1, -, -, n3⟩ := Shows.elem 8 (tag := c!"SPEC-OBJECT") (by decide)
    (as := optA c!"DESC" id desc ++ [(c!"IDENTIFIER", i)] ++ truthyA c!"LAST-CHANGE" id lc ++ optA c!"LONG-NAME" id ln)
    (vs := optA c!"DESC" id desc ++ [(c!"IDENTIFIER", i)] ++ truthyA c!"LAST-CHANGE" id lc ++ optA c!"LONG-NAME" id ln)
    (by attributes) b2
  have hct : childTags n = ts.filter (fun t => (node t).isSome) := by
    unfold childTags; rw [n1.children]; exact b3
  have fv : n.find c!"VALUES" = some v := by
    rw [find_eq, n1.children, find_loop (fun t _ => htag t), if_pos h7]; rfl
  have ft : n.find c!"TYPE" = some d := by
    rw [find_eq, n1.children, find_loop (fun t _ => htag t), if_pos h8]; rfl
  have tags : ∀ o' : SpecObject, o'.xmlNode = some n → specObjectChildTags o' = .ok (ts.filter (fun t => (node t).isSome)) := by
    intro o' ho
    have m : ∀ t ∈ ts, (node t).isSome = true → (childTags n).contains t = true := by
      intro t ht hn
      rw [hct]
      simp [ht, hn]
    unfold specObjectChildTags
    rw [ho]
    dsimp only
    rw [m _ h7 rfl, m _ h8 rfl, hct]
    rfl
  have order : specObjectChildTags ⟨i, as, ty, desc, lc, ln, nd⟩ = .ok ts := by
    unfold specObjectChildTags
    cases nd with
    | none => rw [← hts]; rfl
    | some x =>
      have hts : childTags x = ts := hts
      dsimp only
      rw [hts]
      have m7 : ts.contains (.name c!"VALUES") = true := by simpa using h7
      have m8 : ts.contains (.name c!"TYPE") = true := by simpa using h8
      rw [m7, m8]; rfl
  refine ⟨_, n, ⟨i, as', ty, desc, dropEmpty lc, ln, some n⟩, ?_, n3, ⟨⟨n1.tag, ?_⟩, ?_⟩, ?_, ?_, ?_⟩
  · unfold unparseSpecObject
    rw [order, py_bind_ok, b1, py_bind_ok, py_pure]
    congr 1
    attrs_text
  · rw [hct]
    unfold keepTags
    congr 1
    funext t
    exact hsome t
  · rw [n1.saysRecord (by decide)]
    unfold Xsd.objectSaid
    dsimp only
    rw [hts]
    congr 1
    refine Xsd.filterMap_said ts (fun t _ => ?_)
    simp only [node]
    split
    · rw [Option.map_some, v7]
    · split
      · rw [Option.map_some, d1.saysRef r1 d2 (by decide) (by decide)]
      · rfl
  · have a1 : tagContains n c!"SPEC-OBJECT" = .ok true := by
      unfold tagContains; rw [n1.tag]; rfl
    have a2 : attrReqNI n c!"IDENTIFIER" = .ok i := by
      unfold attrReqNI attrReq
      rw [n1.attr]
      simp [look_append, look_opt, look_cons, look_truthy, look_nil, orKey, orNotImpl]
    have a3 : findReq n c!"TYPE" = .ok d := by unfold findReq; rw [ft]; rfl
    have a4 : findReq d c!"SPEC-OBJECT-TYPE-REF" = .ok r := by unfold findReq; rw [find_one d1 r1.tag]; rfl
    unfold parseSpecObject
    rw [a1, py_bind_ok]
    have a0 : pyAssert true = .ok () := rfl
    rw [a0, py_bind_ok, a2, py_bind_ok, a3, py_bind_ok, a4, py_bind_ok, fv, v4, py_bind_ok, py_pure, d2]
    simp [n1.attr, look_append, look_opt, look_cons, look_truthy, look_nil, dropEmpty]
  · simp only [bareObject, readObject, v5]
  · unfold unparseSpecObject
    rw [tags _ rfl, py_bind_ok, concat_filter (g := unparseSpecObjectChild ⟨i, as, ty, desc, lc, ln, nd⟩), b1, py_bind_ok, py_pure]
    · congr 1
      simp only [attrsText_append, attrsText_optA, attrsText_truthyA, attrsText_one, List.append_assoc]
      rw [attrTruthy_dropEmpty]
      rfl
    · intro t ht
      refine ⟨fun hp => ?_, fun hp => ?_⟩
      · simp only [unparseSpecObjectChild]
        split
        · rw [v6, v1]
        · rfl
      · simp only [node] at hp
        simp only [unparseSpecObjectChild]
        split at hp
        · cases hp
        · rename_i e1
          split at hp
          · cases hp
          · rename_i e2
            rw [if_neg e1, if_neg e2]

/-- **C36.**  Every safe spec object is printed, and read back, in a document with any
ordinary root tag, as a spec object with the same identifier, type, description,
time stamp, long name and values.  Its children come in the order of the document
it was read from, or `VALUES` first; and it is printed the same way again. -/
theorem C36_roundtrip {as : List (Str × Str)} (hr : RootAttrs as) {p : Str} {o : SpecObject} {Γ : Ctx}
    (hΓ : IsCtx as p (o.attributes.any usesXhtml) Γ) (h : SafeObject Γ o) :
    ∃ t n o', unparseSpecObject o = .ok t ∧ ReadsAs as t [n] ∧
      childTags n = keepTags [c!"VALUES", c!"TYPE"] (sourceOrder o.xmlNode [c!"VALUES", c!"TYPE"]) ∧
      parseSpecObject n = .ok o' ∧ bareObject o' = readObject o ∧ unparseSpecObject o' = .ok t := by
  obtain ⟨hc, hs⟩ := IsCtx.spec hΓ hr
  obtain ⟨t, n, o', h1, h2, h3, h4, h5, h6⟩ := object_survives hc h
  exact ⟨t, n, o', h1, hs _ _ h2, h3.1.2, h4, h5, h6⟩

/-- A spec object with a value of each kind. -/
def exampleObject : SpecObject := ⟨c!"o-1", exampleValues, some c!"t-1", some c!"text", some c!"2020", none, none⟩

/-- The same, read from an element whose children come in the other order. -/
def exampleObjectRead : SpecObject :=
  { exampleObject with
    lastChange := some [], xmlNode := some (.elem ⟨none, none, c!"SPEC-OBJECT", [], [], []⟩
      [.elem ⟨none, none, c!"TYPE", [], [], []⟩ [], .comment c!"x", .elem ⟨none, none, c!"VALUES", [], [], []⟩ []]) }

/-- Non-vacuity. -/
theorem exampleObject_safe : ∃ Γ, IsCtx usualRoot c!"xhtml" (exampleObject.attributes.any usesXhtml) Γ ∧
    SafeObject Γ exampleObject ∧ SafeObject Γ exampleObjectRead := by
  obtain ⟨Γ, h1, h2⟩ := exampleValues_safe
  refine ⟨Γ, h1, ⟨by decide, by decide, by decide, by decide, by decide, h2, by decide, by decide⟩,
    ⟨by decide, by decide, by decide, by decide, by decide, h2, by decide, by decide⟩⟩

/-- The fields of a spec object that are strings. -/
structure ReadObject where
  identifier : Str
  type : Option Str
  description : Option Str
  longName : Option Str
  deriving DecidableEq

/-- What a printed spec object is read as (`none`: not well-formed). -/
def rereadObject (o : SpecObject) : Option (Option ReadObject) :=
  match unparseSpecObject o with
  | .error _ => none
  | .ok t =>
    match readDoc (document usualRoot t) with
    | none => none
    | some doc =>
      match strippedRoot doc.root with
      | .error _ => none
      | .ok r =>
        match r.children with
        | [n] => (match parseSpecObject n with
          | .ok o' => some (some ⟨o'.identifier, o'.specObjectType, o'.description, o'.longName⟩)
          | _ => some none)
        | _ => some none

set_option maxRecDepth 20000 in
/-- **C36**, the opposite: an ampersand in the long name is printed as it is; the
document is not well-formed, or the name comes back changed. -/
theorem C36_ampersand : rereadObject ⟨c!"o", [], some c!"t", none, none, some c!"a & b", none⟩ = none ∧
    rereadObject ⟨c!"o", [], some c!"t", none, none, some c!"a &lt; b", none⟩ = some (some ⟨c!"o", some c!"t", none, some c!"a < b"⟩) := by
  decide +kernel

set_option maxRecDepth 20000 in
/-- **C36**, the opposite: `<` in the description gives a document that is not well-formed. -/
theorem C36_less : rereadObject ⟨c!"o", [], some c!"t", some c!"a < b", none, none, none⟩ = none := by decide +kernel

set_option maxRecDepth 20000 in
/-- **C36**, the opposite: a missing type comes back as the text `None`. -/
theorem C36_none : rereadObject ⟨c!"o", [], none, none, none, none, none⟩ = some (some ⟨c!"o", some c!"None", none, none⟩) := by
  decide +kernel

/-- An element of a spec object without `VALUES`. -/
def noValues : Node := .elem ⟨none, none, c!"SPEC-OBJECT", [], [], [⟨none, none, c!"IDENTIFIER", c!"o"⟩]⟩
  [.elem ⟨none, none, c!"TYPE", [], [], []⟩ [.elem ⟨none, none, c!"SPEC-OBJECT-TYPE-REF", [], [], []⟩ [.text c!"t"]]]

/-- **C36**, the opposite: a spec object read from an element without `VALUES` is
accepted when reading and refused when printing. -/
theorem C36_no_values : ∃ o, parseSpecObject noValues = .ok o ∧ unparseSpecObject o = .error .assertion := ⟨_, rfl, rfl⟩

end ReqIF
