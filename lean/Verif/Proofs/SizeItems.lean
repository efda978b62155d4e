import Verif.Proofs.SizePrint
/-!
# Lengths of the printed items

Attribute values, attribute definitions, data types, types, objects, relations, groups, hierarchies, specifications.
-/
namespace ReqIF
open Spec

theorem scale {K : Nat} (hK : 36 ≤ K) (w : Nat) : 36 * w ≤ K * w := Nat.mul_le_mul_right _ hK

/-! ## Attribute values -/

theorem simpleValue_len {name value ref : Str} (h : name.length ≤ 11) :
    (simpleValueTemplate name value ref).length ≤ 300 + value.length + ref.length := by
  simp only [simpleValueTemplate, List.length_append, spaces_len, attrOut_len, lineOpen_len, lineElem_len, lineClose_len, List.length_cons,
    List.length_nil]
  omega

theorem enumerationTemplate_len (b : Bool) (values ref : Str) :
    (enumerationTemplate b values ref).length ≤ 320 + values.length + ref.length := by
  simp only [enumerationTemplate]
  split <;> (simp only [List.length_append, lineOpen_len, lineElem_len, lineClose_len, List.length_cons, List.length_nil]; omega)

theorem xhtmlTemplate_len (value ref : Str) : (xhtmlTemplate value ref).length ≤ 300 + value.length + ref.length := by
  simp only [xhtmlTemplate, List.length_append, lineOpen_len, lineElem_len, lineClose_len, List.length_cons, List.length_nil]
  omega

theorem rstrip_length (s : Str) : (rstrip s).length ≤ s.length := by
  unfold rstrip
  rw [List.length_reverse]
  exact Nat.le_trans (dropWhile_length _) (by simp)

theorem firstChild_size {n c : Node} (h : firstChild n = .ok c) : c.size + 1 ≤ n.size := by
  unfold firstChild at h
  split at h
  · cases h
  · rename_i hc
    cases h
    exact kid_size (child_kid (by rw [hc]; simp))

/-- What is known of a value that has been read. -/
inductive ValueRead (K w : Nat) : SpecObjectAttribute → Prop
  | plain {t : AttrType} {ref : Option Str} {v : Str} {s : Option Str} {x : Option Node} (hr : AtMost w ref) (hv : v.length ≤ w) :
      ValueRead K w ⟨t, ref, .str v, s, x⟩
  | xhtml {ref : Option Str} {v : Str} {s : Option Str} {x : Option Node} (hr : AtMost w ref) (hv : v.length ≤ 13 * (K * w)) :
      ValueRead K w ⟨.xhtml, ref, .str v, s, x⟩
  | list {ref : Option Str} {vs : Node} {s : Option Str} {x : Option Node} (hr : AtMost w ref) (hv : vs.size ≤ w) :
      ValueRead K w ⟨.enumeration, ref, .list (vs.children.map Node.text?), s, x⟩

theorem valueRead_len {K w : Nat} (hK : 36 ≤ K) (hw : 1 ≤ w) {a : SpecObjectAttribute} {s : Str} (h : ValueRead K w a)
    (hu : unparseAttributeValue a = .ok s) : s.length ≤ 24 * (K * w) := by
  have hs := scale hK w
  cases h with
  | plain hr hv =>
    rename_i t ref v st x
    have h1 := hr.fmt
    have h2 := htmlEscape_length v
    have simple : ∀ (name value : Str), name.length ≤ 11 → value.length ≤ 6 * w →
        (simpleValueTemplate name value (fmtOpt ref)).length ≤ 24 * (K * w) := by
      intro name value hn hv
      have := simpleValue_len (value := value) (ref := fmtOpt ref) hn
      omega
    cases t with
    | string => simp only [unparseAttributeValue, Except.ok.injEq] at hu; subst hu; exact simple _ _ (by decide) (by omega)
    | integer => simp only [unparseAttributeValue, Except.ok.injEq] at hu; subst hu; exact simple _ _ (by decide) (by omega)
    | real => simp only [unparseAttributeValue, Except.ok.injEq] at hu; subst hu; exact simple _ _ (by decide) (by omega)
    | boolean => simp only [unparseAttributeValue, Except.ok.injEq] at hu; subst hu; exact simple _ _ (by decide) (by omega)
    | date => simp only [unparseAttributeValue, Except.ok.injEq] at hu; subst hu; exact simple _ _ (by decide) (by omega)
    | xhtml =>
      simp only [unparseAttributeValue, Except.ok.injEq] at hu; subst hu
      have := xhtmlTemplate_len v (fmtOpt ref); omega
    | enumeration =>
      simp only [unparseAttributeValue] at hu
      obtain ⟨b, -, hu⟩ := py_bind_inv hu
      cases hu
  | xhtml hr hv =>
    rename_i ref v st x
    have h1 := hr.fmt
    simp only [unparseAttributeValue, Except.ok.injEq] at hu; subst hu
    have := xhtmlTemplate_len v (fmtOpt ref); omega
  | list hr hv =>
    rename_i ref vs st x
    have h1 := hr.fmt
    simp only [unparseAttributeValue] at hu
    obtain ⟨b, -, hu⟩ := py_bind_inv hu
    rw [py_pure] at hu
    cases hu
    have h2 := enumerationTemplate_len b (rstrip ((vs.children.map Node.text?).flatMap
      (fun v => lineElem 16 c!"ENUM-VALUE-REF" (fmtOpt v)))) (fmtOpt ref)
    have h3 := rstrip_length ((vs.children.map Node.text?).flatMap (fun v => lineElem 16 c!"ENUM-VALUE-REF" (fmtOpt v)))
    have h4 : ((vs.children.map Node.text?).flatMap (fun v => lineElem 16 c!"ENUM-VALUE-REF" (fmtOpt v))).length ≤ 60 * sumSizes vs.children := by
      rw [List.flatMap_map]
      refine flatMap_sizes (fun c hc => ?_)
      have := fmt_text c
      have := child_pos hc
      simp only [lineElem_len, List.length_cons, List.length_nil]; omega
    have h5 := children_size vs
    omega

theorem ref_atMost {x d r : Node} {t u : Str} (h1 : findReq x t = .ok d) (h2 : findReq d u = .ok r) : AtMost x.size r.text? := by
  have a := (findReq_size h1).1
  have b := (findReq_size h2).1
  exact (AtMost.text r).mono (by omega)

theorem ref_first {x d r : Node} (h1 : firstChild x = .ok d) (h2 : firstChild d = .ok r) : AtMost x.size r.text? := by
  have a := firstChild_size h1
  have b := firstChild_size h2
  exact (AtMost.text r).mono (by omega)

theorem xhtmlValue_read {K : Nat} (hK : 36 ≤ K) {x : Node} {a : SpecObjectAttribute} (hb : Bounded K x)
    (h : parseXhtmlAttributeValue x = .ok a) : ValueRead K x.size a ∧ 1 ≤ x.size := by
  unfold parseXhtmlAttributeValue at h
  obtain ⟨tv, h1, h⟩ := py_bind_inv h
  obtain ⟨hs, hk⟩ := findReq_size h1
  have hm : 13 * K * tv.size ≤ 13 * (K * x.size) := by
    rw [Nat.mul_assoc]; exact Nat.mul_le_mul_left _ (Nat.mul_le_mul_left _ (by omega))
  split at h
  · obtain ⟨v, h2, h⟩ := py_bind_inv h
    obtain ⟨s, h3, h⟩ := py_bind_inv h
    obtain ⟨d, h4, h⟩ := py_bind_inv h
    obtain ⟨r, h5, h⟩ := py_bind_inv h
    rw [py_pure] at h
    cases h
    exact ⟨.xhtml (ref_atMost h4 h5) (Nat.le_trans (namespacedChildren_len hK h2 (hb.kid hk)) hm), by omega⟩
  · obtain ⟨v, h2, h⟩ := py_bind_inv h
    obtain ⟨d, h4, h⟩ := py_bind_inv h
    obtain ⟨r, h5, h⟩ := py_bind_inv h
    rw [py_pure] at h
    cases h
    exact ⟨.xhtml (ref_atMost h4 h5) (Nat.le_trans (stringifyChildren_len hK h2 (hb.kid hk).infos) hm), by omega⟩

theorem simpleValue_read {K : Nat} {x : Node} {t : AttrType} {tag : Str} {a : SpecObjectAttribute}
    (h : parseSimpleValue x t tag = .ok a) : ValueRead K x.size a ∧ 1 ≤ x.size := by
  unfold parseSimpleValue at h
  obtain ⟨v, h1, h⟩ := py_bind_inv h
  obtain ⟨d, h2, h⟩ := py_bind_inv h
  obtain ⟨r, h3, h⟩ := py_bind_inv h
  rw [py_pure] at h
  cases h
  have := attrReq_size h1
  exact ⟨.plain (ref_atMost h2 h3) (by omega), by omega⟩

theorem value_read {K : Nat} (hK : 36 ≤ K) {x : Node} {a : SpecObjectAttribute} (hb : Bounded K x) (h : parseAttributeValue x = .ok a) :
    ValueRead K x.size a ∧ 1 ≤ x.size := by
  unfold parseAttributeValue at h
  split at h
  · obtain ⟨v, h1, h⟩ := py_bind_inv h
    obtain ⟨d, h2, h⟩ := py_bind_inv h
    obtain ⟨r, h3, h⟩ := py_bind_inv h
    rw [py_pure] at h
    cases h
    have := attrReq_size h1
    exact ⟨.plain (ref_first h2 h3) (by omega), by omega⟩
  · split at h
    · obtain ⟨d, h1, h⟩ := py_bind_inv h
      obtain ⟨r, h2, h⟩ := py_bind_inv h
      cases hv : x.find c!"VALUES" with
      | none => simp only [hv] at h; cases h
      | some vs =>
        simp only [hv] at h
        rw [py_pure] at h
        cases h
        have := find_size hv
        exact ⟨.list (ref_atMost h1 h2) (by omega), by omega⟩
    · repeat' split at h
      · exact simpleValue_read h
      · exact simpleValue_read h
      · exact simpleValue_read h
      · exact simpleValue_read h
      · exact xhtmlValue_read hK hb h
      · cases h

theorem values_len {K : Nat} (hK : 36 ≤ K) {o : Option Node} {w : Nat} (hw : 1 ≤ w) (ho : ∀ n, o = some n → n.size ≤ w ∧ Bounded K n)
    {vs : Option (List SpecObjectAttribute)} {s : Str} (h : parseAttributeValues o = .ok vs)
    (hu : unparseAttributeValues vs = .ok s ∨ unparseAttributeValues (some (vs.getD [])) = .ok s) : s.length ≤ 26 * (K * w) := by
  have hsc := scale hK w
  have empty : unparseAttributeValues (some []) = .ok s → s.length ≤ 26 * (K * w) := by
    intro h
    simp only [unparseAttributeValues, Except.ok.injEq] at h
    subst h
    simp only [List.length_append, spaces_len, List.length_cons, List.length_nil]; omega
  cases o with
  | none =>
    simp only [parseAttributeValues, Except.ok.injEq] at h
    subst h
    rcases hu with hu | hu
    · simp only [unparseAttributeValues, Except.ok.injEq] at hu; subst hu; simp
    · exact empty hu
  | some n =>
    simp only [parseAttributeValues] at h
    obtain ⟨l, h1, h⟩ := py_bind_inv h
    rw [py_pure] at h
    cases h
    have hu : unparseAttributeValues (some l) = .ok s := by rcases hu with hu | hu <;> exact hu
    obtain ⟨hn, hb⟩ := ho n rfl
    cases l with
    | nil => exact empty hu
    | cons a l =>
      simp only [unparseAttributeValues] at hu
      obtain ⟨body, h2, hu⟩ := py_bind_inv hu
      rw [py_pure] at hu
      cases hu
      have h3 : body.length ≤ 24 * K * sumSizes (n.children.filter (fun c => !isCommentNode c)) := by
        refine items_len h1 h2 (fun x hx y t hp hy => ?_)
        have hk := child_kid (List.mem_filter.mp hx).1
        obtain ⟨hr, h1⟩ := value_read hK (hb.kid hk) hp
        rw [Nat.mul_assoc]
        exact valueRead_len hK h1 hr hy
      have h4 : 24 * K * sumSizes (n.children.filter (fun c => !isCommentNode c)) ≤ 24 * K * w :=
        Nat.mul_le_mul_left _ (Nat.le_trans (filter_sum Node.size _ _) (Nat.le_trans (children_size n) hn))
      rw [Nat.mul_assoc 24 K w] at h4
      simp only [List.length_append, lineOpen_len, lineClose_len, List.length_cons, List.length_nil]; omega

/-! ## Attribute definitions -/

theorem text_find {x d r : Node} {t u : Str} (h1 : x.find t = some d) (h2 : d.find u = some r) : AtMost x.size r.text? := by
  have a := find_size h1
  have b := find_size h2
  exact (AtMost.text r).mono (by omega)

theorem AtMost.none (w : Nat) : AtMost w none := fun _ h => by cases h

/-- What is known of a default value that has been read. -/
def DefaultRead (K w : Nat) (d : DefaultPart) : Prop :=
  AtMost w d.1 ∧ ∀ v, d.2 = some (.str v) → v.length ≤ 13 * (K * w)

theorem defaultRead_small {K w : Nat} (hK : 36 ≤ K) {r : Option Str} {o : Option DefaultValue} (hr : AtMost w r)
    (h : ∀ v, o = some (.str v) → v.length ≤ w) : DefaultRead K w (r, o) :=
  ⟨hr, fun v hv => by have := h v hv; have := scale hK w; omega⟩

theorem defaultString_read {K : Nat} (hK : 36 ≤ K) {x : Node} {d : DefaultPart} (h : parseDefaultString x = .ok d) : DefaultRead K x.size d := by
  unfold parseDefaultString at h
  split at h
  · cases h; exact defaultRead_small hK (AtMost.none _) (fun v hv => by cases hv)
  · rename_i dn hd
    split at h
    · cases h; exact defaultRead_small hK (AtMost.none _) (fun v hv => by cases hv)
    · split at h
      · rename_i vn hv
        obtain ⟨s, h1, h⟩ := py_bind_inv h
        rw [py_pure] at h
        cases h
        have := attrReq_size h1; have := find_size hd; have := find_size hv
        exact defaultRead_small hK (AtMost.none _) (fun v hv => by cases hv; omega)
      · cases h

theorem defaultSimple_read {K : Nat} (hK : 36 ≤ K) {x : Node} {t : Str} {d : DefaultPart} (h : parseDefaultSimple x t = .ok d) :
    DefaultRead K x.size d := by
  unfold parseDefaultSimple at h
  split at h
  · cases h; exact defaultRead_small hK (AtMost.none _) (fun v hv => by cases hv)
  · rename_i dn hd
    split at h
    · cases h
    · rename_i vn hv
      obtain ⟨s, h1, h⟩ := py_bind_inv h
      rw [py_pure] at h
      cases h
      have := attrReq_size h1; have := find_size hd; have := find_size hv
      exact defaultRead_small hK (AtMost.none _) (fun v hv => by cases hv; omega)

theorem defaultBoolean_read {K : Nat} (hK : 36 ≤ K) {x : Node} {d : DefaultPart} (h : parseDefaultBoolean x = .ok d) :
    DefaultRead K x.size d := by
  unfold parseDefaultBoolean at h
  split at h
  · cases h; exact defaultRead_small hK (AtMost.none _) (fun v hv => by cases hv)
  · rename_i dn hd
    split at h
    · cases h
    · rename_i vn hv
      obtain ⟨s, h1, h⟩ := py_bind_inv h
      rw [py_pure] at h
      cases h
      have := attrReq_size h1; have := find_size hd; have := find_size hv
      refine defaultRead_small hK ?_ (fun v hv => by cases hv; omega)
      cases hd2 : vn.find c!"DEFINITION" with
      | none => exact AtMost.none _
      | some df =>
        dsimp only
        cases hr : df.find c!"ATTRIBUTE-DEFINITION-BOOLEAN-REF" with
        | none => exact AtMost.none _
        | some r => exact (text_find hd2 hr).mono (by omega)

theorem defaultXhtml_read {K : Nat} (hK : 36 ≤ K) {x : Node} (hb : Bounded K x) {d : DefaultPart} (h : parseDefaultXhtml x = .ok d) :
    DefaultRead K x.size d := by
  unfold parseDefaultXhtml at h
  split at h
  · cases h; exact defaultRead_small hK (AtMost.none _) (fun v hv => by cases hv)
  · rename_i dn hd
    split at h
    · cases h; exact defaultRead_small hK (AtMost.none _) (fun v hv => by cases hv)
    · split at h
      · cases h
      · rename_i vn hv
        obtain ⟨ref, h1, h⟩ := py_bind_inv h
        obtain ⟨tv, h2, h⟩ := py_bind_inv h
        obtain ⟨s, h3, h⟩ := py_bind_inv h
        rw [py_pure] at h
        cases h
        have hs1 := find_size hd; have hs2 := find_size hv
        obtain ⟨hs3, hk⟩ := findReq_size h2
        refine ⟨?_, fun v hv' => ?_⟩
        · dsimp only
          cases hd2 : vn.find c!"DEFINITION" with
          | none => simp only [hd2] at h1; cases h1; exact AtMost.none _
          | some df =>
            simp only [hd2] at h1
            cases hr : df.find c!"ATTRIBUTE-DEFINITION-XHTML-REF" with
            | none => simp only [hr] at h1; cases h1
            | some r => simp only [hr] at h1; cases h1; exact (text_find hd2 hr).mono (by omega)
        · cases hv'
          have := namespacedChildren_len hK h3 (((hb.kid (find_kid hd)).kid (find_kid hv)).kid hk)
          rw [Nat.mul_assoc] at this
          exact Nat.le_trans this (Nat.mul_le_mul_left _ (Nat.mul_le_mul_left _ (by omega)))

theorem defaultEnumeration_read {K : Nat} (hK : 36 ≤ K) {x : Node} {d : DefaultPart} (h : parseDefaultEnumeration x = .ok d) :
    DefaultRead K x.size d := by
  unfold parseDefaultEnumeration at h
  split at h
  · cases h; exact defaultRead_small hK (AtMost.none _) (fun v hv => by cases hv)
  · rename_i dn hd
    split at h
    · cases h; exact defaultRead_small hK (AtMost.none _) (fun v hv => by cases hv)
    · split at h
      · cases h
      · rename_i vn hv
        obtain ⟨ref, h1, h⟩ := py_bind_inv h
        rw [py_pure] at h
        cases h
        have hs1 := find_size hd; have hs2 := find_size hv
        refine defaultRead_small hK ?_ (fun v hv' => ?_)
        · cases hd2 : vn.find c!"DEFINITION" with
          | none => simp only [hd2] at h1; cases h1; exact AtMost.none _
          | some df =>
            simp only [hd2] at h1
            obtain ⟨r, hr, h1⟩ := py_bind_inv h1
            rw [py_pure] at h1
            cases h1
            have := find_size hd2; have := (findReq_size hr).1
            exact (AtMost.text r).mono (by omega)
        · cases hvs : vn.find c!"VALUES" with
          | none => simp only [hvs] at hv'; cases hv'
          | some vs =>
            simp only [hvs] at hv'
            cases hr : vs.find c!"ENUM-VALUE-REF" with
            | none => simp only [hr] at hv'; cases hv'
            | some r =>
              simp only [hr] at hv'
              cases ht : r.text? with
              | none => rw [ht] at hv'; cases hv'
              | some t =>
                rw [ht] at hv'
                cases hv'
                have := text?_size ht; have := find_size hvs; have := find_size hr
                omega

theorem datatypeRef_read {x : Node} {t : Str} {o : Option Str} (h : parseDatatypeRef x t = .ok o) : AtMost x.size o := by
  unfold parseDatatypeRef orNotImpl at h
  split at h
  · rename_i a hd
    cases h
    obtain ⟨n, h1, hd⟩ := py_bind_inv hd
    obtain ⟨r, h2, hd⟩ := py_bind_inv hd
    rw [py_pure] at hd
    cases hd
    exact ref_atMost h1 h2
  · cases h

theorem definitionBody_read {K : Nat} (hK : 36 ≤ K) {x : Node} (hb : Bounded K x)
    {r : AttrType × Option Str × DefaultPart × Option Bool} (h : parseDefinitionBody x = .ok r) :
    AtMost x.size r.2.1 ∧ DefaultRead K x.size r.2.2.1 := by
  unfold parseDefinitionBody at h
  split at h
  · obtain ⟨dt, h1, h⟩ := py_bind_inv h
    obtain ⟨dv, h2, h⟩ := py_bind_inv h
    rw [py_pure] at h; cases h
    exact ⟨datatypeRef_read h1, defaultString_read hK h2⟩
  split at h
  · obtain ⟨dt, h1, h⟩ := py_bind_inv h
    obtain ⟨dv, h2, h⟩ := py_bind_inv h
    rw [py_pure] at h; cases h
    exact ⟨datatypeRef_read h1, defaultSimple_read hK h2⟩
  split at h
  · obtain ⟨dt, h1, h⟩ := py_bind_inv h
    obtain ⟨dv, h2, h⟩ := py_bind_inv h
    rw [py_pure] at h; cases h
    exact ⟨datatypeRef_read h1, defaultSimple_read hK h2⟩
  split at h
  · obtain ⟨dt, h1, h⟩ := py_bind_inv h
    obtain ⟨dv, h2, h⟩ := py_bind_inv h
    rw [py_pure] at h; cases h
    exact ⟨datatypeRef_read h1, defaultBoolean_read hK h2⟩
  split at h
  · obtain ⟨dt, h1, h⟩ := py_bind_inv h
    obtain ⟨dv, h2, h⟩ := py_bind_inv h
    rw [py_pure] at h; cases h
    exact ⟨datatypeRef_read h1, defaultXhtml_read hK hb h2⟩
  split at h
  · obtain ⟨dt, h1, h⟩ := py_bind_inv h
    obtain ⟨dv, h2, h⟩ := py_bind_inv h
    rw [py_pure] at h; cases h
    exact ⟨datatypeRef_read h1, defaultEnumeration_read hK h2⟩
  split at h
  · obtain ⟨dt, h1, h⟩ := py_bind_inv h
    obtain ⟨dv, h2, h⟩ := py_bind_inv h
    rw [py_pure] at h; cases h
    exact ⟨datatypeRef_read h1, defaultSimple_read hK h2⟩
  · cases h

theorem typeTags_len (t : AttrType) : t.definitionTag.length ≤ 40 ∧ t.attributeValueTag.length ≤ 40 ∧ t.specTypeTag.length ≤ 40 := by
  cases t <;> decide

theorem defaultValue_len {K w : Nat} (hK : 36 ≤ K) (hw : 1 ≤ w) {a : SpecAttributeDefinition} {dv : DefaultValue} {s : Str}
    (hr : AtMost w a.defaultValueDefinitionRef) (hv : ∀ v, dv = .str v → v.length ≤ 13 * (K * w)) (h : unparseDefaultValue a dv = .ok s) :
    s.length ≤ 28 * (K * w) := by
  have hs := scale hK w
  obtain ⟨h1, h2, h3⟩ := typeTags_len a.type
  cases dv with
  | selfClosed =>
    simp only [unparseDefaultValue, Except.ok.injEq] at h
    subst h
    simp only [List.length_append, spaces_len, List.length_cons, List.length_nil]; omega
  | str v =>
    have hv := hv v rfl
    simp only [unparseDefaultValue] at h
    split at h
    · split at h
      · cases h
      · rename_i ref hd
        have := hr ref hd
        cases h
        simp only [List.length_append, lineOpen_len, lineClose_len, lineElem_len, List.length_cons, List.length_nil]; omega
    · split at h
      · cases h
      · rename_i ref hd
        have := hr ref hd
        cases h
        simp only [List.length_append, lineOpen_len, lineClose_len, lineElem_len, List.length_cons, List.length_nil]; omega
    · split at h
      · cases h
      · rename_i ref hd
        have := hr ref hd
        cases h
        simp only [List.length_append, lineOpen_len, lineClose_len, lineElem_len, attrOut_len, spaces_len, List.length_cons, List.length_nil]; omega
    · cases h
      simp only [List.length_append, lineOpen_len, lineClose_len, attrOut_len, spaces_len, List.length_cons, List.length_nil]; omega

/-- A piece printed for each of the `w` children of an element. -/
theorem loop_len {K w n c body : Nat} (hw : w ≤ K) (hn : n ≤ w) (h : body ≤ n * (c * (K * w))) : body ≤ c * (K * (K * w)) := by
  refine Nat.le_trans h (Nat.le_trans (Nat.mul_le_mul_right _ (Nat.le_trans hn hw)) ?_)
  exact Nat.le_of_eq (Nat.mul_left_comm _ _ _)

theorem definition_len {K : Nat} (hK : 36 ≤ K) {x : Node} (hb : Bounded K x) {a : SpecAttributeDefinition} {s : Str}
    (h : parseAttributeDefinition x = .ok a) (hu : unparseAttributeDefinition a = .ok s) : s.length ≤ 30 * (K * (K * x.size)) := by
  unfold parseAttributeDefinition at h
  obtain ⟨id', hid, h⟩ := py_bind_inv h
  obtain ⟨⟨ty, dt, ⟨ref, val⟩, mv⟩, hbody, h⟩ := py_bind_inv h
  simp only [py_pure] at h
  cases h
  obtain ⟨hdt, hdr, hdv⟩ := definitionBody_read hK hb hbody
  have hid := attrReq_size hid
  have hs := scale hK x.size
  have hs2 := scale hK (K * x.size)
  obtain ⟨ht1, ht2, ht3⟩ := typeTags_len ty
  unfold unparseAttributeDefinition at hu
  obtain ⟨body, h2, hu⟩ := py_bind_inv hu
  rw [py_pure] at hu
  cases hu
  have h3 : body.length ≤ 28 * (K * (K * x.size)) := by
    refine loop_len hb.le (childTags_size x) (concat_len h2 (fun t _ u hu => ?_))
    unfold unparseDefinitionChild at hu
    split at hu
    · split at hu
      · cases hu; simp
      · rename_i dv hd
        exact defaultValue_len hK (by omega) hdr (fun v hv => hdv v (by rw [← hv]; exact hd)) hu
    · split at hu
      · cases hu
        have := hdt.fmt
        simp only [unparseAttributeType, List.length_append, lineOpen_len, lineClose_len, lineElem_len, List.length_cons, List.length_nil]
        dsimp only at *
        omega
      · cases hu
  have h4 := attrOpt_len lxmlEscape_length c!"DESC" (AtMost.attr x c!"DESC")
  have h5 := attrTruthy_len id_length c!"LAST-CHANGE" (AtMost.attr x c!"LAST-CHANGE")
  have h6 := attrOpt_len lxmlEscape_length c!"LONG-NAME" (AtMost.attr x c!"LONG-NAME")
  have h7 := attrBool_len c!"IS-EDITABLE" (editableOf (x.attr? c!"IS-EDITABLE"))
  have h8 := attrBool_len c!"MULTI-VALUED" mv
  simp only [List.length_append, lineOpen_len, lineClose_len, attrOut_len, spaces_len, List.length_cons, List.length_nil] at h4 h5 h6 h7 h8 ⊢
  omega

theorem specAttributes_len {K : Nat} (hK : 36 ≤ K) {x : Node} (hw : 1 ≤ x.size) (hb : Bounded K x) {ds : Option (List SpecAttributeDefinition)} {s : Str}
    (h : parseAttributeDefinitions x = .ok ds) (hu : unparseSpecAttributes ds = .ok s) : s.length ≤ 31 * (K * (K * x.size)) := by
  have hs := scale hK x.size
  have hs2 := scale hK (K * x.size)
  unfold parseAttributeDefinitions at h
  split at h
  · cases h
    simp only [unparseSpecAttributes, Except.ok.injEq] at hu; subst hu; simp
  · rename_i sa hsa
    obtain ⟨l, h1, h⟩ := py_bind_inv h
    rw [py_pure] at h
    cases h
    simp only [unparseSpecAttributes] at hu
    obtain ⟨body, h2, hu⟩ := py_bind_inv hu
    rw [py_pure] at hu
    cases hu
    have h3 : body.length ≤ 30 * (K * K) * sumSizes sa.children := by
      refine items_len h1 h2 (fun y hy d t hp hd => ?_)
      have := definition_len hK ((hb.kid (find_kid hsa)).kid (child_kid hy)) hp hd
      simpa only [Nat.mul_assoc] using this
    have h4 : 30 * (K * K) * sumSizes sa.children ≤ 30 * (K * K) * x.size :=
      Nat.mul_le_mul_left _ (by have := children_size sa; have := find_size hsa; omega)
    have e : 30 * (K * K) * x.size = 30 * (K * (K * x.size)) := by simp only [Nat.mul_assoc]
    simp only [List.length_append, lineOpen_len, lineClose_len, List.length_cons, List.length_nil]
    omega

end ReqIF
