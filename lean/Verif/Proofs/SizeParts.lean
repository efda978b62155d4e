import Verif.Proofs.SizeItems
import Verif.Props.C86
/-!
# Lengths of the printed parts of a document

Types, data types, objects, relations, groups, the header, hierarchies, specifications.
-/
namespace ReqIF
open Spec

/-! ## Numbers -/

theorem digitsGo_lt : ∀ (s : Str) (acc : Nat) (b : Bool) (n k : Nat), digitsGo acc b s = some n → acc < 10 ^ k → n < 10 ^ (k + s.length)
  | [], acc, b, n, k, h, ha => by
    simp only [digitsGo] at h
    split at h
    · cases h; simpa using ha
    · cases h
  | c :: s, acc, b, n, k, h, ha => by
    simp only [digitsGo] at h
    split at h
    · rename_i hc
      simp only [Bool.and_eq_true, decide_eq_true_eq] at hc
      have h9 : c.toNat ≤ 57 := by
        have := hc.2
        rw [Char.le_def] at this
        exact UInt32.le_iff_toNat_le.mp this
      have := digitsGo_lt s (10 * acc + (c.toNat - 48)) true n (k + 1) h (by rw [Nat.pow_succ]; omega)
      rwa [List.length_cons, Nat.add_comm s.length 1, ← Nat.add_assoc]
    · split at h
      · have := digitsGo_lt s acc false n k h ha
        rw [List.length_cons]
        exact Nat.lt_of_lt_of_le this (Nat.pow_le_pow_right (by omega) (by omega))
      · cases h

theorem digitsText_length {s : Str} {n : Nat} (h : digitsGo 0 false s = some n) : (Nat.toDigits 10 n).length ≤ s.length := by
  have hn : s ≠ [] := by intro e; subst e; simp [digitsGo] at h
  have := digitsGo_lt s 0 false n 0 h (by simp)
  rw [Nat.length_toDigits_le_iff (by omega) (List.length_pos_iff.mpr hn)]
  simpa using this

theorem strip_shorter (s : Str) : (strip s).length ≤ s.length := by
  unfold strip
  first
    | exact Nat.le_trans (rstrip_length _) (dropWhile_length _)
    | exact Nat.le_trans (dropWhile_length _) (rstrip_length _)

theorem fmt_nat {n : Nat} {k : Nat} (h : (Nat.toDigits 10 n).length ≤ k) : (fmtInt (n : Int)).length ≤ k + 1 ∧ (fmtInt (-(n : Int))).length ≤ k + 1 := by
  refine ⟨by show (Nat.toDigits 10 n).length ≤ _; omega, ?_⟩
  cases n with
  | zero => exact Nat.le_trans h (by omega)
  | succ n =>
    show ('-' :: Nat.toDigits 10 (n + 1)).length ≤ _
    rw [List.length_cons]; omega

theorem pyInt_length {s : Str} {n : Int} (h : pyInt s = some n) : (fmtInt n).length ≤ s.length + 1 := by
  have hs := strip_shorter s
  unfold pyInt at h
  split at h
  · rename_i d hd
    cases hg : digitsGo 0 false (d) with
    | none => rw [hg] at h; cases h
    | some m =>
      rw [hg] at h
      have h : some (-(m : Int)) = some n := h
      cases h
      have := (fmt_nat (digitsText_length hg)).2
      rw [hd, List.length_cons] at hs; omega
  · rename_i d hd
    cases hg : digitsGo 0 false (d) with
    | none => rw [hg] at h; cases h
    | some m =>
      rw [hg] at h
      have h : some ((m : Int)) = some n := h
      cases h
      have := (fmt_nat (digitsText_length hg)).1
      rw [hd, List.length_cons] at hs; omega
  · cases hg : digitsGo 0 false (strip s) with
    | none => rw [hg] at h; cases h
    | some m =>
      rw [hg] at h
      have h : some ((m : Int)) = some n := h
      cases h
      have := (fmt_nat (digitsText_length hg)).1
      omega

/-! ## Data types -/

theorem enumValue_len {x : Node} {v : EnumValue} (h : parseEnumValue x = .ok v) : (unparseEnumValue v).length ≤ 400 * x.size := by
  unfold parseEnumValue at h
  obtain ⟨id', h1, h⟩ := py_bind_inv h
  obtain ⟨p, h2, h⟩ := py_bind_inv h
  obtain ⟨e, h3, h⟩ := py_bind_inv h
  obtain ⟨k, h4, h⟩ := py_bind_inv h
  rw [py_pure] at h
  cases h
  have a1 := attrReq_size h1
  have a2 := (findReq_size h2).1
  have a3 := (findReq_size h3).1
  have a4 := attrReq_size h4
  have b1 := attrOpt_len id_length c!"DESC" (AtMost.attr x c!"DESC")
  have b2 := attrOpt_len id_length c!"LAST-CHANGE" (AtMost.attr x c!"LAST-CHANGE")
  have b3 := attrOpt_len lxmlEscape_length c!"LONG-NAME" (AtMost.attr x c!"LONG-NAME")
  have b4 := attrOpt_len id_length c!"OTHER-CONTENT" (AtMost.attr e c!"OTHER-CONTENT")
  simp only [unparseEnumValue, List.length_append, lineOpen_len, lineClose_len, attrOut_len, spaces_len, List.length_cons, List.length_nil] at b1 b2 b3 b4 ⊢
  omega

theorem enumValues_len {xs : List Node} {vs : List EnumValue} (h : mapPy parseEnumValue xs = .ok vs) :
    (vs.flatMap unparseEnumValue).length ≤ 400 * sumSizes xs := by
  have e : ∀ vs : List EnumValue, concatPy (fun v => .ok (unparseEnumValue v)) vs = .ok (vs.flatMap unparseEnumValue) := by
    intro vs
    induction vs with
    | nil => rfl
    | cons v vs ih => simp [concatPy, ih]
  exact items_len h (e vs) (fun x _ y s hp hs => by cases hs; exact enumValue_len hp)

theorem closeOut_len (b : Bool) {t : Str} (h : t.length ≤ 40) : (closeOut b t).length ≤ 60 := by
  unfold closeOut
  split
  · simp
  · simp only [List.length_append, lineClose_len, List.length_cons, List.length_nil]; omega

theorem ite_len (b : Bool) (p q : Str) : (if b then p else q).length ≤ p.length + q.length := by
  cases b <;> simp <;> omega

theorem dataType_len {K : Nat} (hK : 36 ≤ K) {x : Node} {d : DataType} (h : parseDataType x = .ok d) :
    (unparseDataType d).length ≤ 40 * (K * x.size) := by
  have hsc := scale hK x.size
  unfold parseDataType at h
  obtain ⟨b1, -, h⟩ := py_bind_inv h
  obtain ⟨b2, -, h⟩ := py_bind_inv h
  obtain ⟨id', hid, h⟩ := py_bind_inv h
  have hid := attrReq_size hid
  have e1 := attrOpt_len lxmlEscape_length c!"DESC" (AtMost.attr x c!"DESC")
  have e2 := attrTruthy_len id_length c!"LAST-CHANGE" (AtMost.attr x c!"LAST-CHANGE")
  have e3 := attrOpt_len lxmlEscape_length c!"LONG-NAME" (AtMost.attr x c!"LONG-NAME")
  have e4 := attrTruthy_len id_length c!"LONG-NAME" (AtMost.attr x c!"LONG-NAME")
  have e5 := attrOpt_len id_length c!"LONG-NAME" (AtMost.attr x c!"LONG-NAME")
  have e6 := attrOpt_len id_length c!"LAST-CHANGE" (AtMost.attr x c!"LAST-CHANGE")
  have e7 := attrOpt_len id_length c!"MAX" (AtMost.attr x c!"MAX")
  have e8 := attrOpt_len id_length c!"MIN" (AtMost.attr x c!"MIN")
  have e9 := attrTruthy_len id_length c!"MAX-LENGTH" (AtMost.attr x c!"MAX-LENGTH")
  dsimp only at h
  simp only [List.length_cons, List.length_nil] at e1 e2 e3 e4 e5 e6 e7 e8 e9
  split at h
  · split at h
    · cases h
      have c1 := ite_len (isSelfClosedTag x) c!"/>\n" c!">\n"
      have c2 := ite_len (isSelfClosedTag x) [] (lineClose 8 c!"DATATYPE-DEFINITION-ENUMERATION")
      simp only [unparseDataType, unparseEnumValues, List.length_append, lineClose_len, attrOut_len, spaces_len, List.length_cons, List.length_nil] at c1 c2 ⊢
      omega
    · rename_i sv hsv
      obtain ⟨vs, hvs, h⟩ := py_bind_inv h
      cases h
      have c1 := ite_len (isSelfClosedTag x) c!"/>\n" c!">\n"
      have c2 := ite_len (isSelfClosedTag x) [] (lineClose 8 c!"DATATYPE-DEFINITION-ENUMERATION")
      have c3 := enumValues_len hvs
      have c4 := children_size sv
      have c5 := find_size hsv
      simp only [unparseDataType, unparseEnumValues, List.length_append, lineOpen_len, lineClose_len, attrOut_len, spaces_len, List.length_cons, List.length_nil] at c1 c2 ⊢
      omega
  split at h
  · cases h
    have c1 := closeOut_len (isSelfClosedTag x) (t := c!"DATATYPE-DEFINITION-STRING") (by decide)
    simp only [unparseDataType, List.length_append, attrOut_len, spaces_len, List.length_cons, List.length_nil]
    omega
  split at h
  · cases h
    have c1 := closeOut_len (isSelfClosedTag x) (t := c!"DATATYPE-DEFINITION-INTEGER") (by decide)
    simp only [unparseDataType, List.length_append, attrOut_len, spaces_len, List.length_cons, List.length_nil]
    omega
  split at h
  · split at h
    · cases h
      simp only [unparseDataType, List.length_append, attrOut_len, spaces_len, Option.map_none, attrOpt, List.length_cons, List.length_nil]
      simp only [attrOpt] at e1 e5 e6 e7 e8
      omega
    · rename_i a ha
      split at h
      · cases h
      · rename_i n hn
        cases h
        have c1 := pyInt_length hn
        have c2 := attr?_size ha
        have c3 : (attrOpt c!"ACCURACY" id (some (fmtInt n))).length = 12 + (fmtInt n).length := by
          simp only [attrOpt, attrOut_len, id, List.length_cons, List.length_nil]; omega
        simp only [unparseDataType, List.length_append, attrOut_len, spaces_len, Option.map_some, c3, List.length_cons, List.length_nil]
        omega
  split at h
  · cases h
    have c1 := closeOut_len (isSelfClosedTag x) (t := c!"DATATYPE-DEFINITION-XHTML") (by decide)
    simp only [unparseDataType, List.length_append, attrOut_len, spaces_len, List.length_cons, List.length_nil]
    omega
  split at h
  · cases h
    have c1 := closeOut_len (isSelfClosedTag x) (t := c!"DATATYPE-DEFINITION-DATE") (by decide)
    simp only [unparseDataType, List.length_append, attrOut_len, spaces_len, List.length_cons, List.length_nil]
    omega
  split at h
  · cases h
    have c1 := closeOut_len (isSelfClosedTag x) (t := c!"DATATYPE-DEFINITION-BOOLEAN") (by decide)
    simp only [unparseDataType, List.length_append, attrOut_len, spaces_len, List.length_cons, List.length_nil]
    omega
  · cases h

/-! ## Types -/

theorem specObjectType_len {K : Nat} (hK : 36 ≤ K) {x : Node} (hb : Bounded K x) {t : SpecObjectType} {s : Str}
    (h : parseSpecObjectType x = .ok t) (hu : unparseSpecObjectType t = .ok s) : s.length ≤ 32 * (K * (K * x.size)) := by
  have hs := scale hK x.size
  have hs2 := scale hK (K * x.size)
  unfold parseSpecObjectType at h
  obtain ⟨_, -, h⟩ := py_bind_inv h
  obtain ⟨id', hid, h⟩ := py_bind_inv h
  obtain ⟨ds, hds, h⟩ := py_bind_inv h
  rw [py_pure] at h
  cases h
  have hid := attrReqNI_size hid
  unfold unparseSpecObjectType at hu
  obtain ⟨body, h1, hu⟩ := py_bind_inv hu
  rw [py_pure] at hu
  cases hu
  have h2 := specAttributes_len hK (by omega) hb hds h1
  have e1 := attrOpt_len lxmlEscape_length c!"DESC" (AtMost.attr x c!"DESC")
  have e2 := attrOpt_len id_length c!"LAST-CHANGE" (AtMost.attr x c!"LAST-CHANGE")
  have e3 := attrOpt_len lxmlEscape_length c!"LONG-NAME" (AtMost.attr x c!"LONG-NAME")
  simp only [List.length_append, lineClose_len, attrOut_len, spaces_len, List.length_cons, List.length_nil] at e1 e2 e3 ⊢
  omega

/-- The text of a type that may be self-closed. -/
theorem relationType_len {K : Nat} (hK : 36 ≤ K) {x : Node} (hb : Bounded K x) {tag : Str} (ht : tag.length ≤ 40) {t : RelationType} {s : Str}
    {ds : Option (List SpecAttributeDefinition)} (hds : parseAttributeDefinitions x = .ok ds) (hid : t.identifier.length + 1 ≤ x.size)
    (h1 : AtMost x.size t.description) (h2 : AtMost x.size t.lastChange) (h3 : AtMost x.size t.longName) (h4 : t.attributeDefinitions = ds)
    (hu : unparseRelationType tag t = .ok s) : s.length ≤ 32 * (K * (K * x.size)) := by
  have hs := scale hK x.size
  have hs2 := scale hK (K * x.size)
  have e1 := attrOpt_len htmlEscape_length c!"DESC" h1
  have e2 := attrOpt_len id_length c!"LAST-CHANGE" h2
  have e3 := attrOpt_len id_length c!"LONG-NAME" h3
  unfold unparseRelationType at hu
  dsimp only at hu
  split at hu
  · cases hu
    simp only [List.length_append, attrOut_len, spaces_len, List.length_cons, List.length_nil] at e1 e2 e3 ⊢
    omega
  · obtain ⟨body, h5, hu⟩ := py_bind_inv hu
    rw [py_pure] at hu
    cases hu
    rw [h4] at h5
    have h2 := specAttributes_len hK (by omega) hb hds h5
    simp only [List.length_append, lineClose_len, attrOut_len, spaces_len, List.length_cons, List.length_nil] at e1 e2 e3 ⊢
    omega

theorem atMost_some {w : Nat} {v : Str} (h : v.length ≤ w) : AtMost w (some v) := fun _ e => by cases e; exact h

theorem specRelationType_len {K : Nat} (hK : 36 ≤ K) {x : Node} (hb : Bounded K x) {t : RelationType} {s : Str}
    (h : parseSpecRelationType x = .ok t) (hu : unparseRelationType c!"SPEC-RELATION-TYPE" t = .ok s) : s.length ≤ 32 * (K * (K * x.size)) := by
  unfold parseSpecRelationType at h
  obtain ⟨_, -, h⟩ := py_bind_inv h
  obtain ⟨id', hid, h⟩ := py_bind_inv h
  obtain ⟨ln, hln, h⟩ := py_bind_inv h
  obtain ⟨ds, hds, h⟩ := py_bind_inv h
  rw [py_pure] at h
  cases h
  have := attrReqNI_size hln
  exact relationType_len hK hb (by decide) hds (attrReqNI_size hid) (AtMost.attr _ _) (AtMost.attr _ _) (atMost_some (by omega)) rfl hu

theorem relationGroupType_len {K : Nat} (hK : 36 ≤ K) {x : Node} (hb : Bounded K x) {t : RelationType} {s : Str}
    (h : parseRelationGroupType x = .ok t) (hu : unparseRelationType c!"RELATION-GROUP-TYPE" t = .ok s) : s.length ≤ 32 * (K * (K * x.size)) := by
  unfold parseRelationGroupType at h
  obtain ⟨_, -, h⟩ := py_bind_inv h
  obtain ⟨id', hid, h⟩ := py_bind_inv h
  obtain ⟨ds, hds, h⟩ := py_bind_inv h
  rw [py_pure] at h
  cases h
  exact relationType_len hK hb (by decide) hds (attrReqNI_size hid) (AtMost.attr _ _) (AtMost.attr _ _) (AtMost.attr _ _) rfl hu

theorem specificationType_len {K : Nat} (hK : 36 ≤ K) {x : Node} (hb : Bounded K x) {t : SpecificationType} {s : Str}
    (h : parseSpecificationType x = .ok t) (hu : unparseSpecificationType t = .ok s) : s.length ≤ 32 * (K * (K * x.size)) := by
  have hs := scale hK x.size
  have hs2 := scale hK (K * x.size)
  unfold parseSpecificationType at h
  obtain ⟨_, -, h⟩ := py_bind_inv h
  obtain ⟨id', hid, h⟩ := py_bind_inv h
  obtain ⟨lc, hlc, h⟩ := py_bind_inv h
  obtain ⟨ds, hds, h⟩ := py_bind_inv h
  obtain ⟨m, -, h⟩ := py_bind_inv h
  rw [py_pure] at h
  cases h
  have hid := attrReqNI_size hid
  have hlc := attrReqNI_size hlc
  have e1 := attrOpt_len id_length c!"DESC" (AtMost.attr x c!"DESC")
  have e2 := attrOpt_len id_length c!"LAST-CHANGE" (atMost_some (w := x.size) (v := lc) (by omega))
  have e3 := attrOpt_len id_length c!"LONG-NAME" (AtMost.attr x c!"LONG-NAME")
  unfold unparseSpecificationType at hu
  dsimp only at hu
  split at hu
  · cases hu
    simp only [List.length_append, attrOut_len, spaces_len, List.length_cons, List.length_nil] at e1 e2 e3 ⊢
    omega
  · obtain ⟨body, h5, hu⟩ := py_bind_inv hu
    rw [py_pure] at hu
    cases hu
    have h2 := specAttributes_len hK (by omega) hb hds h5
    simp only [List.length_append, lineClose_len, attrOut_len, spaces_len, List.length_cons, List.length_nil] at e1 e2 e3 ⊢
    omega

theorem specType_len {K : Nat} (hK : 36 ≤ K) {x : Node} (hb : Bounded K x) {t : SpecType} {s : Str}
    (h : parseSpecType x = .ok (some t)) (hu : unparseSpecType t = .ok s) : s.length ≤ 32 * (K * (K * x.size)) := by
  unfold parseSpecType at h
  split at h
  · obtain ⟨t', h1, h⟩ := py_bind_inv h
    rw [py_pure] at h; cases h
    exact specObjectType_len hK hb h1 hu
  split at h
  · obtain ⟨t', h1, h⟩ := py_bind_inv h
    rw [py_pure] at h; cases h
    exact specRelationType_len hK hb h1 hu
  split at h
  · obtain ⟨t', h1, h⟩ := py_bind_inv h
    rw [py_pure] at h; cases h
    exact specificationType_len hK hb h1 hu
  split at h
  · obtain ⟨t', h1, h⟩ := py_bind_inv h
    rw [py_pure] at h; cases h
    exact relationGroupType_len hK hb h1 hu
  split at h
  · cases h
  · cases h

/-! ## Objects, relations, groups -/

theorem values_find {K : Nat} {x : Node} (hb : Bounded K x) {t : Str} : ∀ n, x.find t = some n → n.size ≤ x.size ∧ Bounded K n :=
  fun n hn => ⟨by have := find_size hn; omega, hb.kid (find_kid hn)⟩

theorem object_len {K : Nat} (hK : 36 ≤ K) {x : Node} (hb : Bounded K x) {o : SpecObject} {s : Str}
    (h : parseSpecObject x = .ok o) (hu : unparseSpecObject o = .ok s) : s.length ≤ 28 * (K * (K * x.size)) := by
  have hs := scale hK x.size
  have hs2 := scale hK (K * x.size)
  unfold parseSpecObject at h
  obtain ⟨_, -, h⟩ := py_bind_inv h
  obtain ⟨_, -, h⟩ := py_bind_inv h
  obtain ⟨id', hid, h⟩ := py_bind_inv h
  obtain ⟨t, ht, h⟩ := py_bind_inv h
  obtain ⟨r, hr, h⟩ := py_bind_inv h
  obtain ⟨vs, hv, h⟩ := py_bind_inv h
  rw [py_pure] at h
  cases h
  have hid := attrReqNI_size hid
  unfold unparseSpecObject at hu
  obtain ⟨tags, h1, hu⟩ := py_bind_inv hu
  obtain ⟨body, h2, hu⟩ := py_bind_inv hu
  rw [py_pure] at hu
  cases hu
  simp only [specObjectChildTags] at h1
  obtain ⟨_, -, h1⟩ := py_bind_inv h1
  obtain ⟨_, -, h1⟩ := py_bind_inv h1
  rw [py_pure] at h1
  cases h1
  have h3 : body.length ≤ 26 * (K * (K * x.size)) := by
    refine loop_len hb.le (childTags_size x) (concat_len h2 (fun t _ u hu => ?_))
    unfold unparseSpecObjectChild at hu
    split at hu
    · exact values_len hK (by omega) (values_find hb) hv (.inr hu)
    · split at hu
      · cases hu
        have := (ref_atMost ht hr).fmt
        simp only [unparseSpecObjectTypeRef, List.length_append, lineOpen_len, lineClose_len, lineElem_len, List.length_cons, List.length_nil]
        omega
      · cases hu; simp
  have e1 := attrOpt_len id_length c!"DESC" (AtMost.attr x c!"DESC")
  have e2 := attrTruthy_len id_length c!"LAST-CHANGE" (AtMost.attr x c!"LAST-CHANGE")
  have e3 := attrOpt_len id_length c!"LONG-NAME" (AtMost.attr x c!"LONG-NAME")
  simp only [List.length_append, lineClose_len, attrOut_len, spaces_len, List.length_cons, List.length_nil] at e1 e2 e3 ⊢
  omega

theorem relationValues_read {K : Nat} (hK : 36 ≤ K) {n : Node} (hb : Bounded K n) {a : SpecObjectAttribute}
    (h : parseRelationValues (some n) = .ok (some a)) : ∃ w, 1 ≤ w ∧ w ≤ n.size ∧ ValueRead K w a := by
  unfold parseRelationValues at h
  dsimp only at h
  split at h
  · cases h
  · rename_i x xs hx
    have hk : x ∈ n.kids := child_kid (by rw [hx]; simp)
    have hsz := kid_size hk
    have base : ∀ (t : AttrType) (v : Str) (d r : Node), attrReq x c!"THE-VALUE" = .ok v → firstChild x = .ok d → firstChild d = .ok r →
        ∃ w, 1 ≤ w ∧ w ≤ n.size ∧ ValueRead K w ⟨t, r.text?, .str v, none, some x⟩ := by
      intro t v d r h1 h2 h3
      have := attrReq_size h1
      exact ⟨x.size, by omega, by omega, .plain (ref_first h2 h3) (by omega)⟩
    split at h
    · obtain ⟨v, h1, h⟩ := py_bind_inv h
      obtain ⟨d, h2, h⟩ := py_bind_inv h
      obtain ⟨r, h3, h⟩ := py_bind_inv h
      rw [py_pure] at h; cases h
      exact base _ _ _ _ h1 h2 h3
    split at h
    · obtain ⟨v, h1, h⟩ := py_bind_inv h
      rw [py_pure] at h; cases h
      obtain ⟨h2, h3⟩ := xhtmlValue_read hK (hb.kid hk) h1
      exact ⟨x.size, h3, by omega, h2⟩
    split at h
    · obtain ⟨v, h1, h⟩ := py_bind_inv h
      obtain ⟨d, h2, h⟩ := py_bind_inv h
      obtain ⟨r, h3, h⟩ := py_bind_inv h
      rw [py_pure] at h; cases h
      exact base _ _ _ _ h1 h2 h3
    · cases h

theorem pyAssert_inv {b : Bool} {u : Unit} (h : pyAssert b = .ok u) : b = true := by
  cases b with
  | true => rfl
  | false => cases h

theorem relation_len {K : Nat} (hK : 36 ≤ K) {x : Node} (hb : Bounded K x) {r : SpecRelation} {s : Str}
    (h : parseSpecRelation x = .ok (.ok r)) (hu : unparseSpecRelation r = .ok s) : s.length ≤ 28 * (K * (K * x.size)) := by
  have hs := scale hK x.size
  have hs2 := scale hK (K * x.size)
  unfold parseSpecRelation at h
  obtain ⟨_, -, h⟩ := py_bind_inv h
  obtain ⟨_, -, h⟩ := py_bind_inv h
  split at h
  · cases h
  split at h
  · cases h
  obtain ⟨_, -, h⟩ := py_bind_inv h
  obtain ⟨id', hid, h⟩ := py_bind_inv h
  obtain ⟨t, ht, h⟩ := py_bind_inv h
  obtain ⟨tr, htr, h⟩ := py_bind_inv h
  obtain ⟨sn, hsn, h⟩ := py_bind_inv h
  obtain ⟨sr, hsr, h⟩ := py_bind_inv h
  obtain ⟨g, hg, h⟩ := py_bind_inv h
  obtain ⟨gr, hgr, h⟩ := py_bind_inv h
  obtain ⟨vs, hv, h⟩ := py_bind_inv h
  rw [py_pure] at h
  cases h
  have hid := attrReq_size hid
  unfold unparseSpecRelation at hu
  obtain ⟨body, h2, hu⟩ := py_bind_inv hu
  rw [py_pure] at hu
  cases hu
  have h3 : body.length ≤ 26 * (K * (K * x.size)) := by
    refine loop_len hb.le (childTags_size x) (concat_len h2 (fun t _ u hc => ?_))
    unfold unparseSpecRelationChild at hc
    split at hc
    · cases hc
      have := (ref_atMost ht htr).fmt
      simp only [List.length_append, lineOpen_len, lineClose_len, lineElem_len, List.length_cons, List.length_nil]
      omega
    split at hc
    · cases hc
      have := (ref_atMost hsn hsr).fmt
      simp only [List.length_append, lineOpen_len, lineClose_len, lineElem_len, List.length_cons, List.length_nil]
      omega
    split at hc
    · cases hc
      have := (ref_atMost hg hgr).fmt
      simp only [List.length_append, lineOpen_len, lineClose_len, lineElem_len, List.length_cons, List.length_nil]
      omega
    split at hc
    · split at hc
      · cases hc; simp
      · rename_i a ha
        dsimp only at ha
        subst ha
        cases hf : x.find c!"VALUES" with
        | none => rw [hf] at hv; simp only [parseRelationValues, Except.ok.injEq] at hv; cases hv
        | some n =>
          rw [hf] at hv
          obtain ⟨w, hw1, hw2, hr⟩ := relationValues_read hK (hb.kid (find_kid hf)) hv
          have hn := find_size hf
          simp only [unparseAttributeValues, concatPy] at hc
          obtain ⟨b, hb1, hc⟩ := py_bind_inv hc
          rw [py_pure] at hc
          cases hc
          cases ha : unparseAttributeValue a with
          | error e => rw [ha] at hb1; cases hb1
          | ok t =>
            rw [ha] at hb1
            cases hb1
            have h5 := valueRead_len hK hw1 hr ha
            have h6 : 24 * (K * w) ≤ 24 * (K * x.size) := Nat.mul_le_mul_left _ (Nat.mul_le_mul_left _ (by omega))
            simp only [List.length_append, lineOpen_len, lineClose_len, List.length_cons, List.length_nil]
            omega
    · cases hc
  have e1 := attrOpt_len id_length c!"DESC" (AtMost.attr x c!"DESC")
  have e2 := attrOpt_len id_length c!"LAST-CHANGE" (AtMost.attr x c!"LAST-CHANGE")
  have e3 := attrOpt_len htmlEscape_length c!"LONG-NAME" (AtMost.attr x c!"LONG-NAME")
  simp only [List.length_append, lineClose_len, attrOut_len, spaces_len, List.length_cons, List.length_nil] at e1 e2 e3 ⊢
  omega

theorem optRef_atMost (x : Node) (t u : Str) : AtMost x.size (optRef x t u) := by
  unfold optRef
  cases h1 : x.find t with
  | none => exact AtMost.none _
  | some d =>
    dsimp only
    cases h2 : d.find u with
    | none => exact AtMost.none _
    | some r => exact text_find h1 h2

theorem optText_atMost (x : Node) (t : Str) : AtMost x.size (optText x t) := by
  unfold optText
  cases h1 : x.find t with
  | none => exact AtMost.none _
  | some d => exact (AtMost.text d).mono (by have := find_size h1; omega)

theorem unparseOptRef_len {w : Nat} {o : Option Str} (h : AtMost w o) {a b : Str} (ha : a.length ≤ 40) (hb : b.length ≤ 40) :
    (unparseOptRef a b o).length ≤ 300 + w := by
  cases o with
  | none => simp [unparseOptRef]
  | some v =>
    have := h v rfl
    simp only [unparseOptRef, List.length_append, lineOpen_len, lineClose_len, lineElem_len]; omega

theorem group_len {K : Nat} (hK : 36 ≤ K) {x : Node} {g : RelationGroup} (h : parseRelationGroup x = .ok g) :
    (unparseRelationGroup g).length ≤ 40 * (K * x.size) := by
  have hs := scale hK x.size
  unfold parseRelationGroup at h
  obtain ⟨_, -, h⟩ := py_bind_inv h
  obtain ⟨_, -, h⟩ := py_bind_inv h
  obtain ⟨id', hid, h⟩ := py_bind_inv h
  rw [py_pure] at h
  cases h
  have hid := attrReqNI_size hid
  have e1 := attrOpt_len id_length c!"DESC" (AtMost.attr x c!"DESC")
  have e2 := attrOpt_len id_length c!"LAST-CHANGE" (AtMost.attr x c!"LAST-CHANGE")
  have e3 := attrTruthy_len id_length c!"LONG-NAME" (AtMost.attr x c!"LONG-NAME")
  have e4 := unparseOptRef_len (optRef_atMost x c!"TYPE" c!"RELATION-GROUP-TYPE-REF") (a := c!"TYPE") (b := c!"RELATION-GROUP-TYPE-REF") (by decide) (by decide)
  have e5 := unparseOptRef_len (optRef_atMost x c!"SOURCE-SPECIFICATION" c!"SPECIFICATION-REF") (a := c!"SOURCE-SPECIFICATION") (b := c!"SPECIFICATION-REF") (by decide) (by decide)
  have e6 := unparseOptRef_len (optRef_atMost x c!"TARGET-SPECIFICATION" c!"SPECIFICATION-REF") (a := c!"TARGET-SPECIFICATION") (b := c!"SPECIFICATION-REF") (by decide) (by decide)
  simp only [unparseRelationGroup, List.length_append, lineClose_len, attrOut_len, spaces_len, List.length_cons, List.length_nil] at e1 e2 e3 ⊢
  cases hf : x.find c!"SPEC-RELATIONS" with
  | none => simp only [Option.map_none, List.length_nil]; omega
  | some n =>
    have h4 : ((n.children.map Node.text?).flatMap (fun r => lineElem 12 c!"SPEC-RELATION-REF" (fmtOpt r))).length ≤ 60 * sumSizes n.children := by
      rw [List.flatMap_map]
      refine flatMap_sizes (fun c hc => ?_)
      have := fmt_text c
      have := child_pos hc
      simp only [lineElem_len, List.length_cons, List.length_nil]; omega
    have h5 := children_size n
    have h6 := find_size hf
    simp only [Option.map_some, List.length_append, lineOpen_len, lineClose_len, List.length_cons, List.length_nil]
    omega

/-! ## The header -/

theorem headerLine_len {f : Str → Str} (hf : ∀ s, (f s).length ≤ 6 * s.length) {w : Nat} {o : Option Str} (h : AtMost w o) {t : Str} (ht : t.length ≤ 20) :
    (headerLine t f o).length ≤ 60 + 6 * w := by
  cases o with
  | none => simp [headerLine]
  | some v =>
    have := h v rfl; have := hf v
    simp only [headerLine]
    split
    · simp
    · rw [lineElem_len]; omega

theorem header_len {x : Node} {hd : Header} {s : Str} (h : parseHeader x = .ok hd) (hu : unparseHeader hd = .ok s) : s.length ≤ 700 * x.size := by
  unfold parseHeader at h
  obtain ⟨_, -, h⟩ := py_bind_inv h
  split at h
  · cases h
  · rename_i n hn
    obtain ⟨id', hid, h⟩ := py_bind_inv h
    rw [py_pure] at h
    cases h
    have hn := find_size hn
    have hid := attrReqNI_size hid
    unfold unparseHeader at hu
    dsimp only at hu
    split at hu
    · cases hu
    · cases hu
      have e1 := headerLine_len id_length (optText_atMost n c!"COMMENT") (t := c!"COMMENT") (by decide)
      have e2 := headerLine_len id_length (optText_atMost n c!"CREATION-TIME") (t := c!"CREATION-TIME") (by decide)
      have e3 := headerLine_len id_length (optText_atMost n c!"REQ-IF-TOOL-ID") (t := c!"REQ-IF-TOOL-ID") (by decide)
      have e4 := headerLine_len id_length (optText_atMost n c!"REQ-IF-VERSION") (t := c!"REQ-IF-VERSION") (by decide)
      have e5 := headerLine_len id_length (optText_atMost n c!"SOURCE-TOOL-ID") (t := c!"SOURCE-TOOL-ID") (by decide)
      have e6 := headerLine_len titleEscape_length (optText_atMost n c!"TITLE") (t := c!"TITLE") (by decide)
      have e7 : (repositoryIdOut (match n.find c!"REPOSITORY-ID" with
          | none => .none
          | some r => match r.text? with
            | some s => .text s
            | none => .emptyTag)).length ≤ 60 + n.size := by
        cases hf : n.find c!"REPOSITORY-ID" with
        | none => simp [repositoryIdOut]
        | some r =>
          dsimp only
          cases ht : r.text? with
          | none => simp only [repositoryIdOut, List.length_append, spaces_len, List.length_cons, List.length_nil]; omega
          | some t =>
            have := text?_size ht; have := find_size hf
            simp only [repositoryIdOut, lineElem_len, List.length_cons, List.length_nil]; omega
      simp only [List.length_append, lineOpen_len, lineClose_len, attrOut_len, spaces_len, List.length_cons, List.length_nil]
      refine Nat.le_trans (Nat.add_le_add_right (Nat.add_le_add_right (Nat.add_le_add_right (Nat.add_le_add_right (Nat.add_le_add_right
        (Nat.add_le_add_right (Nat.add_le_add_left e7 _) _) _) _) _) _) _) ?_
      omega

end ReqIF
