import Verif.Spec.Accepted
import Verif.Proofs.Spacing
import Verif.Proofs.Xhtml
import Verif.Props.C83
import Verif.Props.C24_26
import Verif.Props.C18_23
/-!
# Proofs about the documents the parser reads
-/
namespace ReqIF.Accept
open Spec

/-- No exception. -/
def Ok {α : Type} (p : Py α) : Prop := ∃ v, p = .ok v

section
variable {α β : Type}

theorem ok_ok (v : α) : Ok (.ok v : Py α) ↔ True := by simp [Ok]
theorem ok_pure (v : α) : Ok (pure v : Py α) ↔ True := by simp [Ok, pure, Except.pure]
theorem ok_error (e : PyErr) : Ok (.error e : Py α) ↔ False := by simp [Ok]

theorem ok_bind (p : Py α) (f : α → Py β) : Ok (p >>= f) ↔ ∃ v, p = .ok v ∧ Ok (f v) := by
  cases p with
  | ok v => simp [Ok, bind, Except.bind]
  | error e => simp [Ok, bind, Except.bind]

theorem ok_bind_const (p : Py α) (q : Py β) : Ok (p >>= fun _ => q) ↔ Ok p ∧ Ok q := by
  rw [ok_bind]; simp [Ok]

theorem ok_assert (b : Bool) : Ok (pyAssert b) ↔ b = true := by cases b <;> simp [Ok, pyAssert]

theorem assert_eq (b : Bool) (v : Unit) : pyAssert b = .ok v ↔ b = true := by cases b <;> cases v <;> simp [pyAssert]

theorem attrReq_eq (n : Node) (k v : Str) : attrReq n k = .ok v ↔ n.attr? k = some v := by
  unfold attrReq orKey
  cases n.attr? k <;> simp

theorem attrReqNI_eq (n : Node) (k v : Str) : attrReqNI n k = .ok v ↔ n.attr? k = some v := by
  unfold attrReqNI orNotImpl attrReq orKey
  cases n.attr? k <;> simp

theorem findReq_eq (n : Node) (k : Str) (c : Node) : findReq n k = .ok c ↔ n.find k = some c := by
  unfold findReq orAttr
  cases n.find k <;> simp

theorem firstChild_eq (n c : Node) : firstChild n = .ok c ↔ ∃ rest, n.children = c :: rest := by
  unfold firstChild
  cases n.children <;> simp

theorem ok_map (f : α → Py β) (xs : List α) : Ok (mapPy f xs) ↔ ∀ x ∈ xs, Ok (f x) := by
  induction xs with
  | nil => simp [mapPy, Ok]
  | cons x xs ih =>
    simp only [mapPy, List.mem_cons, forall_eq_or_imp]
    cases hx : f x with
    | error e => simp [Ok]
    | ok v =>
      rw [← ih]
      cases mapPy f xs <;> simp [Ok]

theorem ok_filterMap (f : α → Py (Option β)) (xs : List α) : Ok (filterMapPy f xs) ↔ ∀ x ∈ xs, Ok (f x) := by
  induction xs with
  | nil => simp [filterMapPy, Ok]
  | cons x xs ih =>
    simp only [filterMapPy, List.mem_cons, forall_eq_or_imp]
    cases hx : f x with
    | error e => simp [Ok]
    | ok v =>
      rw [← ih]
      cases filterMapPy f xs <;> simp [Ok]

theorem ok_notImpl (p : Py α) : Ok (orNotImpl p) ↔ Ok p := by cases p <;> simp [Ok, orNotImpl]

theorem contains_like (n : Node) (s : Str) : (∃ b, tagContains n s = .ok b ∧ b = true) ↔ CalledLike n s := by
  unfold tagContains CalledLike
  cases n.tag with
  | name t =>
    simp only [Except.ok.injEq, Tag.name.injEq]
    rw [exists_eq_left', containsStr_iff]
  | comment => simp
  | pi => simp

theorem ok_like (n : Node) (s : Str) (f : Unit → Py α) : Ok (tagContains n s >>= fun b => pyAssert b >>= f) ↔ CalledLike n s ∧ Ok (f ()) := by
  rw [← contains_like, ok_bind]
  simp only [ok_bind, assert_eq]
  constructor
  · rintro ⟨v, hv, _, hb, h⟩; exact ⟨⟨v, hv, hb⟩, h⟩
  · rintro ⟨⟨v, hv, hb⟩, h⟩; exact ⟨v, hv, (), hb, h⟩

end

theorem has_iff' (n : Node) (k : Str) : (∃ v, n.attr? k = some v) ↔ Has n k := Iff.rfl

/-! ## Data types -/

theorem enumValue_ok (x : Node) : Ok (parseEnumValue x) ↔ EnumValueOk x := by
  unfold parseEnumValue EnumValueOk Needs Has
  simp only [ok_bind, ok_pure, attrReq_eq, findReq_eq, and_true]
  constructor
  · rintro ⟨v, h, p, hp, e, he, k, hk⟩; exact ⟨⟨v, h⟩, p, hp, e, he, k, hk⟩
  · rintro ⟨⟨v, h⟩, p, hp, e, he, k, hk⟩; exact ⟨v, h, p, hp, e, he, k, hk⟩

theorem called_like {x : Node} {s t : Str} (h : Called x t) (he : containsStr s t = true) : CalledLike x s := by
  obtain ⟨a, b, e⟩ := containsStr_iff.1 he
  exact ⟨a, b, by rw [h, e]⟩

theorem dataType_ok (x : Node) : Ok (parseDataType x) ↔ DataTypeOk x := by
  unfold parseDataType DataTypeOk
  rw [ok_like]
  simp only [ok_bind, attrReq_eq]
  have key : ∀ (P Q : Prop) (A : Prop), (Q → P) → (A ↔ Q) → (P ∧ A ↔ Q) := by
    intro P Q A h e; rw [e]; exact ⟨fun h => h.2, fun h' => ⟨h h', h'⟩⟩
  apply key
  · rintro ⟨-, h | h | h | h | h | h | h⟩
    · exact called_like h.1 (by decide)
    · exact called_like h (by decide)
    · exact called_like h (by decide)
    · exact called_like h.1 (by decide)
    · exact called_like h (by decide)
    · exact called_like h (by decide)
    · exact called_like h (by decide)
  unfold Has
  rw [← exists_and_right]
  refine exists_congr fun v => and_congr_right fun _ => ?_
  unfold Called
  by_cases h1 : x.tag = .name c!"DATATYPE-DEFINITION-ENUMERATION"
  · rw [if_pos h1]
    simp only [h1, true_and, Tag.name.injEq]
    cases hs : x.find c!"SPECIFIED-VALUES" with
    | none => simp [ok_pure, May, hs]
    | some sv =>
      simp only [ok_bind, ok_pure, and_true]
      rw [show (∃ v, mapPy parseEnumValue sv.children = .ok v) ↔ _ from ok_map parseEnumValue sv.children]
      simp [May, hs, Each, enumValue_ok]
  rw [if_neg h1]
  by_cases h2 : x.tag = .name c!"DATATYPE-DEFINITION-STRING"
  · rw [if_pos h2]; simp [h2, ok_pure]
  rw [if_neg h2]
  by_cases h3 : x.tag = .name c!"DATATYPE-DEFINITION-INTEGER"
  · rw [if_pos h3]; simp [h3, ok_pure]
  rw [if_neg h3]
  by_cases h4 : x.tag = .name c!"DATATYPE-DEFINITION-REAL"
  · rw [if_pos h4]
    simp only [h4]
    cases ha : x.attr? c!"ACCURACY" with
    | none => simp [ok_pure]
    | some a =>
      cases hp : pyInt a with
      | none =>
        have : ∀ n, ¬ Denotes a n := fun n h => by rw [(C83_number a n).2 h] at hp; cases hp
        simp only [hp]
        simp [ok_error, this]
      | some n =>
        have : ∃ n, Denotes a n := ⟨n, (C83_number a n).1 hp⟩
        simp only [hp]
        simp [ok_pure, this]
  rw [if_neg h4]
  by_cases h5 : x.tag = .name c!"DATATYPE-DEFINITION-XHTML"
  · rw [if_pos h5]; simp [h5, ok_pure]
  rw [if_neg h5]
  by_cases h6 : x.tag = .name c!"DATATYPE-DEFINITION-DATE"
  · rw [if_pos h6]; simp [h6, ok_pure]
  rw [if_neg h6]
  by_cases h7 : x.tag = .name c!"DATATYPE-DEFINITION-BOOLEAN"
  · rw [if_pos h7]; simp [h7, ok_pure]
  rw [if_neg h7]
  simp [h1, h2, h3, h4, h5, h6, h7, ok_error]

/-! ## XHTML content -/

mutual
theorem nsNode_ok (k : Option Str) (f : Bool) : ∀ n : Node, Ok (stringifyNsNode k f n) ↔ hasComment n = false ∧ hasPI n = false
  | .text _ => by simp [stringifyNsNode, ok_ok, hasComment, hasPI]
  | .comment _ => by simp [stringifyNsNode, ok_error, hasComment]
  | .pi _ _ => by simp [stringifyNsNode, ok_error, hasPI]
  | .elem i ks => by
    have ih := nsKids_ok k f ks
    simp only [stringifyNsNode, hasComment, hasPI]
    rw [← ih]
    split
    · cases hk : stringifyNsKids k f ks <;> simp [ok_error, ok_ok]
    · rename_i h
      have e : ks = [] := by
        simp only [Bool.or_eq_true, not_or, Bool.not_eq_true, Bool.not_eq_false', List.isEmpty_iff] at h
        exact h.1
      subst e
      simp [ok_ok, stringifyNsKids]

theorem nsKids_ok (k : Option Str) (f : Bool) : ∀ ns : List Node, Ok (stringifyNsKids k f ns) ↔ hasComments ns = false ∧ hasPIs ns = false
  | [] => by simp [stringifyNsKids, ok_ok, hasComments, hasPIs]
  | n :: ns => by
    have h1 := nsNode_ok k f n
    have h2 := nsKids_ok k f ns
    simp only [stringifyNsKids, hasComments, hasPIs, Bool.or_eq_false_iff]
    cases hn : stringifyNsNode k f n with
    | error e =>
      rw [hn, ok_error] at h1
      simp only [ok_error, false_iff]
      rintro ⟨⟨a, -⟩, b, -⟩
      exact h1.2 ⟨a, b⟩
    | ok v =>
      rw [hn, ok_ok, true_iff] at h1
      have : (hasComment n = false ∧ hasComments ns = false) ∧ hasPI n = false ∧ hasPIs ns = false ↔ hasComments ns = false ∧ hasPIs ns = false := by
        simp [h1.1, h1.2]
      rw [this, ← h2]
      cases stringifyNsKids k f ns <;> simp [ok_error, ok_ok]
end

theorem hasComment_kids {v : Node} {t : Str} (h : v.tag = .name t) : hasComment v = hasComments v.kids ∧ hasPI v = hasPIs v.kids := by
  cases v with
  | elem i ks => exact ⟨rfl, rfl⟩
  | text s => exact ⟨rfl, rfl⟩
  | comment s => cases h
  | pi a b => cases h

theorem find_called {n c : Node} {t : Str} (h : n.find t = some c) : c.tag = .name t := by
  unfold Node.find at h
  have := List.find?_some h
  simpa using (Bool.and_eq_true_iff.1 this).2

theorem namespaced_ok {v : Node} {t : Str} (h : v.tag = .name t) : Ok (stringifyNamespacedChildren v) ↔ NamespacedOk v := by
  unfold stringifyNamespacedChildren NamespacedOk
  rw [(hasComment_kids h).1, (hasComment_kids h).2, ← nsKids_ok v.nsmap.firstKey false]
  cases v.nsmap with
  | nil => simp [ok_error]
  | cons a b => simp

mutual
theorem node_ok (r : Bool) : ∀ n : Node, Ok (stringifyNode r n) ↔ hasPI n = false
  | .text _ => by simp [stringifyNode, ok_ok, hasPI]
  | .comment _ => by simp [stringifyNode, ok_ok, hasPI]
  | .pi _ _ => by simp [stringifyNode, ok_error, hasPI]
  | .elem i ks => by
    have ih := kids_ok ks
    simp only [stringifyNode, hasPI]
    rw [← ih]
    split
    · cases hk : stringifyKids ks <;> simp [ok_error, ok_ok]
    · rename_i h
      have e : ks = [] := by
        simp only [Bool.or_eq_true, not_or, Bool.not_eq_true, Bool.not_eq_false', List.isEmpty_iff] at h
        exact h.1
      subst e
      simp [ok_ok, stringifyKids]

theorem kids_ok : ∀ ns : List Node, Ok (stringifyKids ns) ↔ hasPIs ns = false
  | [] => by simp [stringifyKids, ok_ok, hasPIs]
  | n :: ns => by
    have h1 := node_ok false n
    have h2 := kids_ok ns
    simp only [stringifyKids, hasPIs, Bool.or_eq_false_iff]
    rw [← h1, ← h2]
    cases stringifyNode false n with
    | error e => simp [ok_error]
    | ok v => cases stringifyKids ns <;> simp [ok_error, ok_ok]
end

theorem childrenGo_ok : ∀ ns : List Node, Ok (stringifyChildrenGo ns) ↔ hasPIs ns = false
  | [] => by simp [stringifyChildrenGo, ok_ok, hasPIs]
  | n :: ns => by
    have h2 := childrenGo_ok ns
    simp only [hasPIs, Bool.or_eq_false_iff]
    rw [← h2]
    cases n with
    | text t =>
      simp only [stringifyChildrenGo, hasPI, true_and]
      cases stringifyChildrenGo ns <;> simp [ok_error, ok_ok]
    | elem i ks =>
      rw [← node_ok true, stringifyChildrenGo]
      · cases stringifyNode true (.elem i ks) with
        | error e => simp [ok_error]
        | ok v => cases stringifyChildrenGo ns <;> simp [ok_error, ok_ok]
      · simp
    | comment t =>
      rw [← node_ok true, stringifyChildrenGo]
      · cases stringifyNode true (.comment t) with
        | error e => simp [ok_error]
        | ok v => cases stringifyChildrenGo ns <;> simp [ok_error, ok_ok]
      · simp
    | pi a b =>
      rw [← node_ok true, stringifyChildrenGo]
      · cases stringifyNode true (.pi a b) with
        | error e => simp [ok_error]
        | ok v => cases stringifyChildrenGo ns <;> simp [ok_error, ok_ok]
      · simp

theorem children_ok (v : Node) : Ok (stringifyChildren v) ↔ hasPIs v.kids = false := by
  unfold stringifyChildren
  split
  · rename_i t ks e
    rw [e]
    simp only [hasPIs, hasPI, Bool.false_or]
    rw [← childrenGo_ok]
    cases stringifyChildrenGo ks <;> simp [ok_error, ok_ok]
  · exact childrenGo_ok _

theorem called_elem {v : Node} {t : Str} (h : v.tag = .name t) (ht : v.isText = false) : ∃ i ks, v = .elem i ks := by
  cases v with
  | elem i ks => exact ⟨i, ks, rfl⟩
  | text s => cases ht
  | comment s => cases h
  | pi a b => cases h

theorem xhtmlValue_ok (x : Node) : Ok (parseXhtmlAttributeValue x) ↔ XhtmlValueOk x := by
  unfold parseXhtmlAttributeValue XhtmlValueOk Refers Needs Anything
  simp only [ok_bind, findReq_eq]
  rw [← exists_and_right]
  refine exists_congr fun v => ?_
  rw [and_assoc]
  refine and_congr_right fun hv => ?_
  have hn := find_called hv
  have hr : (∃ d, x.find c!"DEFINITION" = some d ∧ ∃ r, d.find c!"ATTRIBUTE-DEFINITION-XHTML-REF" = some r) ↔
    (∃ c, x.find c!"DEFINITION" = some c ∧ ∃ c_1, c.find c!"ATTRIBUTE-DEFINITION-XHTML-REF" = some c_1 ∧ True) := by simp
  rw [← hr]
  by_cases hm : v.nsmap.length > 0
  · rw [if_pos hm]
    simp only [ok_bind, findReq_eq, ok_pure, and_true]
    have hne : v.nsmap ≠ [] := by intro e; rw [e] at hm; exact absurd hm (by decide)
    constructor
    · rintro ⟨s, hs, t, ht, hd⟩
      have := (namespaced_ok hn).1 ⟨s, hs⟩
      exact ⟨⟨this.2.2, fun _ => this.2.1⟩, hd⟩
    · rintro ⟨⟨hp, hc⟩, hd⟩
      obtain ⟨s, hs⟩ := (namespaced_ok hn).2 ⟨hne, hc hne, hp⟩
      obtain ⟨t, ht⟩ := convert_ok v hp
      exact ⟨s, hs, t, ht, hd⟩
  · rw [if_neg hm]
    simp only [ok_bind, findReq_eq, ok_pure, and_true]
    have hne : v.nsmap = [] := by
      cases e : v.nsmap with
      | nil => rfl
      | cons a b => rw [e] at hm; simp at hm
    rw [(hasComment_kids hn).2]
    constructor
    · rintro ⟨s, hs, hd⟩
      exact ⟨⟨(children_ok v).1 ⟨s, hs⟩, fun h => absurd hne h⟩, hd⟩
    · rintro ⟨⟨hp, -⟩, hd⟩
      obtain ⟨s, hs⟩ := (children_ok v).2 hp
      exact ⟨s, hs, hd⟩

/-! ## Attribute definitions -/

theorem datatypeRef_ok (x : Node) (t : Str) : Ok (parseDatatypeRef x t) ↔ Refers x c!"TYPE" t := by
  unfold parseDatatypeRef Refers Needs Anything
  rw [ok_notImpl]
  simp only [ok_bind, findReq_eq, ok_pure]

theorem selfClosed_empty (d : Node) : isSelfClosedTag d = true ↔ Empty d := by
  unfold isSelfClosedTag Empty Node.len
  cases d.children <;> cases d.text? <;> simp

theorem defaultString_ok (x : Node) : Ok (parseDefaultString x) ↔
    DefaultOk x c!"ATTRIBUTE-VALUE-STRING" (Has · c!"THE-VALUE") := by
  unfold parseDefaultString DefaultOk May Needs Has
  cases x.find c!"DEFAULT-VALUE" with
  | none => simp [ok_ok]
  | some d =>
    simp only [Option.some.injEq, forall_eq']
    rw [← selfClosed_empty]
    cases isSelfClosedTag d with
    | true => simp [ok_ok]
    | false =>
      cases d.find c!"ATTRIBUTE-VALUE-STRING" with
      | none => simp [ok_error]
      | some v => simp [-bind_pure_comp, ok_bind, ok_pure, attrReq_eq]

theorem defaultSimple_ok (x : Node) (t : Str) : Ok (parseDefaultSimple x t) ↔ FullDefaultOk x t (Has · c!"THE-VALUE") := by
  unfold parseDefaultSimple FullDefaultOk May Needs Has
  cases x.find c!"DEFAULT-VALUE" with
  | none => simp [ok_ok]
  | some d =>
    simp only [Option.some.injEq, forall_eq']
    cases d.find t with
    | none => simp [ok_error]
    | some v => simp [-bind_pure_comp, ok_bind, ok_pure, attrReq_eq]

theorem defaultBoolean_ok (x : Node) : Ok (parseDefaultBoolean x) ↔
    FullDefaultOk x c!"ATTRIBUTE-VALUE-BOOLEAN" (Has · c!"THE-VALUE") := by
  unfold parseDefaultBoolean FullDefaultOk May Needs Has
  cases x.find c!"DEFAULT-VALUE" with
  | none => simp [ok_ok]
  | some d =>
    simp only [Option.some.injEq, forall_eq']
    cases d.find c!"ATTRIBUTE-VALUE-BOOLEAN" with
    | none => simp [ok_error]
    | some v => simp [-bind_pure_comp, ok_bind, ok_pure, attrReq_eq]

theorem defaultXhtml_ok (x : Node) : Ok (parseDefaultXhtml x) ↔
    DefaultOk x c!"ATTRIBUTE-VALUE-XHTML" (fun v =>
      May v c!"DEFINITION" (fun d => Needs d c!"ATTRIBUTE-DEFINITION-XHTML-REF" Anything) ∧
      Needs v c!"THE-VALUE" NamespacedOk) := by
  unfold parseDefaultXhtml DefaultOk May Needs Anything
  cases x.find c!"DEFAULT-VALUE" with
  | none => simp [ok_ok]
  | some d =>
    simp only [Option.some.injEq, forall_eq']
    rw [← selfClosed_empty]
    cases isSelfClosedTag d with
    | true => simp [ok_ok]
    | false =>
      cases d.find c!"ATTRIBUTE-VALUE-XHTML" with
      | none => simp [ok_error]
      | some v =>
        have hv : (∃ w, findReq v c!"THE-VALUE" = .ok w ∧ ∃ s, stringifyNamespacedChildren w = .ok s) ↔
            ∃ c, v.find c!"THE-VALUE" = some c ∧ NamespacedOk c := by
          simp only [findReq_eq]
          refine exists_congr fun w => and_congr_right fun hw => ?_
          exact namespaced_ok (find_called hw)
        simp only [Bool.false_eq_true, if_false, ok_bind, ok_pure, and_true, Option.some.injEq, exists_eq_left', false_or]
        rw [← hv]
        cases v.find c!"DEFINITION" with
        | none => simp
        | some df =>
          cases hdf : df.find c!"ATTRIBUTE-DEFINITION-XHTML-REF" with
          | none => simp [hdf]
          | some r => simp [hdf]

theorem defaultEnumeration_ok (x : Node) : Ok (parseDefaultEnumeration x) ↔
    DefaultOk x c!"ATTRIBUTE-VALUE-ENUMERATION" (fun v =>
      May v c!"DEFINITION" (fun d => Needs d c!"ATTRIBUTE-DEFINITION-ENUMERATION-REF" Anything)) := by
  unfold parseDefaultEnumeration DefaultOk May Needs Anything
  cases x.find c!"DEFAULT-VALUE" with
  | none => simp [ok_ok]
  | some d =>
    simp only [Option.some.injEq, forall_eq']
    rw [← selfClosed_empty]
    cases isSelfClosedTag d with
    | true => simp [ok_ok]
    | false =>
      cases d.find c!"ATTRIBUTE-VALUE-ENUMERATION" with
      | none => simp [ok_error]
      | some v =>
        simp only [Bool.false_eq_true, if_false, ok_bind, ok_pure, and_true, Option.some.injEq, exists_eq_left', false_or]
        cases v.find c!"DEFINITION" with
        | none => simp
        | some df =>
          have := findReq_eq df c!"ATTRIBUTE-DEFINITION-ENUMERATION-REF"
          simp only [Option.some.injEq, forall_eq']
          rw [show (∃ v, (findReq df c!"ATTRIBUTE-DEFINITION-ENUMERATION-REF" >>= fun r => pure r.text? : Py (Option Str)) = .ok v) ↔ _ from
            ok_bind _ _]
          simp only [this, ok_pure, and_true]

theorem body_step {x : Node} {α β : Type} (ref : Str) {p : Py α} (f : Option Str → α → β) {P : Prop} (h : Ok p ↔ P) :
    Ok (parseDatatypeRef x ref >>= fun dt => p >>= fun dv => pure (f dt dv)) ↔ Refers x c!"TYPE" ref ∧ P := by
  rw [← datatypeRef_ok, ← h]
  simp only [ok_bind, ok_pure, and_true]
  unfold Ok
  rw [exists_and_right]

theorem body_ok (x : Node) : Ok (parseDefinitionBody x) ↔ BodyOk x := by
  unfold parseDefinitionBody BodyOk Called
  by_cases h1 : x.tag = .name c!"ATTRIBUTE-DEFINITION-STRING"
  · rw [if_pos h1, body_step _ _ (defaultString_ok x)]; simp [h1]
  rw [if_neg h1]
  by_cases h2 : x.tag = .name c!"ATTRIBUTE-DEFINITION-INTEGER"
  · rw [if_pos h2, body_step _ _ (defaultSimple_ok x _)]; simp [h2]
  rw [if_neg h2]
  by_cases h3 : x.tag = .name c!"ATTRIBUTE-DEFINITION-REAL"
  · rw [if_pos h3, body_step _ _ (defaultSimple_ok x _)]; simp [h3]
  rw [if_neg h3]
  by_cases h4 : x.tag = .name c!"ATTRIBUTE-DEFINITION-BOOLEAN"
  · rw [if_pos h4, body_step _ _ (defaultBoolean_ok x)]; simp [h4]
  rw [if_neg h4]
  by_cases h5 : x.tag = .name c!"ATTRIBUTE-DEFINITION-XHTML"
  · rw [if_pos h5, body_step _ _ (defaultXhtml_ok x)]; simp [h5]
  rw [if_neg h5]
  by_cases h6 : x.tag = .name c!"ATTRIBUTE-DEFINITION-ENUMERATION"
  · rw [if_pos h6, body_step _ _ (defaultEnumeration_ok x)]; simp [h6]
  rw [if_neg h6]
  by_cases h7 : x.tag = .name c!"ATTRIBUTE-DEFINITION-DATE"
  · rw [if_pos h7, body_step _ _ (defaultSimple_ok x _)]; simp [h7]
  rw [if_neg h7]
  simp [h1, h2, h3, h4, h5, h6, h7, ok_error]

theorem definition_eq (x : Node) (a : SpecAttributeDefinition) (h : parseAttributeDefinition x = .ok a) :
    a.longName = x.attr? c!"LONG-NAME" := by
  unfold parseAttributeDefinition at h
  obtain ⟨v, -, h⟩ := py_bind_inv h
  obtain ⟨w, -, h⟩ := py_bind_inv h
  cases h
  rfl

theorem definition_ok (x : Node) : Ok (parseAttributeDefinition x) ↔ DefinitionOk x := by
  unfold parseAttributeDefinition DefinitionOk Has
  rw [← body_ok]
  simp only [ok_bind, ok_pure, attrReq_eq, and_true]
  unfold Ok
  rw [exists_and_right]

theorem definitions_ok (x : Node) : Ok (parseAttributeDefinitions x) ↔ DefinitionsOk x := by
  unfold parseAttributeDefinitions DefinitionsOk May Each
  cases x.find c!"SPEC-ATTRIBUTES" with
  | none => simp [ok_ok]
  | some sa =>
    simp only [Option.some.injEq, forall_eq', ok_bind, ok_pure, and_true]
    rw [show (∃ v, mapPy parseAttributeDefinition sa.children = .ok v) ↔ _ from ok_map _ _]
    simp only [definition_ok]

theorem attributeMap_ok : ∀ (l : List SpecAttributeDefinition) (m : Dict Str Str), Ok (specAttributeMap l m) ↔ ∀ a ∈ l, ∃ n, a.longName = some n
  | [], m => by simp [specAttributeMap, ok_ok]
  | a :: l, m => by
    simp only [specAttributeMap, List.mem_cons, forall_eq_or_imp]
    cases a.longName with
    | none => simp [ok_error]
    | some n =>
      simp only [Option.some.injEq, exists_eq', true_and]
      exact attributeMap_ok l _

theorem specType_ok (x : Node) : Ok (parseSpecType x) ↔ SpecTypeOk x := by
  have hd : ∀ o : Py (Option (List SpecAttributeDefinition)), (∃ v, o = .ok v) ↔ Ok o := fun _ => Iff.rfl
  unfold parseSpecType SpecTypeOk Called Has
  by_cases h1 : x.tag = .name c!"SPEC-OBJECT-TYPE"
  · rw [if_pos h1]
    simp only [ok_bind, ok_pure, and_true, parseSpecObjectType]
    rw [show (∃ v, _ = Except.ok v) ↔ _ from ok_bind _ _]
    simp only [h1, assert_eq, ok_bind, ok_pure, and_true, attrReqNI_eq, hd, definitions_ok]
    simp
  rw [if_neg h1]
  by_cases h2 : x.tag = .name c!"SPEC-RELATION-TYPE"
  · rw [if_pos h2]
    simp only [ok_bind, ok_pure, and_true, parseSpecRelationType]
    rw [show (∃ v, _ = Except.ok v) ↔ _ from ok_bind _ _]
    simp only [h2, assert_eq, ok_bind, ok_pure, and_true, attrReqNI_eq, hd, definitions_ok]
    simp
  rw [if_neg h2]
  by_cases h3 : x.tag = .name c!"SPECIFICATION-TYPE"
  · rw [if_pos h3]
    simp only [ok_bind, ok_pure, and_true, parseSpecificationType]
    rw [show (∃ v, _ = Except.ok v) ↔ _ from ok_bind _ _]
    have hl : (∃ v, parseAttributeDefinitions x = .ok v ∧ ∃ w, (match v with | none => .ok [] | some ds => specAttributeMap ds [] : Py (Dict Str Str)) = .ok w) ↔
        May x c!"SPEC-ATTRIBUTES" (fun s => Each s fun a => DefinitionOk a ∧ ∃ v, a.attr? c!"LONG-NAME" = some v) := by
      unfold parseAttributeDefinitions May Each
      cases x.find c!"SPEC-ATTRIBUTES" with
      | none => simp
      | some sa =>
        simp only [Option.some.injEq, forall_eq']
        constructor
        · rintro ⟨v, hv, w, hw⟩ c hc
          obtain ⟨ds, hds, hv⟩ := py_bind_inv hv
          cases hv
          refine ⟨(definition_ok c).1 ((ok_map _ _).1 ⟨ds, hds⟩ c hc), ?_⟩
          obtain ⟨a, ha, he⟩ := mapPy_each hds c hc
          obtain ⟨n, hn⟩ := (attributeMap_ok ds []).1 ⟨w, hw⟩ a ha
          exact ⟨n, by rw [← hn, definition_eq _ _ he]⟩
        · intro h
          obtain ⟨ds, hds⟩ := (ok_map parseAttributeDefinition sa.children).2 (fun c hc => (definition_ok c).2 (h c hc).1)
          refine ⟨some ds, by rw [hds]; rfl, ?_⟩
          refine (attributeMap_ok ds []).2 fun a ha => ?_
          obtain ⟨c, hc, he⟩ := mapPy_mem hds ha
          rw [definition_eq _ _ he]
          exact (h c hc).2
    simp only [h3, assert_eq, ok_bind, ok_pure, and_true, attrReqNI_eq]
    simp only [← hl]
    simp
    intro a _ b _
    exact exists_congr fun v => and_congr_right fun _ => by cases v <;> rfl
  rw [if_neg h3]
  by_cases h4 : x.tag = .name c!"RELATION-GROUP-TYPE"
  · rw [if_pos h4]
    simp only [ok_bind, ok_pure, and_true, parseRelationGroupType]
    rw [show (∃ v, _ = Except.ok v) ↔ _ from ok_bind _ _]
    simp only [h4, assert_eq, ok_bind, ok_pure, and_true, attrReqNI_eq, hd, definitions_ok]
    simp
  rw [if_neg h4]
  unfold isCommentNode
  by_cases h5 : x.tag = .comment
  · simp [h5, ok_ok]
  · have : (x.tag == Tag.comment) = false := by simpa using h5
    simp [this, h1, h2, h3, h4, h5, ok_error]

/-! ## Attribute values -/

theorem simpleValue_ok (x : Node) (t : AttrType) (r : Str) : Ok (parseSimpleValue x t r) ↔ SimpleValueOk x r := by
  unfold parseSimpleValue SimpleValueOk Has Refers Needs Anything
  simp only [ok_bind, ok_pure, attrReq_eq, findReq_eq]
  simp

theorem firstValue_ok {x : Node} {α : Type} (f : Str → Node → Node → α) :
    Ok (attrReq x c!"THE-VALUE" >>= fun v => firstChild x >>= fun d => firstChild d >>= fun r => pure (f v d r)) ↔ FirstValueOk x := by
  unfold FirstValueOk Has First Anything
  simp only [ok_bind, ok_pure, attrReq_eq, firstChild_eq, and_true]
  simp

theorem value_ok (x : Node) : Ok (parseAttributeValue x) ↔ ValueOk x := by
  unfold parseAttributeValue ValueOk Called
  by_cases h1 : x.tag = .name c!"ATTRIBUTE-VALUE-STRING"
  · rw [if_pos h1, firstValue_ok]; simp [h1]
  rw [if_neg h1]
  by_cases h2 : x.tag = .name c!"ATTRIBUTE-VALUE-ENUMERATION"
  · rw [if_pos h2]
    simp only [ok_bind, findReq_eq, Refers, Needs, Anything]
    cases x.find c!"VALUES" <;> simp [ok_error, ok_pure, h2]
  rw [if_neg h2]
  by_cases h3 : x.tag = .name c!"ATTRIBUTE-VALUE-INTEGER"
  · rw [if_pos h3, simpleValue_ok]; simp [h3]
  rw [if_neg h3]
  by_cases h4 : x.tag = .name c!"ATTRIBUTE-VALUE-REAL"
  · rw [if_pos h4, simpleValue_ok]; simp [h4]
  rw [if_neg h4]
  by_cases h5 : x.tag = .name c!"ATTRIBUTE-VALUE-BOOLEAN"
  · rw [if_pos h5, simpleValue_ok]; simp [h5]
  rw [if_neg h5]
  by_cases h6 : x.tag = .name c!"ATTRIBUTE-VALUE-DATE"
  · rw [if_pos h6, simpleValue_ok]; simp [h6]
  rw [if_neg h6]
  by_cases h7 : x.tag = .name c!"ATTRIBUTE-VALUE-XHTML"
  · rw [if_pos h7, xhtmlValue_ok]; simp [h7]
  rw [if_neg h7]
  simp [h1, h2, h3, h4, h5, h6, h7, ok_error]

theorem values_ok (x : Node) : Ok (parseAttributeValues (x.find c!"VALUES")) ↔ ValuesOk x := by
  unfold ValuesOk May Each
  cases x.find c!"VALUES" with
  | none => simp [parseAttributeValues, ok_ok]
  | some vs =>
    simp only [parseAttributeValues, ok_bind, ok_pure, and_true, Option.some.injEq, forall_eq']
    rw [show (∃ v, mapPy parseAttributeValue _ = .ok v) ↔ _ from ok_map _ _]
    simp only [value_ok, List.mem_filter, isCommentNode]
    constructor
    · intro h c hc
      by_cases e : c.tag = .comment
      · exact .inl e
      · exact .inr (h c ⟨hc, by simpa using e⟩)
    · rintro h c ⟨hc, e⟩
      rcases h c hc with h' | h'
      · simp [h'] at e
      · exact h'

/-! ## Spec objects, relations, groups -/

theorem specObject_ok (x : Node) : Ok (objectItem x) ↔ SpecObjectOk x := by
  unfold objectItem SpecObjectOk isCommentNode
  by_cases h : x.tag = .comment
  · simp [h, ok_ok]
  · have hb : (x.tag == Tag.comment) = false := by simpa using h
    have hs : Ok (someItem parseSpecObject x) ↔ Ok (parseSpecObject x) := by
      unfold someItem
      cases parseSpecObject x <;> simp [Ok]
    rw [hb]
    simp only [Bool.false_eq_true, if_false, h, false_or]
    rw [hs]
    unfold parseSpecObject Has Refers Needs Anything
    rw [ok_like, ← values_ok]
    simp only [ok_bind, ok_pure, and_true, attrReqNI_eq, findReq_eq]
    unfold Ok
    constructor
    · rintro ⟨h0, v, hv, t, ht, r, hr, w⟩; exact ⟨h0, ⟨v, hv⟩, ⟨t, ht, r, hr⟩, w⟩
    · rintro ⟨h0, ⟨v, hv⟩, ⟨t, ht, r, hr⟩, w⟩; exact ⟨h0, v, hv, t, ht, r, hr, w⟩

theorem relationValues_ok (x : Node) : Ok (parseRelationValues (x.find c!"VALUES")) ↔ RelationValuesOk x := by
  unfold RelationValuesOk May
  cases x.find c!"VALUES" with
  | none => simp [parseRelationValues, ok_ok]
  | some vs =>
    simp only [parseRelationValues, Option.some.injEq, forall_eq']
    cases vs.children with
    | nil => simp [ok_ok]
    | cons v rest =>
      have hone : ∀ P : Node → Prop, (∀ w r, v :: rest = w :: r → P w) ↔ P v := fun P =>
        ⟨fun h => h v rest rfl, fun h w r e => by cases e; exact h⟩
      rw [hone]
      unfold Called
      dsimp only
      by_cases h1 : v.tag = .name c!"ATTRIBUTE-VALUE-STRING"
      · rw [if_pos h1, firstValue_ok]; simp [h1]
      rw [if_neg h1]
      by_cases h2 : v.tag = .name c!"ATTRIBUTE-VALUE-XHTML"
      · rw [if_pos h2, ← xhtmlValue_ok]
        simp only [ok_bind, ok_pure, and_true]
        simp [h2, Ok]
      rw [if_neg h2]
      by_cases h3 : v.tag = .name c!"ATTRIBUTE-VALUE-INTEGER"
      · rw [if_pos h3, firstValue_ok]; simp [h3]
      rw [if_neg h3]
      simp [h1, h2, h3, ok_error]

theorem contains_find (x : Node) (t : Str) : (childTags x).contains (.name t) = (x.find t).isSome := by
  rw [find_in_children]
  unfold childTags
  induction x.children with
  | nil => rfl
  | cons k ks ih =>
    simp only [List.map_cons, List.contains_cons, List.find?_cons, ih]
    by_cases e : k.tag = .name t
    · simp [e]
    · have e1 : (k.tag == Tag.name t) = false := by simpa using e
      have e2 : (Tag.name t == k.tag) = false := by simpa using fun h => e h.symm
      simp [e1, e2]

theorem relation_ok (x : Node) : Ok (relationItem x) ↔ RelationOk x := by
  have hi : Ok (relationItem x) ↔ ∃ v, parseSpecRelation x = .ok v ∧ ∀ m, v = .error m → Ok (stringifyNode false m.node) := by
    unfold relationItem
    cases parseSpecRelation x with
    | error e => simp [ok_error]
    | ok v =>
      cases v with
      | ok r => simp [ok_ok]
      | error m =>
        dsimp only
        cases hm : stringifyNode false m.node <;> simp [Ok, hm]
  rw [hi]
  unfold parseSpecRelation RelationOk Called
  rw [contains_find, contains_find, contains_find]
  by_cases h1 : x.tag = .name c!"SPEC-RELATION"
  case neg =>
    have : (x.tag == Tag.name c!"SPEC-RELATION") = false := by simpa using h1
    rw [this]
    simp [h1, pyAssert, bind, Except.bind]
  have e1 : (x.tag == Tag.name c!"SPEC-RELATION") = true := by simpa using h1
  rw [e1]
  cases ht : x.find c!"TYPE" with
  | none => simp [pyAssert, bind, Except.bind, Needs, ht]
  | some t =>
    have e2 : (Option.isSome (some t)) = true := rfl
    simp only [pyAssert, e2, if_true, py_bind_ok, h1, true_and]
    have ht' : Needs x c!"TYPE" Anything := ⟨t, ht, trivial⟩
    simp only [ht', true_and]
    cases hs : x.find c!"SOURCE" with
    | none =>
      have hno : ¬ Refers x c!"SOURCE" c!"SPEC-OBJECT-REF" := by rintro ⟨c, hc, -⟩; rw [hs] at hc; cases hc
      simp [hno, node_ok, pure, Except.pure]
    | some so =>
      cases hg : x.find c!"TARGET" with
      | none =>
        have hno : ¬ Refers x c!"TARGET" c!"SPEC-OBJECT-REF" := by rintro ⟨c, hc, -⟩; rw [hg] at hc; cases hc
        simp [hno, node_ok, pure, Except.pure]
      | some ta =>
        simp only [Option.isSome_some, Bool.not_true, Bool.false_eq_true, if_false, reduceCtorEq, or_false, false_and, false_or]
        rw [← relationValues_ok]
        constructor
        · rintro ⟨v, hv, -⟩
          obtain ⟨_, hb, hv⟩ := py_bind_inv hv
          obtain ⟨i, hi, hv⟩ := py_bind_inv hv
          obtain ⟨t', ht', hv⟩ := py_bind_inv hv
          obtain ⟨tr, htr, hv⟩ := py_bind_inv hv
          obtain ⟨s', hs', hv⟩ := py_bind_inv hv
          obtain ⟨sr, hsr, hv⟩ := py_bind_inv hv
          obtain ⟨g', hg', hv⟩ := py_bind_inv hv
          obtain ⟨gr, hgr, hv⟩ := py_bind_inv hv
          obtain ⟨w, hw, hv⟩ := py_bind_inv hv
          refine ⟨⟨i, (attrReq_eq _ _ _).1 hi⟩, ⟨t', (findReq_eq _ _ _).1 ht', tr, (findReq_eq _ _ _).1 htr, trivial⟩,
            ⟨s', (findReq_eq _ _ _).1 hs', sr, (findReq_eq _ _ _).1 hsr, trivial⟩,
            ⟨g', (findReq_eq _ _ _).1 hg', gr, (findReq_eq _ _ _).1 hgr, trivial⟩, w, hw⟩
        · rintro ⟨⟨i, hi⟩, ⟨t', ht', tr, htr, -⟩, ⟨s', hs', sr, hsr, -⟩, ⟨g', hg', gr, hgr, -⟩, w, hw⟩
          rw [(findReq_eq _ _ _).2 ht', (findReq_eq _ _ _).2 hs', (findReq_eq _ _ _).2 hg', hw, (attrReq_eq _ _ _).2 hi, hi]
          simp only [py_bind_ok, Option.isSome_some, if_true]
          rw [(findReq_eq _ _ _).2 htr, (findReq_eq _ _ _).2 hsr, (findReq_eq _ _ _).2 hgr]
          exact ⟨_, rfl, (by intro m e; cases e)⟩

theorem relationGroup_ok (x : Node) : Ok (parseRelationGroup x) ↔ RelationGroupOk x := by
  unfold parseRelationGroup RelationGroupOk Has
  rw [ok_like]
  simp only [ok_bind, ok_pure, and_true, attrReqNI_eq]

/-! ## Specifications -/

theorem hierarchy_step (level : Nat) (x : Node) : Ok (parseHierarchy level x) ↔
    Called x c!"SPEC-HIERARCHY" ∧ Has x c!"IDENTIFIER" ∧ Refers x c!"OBJECT" c!"SPEC-OBJECT-REF" ∧
    ∀ c, x.find c!"CHILDREN" = some c → ∀ k ∈ c.children, Ok (parseHierarchy (level + 1) k) := by
  cases hx : Format.isElem x with
  | false =>
    have h1 : parseHierarchy level x = .error .assertion := by
      cases x with
      | elem i ks => cases hx
      | _ => rfl
    have h2 : ¬ Called x c!"SPEC-HIERARCHY" := by
      unfold Called
      cases x with
      | elem i ks => cases hx
      | _ => intro e; cases e
    simp [h1, ok_error, h2]
  | true =>
    rw [hierarchy_from level x hx]
    unfold hierarchyFrom Called Refers Needs Anything Has
    by_cases h1 : x.tag = .name c!"SPEC-HIERARCHY"
    · simp only [h1, if_true, true_and]
      have ha : attrReqNI x c!"IDENTIFIER" = match x.attr? c!"IDENTIFIER" with | none => .error .notImplemented | some v => .ok v := by
        unfold attrReqNI attrReq orNotImpl orKey
        cases x.attr? c!"IDENTIFIER" <;> rfl
      rw [ha]
      cases x.attr? c!"IDENTIFIER" with
      | none => simp [ok_error]
      | some v =>
        cases x.find c!"OBJECT" with
        | none => simp [ok_error]
        | some o =>
          cases hr : o.find c!"SPEC-OBJECT-REF" with
          | none => simp [ok_error, hr]
          | some r =>
            cases x.find c!"CHILDREN" with
            | none => simp [ok_ok, hr]
            | some c =>
              have := ok_map (parseHierarchy (level + 1)) c.children
              simp only [Option.some.injEq, exists_eq', exists_eq_left', true_and, forall_eq', hr, Option.map_some, childrenFrom, and_true]
              rw [← this]
              cases mapPy (parseHierarchy (level + 1)) c.children <;> simp [Ok, pyMap]
    · simp [h1, ok_error]

theorem hierarchy_ok (x : Node) (level : Nat) : Ok (parseHierarchy level x) ↔ HierarchyOk x := by
  rw [hierarchy_step]
  constructor
  · rintro ⟨h1, h2, h3, h4⟩
    refine .mk h1 h2 h3 fun c hc k hk => ?_
    have := hierarchy_lt hc hk
    exact (hierarchy_ok k (level + 1)).1 (h4 c hc k hk)
  · intro h
    cases h with
    | mk h1 h2 h3 h4 =>
      refine ⟨h1, h2, h3, fun c hc k hk => ?_⟩
      have := hierarchy_lt hc hk
      exact (hierarchy_ok k (level + 1)).2 (h4 c hc k hk)
termination_by sizeOf x

theorem getLast_filter {α : Type} (p : α → Bool) : ∀ (l : List α) (c : α), (l.filter p).getLast? = some c ↔
    ∃ before after, l = before ++ c :: after ∧ p c = true ∧ ∀ k ∈ after, p k = false
  | [], c => by simp
  | a :: l, c => by
    have ih := getLast_filter p l c
    constructor
    · intro h
      by_cases hl : l.filter p = []
      · rw [List.filter_cons] at h
        split at h
        · rename_i ha
          rw [hl] at h
          simp only [List.getLast?_singleton, Option.some.injEq] at h
          subst h
          refine ⟨[], l, rfl, ha, fun k hk => ?_⟩
          have := List.filter_eq_nil_iff.1 hl k hk
          simpa using this
        · rw [hl] at h; cases h
      · have h' : (l.filter p).getLast? = some c := by
          rw [List.filter_cons] at h
          split at h
          · rwa [List.getLast?_cons_of_ne_nil hl] at h
          · exact h
        obtain ⟨b, t, e, hc, hk⟩ := ih.1 h'
        exact ⟨a :: b, t, by rw [e]; rfl, hc, hk⟩
    · rintro ⟨b, t, e, hc, hk⟩
      rw [e, List.filter_append, List.filter_cons, if_pos hc]
      have : t.filter p = [] := List.filter_eq_nil_iff.2 fun k h => by simp [hk k h]
      rw [this]
      simp

theorem lastChild_iff (x : Node) (P : Node → Prop) : (∀ c, findLast x c!"CHILDREN" = some c → P c) ↔
    (∀ before c after, x.children = before ++ c :: after → Called c c!"CHILDREN" → (∀ k ∈ after, ¬ Called k c!"CHILDREN") → P c) := by
  unfold findLast Called
  constructor
  · intro h b c a e hc ha
    refine h c ((getLast_filter _ _ _).2 ⟨b, a, e, by simpa using hc, fun k hk => by simpa using ha k hk⟩)
  · intro h c hc
    obtain ⟨b, a, e, hc, ha⟩ := (getLast_filter _ _ _).1 hc
    exact h b c a e (by simpa using hc) (fun k hk => by simpa using ha k hk)

theorem specification_ok (x : Node) : Ok (parseSpecification x) ↔ SpecificationOk x := by
  unfold parseSpecification SpecificationOk Has
  rw [ok_like, ← values_ok, ← lastChild_iff x (fun c => Each c HierarchyOk)]
  have hc : (∃ v, (match findLast x c!"CHILDREN" with
      | none => .ok none
      | some c => do
        let hs ← mapPy (parseHierarchy 1) c.children
        return some hs : Py (Option (List Hierarchy))) = .ok v) ↔ ∀ c, findLast x c!"CHILDREN" = some c → Each c HierarchyOk := by
    cases findLast x c!"CHILDREN" with
    | none => simp
    | some c =>
      simp only [Option.some.injEq, forall_eq']
      rw [show (∃ v, (mapPy (parseHierarchy 1) c.children >>= fun hs => pure (some hs) : Py (Option (List Hierarchy))) = .ok v) ↔ _ from ok_bind _ _]
      simp only [ok_pure, and_true]
      rw [show (∃ v, mapPy (parseHierarchy 1) c.children = .ok v) ↔ _ from ok_map _ _]
      simp only [hierarchy_ok, Each]
  rw [← hc]
  simp only [ok_bind, ok_pure, and_true, attrReqNI_eq]
  unfold Ok
  constructor
  · rintro ⟨h0, v, hv, w, hw, h⟩; exact ⟨h0, ⟨v, hv⟩, ⟨w, hw⟩, h⟩
  · rintro ⟨h0, ⟨v, hv⟩, ⟨w, hw⟩, h⟩; exact ⟨h0, v, hv, w, hw, h⟩

/-! ## The document -/

theorem header_ok {x : Node} (h : Called x c!"THE-HEADER") : Ok (parseHeader x) ↔ HeaderOk x := by
  unfold parseHeader HeaderOk Needs Has
  have e : (x.tag == Tag.name c!"THE-HEADER") = true := by simpa using (show x.tag = _ from h)
  rw [e]
  simp only [pyAssert, if_true, py_bind_ok]
  cases x.find c!"REQ-IF-HEADER" with
  | none => simp [ok_error]
  | some hd =>
    simp only [ok_bind, attrReqNI_eq, ok_pure, and_true]
    simp

theorem items_ok {β : Type} (x : Node) (t : Str) (f : List Node → Py β) : Ok (parsedItems x t f) ↔
    ∀ c, x.find t = some c → Ok (f c.children) := by
  unfold parsedItems
  cases x.find t with
  | none => simp [ok_ok]
  | some c =>
    simp only [Option.some.injEq, forall_eq']
    cases f c.children <;> simp [Ok]

theorem content_ok (x : Node) : Ok (parseContent (none : Option (Callback Unit)) x ()).1 ↔ ContentOk x := by
  rw [parseContent_assembled]
  unfold assembled ContentOk May Each
  have h1 := items_ok x c!"DATATYPES" (mapPy parseDataType)
  have h2 := items_ok x c!"SPEC-TYPES" (filterMapPy parseSpecType)
  have h3 := items_ok x c!"SPECIFICATIONS" (mapPy parseSpecification)
  have h4 := items_ok x c!"SPEC-RELATIONS" (mapPy relationItem)
  have h5 := items_ok x c!"SPEC-OBJECTS" (filterMapPy objectItem)
  have h6 := items_ok x c!"SPEC-RELATION-GROUPS" (mapPy parseRelationGroup)
  simp only [ok_map, ok_filterMap, dataType_ok, specType_ok, specification_ok, relation_ok, specObject_ok, relationGroup_ok] at h1 h2 h3 h4 h5 h6
  rw [← h1, ← h2, ← h3, ← h4, ← h5, ← h6]
  simp only [ok_bind, ok_pure, and_true]
  unfold Ok
  constructor
  · rintro ⟨a, ha, b, hb, c, hc, d, hd, e, he, f, hf⟩
    exact ⟨⟨a, ha⟩, ⟨b, hb⟩, ⟨c, hc⟩, ⟨d, hd⟩, ⟨e, he⟩, f, hf⟩
  · rintro ⟨⟨a, ha⟩, ⟨b, hb⟩, ⟨c, hc⟩, ⟨d, hd⟩, ⟨e, he⟩, f, hf⟩
    exact ⟨a, ha, b, hb, c, hc, d, hd, e, he, f, hf⟩

theorem core_ok (r : Node) : Ok (parseCore (none : Option (Callback Unit)) r ()).1 ↔
    May r c!"CORE-CONTENT" fun c => May c c!"REQ-IF-CONTENT" ContentOk := by
  unfold parseCore May
  cases r.find c!"CORE-CONTENT" with
  | none => simp [M.pure, ok_ok]
  | some c =>
    simp only [Option.some.injEq, forall_eq']
    cases c.find c!"REQ-IF-CONTENT" with
    | none => simp [M.pure, ok_ok]
    | some x =>
      simp only [Option.some.injEq, forall_eq']
      rw [← content_ok]
      unfold M.bind
      generalize parseContent (none : Option (Callback Unit)) x () = q
      obtain ⟨a, u⟩ := q
      cases a <;> simp [M.pure, ok_ok, ok_error]

theorem optHeader_ok (r : Node) : Ok (optPy parseHeader (r.find c!"THE-HEADER")) ↔ May r c!"THE-HEADER" HeaderOk := by
  unfold May
  cases hf : r.find c!"THE-HEADER" with
  | none => simp [optPy, ok_ok]
  | some x =>
    simp only [Option.some.injEq, forall_eq', optPy]
    rw [← header_ok (find_called hf)]
    cases parseHeader x <;> simp [Ok]

theorem document_ok (d : Doc) : Ok (parseReqif (none : Option (Callback Unit)) d ()).1 ↔ ∃ r, strippedRoot d.root = .ok r ∧ RootOk r := by
  unfold parseReqif
  cases hs : strippedRoot d.root with
  | error e => simp [M.bind, M.lift, ok_error]
  | ok r =>
    simp only [M.bind, M.lift, Except.ok.injEq, exists_eq_left']
    unfold RootOk Called
    by_cases ht : r.tag = .name c!"REQ-IF"
    · rw [if_pos ht]
      by_cases hl : r.len = 0
      · rw [if_pos hl]
        have hn : ∀ t, r.find t = none := by
          intro t
          rw [find_in_children]
          have : r.children = [] := List.length_eq_zero_iff.1 hl
          rw [this]; rfl
        simp [M.pure, ok_ok, ht, May, hn]
      · rw [if_neg hl, ← optHeader_ok, ← core_ok]
        cases optPy parseHeader (r.find c!"THE-HEADER") with
        | error e => simp [ok_error]
        | ok h =>
          simp only [ht, ok_ok, true_and, M.bind, M.lift]
          generalize parseCore (none : Option (Callback Unit)) r () = q
          obtain ⟨a, u⟩ := q
          cases a <;> simp [M.pure, ok_ok, ok_error]
    · rw [if_neg ht]
      simp [ht, ok_error]

theorem stripped_ok (n : Node) : Ok (strippedRoot n) ↔ hasDefaultNs n = false ∨ hasPI n = false := by
  unfold strippedRoot hasDefaultNs
  cases NsMap.get? n.nsmap none with
  | none => simp [ok_ok]
  | some u =>
    obtain ⟨h1, h2⟩ := stripTags_pi n
    simp only [Option.isSome_some, Bool.true_eq_false, false_or]
    unfold stripNamespace
    cases hp : hasPI n with
    | false => obtain ⟨n', e⟩ := h1 hp; rw [e]; simp [ok_ok]
    | true => rw [h2 hp]; simp [ok_error]

end ReqIF.Accept
