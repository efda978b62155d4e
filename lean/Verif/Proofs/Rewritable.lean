import Verif.Proofs.Writable
import Verif.Props.C86
/-!
# Proofs about the documents that can be read and written again
-/
namespace ReqIF.Write
open Spec
open Accept (Ok ok_ok ok_pure ok_error ok_bind find_called Called May Needs Each)

theorem find_child {n c : Node} {t : Str} (h : n.find t = some c) : HasChild n t := by
  rw [← contains_child, Accept.contains_find, h]; rfl

theorem hasChild_find (n : Node) (t : Str) : HasChild n t ↔ ∃ c, n.find t = some c := by
  rw [← contains_child, Accept.contains_find, Option.isSome_iff_exists]

theorem findReq_inv {x v : Node} {t : Str} (h : findReq x t = .ok v) : x.find t = some v := by
  rw [Accept.findReq_eq] at h; exact h

/-! ## Lists -/

theorem each_filterMap {α β : Type} {f : α → Py (Option β)} {P : β → Prop} {Q : α → Prop}
    (h1 : ∀ x y, f x = .ok (some y) → (P y ↔ Q x)) (h2 : ∀ x, f x = .ok none → Q x) :
    ∀ {xs : List α} {ys : List β}, filterMapPy f xs = .ok ys → ((∀ y ∈ ys, P y) ↔ ∀ x ∈ xs, Q x)
  | [], ys, h => by cases h; simp
  | x :: xs, ys, h => by
    simp only [filterMapPy] at h
    cases hx : f x with
    | error e => rw [hx] at h; cases h
    | ok o =>
      rw [hx] at h
      cases hs : filterMapPy f xs with
      | error e => rw [hs] at h; cases o <;> cases h
      | ok zs =>
        rw [hs] at h
        have ih := each_filterMap h1 h2 hs
        cases o with
        | none => cases h; simp [h2 x hx, ih]
        | some y => cases h; simp [h1 x y hx, ih]

theorem each_map {α β : Type} {f : α → Py β} {P : β → Prop} {Q : α → Prop}
    (h1 : ∀ x y, f x = .ok y → (P y ↔ Q x)) :
    ∀ {xs : List α} {ys : List β}, mapPy f xs = .ok ys → ((∀ y ∈ ys, P y) ↔ ∀ x ∈ xs, Q x)
  | [], ys, h => by cases h; simp
  | x :: xs, ys, h => by
    simp only [mapPy] at h
    cases hx : f x with
    | error e => rw [hx] at h; cases h
    | ok y =>
      rw [hx] at h
      cases hs : mapPy f xs with
      | error e => rw [hs] at h; cases h
      | ok zs =>
        rw [hs] at h
        have ih := each_map h1 hs
        cases h; simp [h1 x y hx, ih]

theorem each_items {β γ : Type} {f : List Node → Py β} {o : Option β} {g : β → List γ} {P : γ → Prop} {Q : Node → Prop} {x : Node} {t : Str}
    (h : parsedItems x t f = .ok o) (hf : ∀ xs b, f xs = .ok b → ((∀ y ∈ g b, P y) ↔ ∀ x ∈ xs, Q x)) :
    (∀ l, o.map g = some l → ∀ y ∈ l, P y) ↔ May x t (Each · Q) := by
  unfold parsedItems at h
  unfold May Each
  cases hc : x.find t with
  | none => rw [hc] at h; cases h; simp
  | some c =>
    rw [hc] at h
    dsimp only at h
    cases hb : f c.children with
    | error e => rw [hb] at h; cases h
    | ok b =>
      rw [hb] at h; cases h
      simp [hf _ _ hb]

/-! ## Values that have been read can be written -/

theorem simple_again {x : Node} {t : AttrType} {ref : Str} {a : SpecObjectAttribute} (ht : t ≠ .enumeration)
    (h : parseSimpleValue x t ref = .ok a) : ValueOk a := by
  unfold parseSimpleValue at h
  obtain ⟨v, -, h⟩ := py_bind_inv h
  obtain ⟨d, -, h⟩ := py_bind_inv h
  obtain ⟨r, -, h⟩ := py_bind_inv h
  cases h
  exact ⟨fun e => absurd e ht, fun _ => ⟨_, rfl⟩⟩

theorem xhtml_again {x : Node} {a : SpecObjectAttribute} (h : parseXhtmlAttributeValue x = .ok a) : ValueOk a := by
  unfold parseXhtmlAttributeValue at h
  obtain ⟨v, -, h⟩ := py_bind_inv h
  split at h
  · obtain ⟨w, -, h⟩ := py_bind_inv h
    obtain ⟨w, -, h⟩ := py_bind_inv h
    obtain ⟨d, -, h⟩ := py_bind_inv h
    obtain ⟨r, -, h⟩ := py_bind_inv h
    cases h
    exact ⟨fun e => (by cases e), fun _ => ⟨_, rfl⟩⟩
  · obtain ⟨w, -, h⟩ := py_bind_inv h
    obtain ⟨d, -, h⟩ := py_bind_inv h
    obtain ⟨r, -, h⟩ := py_bind_inv h
    cases h
    exact ⟨fun e => (by cases e), fun _ => ⟨_, rfl⟩⟩

theorem value_again {x : Node} {a : SpecObjectAttribute} (h : parseAttributeValue x = .ok a) : ValueOk a := by
  unfold parseAttributeValue at h
  split at h
  · obtain ⟨v, -, h⟩ := py_bind_inv h
    obtain ⟨d, -, h⟩ := py_bind_inv h
    obtain ⟨r, -, h⟩ := py_bind_inv h
    cases h
    exact ⟨fun e => (by cases e), fun _ => ⟨_, rfl⟩⟩
  split at h
  · obtain ⟨d, hd, h⟩ := py_bind_inv h
    obtain ⟨r, -, h⟩ := py_bind_inv h
    cases hv : x.find c!"VALUES" with
    | none => rw [hv] at h; cases h
    | some vs =>
      rw [hv] at h
      cases h
      refine ⟨fun _ => ⟨⟨_, rfl⟩, ?_, ?_⟩, fun e => absurd rfl e⟩
      · intro n hn; cases hn; exact find_child hv
      · intro n hn; cases hn; exact find_child (findReq_inv hd)
  split at h
  · exact simple_again (by decide) h
  split at h
  · exact simple_again (by decide) h
  split at h
  · exact simple_again (by decide) h
  split at h
  · exact simple_again (by decide) h
  split at h
  · exact xhtml_again h
  · cases h

theorem values_again {o : Option Node} {vs : Option (List SpecObjectAttribute)} (h : parseAttributeValues o = .ok vs) :
    ∀ l, vs = some l → ∀ a ∈ l, ValueOk a := by
  cases o with
  | none => cases h; intro l e; cases e
  | some x =>
    simp only [parseAttributeValues] at h
    obtain ⟨ws, hw, h⟩ := py_bind_inv h
    cases h
    intro l e a ha
    cases e
    obtain ⟨y, -, hy⟩ := mapPy_mem hw ha
    exact value_again hy

theorem relationValues_again {o : Option Node} {v : Option SpecObjectAttribute} (h : parseRelationValues o = .ok v) :
    ∀ a, v = some a → ValueOk a := by
  intro a e
  subst e
  cases o with
  | none => cases h
  | some vs =>
    simp only [parseRelationValues] at h
    split at h
    · cases h
    split at h
    · obtain ⟨v, -, h⟩ := py_bind_inv h
      obtain ⟨d, -, h⟩ := py_bind_inv h
      obtain ⟨r, -, h⟩ := py_bind_inv h
      cases h
      exact ⟨fun e => (by cases e), fun _ => ⟨_, rfl⟩⟩
    split at h
    · obtain ⟨v, hv, h⟩ := py_bind_inv h
      cases h
      exact xhtml_again hv
    split at h
    · obtain ⟨v, -, h⟩ := py_bind_inv h
      obtain ⟨d, -, h⟩ := py_bind_inv h
      obtain ⟨r, -, h⟩ := py_bind_inv h
      cases h
      exact ⟨fun e => (by cases e), fun _ => ⟨_, rfl⟩⟩
    · cases h

/-! ## Attribute definitions -/

theorem boolean_again {x : Node} {ref : Option Str} {val : Option DefaultValue} (h : parseDefaultBoolean x = .ok (ref, val)) :
    (HasChild x c!"DEFAULT-VALUE" → ∀ v, val = some (.str v) → ∃ r, ref = some r) ↔
    May x c!"DEFAULT-VALUE" fun d => May d c!"ATTRIBUTE-VALUE-BOOLEAN" fun v => DefaultRefers v c!"ATTRIBUTE-DEFINITION-BOOLEAN-REF" := by
  unfold parseDefaultBoolean at h
  simp only [hasChild_find, May, DefaultRefers, Needs]
  cases hd : x.find c!"DEFAULT-VALUE" with
  | none => simp
  | some d =>
    rw [hd] at h
    dsimp only at h
    cases hv : d.find c!"ATTRIBUTE-VALUE-BOOLEAN" with
    | none => rw [hv] at h; cases h
    | some v =>
      rw [hv] at h
      dsimp only at h
      obtain ⟨s, -, h⟩ := py_bind_inv h
      cases h
      simp only [Option.some.injEq, forall_eq', exists_eq', true_implies, hv, DefaultValue.str.injEq]
      cases v.find c!"DEFINITION" with
      | none => simp
      | some df =>
        simp only [Option.some.injEq, exists_eq_left']
        cases df.find c!"ATTRIBUTE-DEFINITION-BOOLEAN-REF" <;> simp

theorem xhtmlDefault_again {x : Node} {ref : Option Str} {val : Option DefaultValue} (h : parseDefaultXhtml x = .ok (ref, val)) :
    (HasChild x c!"DEFAULT-VALUE" → ∀ v, val = some (.str v) → ∃ r, ref = some r) ↔
    May x c!"DEFAULT-VALUE" fun d => May d c!"ATTRIBUTE-VALUE-XHTML" fun v => DefaultRefers v c!"ATTRIBUTE-DEFINITION-XHTML-REF" := by
  unfold parseDefaultXhtml at h
  simp only [hasChild_find, May, DefaultRefers, Needs]
  cases hd : x.find c!"DEFAULT-VALUE" with
  | none => simp
  | some d =>
    rw [hd] at h
    dsimp only at h
    split at h
    · rename_i hs
      cases h
      have he : d.children = [] := ((Accept.selfClosed_empty d).1 hs).1
      simp [he, find_in_children]
    · cases hv : d.find c!"ATTRIBUTE-VALUE-XHTML" with
      | none => rw [hv] at h; cases h
      | some v =>
        rw [hv] at h
        dsimp only at h
        obtain ⟨r, hr, h⟩ := py_bind_inv h
        obtain ⟨tv, -, h⟩ := py_bind_inv h
        obtain ⟨s, -, h⟩ := py_bind_inv h
        cases h
        simp only [Option.some.injEq, forall_eq', exists_eq', true_implies, hv, DefaultValue.str.injEq]
        revert hr
        cases v.find c!"DEFINITION" with
        | none => intro hr; cases hr; simp
        | some df =>
          simp only [Option.some.injEq, exists_eq_left']
          cases df.find c!"ATTRIBUTE-DEFINITION-XHTML-REF" with
          | none => intro hr; cases hr
          | some q => intro hr; cases hr; simp

theorem enumeration_again {x : Node} {ref : Option Str} {val : Option DefaultValue} (h : parseDefaultEnumeration x = .ok (ref, val)) :
    (HasChild x c!"DEFAULT-VALUE" → ∀ v, val = some (.str v) → ∃ r, ref = some r) ↔
    May x c!"DEFAULT-VALUE" fun d => May d c!"ATTRIBUTE-VALUE-ENUMERATION" fun v =>
      (Needs v c!"VALUES" fun vs => Needs vs c!"ENUM-VALUE-REF" fun r => ∃ s, r.text? = some s) →
      DefaultRefers v c!"ATTRIBUTE-DEFINITION-ENUMERATION-REF" := by
  unfold parseDefaultEnumeration at h
  simp only [hasChild_find, May, DefaultRefers, Needs]
  cases hd : x.find c!"DEFAULT-VALUE" with
  | none => simp
  | some d =>
    rw [hd] at h
    dsimp only at h
    split at h
    · rename_i hs
      cases h
      have he : d.children = [] := ((Accept.selfClosed_empty d).1 hs).1
      simp [he, find_in_children]
    · cases hv : d.find c!"ATTRIBUTE-VALUE-ENUMERATION" with
      | none => rw [hv] at h; cases h
      | some v =>
        rw [hv] at h
        dsimp only at h
        obtain ⟨r, hr, h⟩ := py_bind_inv h
        cases h
        simp only [Option.some.injEq, forall_eq', exists_eq', true_implies, hv]
        have href : (∃ s, ref = some s) ↔ ∃ c, v.find c!"DEFINITION" = some c ∧ ∃ q, c.find c!"ATTRIBUTE-DEFINITION-ENUMERATION-REF" = some q ∧ ∃ s, q.text? = some s := by
          revert hr
          cases v.find c!"DEFINITION" with
          | none => intro hr; cases hr; simp
          | some df =>
            dsimp only
            intro hr
            obtain ⟨q, hq, hr⟩ := py_bind_inv hr
            cases hr
            simp [findReq_inv hq]
        rw [← href]
        cases v.find c!"VALUES" with
        | none => simp
        | some vs =>
          simp only [Option.some.injEq, exists_eq_left']
          cases vs.find c!"ENUM-VALUE-REF" with
          | none => simp
          | some q => cases ht : q.text? <;> simp [ht]

theorem definition_again {x : Node} {a : SpecAttributeDefinition} (h : parseAttributeDefinition x = .ok a) :
    DefinitionOk a ↔ DefinitionAgain x := by
  unfold parseAttributeDefinition at h
  obtain ⟨i, -, h⟩ := py_bind_inv h
  obtain ⟨⟨ty, dt, ⟨ref, val⟩, mv⟩, hb, h⟩ := py_bind_inv h
  cases h
  unfold DefinitionOk DefinitionAgain Shown Called
  simp only [Option.some.injEq, forall_eq']
  refine and_congr_right fun _ => ?_
  unfold parseDefinitionBody at hb
  split at hb
  · rename_i ht
    obtain ⟨t, -, hb⟩ := py_bind_inv hb
    obtain ⟨p, -, hb⟩ := py_bind_inv hb
    cases hb
    simp [ht]
  split at hb
  · rename_i ht
    obtain ⟨t, -, hb⟩ := py_bind_inv hb
    obtain ⟨p, -, hb⟩ := py_bind_inv hb
    cases hb
    simp [ht]
  split at hb
  · rename_i ht
    obtain ⟨t, -, hb⟩ := py_bind_inv hb
    obtain ⟨p, -, hb⟩ := py_bind_inv hb
    cases hb
    simp [ht]
  split at hb
  · rename_i ht
    obtain ⟨t, -, hb⟩ := py_bind_inv hb
    obtain ⟨p, hp, hb⟩ := py_bind_inv hb
    cases hb
    rw [← boolean_again hp]
    simp [ht]
  split at hb
  · rename_i ht
    obtain ⟨t, -, hb⟩ := py_bind_inv hb
    obtain ⟨p, hp, hb⟩ := py_bind_inv hb
    cases hb
    rw [← xhtmlDefault_again hp]
    simp [ht]
  split at hb
  · rename_i ht
    obtain ⟨t, -, hb⟩ := py_bind_inv hb
    obtain ⟨p, hp, hb⟩ := py_bind_inv hb
    cases hb
    rw [← enumeration_again hp]
    simp [ht]
  split at hb
  · rename_i ht
    obtain ⟨t, -, hb⟩ := py_bind_inv hb
    obtain ⟨p, -, hb⟩ := py_bind_inv hb
    cases hb
    simp [ht]
  · cases hb

theorem definitions_again {x : Node} {o : Option (List SpecAttributeDefinition)} (h : parseAttributeDefinitions x = .ok o) :
    (∀ ds, o = some ds → ∀ a ∈ ds, DefinitionOk a) ↔ SpecTypeAgain x := by
  unfold parseAttributeDefinitions at h
  unfold SpecTypeAgain May Each
  cases hs : x.find c!"SPEC-ATTRIBUTES" with
  | none => rw [hs] at h; cases h; simp
  | some sa =>
    rw [hs] at h
    obtain ⟨ds, hd, h⟩ := py_bind_inv h
    cases h
    simp only [Option.some.injEq, forall_eq']
    exact each_map (fun x y => definition_again) hd

theorem specType_again {x : Node} {t : SpecType} (h : parseSpecType x = .ok (some t)) : SpecTypeOk t ↔ SpecTypeAgain x := by
  unfold parseSpecType at h
  unfold SpecTypeOk
  split at h
  · obtain ⟨t, ht, h⟩ := py_bind_inv h
    cases h
    unfold parseSpecObjectType at ht
    obtain ⟨_, -, ht⟩ := py_bind_inv ht
    obtain ⟨_, -, ht⟩ := py_bind_inv ht
    obtain ⟨ds, hd, ht⟩ := py_bind_inv ht
    cases ht
    exact definitions_again hd
  split at h
  · obtain ⟨t, ht, h⟩ := py_bind_inv h
    cases h
    unfold parseSpecRelationType at ht
    obtain ⟨_, -, ht⟩ := py_bind_inv ht
    obtain ⟨_, -, ht⟩ := py_bind_inv ht
    obtain ⟨_, -, ht⟩ := py_bind_inv ht
    obtain ⟨ds, hd, ht⟩ := py_bind_inv ht
    cases ht
    exact definitions_again hd
  split at h
  · obtain ⟨t, ht, h⟩ := py_bind_inv h
    cases h
    unfold parseSpecificationType at ht
    obtain ⟨_, -, ht⟩ := py_bind_inv ht
    obtain ⟨_, -, ht⟩ := py_bind_inv ht
    obtain ⟨_, -, ht⟩ := py_bind_inv ht
    obtain ⟨ds, hd, ht⟩ := py_bind_inv ht
    obtain ⟨_, -, ht⟩ := py_bind_inv ht
    cases ht
    exact definitions_again hd
  split at h
  · obtain ⟨t, ht, h⟩ := py_bind_inv h
    cases h
    unfold parseRelationGroupType at ht
    obtain ⟨_, -, ht⟩ := py_bind_inv ht
    obtain ⟨_, -, ht⟩ := py_bind_inv ht
    obtain ⟨ds, hd, ht⟩ := py_bind_inv ht
    cases ht
    exact definitions_again hd
  split at h <;> cases h

theorem specType_comment {x : Node} (h : parseSpecType x = .ok none) : SpecTypeAgain x := by
  unfold parseSpecType at h
  split at h
  · obtain ⟨t, ht, h⟩ := py_bind_inv h; cases h
  split at h
  · obtain ⟨t, ht, h⟩ := py_bind_inv h; cases h
  split at h
  · obtain ⟨t, ht, h⟩ := py_bind_inv h; cases h
  split at h
  · obtain ⟨t, ht, h⟩ := py_bind_inv h; cases h
  split at h
  · rename_i hc
    cases x with
    | comment s => intro c hf; cases hf
    | elem i ks => cases hc
    | text s => cases hc
    | pi a b => cases hc
  · cases h

/-! ## Objects, relations, specifications, header -/

theorem object_again {x : Node} {o : SpecObject} (h : objectItem x = .ok (some o)) : ObjectOk o ↔ ObjectAgain x := by
  unfold objectItem at h
  split at h
  · cases h
  · rename_i hc
    unfold someItem at h
    cases hp : parseSpecObject x with
    | error e => rw [hp] at h; cases h
    | ok o' =>
      rw [hp] at h; cases h
      unfold parseSpecObject at hp
      obtain ⟨_, -, hp⟩ := py_bind_inv hp
      obtain ⟨_, -, hp⟩ := py_bind_inv hp
      obtain ⟨_, -, hp⟩ := py_bind_inv hp
      obtain ⟨t, ht, hp⟩ := py_bind_inv hp
      obtain ⟨_, -, hp⟩ := py_bind_inv hp
      obtain ⟨vs, hv, hp⟩ := py_bind_inv hp
      cases hp
      unfold ObjectOk ObjectAgain Shown
      have hn : x.tag ≠ .comment := by
        intro e
        apply hc
        cases x <;> first | rfl | cases e
      have hval : ∀ a ∈ vs.getD [], ValueOk a := by
        cases vs with
        | none => intro a ha; cases ha
        | some l => exact values_again hv l rfl
      simp [hn, find_child (findReq_inv ht)]
      intro _
      simpa using hval

theorem object_comment {x : Node} (h : objectItem x = .ok none) : ObjectAgain x := by
  unfold objectItem at h
  split at h
  · rename_i hc
    left
    cases x <;> first | rfl | cases hc
  · unfold someItem at h
    cases hp : parseSpecObject x <;> rw [hp] at h <;> cases h

theorem relation_again {x : Node} {r : Except MissingTag SpecRelation} (h : relationItem x = .ok r) :
    (∀ a, r = .ok a → RelationOk a) ↔ RelationAgain x := by
  have h : parseSpecRelation x = .ok r := by
    unfold relationItem at h
    split at h
    · cases h
    · rename_i r' hr; rw [hr]; exact h
    · rename_i m hm
      rw [hm]
      split at h <;> cases h
      rfl
  unfold parseSpecRelation at h
  obtain ⟨_, -, h⟩ := py_bind_inv h
  obtain ⟨_, -, h⟩ := py_bind_inv h
  unfold RelationAgain
  rw [← contains_child, ← contains_child]
  split at h
  · rename_i hs
    cases h
    simp only [Bool.not_eq_true'] at hs
    simp only [hs]
    simp
  · rename_i hs
    split at h
    · rename_i hg
      cases h
      simp only [Bool.not_eq_true'] at hg
      simp only [hg]
      simp
    · rename_i hg
      obtain ⟨_, -, h⟩ := py_bind_inv h
      obtain ⟨_, -, h⟩ := py_bind_inv h
      obtain ⟨_, -, h⟩ := py_bind_inv h
      obtain ⟨_, -, h⟩ := py_bind_inv h
      obtain ⟨_, -, h⟩ := py_bind_inv h
      obtain ⟨_, -, h⟩ := py_bind_inv h
      obtain ⟨_, -, h⟩ := py_bind_inv h
      obtain ⟨_, -, h⟩ := py_bind_inv h
      obtain ⟨v, hv, h⟩ := py_bind_inv h
      cases h
      simp only [Bool.not_eq_true', Bool.not_eq_false] at hs hg
      simp only [Except.ok.injEq, forall_eq', hs, hg, true_implies]
      unfold RelationOk
      simp only [Option.some.injEq, forall_eq', and_iff_left_iff_imp]
      intro _ _
      exact relationValues_again hv

theorem good_again (rs : List (Except MissingTag SpecRelation)) :
    (∀ a ∈ goodRelations rs, RelationOk a) ↔ ∀ r ∈ rs, ∀ a, r = .ok a → RelationOk a := by
  unfold goodRelations
  constructor
  · rintro h r hr a rfl
    exact h a (List.mem_filterMap.2 ⟨_, hr, rfl⟩)
  · intro h a ha
    obtain ⟨r, hr, e⟩ := List.mem_filterMap.1 ha
    cases r with
    | error m => cases e
    | ok b => cases e; exact h _ hr _ rfl

theorem level_again {level : Nat} {n : Node} {h : Hierarchy} (hp : parseHierarchy level n = .ok h) : h.info.level = level := by
  cases n with
  | elem i ks =>
    rw [parseHierarchy] at hp
    dsimp only at hp
    split at hp
    · split at hp
      · cases hp
      split at hp
      · cases hp
      split at hp
      · cases hp
      split at hp <;> cases hp <;> rfl
    · cases hp
  | _ => cases hp

theorem hierarchy_again {level : Nat} {n : Node} {h : Hierarchy} (hl : 0 < level) (hp : parseHierarchy level n = .ok h) : LevelsOk h := by
  refine .mk (by rw [level_again hp]; exact hl) ?_
  rcases parseHierarchy_inv hp with ⟨-, i, rfl⟩ | ⟨c, cs, i, hc, hm, rfl, -⟩
  · intro c hc; cases hc
  · intro k hk
    obtain ⟨y, hy, e⟩ := mapPy_mem hm hk
    exact hierarchy_again (Nat.succ_pos _) e
termination_by sizeOf n
decreasing_by exact hierarchy_lt hc hy

theorem specification_again {x : Node} {s : Specification} (h : parseSpecification x = .ok s) : SpecificationOk s := by
  unfold parseSpecification at h
  obtain ⟨_, -, h⟩ := py_bind_inv h
  obtain ⟨_, -, h⟩ := py_bind_inv h
  obtain ⟨_, -, h⟩ := py_bind_inv h
  obtain ⟨cs, hc, h⟩ := py_bind_inv h
  obtain ⟨vs, hv, h⟩ := py_bind_inv h
  cases h
  refine ⟨fun _ hs e k hk => ?_, fun _ => values_again hv⟩
  dsimp only at e
  subst e
  cases hf : findLast x c!"CHILDREN" with
  | none => rw [hf] at hc; cases hc
  | some c =>
    rw [hf] at hc
    obtain ⟨ks, hk', hc⟩ := py_bind_inv hc
    cases hc
    obtain ⟨y, -, e⟩ := mapPy_mem hk' hk
    exact hierarchy_again Nat.one_pos e

theorem header_again {r : Node} {o : Option Header} (h : optPy parseHeader (r.find c!"THE-HEADER") = .ok o) :
    (∀ x, o = some x → HeaderOk x) ↔ May r c!"THE-HEADER" HeaderAgain := by
  unfold May HeaderAgain
  cases hf : r.find c!"THE-HEADER" with
  | none => rw [hf] at h; cases h; simp
  | some x =>
    rw [hf] at h
    simp only [optPy] at h
    cases hp : parseHeader x with
    | error e => rw [hp] at h; cases h
    | ok y =>
      rw [hp] at h; cases h
      simp only [Option.some.injEq, forall_eq']
      unfold parseHeader at hp
      obtain ⟨_, -, hp⟩ := py_bind_inv hp
      unfold May
      cases hh : x.find c!"REQ-IF-HEADER" with
      | none => rw [hh] at hp; cases hp
      | some q =>
        rw [hh] at hp
        obtain ⟨i, hi, hp⟩ := py_bind_inv hp
        cases hp
        rw [Accept.attrReqNI_eq] at hi
        simp [HeaderOk, hi]

/-! ## The whole -/

theorem content_again {x : Node} {c : Content} {l : Lookup} {errs : List MissingTag}
    (h : (parseContent (none : Option (Callback Unit)) x ()).1 = .ok (c, l, errs)) : ContentOk c ↔ ContentAgain x := by
  obtain ⟨rels, -, h2, h3, h4, h5, -, h7, -, -⟩ := parseContent_inv h
  have t2 := each_items (g := id) (P := SpecTypeOk) (Q := SpecTypeAgain) h2
    (fun xs b e => each_filterMap (fun _ _ => specType_again) (fun _ => specType_comment) e)
  have t5 := each_items (g := id) (P := ObjectOk) (Q := ObjectAgain) h5
    (fun xs b e => each_filterMap (fun _ _ => object_again) (fun _ => object_comment) e)
  have t4 := each_items (g := goodRelations) (P := RelationOk) (Q := RelationAgain) h4
    (fun xs b e => by rw [good_again]; exact each_map (fun _ _ => relation_again) e)
  have t3 := each_items (g := id) (P := SpecificationOk) (Q := fun _ => True) h3
    (fun xs b e => each_map (fun _ _ hs => by simp [specification_again hs]) e)
  rw [← h7] at t4
  simp only [Option.map_id_fun, id_eq] at t2 t3 t5
  unfold ContentOk ContentAgain
  rw [t2, t5, t4, t3]
  simp [May, Each]

theorem document_again {d : Doc} {r : Node} {b : Bundle} (hr : strippedRoot d.root = .ok r)
    (h : (parseReqif (none : Option (Callback Unit)) d ()).1 = .ok b) : BundleOk b ↔ RootAgain d.root r := by
  unfold parseReqif at h
  rw [hr] at h
  simp only [M.bind] at h
  split at h
  · split at h
    · rename_i hl
      have he : r.children = [] := List.length_eq_zero_iff.1 hl
      have hn : ∀ t, r.find t = none := by
        intro t
        rw [find_in_children, he]; rfl
      cases h
      unfold BundleOk RootAgain NamespaceOk
      simp [Bundle.createEmpty, NamespaceInfo.empty, May, hn, he]
    · rename_i hl
      have he : r.children ≠ [] := fun e => hl (List.length_eq_zero_iff.2 e)
      cases hh : optPy parseHeader (r.find c!"THE-HEADER") with
      | error e => rw [hh] at h; cases h
      | ok hd =>
        rw [hh] at h
        simp only [M.bind] at h
        have t1 := header_again hh
        unfold RootAgain BundleOk NamespaceOk
        have key : ∀ (cc : Option (Option Content)) lk ex, (parseCore (none : Option (Callback Unit)) r ()).1 = .ok (cc, lk, ex) →
            ((∀ c, cc = some (some c) → ContentOk c) ↔ May r c!"CORE-CONTENT" fun c => May c c!"REQ-IF-CONTENT" ContentAgain) := by
          intro cc lk ex hc
          unfold parseCore at hc
          unfold May
          cases h1 : r.find c!"CORE-CONTENT" with
          | none => rw [h1] at hc; cases hc; simp
          | some c =>
            rw [h1] at hc
            simp only [Option.some.injEq, forall_eq'] at hc ⊢
            cases h2 : c.find c!"REQ-IF-CONTENT" with
            | none => rw [h2] at hc; cases hc; simp
            | some x =>
              rw [h2] at hc
              simp only [M.bind, Option.some.injEq, forall_eq'] at hc ⊢
              cases h3 : parseContent (none : Option (Callback Unit)) x () with
              | mk a u =>
                rw [h3] at hc
                cases a with
                | error e => cases hc
                | ok v =>
                  obtain ⟨c', l', e'⟩ := v
                  cases hc
                  simp only [Option.some.injEq, forall_eq']
                  exact content_again (by rw [h3])
        cases hc : parseCore (none : Option (Callback Unit)) r () with
        | mk a u =>
          rw [hc] at h key
          cases a with
          | error e => cases h
          | ok v =>
            obtain ⟨cc, lk, ex⟩ := v
            have t2 := key cc lk ex rfl
            cases h
            simp only [t1, t2, he]
            simp [namespaceInfoOf]
  · cases h

end ReqIF.Write
