import Verif.Proofs.XsdDoc
/-! The dialects are restrictions of the schema. -/
namespace ReqIF.Xsd

/-- One declaration accepts less than another. -/
structure Narrower (a b : Complex) : Prop where
  attrs : ∀ as, attrsOk a.attrs as = true → attrsOk b.attrs as = true
  typeOf : ∀ nm t, a.model.typeOf nm = some t → b.model.typeOf nm = some t
  count : ∀ ks, a.model.countOk ks = true → b.model.countOk ks = true
  mixed : a.model.mixed = b.model.mixed
  isOpen : a.model.isOpen = b.model.isOpen

mutual
theorem narrower_valid {f g : TypeName → Complex} (h : ∀ t, Narrower (f t) (g t)) {ns : Option Str} :
    ∀ (n : Node) (t : TypeName), validBy f ns t n = true → validBy g ns t n = true
  | .elem i ks, t, hv => by
    rw [validBy, Bool.and_eq_true, Bool.and_eq_true] at hv ⊢
    exact ⟨⟨(h t).attrs _ hv.1.1, (h t).count _ hv.1.2⟩, narrower_kids h ks (h t).mixed (h t).isOpen (h t).typeOf hv.2⟩
  | .text _, _, hv => by simp [validBy] at hv
  | .comment _, _, hv => by simp [validBy] at hv
  | .pi _ _, _, hv => by simp [validBy] at hv

theorem narrower_kids {f g : TypeName → Complex} (h : ∀ t, Narrower (f t) (g t)) {ns : Option Str} :
    ∀ (ks : List Node) {a b : Model}, a.mixed = b.mixed → a.isOpen = b.isOpen →
      (∀ nm t, a.typeOf nm = some t → b.typeOf nm = some t) → kidsBy f ns a ks = true → kidsBy g ns b ks = true
  | [], a, b, _, _, _, _ => by rw [kidsBy]
  | .elem i cs :: ks, a, b, hm, ho, ht, hv => by
    rw [kidsBy, Bool.and_eq_true] at hv ⊢
    refine ⟨?_, narrower_kids h ks hm ho ht hv.2⟩
    have hv1 := hv.1
    rw [Bool.or_eq_true, Bool.and_eq_true] at hv1 ⊢
    rcases hv1 with h1 | ⟨h1, h2⟩
    · exact .inl (by rw [← ho]; exact h1)
    · refine .inr ⟨h1, ?_⟩
      cases e : a.typeOf i.name with
      | none => rw [e] at h2; cases h2
      | some t =>
        rw [e] at h2
        rw [ht _ _ e]
        exact narrower_valid h (.elem i cs) t h2
  | .text s :: ks, a, b, hm, ho, ht, hv => by
    rw [kidsBy, Bool.and_eq_true] at hv ⊢
    exact ⟨by rw [← hm]; exact hv.1, narrower_kids h ks hm ho ht hv.2⟩
  | .comment _ :: ks, a, b, hm, ho, ht, hv => by
    rw [kidsBy] at hv ⊢
    · exact narrower_kids h ks hm ho ht hv
    all_goals simp
  | .pi _ _ :: ks, a, b, hm, ho, ht, hv => by
    rw [kidsBy] at hv ⊢
    · exact narrower_kids h ks hm ho ht hv
    all_goals simp
end

theorem Narrower.refl (a : Complex) : Narrower a a := ⟨fun _ h => h, fun _ _ h => h, fun _ h => h, rfl, rfl⟩

theorem Narrower.trans {a b c : Complex} (h : Narrower a b) (g : Narrower b c) : Narrower a c :=
  ⟨fun _ x => g.attrs _ (h.attrs _ x), fun _ _ x => g.typeOf _ _ (h.typeOf _ _ x), fun _ x => g.count _ (h.count _ x),
    h.mixed.trans g.mixed, h.isOpen.trans g.isOpen⟩

/-- Every text of the first form is of the second. -/
def wider (a b : Simple) : Bool :=
  decide (a = b) || decide (b = .string) || (decide (b = .nonEmpty) && (decide (a = .id) || decide (a = .localRef)))

theorem ncName_nonEmpty {v : Str} (h : isNCName (trim v) = true) : (!v.isEmpty) = true := by
  cases v with
  | nil => exact absurd h (by decide)
  | cons => rfl

theorem wider_ok {a b : Simple} (h : wider a b = true) {v : Str} (hv : a.ok v = true) : b.ok v = true := by
  simp only [wider, Bool.or_eq_true, Bool.and_eq_true, decide_eq_true_eq] at h
  rcases h with (rfl | rfl) | ⟨rfl, rfl | rfl⟩
  · exact hv
  · rfl
  · exact ncName_nonEmpty hv
  · exact ncName_nonEmpty hv

/-- Attribute lists that differ in what is required and in the form of texts only. -/
def softer : List AttrDecl → List AttrDecl → Bool
  | [], [] => true
  | a :: as, b :: bs => a.name == b.name && wider a.type b.type && (a.required || !b.required) && softer as bs
  | _, _ => false

theorem softer_any {a b : List AttrDecl} (h : softer a b = true) (nm v : Str)
    (ha : a.any (fun x => x.name == nm && x.type.ok v) = true) : b.any (fun x => x.name == nm && x.type.ok v) = true := by
  induction a generalizing b with
  | nil => cases ha
  | cons x xs ih =>
    cases b with
    | nil => simp [softer] at h
    | cons y ys =>
      simp only [softer, Bool.and_eq_true, beq_iff_eq, decide_eq_true_eq] at h
      rw [List.any_cons, Bool.or_eq_true, Bool.and_eq_true, beq_iff_eq] at ha ⊢
      rcases ha with ⟨h1, h2⟩ | ha
      · exact .inl ⟨by rw [← h.1.1.1]; exact h1, wider_ok h.1.1.2 h2⟩
      · exact .inr (ih h.2 ha)

theorem softer_all {a b : List AttrDecl} (h : softer a b = true) (f : Str → Bool)
    (ha : a.all (fun x => !x.required || f x.name) = true) : b.all (fun x => !x.required || f x.name) = true := by
  induction a generalizing b with
  | nil => cases b with
    | nil => rfl
    | cons => simp [softer] at h
  | cons x xs ih =>
    cases b with
    | nil => simp [softer] at h
    | cons y ys =>
      simp only [softer, Bool.and_eq_true, beq_iff_eq, decide_eq_true_eq] at h
      rw [List.all_cons, Bool.and_eq_true] at ha ⊢
      refine ⟨?_, ih h.2 ha.2⟩
      have h1 := ha.1
      have h2 := h.1.2
      rw [h.1.1.1] at h1
      cases hx : x.required <;> cases hy : y.required <;> simp_all

theorem softer_attrs {a b : List AttrDecl} (h : softer a b = true) (as : List Attr) (ha : attrsOk a as = true) : attrsOk b as = true := by
  unfold attrsOk at ha ⊢
  rw [Bool.and_eq_true] at ha ⊢
  refine ⟨?_, softer_all h (fun nm => as.any (fun x => x.ns.isNone && x.name == nm)) ha.2⟩
  rw [List.all_eq_true] at ha ⊢
  intro x hx
  have := ha.1 x hx
  rw [Bool.or_eq_true] at this ⊢
  exact this.imp id (softer_any h _ _)

/-- Particles of which the second list has all of the first, and requires less. -/
def fewer (a b : List Particle) : Prop :=
  (∀ nm t, (Model.all a).typeOf nm = some t → (Model.all b).typeOf nm = some t) ∧
  ∀ p ∈ b, p.required = true → ∃ q ∈ a, q.name = p.name ∧ q.required = true

theorem fewer_count {a b : List Particle} (h : fewer a b) (ks : List Node) (hc : (Model.all a).countOk ks = true) :
    (Model.all b).countOk ks = true := by
  simp only [Model.countOk, Bool.and_eq_true] at hc ⊢
  refine ⟨hc.1, ?_⟩
  rw [List.all_eq_true] at hc ⊢
  intro p hp
  cases hr : p.required with
  | false => rfl
  | true =>
    obtain ⟨q, hq, e1, e2⟩ := h.2 p hp hr
    have := hc.2 q hq
    rw [e2, e1] at this
    simpa using this

theorem narrower_all {a b : List AttrDecl} {x y : List Particle} (h : softer a b = true) (hf : fewer x y) : Narrower ⟨a, .all x⟩ ⟨b, .all y⟩ :=
  ⟨softer_attrs h, hf.1, fewer_count hf, rfl, rfl⟩

/-- Lists of the same particles, of which the second requires less. -/
def sameParticles : List Particle → List Particle → Prop
  | [], [] => True
  | a :: as, b :: bs => a.name = b.name ∧ a.type = b.type ∧ (a.required || !b.required) = true ∧ sameParticles as bs
  | _, _ => False

theorem same_typeOf {a b : List Particle} (h : sameParticles a b) (nm : Str) :
    (a.find? (fun p => p.name == nm)).map (·.type) = (b.find? (fun p => p.name == nm)).map (·.type) := by
  induction a generalizing b with
  | nil => cases b with
    | nil => rfl
    | cons => cases h
  | cons x xs ih =>
    cases b with
    | nil => cases h
    | cons y ys =>
      rw [List.find?_cons, List.find?_cons, h.1]
      cases y.name == nm with
      | true => exact congrArg some h.2.1
      | false => exact ih h.2.2.2

theorem same_required {a b : List Particle} (h : sameParticles a b) : ∀ p ∈ b, p.required = true → ∃ q ∈ a, q.name = p.name ∧ q.required = true := by
  induction a generalizing b with
  | nil => cases b with
    | nil => intro p hp; cases hp
    | cons => cases h
  | cons x xs ih =>
    cases b with
    | nil => cases h
    | cons y ys =>
      intro p hp hr
      rcases List.mem_cons.1 hp with rfl | hp
      · refine ⟨x, by simp, h.1, ?_⟩
        have := h.2.2.1
        rw [hr] at this
        simpa using this
      · obtain ⟨q, h1, h2⟩ := ih h.2.2.2 p hp hr
        exact ⟨q, by simp [h1], h2⟩

theorem fewer_same {a b : List Particle} (h : sameParticles a b) : fewer a b :=
  ⟨fun nm t e => by rw [← e]; exact (same_typeOf h nm).symm, same_required h⟩

theorem seqOk_sublist : ∀ {es : List Particle} {ns : List Str}, seqOk es ns = true → ns.Sublist (es.map (·.name))
  | [], ns, h => by
    rw [seqOk, List.isEmpty_iff] at h
    rw [h]
    exact .slnil
  | e :: es, [], _ => List.nil_sublist _
  | e :: es, n :: ns, h => by
    rw [seqOk] at h
    split at h
    · rename_i e1
      rw [List.map_cons, e1]
      exact (seqOk_sublist h).cons_cons _
    · rw [Bool.and_eq_true] at h
      exact (seqOk_sublist h.2).cons _

theorem narrower_sequence {a b : List AttrDecl} {x y : List Particle} (h : softer a b = true) (hf : sameParticles x y)
    (hn : noDup (x.map (·.name)) = true) : Narrower ⟨a, .sequence true x⟩ ⟨b, .sequence false y⟩ := by
  refine ⟨softer_attrs h, fun nm t e => by rw [← e]; exact (same_typeOf hf nm).symm, ?_, rfl, rfl⟩
  intro ks hc
  simp only [Model.countOk] at hc
  have : (Model.all y).countOk ks = true := by
    refine fewer_count (fewer_same hf) ks ?_
    simp only [Model.countOk, Bool.and_eq_true]
    refine ⟨noDup_iff.2 ((seqOk_sublist hc).nodup (noDup_iff.1 hn)), ?_⟩
    rw [List.all_eq_true]
    intro p hp
    cases hr : p.required with
    | false => rfl
    | true => simpa using seqOk_mem hc p hp hr
  exact this

theorem narrower_attrs {a b : List AttrDecl} {m : Model} (h : softer a b = true) : Narrower ⟨a, m⟩ ⟨b, m⟩ :=
  ⟨softer_attrs h, fun _ _ e => e, fun _ e => e, rfl, rfl⟩

theorem narrower_same {a b : List AttrDecl} {x y : List Particle} (h : softer a b = true) (hf : sameParticles x y) :
    Narrower ⟨a, .all x⟩ ⟨b, .all y⟩ := narrower_all h (fewer_same hf)

theorem write_lenient (t : TypeName) : Narrower (schema .write t) (schema .lenient t) := by
  cases t with
  | reqIf => exact narrower_sequence (by decide) (by simp [sameParticles, Dialect.strict]) (by decide)
  | header => exact narrower_sequence (by decide) (by simp [sameParticles, Dialect.strict]) (by decide)
  | content => exact narrower_sequence (by decide) (by simp [sameParticles, Dialect.strict]) (by decide)
  | coreContent =>
    refine ⟨fun _ h => h, fun _ _ h => h, ?_, rfl, rfl⟩
    intro ks h
    simp only [schema, Model.countOk, Bool.and_eq_true, decide_eq_true_eq] at h ⊢
    exact ⟨by simp [Dialect.strict], h.2⟩
  | dataType k => cases k <;> exact narrower_attrs (by decide)
  | enumValue => exact narrower_attrs (by decide)
  | embeddedValue => exact narrower_attrs (by decide)
  | specType s => exact narrower_attrs (by cases s <;> decide)
  | definition s k => cases k <;> cases s <;> exact narrower_attrs (by decide)
  | defaultValue k => cases k <;> exact Narrower.refl _
  | value b k => cases k <;> cases b <;> first | exact Narrower.refl _ | exact narrower_attrs (by decide) |
      exact narrower_same (by decide) (by simp [sameParticles, Dialect.strict, Kind.namesDefinition])
  | specObject => exact narrower_attrs (by decide)
  | specRelation => exact narrower_attrs (by decide)
  | specification => exact narrower_same (by decide) (by simp [sameParticles, Dialect.strict])
  | hierarchy => exact narrower_attrs (by decide)
  | relationGroup => exact narrower_same (by decide) (by simp [sameParticles, Dialect.strict])
  | text s =>
    refine ⟨fun _ h => h, fun _ _ h => h, ?_, rfl, rfl⟩
    intro ks h
    simp only [schema, Model.countOk, Bool.and_eq_true] at h ⊢
    exact ⟨h.1, wider_ok (a := s) (by cases s <;> decide) h.2⟩
  | _ => exact Narrower.refl _

theorem write_parse (t : TypeName) : Narrower (schema .write t) (schema .parse t) := by
  cases t with
  | definition s k =>
    refine narrower_all ?_ ⟨?_, ?_⟩
    · cases k <;> cases s <;> decide
    · intro nm t' h
      simp only [Model.typeOf, if_pos, Dialect.prints, List.nil_append, Bool.false_eq_true, if_false, List.cons_append, List.find?_cons] at h ⊢
      by_cases e : alternative.name == nm
      · rw [beq_iff_eq] at e
        rw [← e] at h
        exact absurd h (by simp [alternative])
      · simpa [e] using h
    · intro p hp hr
      simp only [Dialect.prints, Bool.false_eq_true, if_false, List.cons_append, List.nil_append, List.mem_cons, List.not_mem_nil, or_false] at hp
      rcases hp with rfl | rfl | rfl
      · cases hr
      · cases hr
      · exact ⟨⟨c!"TYPE", true, .definitionType k⟩, by simp, rfl, rfl⟩
  | specRelation =>
    refine narrower_all (by decide) ⟨?_, ?_⟩
    · intro nm t' h
      simp only [Model.typeOf, if_pos, Dialect.prints, List.nil_append, Bool.false_eq_true, if_false, List.cons_append, List.find?_cons] at h ⊢
      by_cases e : alternative.name == nm
      · rw [beq_iff_eq] at e
        rw [← e] at h
        exact absurd h (by simp [alternative])
      · simpa [e] using h
    · intro p hp hr
      simp only [Dialect.prints, Bool.false_eq_true, if_false, List.cons_append, List.nil_append, List.mem_cons, List.not_mem_nil, or_false] at hp
      rcases hp with rfl | rfl | rfl | rfl | rfl
      · cases hr
      · cases hr
      · exact ⟨⟨c!"SOURCE", true, .relationEnd⟩, by simp, rfl, rfl⟩
      · exact ⟨⟨c!"TARGET", true, .relationEnd⟩, by simp, rfl, rfl⟩
      · exact ⟨⟨c!"TYPE", true, .relationType⟩, by simp, rfl, rfl⟩
  | specObject =>
    refine narrower_all (by decide) ⟨?_, ?_⟩
    · intro nm t' h
      simp only [Model.typeOf, List.find?_cons] at h ⊢
      cases h1 : (alternative.name == nm) <;> cases h2 : (c!"VALUES" == nm) <;> cases h3 : (c!"TYPE" == nm) <;>
        rw [h1] at h <;> simp only [h2, h3] at h <;> exact h
    · intro p hp hr
      simp only [List.mem_cons, List.not_mem_nil, or_false] at hp
      rcases hp with rfl | rfl | rfl
      · cases hr
      · cases hr
      · exact ⟨⟨c!"TYPE", true, .objectType⟩, by simp, rfl, rfl⟩
  | value b k => cases k <;> exact Narrower.refl _
  | defaultValue k => cases k <;> exact Narrower.refl _
  | _ => exact Narrower.refl _

theorem parse_xsd (t : TypeName) : Narrower (schema .parse t) (schema .xsd t) := by
  cases t with
  | specType s => exact ⟨softer_attrs (by cases s <;> decide), fun _ _ h => h, fun _ h => h, rfl, rfl⟩
  | definition s k => exact ⟨softer_attrs (by cases s <;> cases k <;> decide), fun _ _ h => h, fun _ h => h, rfl, rfl⟩
  | defaultValue k =>
    refine ⟨fun _ h => h, ?_, ?_, ?_, ?_⟩
    · cases k <;> exact fun _ _ h => h
    · intro ks h
      have e : (schema .xsd (.defaultValue k)).model.countOk ks =
          (decide (0 ≤ (childNames ks).length) && decide ((childNames ks).length ≤ 1)) := by cases k <;> rfl
      have e2 : (ks.isEmpty || (childNames ks).length == 1) = true ∨
          (decide (1 ≤ (childNames ks).length) && decide ((childNames ks).length ≤ 1)) = true := by
        cases k <;> first | exact .inl h | exact .inr h
      rw [e]
      rcases e2 with h | h
      · rw [Bool.or_eq_true, List.isEmpty_iff, beq_iff_eq] at h
        rcases h with rfl | h
        · rfl
        · rw [h]; rfl
      · rw [Bool.and_eq_true, decide_eq_true_eq] at h
        rw [Bool.and_eq_true]
        exact ⟨by simp, h.2⟩
    · cases k <;> rfl
    · cases k <;> rfl
  | relationValues =>
    refine ⟨fun _ h => h, ?_, fun _ h => h, rfl, rfl⟩
    intro nm t' h
    obtain ⟨k, hk, e⟩ := kind_choice h
    simp only [Prod.mk.injEq] at e
    rw [← e.1, ← e.2]
    cases k <;> rfl
  | value b k =>
    cases k with
    | enumeration =>
      refine narrower_all (by decide) ⟨?_, ?_⟩
      · intro nm t' h
        simp only [Model.typeOf, List.find?_cons] at h ⊢
        cases h1 : (c!"DEFINITION" == nm) <;> cases h2 : (c!"VALUES" == nm) <;>
          rw [h1] at h <;> simp only [h2] at h <;> exact h
      · intro p hp hr
        simp only [List.mem_cons, List.not_mem_nil, or_false] at hp
        rcases hp with rfl | rfl
        · exact ⟨_, List.mem_cons_self .., rfl, by cases b <;> rfl⟩
        · cases hr
    | _ => exact Narrower.refl _
  | xhtmlContent b =>
    refine ⟨fun _ h => h, fun _ _ h => h, ?_, rfl, rfl⟩
    intro ks h
    simp only [schema, Model.countOk, Bool.and_eq_true] at h ⊢
    exact ⟨h.1, rfl⟩
  | _ => exact Narrower.refl _

/-- What is valid for parser and unparser is valid for the parser, and that is valid. -/
theorem validRoot_narrower {n : Node} (h : validRoot .write n = true) : validRoot .parse n = true := by
  cases n with
  | elem i ks =>
    rw [validRoot, Bool.and_eq_true] at h ⊢
    exact ⟨h.1, narrower_valid write_parse _ _ h.2⟩
  | _ => cases h

/-- What is valid for parser and unparser is valid without the other requirements. -/
theorem validRoot_lenient {n : Node} (h : validRoot .write n = true) : validRoot .lenient n = true := by
  cases n with
  | elem i ks =>
    rw [validRoot, Bool.and_eq_true] at h ⊢
    exact ⟨h.1, narrower_valid write_lenient _ _ h.2⟩
  | _ => cases h

theorem validRoot_xsd {n : Node} (h : validRoot .parse n = true) : validRoot .xsd n = true := by
  cases n with
  | elem i ks =>
    rw [validRoot, Bool.and_eq_true] at h ⊢
    exact ⟨h.1, narrower_valid parse_xsd _ _ h.2⟩
  | _ => cases h

end ReqIF.Xsd
