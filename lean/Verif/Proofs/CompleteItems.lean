import Verif.Proofs.SaidValid
/-!
# Which items are right

What an item says is right if and only if the item is complete.
-/
set_option linter.unusedSimpArgs false
namespace ReqIF.Xsd
open Spec

/-! ## Attributes -/

theorem suffices_string {o : Option Str} : Suffices .string false o ↔ True := by cases o <;> simp [Suffices, Simple.ok]

theorem suffices_some {t : Simple} {r : Bool} {v : Str} : Suffices t r (some v) ↔ t.ok v = true := Iff.rfl

theorem suffices_none {t : Simple} {r : Bool} : Suffices t r none ↔ r = false := Iff.rfl

theorem suffices_gives {t : Simple} {o : Option Str} : Suffices t true o ↔ Gives t o := by
  cases o <;> simp [Suffices, Gives]

theorem suffices_flag {o : Option Bool} : Suffices .boolean false (o.map boolOut) ↔ True := by
  cases o with
  | none => simp [Suffices]
  | some b => cases b <;> simp [Suffices] <;> decide

theorem gives_filter {t : Simple} {o : Option Str} (ht : t.ok [] = false) : Gives t (o.filter (fun v => !v.isEmpty)) ↔ Gives t o := by
  cases o with
  | none => simp [Gives]
  | some v =>
    cases v with
    | nil => simp [Gives, ht]
    | cons c v =>
      have : Option.filter (fun v => !v.isEmpty) (some (c :: v)) = some (c :: v) := rfl
      rw [this]

theorem gives_dropEmpty {t : Simple} {o : Option Str} (ht : t.ok [] = false) : Gives t (dropEmpty o) ↔ Gives t o := gives_filter ht

theorem gives_some {t : Simple} {v : Str} : Gives t (some v) ↔ t.ok v = true := by simp [Gives]

theorem gives_string {o : Option Str} : Gives .string o ↔ o.isSome = true := by cases o <;> simp [Gives, Simple.ok]

theorem keys_append {a b : List (Str × Str)} {l : List Str} (ha : ∀ k, (look a k).isSome → k ∈ l) (hb : ∀ k, (look b k).isSome → k ∈ l) :
    ∀ k, (look (a ++ b) k).isSome → k ∈ l := by
  intro k h
  rw [look_append] at h
  cases hx : look a k with
  | none => rw [hx] at h; exact hb k h
  | some v => exact ha k (by rw [hx]; rfl)

theorem keys_of {n : Str} {o : Option Str} {l : List Str} {f : Str → Option Str} (hf : ∀ k, f k = if n = k then o else none) (h : n ∈ l) :
    ∀ k, (f k).isSome → k ∈ l := by
  intro k hk
  rw [hf] at hk
  split at hk
  · rename_i e; exact e ▸ h
  · cases hk

theorem keys_one {n v : Str} {l : List Str} (h : n ∈ l) : ∀ k, (look [(n, v)] k).isSome → k ∈ l := keys_of (look_one n v) h
theorem keys_opt {n : Str} {o : Option Str} {l : List Str} (h : n ∈ l) : ∀ k, (look (optA n id o) k).isSome → k ∈ l := keys_of (look_opt n o) h
theorem keys_truthy {n : Str} {o : Option Str} {l : List Str} (h : n ∈ l) : ∀ k, (look (truthyA n id o) k).isSome → k ∈ l := keys_of (look_truthy n o) h
theorem keys_bool {n : Str} {o : Option Bool} {l : List Str} (h : n ∈ l) : ∀ k, (look (boolA n o) k).isSome → k ∈ l := keys_of (look_bool n o) h
theorem keys_nil {l : List Str} : ∀ k, (look [] k).isSome → k ∈ l := fun _ h => by cases h

/-- Closes the goal that all attributes are declared. -/
macro "all_declared" : tactic => `(tactic| (
  repeat' apply keys_append
  all_goals first
    | exact keys_nil
    | exact keys_one (by decide)
    | exact keys_opt (by decide)
    | exact keys_truthy (by decide)
    | exact keys_bool (by decide)))

theorem attrsRight_nil : AttrsRight [] (look []) := ⟨fun _ h => (by cases h), keys_nil⟩

theorem attrsRight_of {ds : List AttrDecl} {f : Str → Option Str} (h : ∀ k, (f k).isSome → k ∈ ds.map (·.name)) :
    AttrsRight ds f ↔ ∀ d ∈ ds, Suffices d.type d.required (f d.name) := ⟨fun x => x.1, fun x => ⟨x, h⟩⟩

theorem date_empty : Simple.ok .dateTime [] = false := by decide
theorem integer_empty : Simple.ok .integer [] = false := by decide
theorem ref_empty : Simple.ok .localRef [] = false := by decide

/-! ## Kids -/

theorem kidsRight_one {nm : Str} {t : TypeName} {c : Said} (hn : c.name = nm) : KidsRight (one nm t) [c] ↔ Right t c := by
  subst hn
  simp [KidsRight, one, Model.namesRight, Model.typeOf]

theorem kidsRight_many {es : List (Str × TypeName)} {cs : List Said} :
    KidsRight (.choice 0 none es) cs ↔ ∀ c ∈ cs, ∃ t, (Model.choice 0 none es).typeOf c.name = some t ∧ Right t c := by
  simp [KidsRight, Model.namesRight]

/-- References. -/
theorem right_ref {t : TypeName} {outer inner : Str} {s : Simple} {o : Option Str} (hr : Real (refOf outer inner o))
    (ht : schema .xsd t = ⟨[], one inner (.text s)⟩) (hs : suits outer (one inner (.text s)) = true) :
    Right t (refOf outer inner o) ↔ s.ok (o.getD []) = true := by
  have hk := real_record hr _ (List.mem_singleton.2 rfl)
  unfold refOf at hr ⊢
  rw [right_record hr (by rw [ht]; exact hs) (by rw [ht]; exact fun e => by cases e), ht, kidsRight_one (by rfl), right_text hk]
  simp [attrsRight_nil]

theorem ref_gives {s : Simple} {o : Option Str} (h : s.ok [] = false) : s.ok (o.getD []) = true ↔ Gives s o := by
  cases o <;> simp [Gives, h]

/-- Lists of items. -/
theorem right_items {α : Type} {t : TypeName} {nm : Str} {f : α → Said} {xs : List α} {P : α → Prop} {ty : α → TypeName} {es : List (Str × TypeName)}
    (hr : Real (listOf nm (xs.map f))) (ht : schema .xsd t = ⟨[], .choice 0 none es⟩) (hs : suits nm (.choice 0 none es) = true)
    (hty : ∀ x ∈ xs, (Model.choice 0 none es).typeOf (f x).name = some (ty x)) (h : ∀ x ∈ xs, Real (f x) → (Right (ty x) (f x) ↔ P x)) :
    Right t (listOf nm (xs.map f)) ↔ ∀ x ∈ xs, P x := by
  have hk := real_list hr
  rw [right_list hr (by rw [ht]; exact hs) (by rw [ht]; exact fun e => by cases e), ht, kidsRight_many]
  simp only [attrsRight_nil, true_and]
  constructor
  · intro h1 x hx
    have hm : f x ∈ xs.map f := List.mem_map.2 ⟨x, hx, rfl⟩
    obtain ⟨t', h2, h3⟩ := h1 _ hm
    rw [hty x hx] at h2
    cases h2
    exact (h x hx (hk _ hm)).1 h3
  · intro h1 c hc
    obtain ⟨x, hx, rfl⟩ := List.mem_map.1 hc
    exact ⟨ty x, hty x hx, (h x hx (hk _ hc)).2 (h1 x hx)⟩

/-! ## Data types -/

theorem right_enumValue {v : EnumValue} (hr : Real (enumValueSaid v)) : Right .enumValue (enumValueSaid v) ↔ CompleteEnumValue v := by
  have h1 := real_record hr _ (List.mem_singleton.2 rfl)
  have h2 := real_record h1 _ (List.mem_singleton.2 rfl)
  have e3 : Right .embeddedValue (recordOf c!"EMBEDDED-VALUE" ([(c!"KEY", v.key)] ++ optA c!"OTHER-CONTENT" id v.otherContent) []) ↔
      (Simple.ok .integer v.key = true ∧ v.otherContent.isSome = true) := by
    rw [right_record h2 (by rfl) (by intro e; cases e), attrsRight_of (by all_declared)]
    simp [schema, KidsRight, Model.namesRight, look_append, look_cons, look_opt, suffices_some, Dialect.form, Dialect.strict, suffices_gives, gives_string, gives_some]
  have e2 : Right .properties (recordOf c!"PROPERTIES" [] [recordOf c!"EMBEDDED-VALUE" ([(c!"KEY", v.key)] ++ optA c!"OTHER-CONTENT" id v.otherContent) []]) ↔
      (Simple.ok .integer v.key = true ∧ v.otherContent.isSome = true) := by
    rw [right_record h1 (by rfl) (by intro e; cases e), ← e3]
    show AttrsRight [] _ ∧ KidsRight (one c!"EMBEDDED-VALUE" .embeddedValue) _ ↔ _
    rw [kidsRight_one (by rfl)]
    simp [attrsRight_nil]
  unfold enumValueSaid at hr ⊢
  rw [right_record hr (by rfl) (by intro e; cases e), attrsRight_of (by all_declared)]
  have e1 : KidsRight (schema .xsd .enumValue).model [recordOf c!"PROPERTIES" [] [recordOf c!"EMBEDDED-VALUE" ([(c!"KEY", v.key)] ++ optA c!"OTHER-CONTENT" id v.otherContent) []]] ↔
      (Simple.ok .integer v.key = true ∧ v.otherContent.isSome = true) := by
    rw [← e2]
    simp [KidsRight, schema, Model.namesRight, Model.typeOf, alternative, recordOf, Said.name]
  rw [e1]
  simp [schema, usual, desc, identifier, lastChange, longName, look_append, look_cons, look_opt, suffices_some, Dialect.form, Dialect.strict,
    suffices_gives, suffices_string, gives_some]
  constructor
  · rintro ⟨⟨a, b⟩, c, d⟩; exact ⟨a, b, c, d⟩
  · rintro ⟨a, b, c, d⟩; exact ⟨⟨a, b⟩, c, d⟩

/-- The kind of a data type. -/
def dataKind : DataTypeKind → Kind
  | .string _ => .string
  | .boolean => .boolean
  | .integer _ _ => .integer
  | .real _ _ _ => .real
  | .enumeration _ => .enumeration
  | .xhtml => .xhtml
  | .date => .date

theorem digit_here {c : Char} (h : c.isDigit = true) : isDigit c = true ∧ isWs c = false := by
  refine ⟨?_, ?_⟩
  · simp only [Char.isDigit, Bool.and_eq_true, decide_eq_true_eq] at h
    unfold isDigit
    rw [Bool.and_eq_true, decide_eq_true_eq, decide_eq_true_eq]
    exact h
  · cases hw : isWs c with
    | false => rfl
    | true =>
      unfold isWs at hw
      simp only [Bool.or_eq_true, beq_iff_eq] at hw
      rcases hw with ((rfl | rfl) | rfl) | rfl <;> exact absurd h (by decide)

theorem fmtInt_ok (n : Int) : Simple.ok .integer (fmtInt n) = true := by
  have hd : ∀ m, (Nat.toDigits 10 m).all isDigit = true ∧ ∀ c ∈ Nat.toDigits 10 m, isWs c = false := fun m =>
    ⟨List.all_eq_true.2 fun c hc => (digit_here (toDigits_digit hc)).1, fun c hc => (digit_here (toDigits_digit hc)).2⟩
  have hn : ∀ m, (Nat.toDigits 10 m).isEmpty = false := fun m => by
    have : Nat.toDigits 10 m ≠ [] := Nat.toDigits_ne_nil
    cases h : Nat.toDigits 10 m with
    | nil => exact absurd h this
    | cons c s => rfl
  unfold Simple.ok
  dsimp only
  cases n with
  | ofNat n =>
    unfold fmtInt
    rw [trim_same (hd n).2]
    unfold isInteger
    split
    · rename_i h; have := (hd n).1; rw [h] at this; cases this
    · rename_i h; have := (hd n).1; rw [h] at this; cases this
    · rw [hn, (hd n).1]; rfl
  | negSucc n =>
    unfold fmtInt
    rw [trim_same (fun c hc => by
      rcases List.mem_cons.1 hc with rfl | h
      · decide
      · exact (hd _).2 c h)]
    show (!(Nat.toDigits 10 (n + 1)).isEmpty && (Nat.toDigits 10 (n + 1)).all isDigit) = true
    rw [hn, (hd _).1]; rfl

theorem right_dataType {d : DataType} (hr : Real (dataTypeSaid d)) : Right (.dataType (dataKind d.kind)) (dataTypeSaid d) ↔ CompleteDataType d := by
  obtain ⟨⟨i, ds, lc, ln, sc⟩, kind⟩ := d
  have hform : ∀ {A B : Prop}, A ∧ B ↔ B ∧ A := fun {A B} => And.comm
  cases kind with
  | enumeration vs =>
    cases vs with
    | none =>
      unfold dataTypeSaid at hr ⊢
      dsimp only [dataKind] at hr ⊢
      rw [right_record hr (by rfl) (by intro e; cases e), attrsRight_of (by all_declared)]
      simp [schema, usual, desc, identifier, lastChange, longName, look_append, look_one, look_cons, look_opt, look_truthy, suffices_some, Dialect.form,
        Dialect.strict, suffices_gives, suffices_string, gives_some, gives_filter date_empty, KidsRight, Model.namesRight, Model.typeOf, alternative]
      exact ⟨fun h => ⟨h.1, h.2, trivial⟩, fun h => ⟨h.1, h.2⟩⟩
    | some vs =>
      unfold dataTypeSaid at hr ⊢
      dsimp only [dataKind] at hr ⊢
      have h1 := real_record hr _ (List.mem_singleton.2 rfl)
      have e1 : Right .specifiedValues (listOf c!"SPECIFIED-VALUES" (vs.map enumValueSaid)) ↔ ∀ v ∈ vs, CompleteEnumValue v :=
        right_items h1 rfl (by rfl) (ty := fun _ => .enumValue) (fun _ _ => rfl) (fun v _ hv => right_enumValue hv)
      rw [right_record hr (by rfl) (by intro e; cases e), attrsRight_of (by all_declared)]
      have e2 : KidsRight (schema .xsd (.dataType .enumeration)).model [listOf c!"SPECIFIED-VALUES" (vs.map enumValueSaid)] ↔ ∀ v ∈ vs, CompleteEnumValue v := by
        rw [← e1]
        simp [KidsRight, schema, Model.namesRight, Model.typeOf, alternative, listOf, Said.name]
      rw [e2]
      simp [schema, usual, desc, identifier, lastChange, longName, look_append, look_one, look_cons, look_opt, look_truthy, suffices_some, Dialect.form,
        Dialect.strict, suffices_gives, suffices_string, gives_some, gives_filter date_empty]
      exact ⟨fun h => ⟨h.1.1, h.1.2, h.2⟩, fun h => ⟨⟨h.1, h.2⟩, h.3⟩⟩
  | real acc mx mn =>
    unfold dataTypeSaid at hr ⊢
    dsimp only [dataKind] at hr ⊢
    rw [right_record hr (by rfl) (by intro e; cases e), attrsRight_of (by all_declared)]
    have hacc : Gives .integer (acc.map fmtInt) ↔ acc.isSome = true := by
      cases acc with
      | none => simp [Gives]
      | some n => simp [Gives, fmtInt_ok]
    simp [schema, usual, desc, identifier, lastChange, longName, look_append, look_one, look_cons, look_opt, look_truthy, suffices_some, Dialect.form,
      Dialect.strict, suffices_gives, suffices_string, gives_some, gives_filter date_empty, KidsRight, Model.namesRight, Model.typeOf, alternative, hacc]
    exact ⟨fun h => ⟨h.1, h.2.1, h.2.2⟩, fun h => ⟨h.1, h.2, h.3⟩⟩
  | _ =>
    unfold dataTypeSaid at hr ⊢
    dsimp only [dataKind] at hr ⊢
    rw [right_record hr (by rfl) (by intro e; cases e), attrsRight_of (by all_declared)]
    simp [schema, usual, desc, identifier, lastChange, longName, look_append, look_one, look_cons, look_opt, look_truthy, suffices_some, Dialect.form,
      Dialect.strict, suffices_gives, suffices_string, gives_some, gives_filter date_empty, gives_filter integer_empty, KidsRight, Model.namesRight, Model.typeOf, alternative]
    first
      | exact ⟨fun h => ⟨h.1, h.2, trivial⟩, fun h => ⟨h.1, h.2⟩⟩
      | exact ⟨fun h => ⟨h.1, h.2.1, h.2.2⟩, fun h => ⟨h.1, h.2, h.3⟩⟩

theorem right_dataTypes {ds : List DataType} (hr : Real (listOf c!"DATATYPES" (ds.map dataTypeSaid))) :
    Right .datatypes (listOf c!"DATATYPES" (ds.map dataTypeSaid)) ↔ ∀ d ∈ ds, CompleteDataType d := by
  refine right_items hr rfl (by rfl) (ty := fun d => .dataType (dataKind d.kind)) (fun d _ => ?_) (fun d _ hd => right_dataType hd)
  obtain ⟨⟨i, ds, lc, ln, sc⟩, kind⟩ := d
  cases kind <;> rfl

/-! ## Attribute values -/

/-- The kind of an attribute. -/
def kindOf : AttrType → Kind
  | .string => .string
  | .enumeration => .enumeration
  | .integer => .integer
  | .real => .real
  | .boolean => .boolean
  | .date => .date
  | .xhtml => .xhtml

theorem right_valueDefinition {k : AttrType} {o : Option Str} (hr : Real (refOf c!"DEFINITION" (c!"ATTRIBUTE-DEFINITION-" ++ k.pyName ++ c!"-REF") o)) :
    Right (.valueDefinition (kindOf k)) (refOf c!"DEFINITION" (c!"ATTRIBUTE-DEFINITION-" ++ k.pyName ++ c!"-REF") o) ↔ Gives .localRef o := by
  rw [right_ref (s := .localRef) hr (by cases k <;> rfl) (by cases k <;> rfl), ref_gives ref_empty]

theorem right_texts {t : TypeName} {nm inner : Str} {vs : List (Option Str)} (hr : Real (listOf nm (vs.map (textSaid inner))))
    (ht : schema .xsd t = ⟨[], .choice 0 none [(inner, .text .localRef)]⟩) (hs : suits nm (.choice 0 none [(inner, .text .localRef)]) = true) :
    Right t (listOf nm (vs.map (textSaid inner))) ↔ ∀ v ∈ vs, Gives .localRef v :=
  right_items hr ht hs (ty := fun _ => .text .localRef) (fun v _ => by simp [Model.typeOf, textSaid, Said.name])
    (fun v _ hv => by rw [right_text hv, ref_gives ref_empty])

theorem right_value {Γ : Ctx} {p : Str} {a : SpecObjectAttribute} (hs : SafeValue Γ a) (hr : Real (valueSaid p a)) :
    (valueSaid p a).name = c!"ATTRIBUTE-VALUE-" ++ (kindOf a.type).name ∧ (Right (.value false (kindOf a.type)) (valueSaid p a) ↔ CompleteValue a) := by
  obtain ⟨ty, ref, val, sx, xn⟩ := a
  have hv := hs.value
  cases val with
  | list vs =>
    cases ty with
    | enumeration =>
      refine ⟨rfl, ?_⟩
      unfold valueSaid at hr ⊢
      dsimp only [kindOf] at hr ⊢
      have h1 := right_valueDefinition (k := .enumeration) (real_record hr _ List.mem_cons_self)
      have h2 := right_texts (t := .enumRefs false) (real_record hr (listOf c!"VALUES" (vs.map (textSaid c!"ENUM-VALUE-REF"))) (by simp)) rfl (by rfl)
      simp only [AttrType.pyName, kindOf, List.cons_append, List.nil_append] at h1
      rw [right_record hr (by rfl) (by intro e; cases e), attrsRight_of (by all_declared)]
      simp [schema, KidsRight, Model.namesRight, Model.typeOf, refOf_name, listOf_name]
      rw [h1, h2]
      exact ⟨fun h => ⟨h.1, h.2⟩, fun h => ⟨h.1, h.2⟩⟩
    | _ => exact hv.elim
  | str v =>
    cases ty with
    | enumeration => exact hv.elim
    | xhtml =>
      refine ⟨rfl, ?_⟩
      unfold valueSaid at hr ⊢
      dsimp only [kindOf] at hr ⊢
      have h1 := right_valueDefinition (k := .xhtml) (real_record hr _ List.mem_cons_self)
      have h2 : Right (.xhtmlContent false) (xhtmlSaid c!"THE-VALUE" p v) := right_xhtml
      simp only [AttrType.pyName, kindOf, List.cons_append, List.nil_append] at h1
      rw [right_record hr (by rfl) (by intro e; cases e), attrsRight_of (by all_declared)]
      simp [schema, KidsRight, Model.namesRight, Model.typeOf, refOf_name, xhtmlSaid_name, look_nil, suffices_none]
      rw [h1]
      exact ⟨fun h => ⟨h.1, rfl⟩, fun h => ⟨h.1, h2⟩⟩
    | _ =>
      refine ⟨rfl, ?_⟩
      unfold valueSaid at hr ⊢
      dsimp only [kindOf] at hr ⊢
      have h1 := right_valueDefinition (real_record hr _ (List.mem_singleton.2 rfl))
      rw [right_record hr (by rfl) (by intro e; cases e), attrsRight_of (by all_declared)]
      simp only [AttrType.pyName, kindOf, List.cons_append, List.nil_append] at h1
      simp [schema, KidsRight, Model.namesRight, Model.typeOf, refOf_name, look_cons, suffices_some, Dialect.form, AttrType.pyName]
      rw [h1]
      first
        | exact ⟨fun h => ⟨h.2, h.1⟩, fun h => ⟨h.2, h.1⟩⟩
        | exact ⟨fun h => ⟨h, rfl⟩, fun h => ⟨by rfl, h.1⟩⟩

theorem right_values {Γ : Ctx} {p : Str} {t : TypeName} {vs : List SpecObjectAttribute} (hs : ∀ a ∈ vs, SafeValue Γ a) (hr : Real (valuesSaid p vs))
    (ht : schema .xsd t = ⟨[], .choice 0 none (Kind.all.map fun k => (c!"ATTRIBUTE-VALUE-" ++ k.name, .value false k))⟩) :
    Right t (valuesSaid p vs) ↔ ∀ a ∈ vs, CompleteValue a := by
  have hk := real_list hr
  refine right_items hr ht (by rfl) (ty := fun a => .value false (kindOf a.type)) (fun a ha => ?_) (fun a ha h => (right_value (hs a ha) h).2)
  rw [(right_value (hs a ha) (hk _ (List.mem_map.2 ⟨a, ha, rfl⟩))).1]
  cases a.type <;> rfl

/-! ## Children in the order of the source -/

theorem ordered_names {F : Tag → Option Said} (hF : ∀ t s, F t = some s → t = .name s.name) (l : List Tag) :
    ((l.filterMap F).map Said.name).map Tag.name = l.filter (fun t => (F t).isSome) := by
  induction l with
  | nil => rfl
  | cons t l ih =>
    cases h : F t with
    | none =>
      rw [List.filterMap_cons_none h, List.filter_cons_of_neg (by rw [h]; simp), ih]
    | some s =>
      rw [List.filterMap_cons_some h, List.filter_cons_of_pos (by rw [h]; rfl), ← ih, List.map_cons, List.map_cons, ← hF t s h]

theorem nodup_tags (ns : List Str) : (ns.map Tag.name).Nodup ↔ ns.Nodup := by
  unfold List.Nodup
  rw [List.pairwise_map]
  have : ∀ {a b : Str}, (Tag.name a ≠ Tag.name b) ↔ a ≠ b := fun {a b} => ⟨fun h e => h (e ▸ rfl), fun h e => h (by injection e)⟩
  simp only [this]

theorem kidsRight_ordered {es : List Particle} {F : Tag → Option Said} {l : List Tag} (hF : ∀ t s, F t = some s → t = .name s.name) :
    KidsRight (.all es) (l.filterMap F) ↔ (l.filter (fun t => (F t).isSome)).Nodup ∧
      (∀ p ∈ es, p.required = true → .name p.name ∈ l ∧ (F (.name p.name)).isSome = true) ∧
      ∀ t ∈ l, ∀ s, F t = some s → ∃ t', (Model.all es).typeOf s.name = some t' ∧ Right t' s := by
  unfold KidsRight Model.namesRight
  rw [← ordered_names hF, nodup_tags, and_assoc]
  refine and_congr_right fun _ => and_congr ?_ ?_
  · refine forall_congr' fun p => imp_congr_right fun _ => imp_congr_right fun _ => ?_
    have h1 : p.name ∈ (l.filterMap F).map Said.name ↔ Tag.name p.name ∈ ((l.filterMap F).map Said.name).map Tag.name := by
      constructor
      · intro h; exact List.mem_map.2 ⟨_, h, rfl⟩
      · intro h
        obtain ⟨x, hx, e⟩ := List.mem_map.1 h
        injection e with e
        exact e ▸ hx
    rw [h1, ordered_names hF, List.mem_filter]
  · constructor
    · intro h t ht s hs
      exact h s (List.mem_filterMap.2 ⟨t, ht, hs⟩)
    · intro h s hs
      obtain ⟨t, ht, e⟩ := List.mem_filterMap.1 hs
      exact h t ht s e

/-! ## Attribute definitions -/

/-- Default values. -/
theorem right_default {p : Str} {a : SpecAttributeDefinition} {v : DefaultValue} (hv : a.defaultValue = some v) (hr : Real (defaultSaid p a v)) :
    Right (.defaultValue (kindOf a.type)) (defaultSaid p a v) ↔ CompleteDefault a := by
  obtain ⟨ty, ident, dt, xn, ds, lc, ln, ed, dref, dv, mv⟩ := a
  cases hv
  cases v with
  | selfClosed =>
    unfold defaultSaid at hr ⊢
    rw [right_record hr (by cases ty <;> rfl) (by cases ty <;> exact fun e => by cases e)]
    unfold CompleteDefault
    have : AttrsRight (schema .xsd (.defaultValue (kindOf ty))).attrs (look []) := attrsRight_nil
    cases ty <;> simp [schema, KidsRight, Model.namesRight, attrsRight_nil, kindOf]
  | str v =>
    cases ty with
    | boolean =>
      unfold defaultSaid at hr ⊢
      have h0 := real_record hr _ (List.mem_singleton.2 rfl)
      have h1 := right_valueDefinition (k := .boolean) (real_record h0 _ (List.mem_singleton.2 rfl))
      simp only [AttrType.pyName, kindOf, List.cons_append, List.nil_append] at h1
      rw [right_record hr (by rfl) (by intro e; cases e)]
      have h2 : Right (.value true .boolean) (recordOf c!"ATTRIBUTE-VALUE-BOOLEAN" [(c!"THE-VALUE", v)]
          [refOf c!"DEFINITION" c!"ATTRIBUTE-DEFINITION-BOOLEAN-REF" dref]) ↔ (Simple.ok .boolean v = true ∧ Gives .localRef dref) := by
        rw [right_record h0 (by rfl) (by intro e; cases e), attrsRight_of (by all_declared), ← h1]
        simp [schema, KidsRight, Model.namesRight, Model.typeOf, refOf_name, look_cons, suffices_some, Dialect.form]
      simp [schema, KidsRight, Model.namesRight, Model.typeOf, attrsRight_nil, kindOf, Said.name, recordOf, Kind.name]
      simp only [recordOf] at h2
      rw [h2]
      exact And.comm
    | enumeration =>
      unfold defaultSaid at hr ⊢
      have h0 := real_record hr _ (List.mem_singleton.2 rfl)
      have h1 := right_valueDefinition (k := .enumeration) (real_record h0 _ List.mem_cons_self)
      have h3 := right_texts (t := .enumRefs true) (vs := [some v]) (real_record h0 (listOf c!"VALUES" ([some v].map (textSaid c!"ENUM-VALUE-REF"))) (by simp)) rfl (by rfl)
      simp only [AttrType.pyName, kindOf, List.cons_append, List.nil_append] at h1
      rw [right_record hr (by rfl) (by intro e; cases e)]
      have h2 : Right (.value true .enumeration) (recordOf c!"ATTRIBUTE-VALUE-ENUMERATION" []
          [refOf c!"DEFINITION" c!"ATTRIBUTE-DEFINITION-ENUMERATION-REF" dref, listOf c!"VALUES" [textSaid c!"ENUM-VALUE-REF" (some v)]]) ↔
          (Gives .localRef dref ∧ Simple.ok .localRef v = true) := by
        rw [right_record h0 (by rfl) (by intro e; cases e), attrsRight_of (by all_declared), ← h1]
        simp [gives_some] at h3
        simp [schema, KidsRight, Model.namesRight, Model.typeOf, refOf_name, listOf_name, Dialect.form, h3]
      simp [schema, KidsRight, Model.namesRight, Model.typeOf, attrsRight_nil, kindOf, Said.name, recordOf, Kind.name]
      simp only [recordOf] at h2
      rw [h2]
      exact Iff.rfl
    | xhtml =>
      unfold defaultSaid at hr ⊢
      have h0 := real_record hr _ (List.mem_singleton.2 rfl)
      have h1 := right_valueDefinition (k := .xhtml) (real_record h0 _ List.mem_cons_self)
      have h3 : Right (.xhtmlContent true) (xhtmlSaid c!"THE-VALUE" p v) := right_xhtml
      simp only [AttrType.pyName, kindOf, List.cons_append, List.nil_append] at h1
      rw [right_record hr (by rfl) (by intro e; cases e)]
      have h2 : Right (.value true .xhtml) (recordOf c!"ATTRIBUTE-VALUE-XHTML" []
          [refOf c!"DEFINITION" c!"ATTRIBUTE-DEFINITION-XHTML-REF" dref, xhtmlSaid c!"THE-VALUE" p v]) ↔ Gives .localRef dref := by
        rw [right_record h0 (by rfl) (by intro e; cases e), attrsRight_of (by all_declared), ← h1]
        simp [schema, KidsRight, Model.namesRight, Model.typeOf, refOf_name, xhtmlSaid_name, Dialect.form, h3, look_nil, suffices_none]
      simp [schema, KidsRight, Model.namesRight, Model.typeOf, attrsRight_nil, kindOf, Said.name, recordOf, Kind.name]
      simp only [recordOf] at h2
      rw [h2]
      exact ⟨fun h => ⟨h, trivial⟩, fun h => h.1⟩
    | _ =>
      unfold defaultSaid at hr ⊢
      have h0 := real_record hr _ (List.mem_singleton.2 rfl)
      rw [right_record hr (by rfl) (by intro e; cases e)]
      refine ⟨fun h => ?_, fun h => h.2.elim⟩
      obtain ⟨t', h1, h2⟩ := h.2.2 _ (List.mem_singleton.2 rfl)
      cases h1
      dsimp only [kindOf] at h2
      rw [right_record h0 (by rfl) (by intro e; cases e)] at h2
      have := h2.2.1.2 ⟨c!"DEFINITION", true, _⟩ (by exact List.mem_singleton.2 rfl) rfl
      cases this

theorem right_definitionType {a : SpecAttributeDefinition} (hr : Real (refOf c!"TYPE" a.type.definitionTag a.datatypeDefinition)) :
    Right (.definitionType (kindOf a.type)) (refOf c!"TYPE" a.type.definitionTag a.datatypeDefinition) ↔ Gives .localRef a.datatypeDefinition := by
  unfold AttrType.definitionTag at hr ⊢
  rw [right_ref (s := .localRef) hr (by cases a.type <;> rfl) (by cases a.type <;> rfl), ref_gives ref_empty]

theorem filter_same {α : Type} {f g : α → Bool} {l : List α} (h : ∀ x ∈ l, f x = g x) : l.filter f = l.filter g :=
  List.filter_congr h

theorem right_definition {Γ : Ctx} {p : Str} {s : SpecKind} {a : SpecAttributeDefinition} (hs : SafeDefinition Γ a) (hr : Real (definitionSaid p a)) :
    Right (.definition s (kindOf a.type)) (definitionSaid p a) ↔ CompleteDefinition a := by
  obtain ⟨ho1, ho2, ho3⟩ := hs.order
  unfold definitionSaid at hr ⊢
  generalize hF : (fun t : Tag => if t = .name c!"TYPE" then some (refOf c!"TYPE" a.type.definitionTag a.datatypeDefinition)
      else if t = .name c!"DEFAULT-VALUE" then a.defaultValue.map (defaultSaid p a) else none) = F at hr ⊢
  have f1 : F (.name c!"TYPE") = some (refOf c!"TYPE" a.type.definitionTag a.datatypeDefinition) := by rw [← hF]; rfl
  have f2 : F (.name c!"DEFAULT-VALUE") = a.defaultValue.map (defaultSaid p a) := by rw [← hF]; simp
  have hname : ∀ v, (defaultSaid p a v).name = c!"DEFAULT-VALUE" := fun v => by cases v <;> rfl
  have hFn : ∀ t s, F t = some s → t = .name s.name := by
    intro t s h
    rw [← hF] at h
    dsimp only at h
    split at h
    · rename_i e; injection h with h; rw [← h]; exact e
    · split at h
      · rename_i e
        rw [Option.map_eq_some_iff] at h
        obtain ⟨v, -, rfl⟩ := h
        rw [hname]; exact e
      · cases h
  have hkids := real_record hr
  have r1 := right_definitionType (hkids _ (List.mem_filterMap.2 ⟨_, ho2, f1⟩))
  have e1 : (sourceOrder a.xmlNode definitionTags).filter (fun t => (F t).isSome) = definitionOrder a := by
    unfold definitionOrder
    refine filter_same fun t ht => ?_
    have := ho1 t ht
    simp only [definitionTags, List.map_cons, List.map_nil, List.mem_cons, List.not_mem_nil, or_false] at this
    rcases this with rfl | rfl
    · rw [f2]; cases a.defaultValue <;> rfl
    · rw [f1]; rfl
  have hmodel : (schema .xsd (.definition s (kindOf a.type))).model = .all [alternative, ⟨c!"DEFAULT-VALUE", false, .defaultValue (kindOf a.type)⟩,
      ⟨c!"TYPE", true, .definitionType (kindOf a.type)⟩] := rfl
  rw [right_record hr (by rw [hmodel]; cases a.type <;> rfl) (by rw [hmodel]; exact fun e => by cases e), hmodel, kidsRight_ordered hFn, e1]
  have hattr : AttrsRight (schema .xsd (.definition s (kindOf a.type))).attrs (look (optA c!"DESC" id a.description ++ [(c!"IDENTIFIER", a.identifier)] ++
      boolA c!"IS-EDITABLE" a.editable ++ truthyA c!"LAST-CHANGE" id a.lastChange ++ optA c!"LONG-NAME" id a.longName ++
      boolA c!"MULTI-VALUED" a.multiValued)) ↔ (Simple.ok .id a.identifier = true ∧ Gives .dateTime a.lastChange ∧
        (a.type = .enumeration → a.multiValued.isSome)) := by
    by_cases hty : a.type = .enumeration
    · have hmv : Gives .boolean (a.multiValued.map boolOut) ↔ a.multiValued.isSome = true := by
        cases a.multiValued with
        | none => simp [Gives]
        | some b => cases b <;> simp [Gives] <;> decide
      have hds : (schema .xsd (.definition s .enumeration)).attrs = [desc, identifier .xsd, isEditable .xsd, lastChange .xsd, longName false,
          ⟨c!"MULTI-VALUED", .boolean, true⟩] := by cases s <;> rfl
      rw [hty]
      dsimp only [kindOf]
      rw [hds, attrsRight_of (by all_declared)]
      simp [schema, desc, identifier, lastChange, longName, isEditable, look_append, look_one, look_cons, look_opt, look_truthy, look_bool, suffices_some,
        Dialect.form, Dialect.strict, suffices_gives, suffices_string, suffices_flag, gives_some, gives_filter date_empty, hmv, kindOf]
    · have hmv : a.multiValued = none := by
        cases h : a.multiValued with
        | none => rfl
        | some b => exact absurd (hs.multi (by rw [h]; rfl)) hty
      have hk : ¬ kindOf a.type = .enumeration := by
        intro e; apply hty; revert e; cases a.type <;> intro e <;> first | rfl | cases e
      have hb : boolA c!"MULTI-VALUED" a.multiValued = [] := by rw [hmv]; rfl
      have hds : (schema .xsd (.definition s (kindOf a.type))).attrs = [desc, identifier .xsd, isEditable .xsd, lastChange .xsd, longName false] := by
        show _ ++ (if kindOf a.type = .enumeration then _ else []) = _
        rw [if_neg hk]
        cases s <;> rfl
      rw [hb, List.append_nil, hds, attrsRight_of (by all_declared)]
      simp [schema, desc, identifier, lastChange, longName, isEditable, look_append, look_one, look_cons, look_opt, look_truthy, look_bool, suffices_some,
        Dialect.form, Dialect.strict, suffices_gives, suffices_string, suffices_flag, gives_some, gives_filter date_empty, hty]
  rw [hattr]
  constructor
  · rintro ⟨⟨h1, h2, h3⟩, h4, -, h6⟩
    refine ⟨h1, h2, ?_, h3, ?_, h4⟩
    · obtain ⟨t', h7, h8⟩ := h6 _ ho2 _ f1
      cases h7
      exact r1.1 h8
    · cases hd : a.defaultValue with
      | none => unfold CompleteDefault; rw [hd]; trivial
      | some v =>
        have hm := ho3 (by rw [hd]; rfl)
        have hfv : F (.name c!"DEFAULT-VALUE") = some (defaultSaid p a v) := by rw [f2, hd]; rfl
        obtain ⟨t', h7, h8⟩ := h6 _ hm _ hfv
        rw [hname] at h7
        cases h7
        exact (right_default hd (hkids _ (List.mem_filterMap.2 ⟨_, hm, hfv⟩))).1 h8
  · rintro ⟨h1, h2, h3, h4, h5, h6⟩
    refine ⟨⟨h1, h2, h4⟩, h6, ?_, ?_⟩
    · intro q hq hreq
      simp only [List.mem_cons, List.not_mem_nil, or_false] at hq
      rcases hq with rfl | rfl | rfl
      · cases hreq
      · cases hreq
      · exact ⟨ho2, by rw [f1]; rfl⟩
    · intro t ht c hc
      have := ho1 t ht
      simp only [definitionTags, List.map_cons, List.map_nil, List.mem_cons, List.not_mem_nil, or_false] at this
      rcases this with rfl | rfl
      · have hc' := hc
        rw [f2, Option.map_eq_some_iff] at hc'
        obtain ⟨v, hd, rfl⟩ := hc'
        exact ⟨_, by rw [hname]; rfl, (right_default hd (hkids _ (List.mem_filterMap.2 ⟨_, ht, hc⟩))).2 h5⟩
      · rw [f1] at hc
        cases hc
        exact ⟨_, rfl, r1.2 h3⟩

theorem right_definitions {Γ : Ctx} {p : Str} {s : SpecKind} {ds : List SpecAttributeDefinition} (hs : ∀ d ∈ ds, SafeDefinition Γ d)
    (hr : Real (listOf c!"SPEC-ATTRIBUTES" (ds.map (definitionSaid p)))) :
    Right (.specAttributes s) (listOf c!"SPEC-ATTRIBUTES" (ds.map (definitionSaid p))) ↔ ∀ d ∈ ds, CompleteDefinition d := by
  refine right_items hr rfl (by cases s <;> rfl) (ty := fun d => .definition s (kindOf d.type)) (fun d _ => ?_) (fun d hd h => right_definition (hs d hd) h)
  show (Model.choice 0 none _).typeOf d.type.specTypeTag = _
  cases d.type <;> rfl

/-! ## Spec types -/

def specKind : SpecType → SpecKind
  | .object _ => .object
  | .relation _ => .relation
  | .specification _ => .specification
  | .relationGroup _ => .group

theorem right_typeSaid {Γ : Ctx} {p : Str} {s : SpecKind} {tag i : Str} {ds lc ln : Option Str} {sc : Bool} {o : Option (List SpecAttributeDefinition)}
    (hsafe : ∀ ds, o = some ds → ∀ d ∈ ds, SafeDefinition Γ d) (hr : Real (typeSaid p tag (typeAttrs i ds lc ln) sc o))
    (hsuit : suits tag (schema .xsd (.specType s)).model = true) :
    Right (.specType s) (typeSaid p tag (typeAttrs i ds lc ln) sc o) ↔
      (Simple.ok .id i = true ∧ Gives .dateTime lc ∧ ∀ xs, o = some xs → ∀ d ∈ xs, CompleteDefinition d) := by
  unfold typeSaid at hr ⊢
  have hkids := real_record hr
  rw [right_record hr hsuit (by cases s <;> exact fun e => by cases e)]
  have ha : AttrsRight (schema .xsd (.specType s)).attrs (look (typeAttrs i ds lc ln)) ↔ (Simple.ok .id i = true ∧ Gives .dateTime lc) := by
    have e : (schema .xsd (.specType s)).attrs = usual .xsd := by cases s <;> rfl
    unfold typeAttrs
    rw [e, attrsRight_of (by all_declared)]
    simp [usual, desc, identifier, lastChange, longName, look_append, look_one, look_cons, look_opt, look_truthy, look_bool, suffices_some,
        Dialect.form, Dialect.strict, suffices_gives, suffices_string, gives_some]
  have hmodel : (schema .xsd (.specType s)).model = .all [alternative, ⟨c!"SPEC-ATTRIBUTES", false, .specAttributes s⟩] := rfl
  have key : ∀ xs, o = some xs → (if sc && !someDefinition o then none else o) = some xs ∨ xs = [] := by
    rintro xs rfl
    cases xs with
    | nil => exact .inr rfl
    | cons x xs => left; cases sc <;> rfl
  rw [ha, hmodel, and_assoc]
  refine and_congr_right fun _ => and_congr_right fun _ => ?_
  cases hc : (if sc && !someDefinition o then none else o) with
  | none =>
    refine ⟨fun _ xs hxs d hd => ?_, fun _ => ?_⟩
    · rcases key xs hxs with h | h
      · rw [hc] at h; cases h
      · rw [h] at hd; cases hd
    · simp [containerSaid, KidsRight, Model.namesRight, alternative]
  | some xs =>
    have hoxs : o = some xs := by
      split at hc
      · cases hc
      · exact hc
    rw [hc] at hkids
    have hreal := hkids _ (List.mem_singleton.2 rfl)
    have := right_definitions (s := s) (hsafe xs hoxs) hreal
    simp only [containerSaid, Option.map_some, Option.toList_some]
    simp [KidsRight, Model.namesRight, Model.typeOf, alternative, listOf_name]
    rw [this]
    constructor
    · rintro h ys hys
      rw [hoxs] at hys
      cases hys
      exact h
    · exact fun h => h xs hoxs

theorem right_specType {Γ : Ctx} {p : Str} {t : SpecType} (hs : SafeSpecType Γ t) (hr : Real (specTypeSaid p t)) :
    Right (.specType (specKind t)) (specTypeSaid p t) ↔ CompleteSpecType t := by
  have hd := hs.definitions
  have hiff : CompleteSpecType t ↔ (Simple.ok .id (typeStamp t).1 = true ∧ Gives .dateTime (typeStamp t).2 ∧
      ∀ ds, SpecType.definitions t = some ds → ∀ d ∈ ds, CompleteDefinition d) :=
    ⟨fun h => ⟨h.1, h.2, h.3⟩, fun h => ⟨h.1, h.2.1, h.2.2⟩⟩
  rw [hiff]
  cases t with
  | _ t => exact right_typeSaid hd hr (by rfl)

/-! ## Objects and relations -/

theorem right_objectAttrs {t : TypeName} (ht : (schema .xsd t).attrs = usual .xsd) {i : Str} {ds lc ln : Option Str} :
    AttrsRight (schema .xsd t).attrs (look (optA c!"DESC" id ds ++ [(c!"IDENTIFIER", i)] ++ optA c!"LAST-CHANGE" id lc ++ optA c!"LONG-NAME" id ln)) ↔
      (Simple.ok .id i = true ∧ Gives .dateTime lc) := by
  rw [ht, attrsRight_of (by all_declared)]
  simp [usual, desc, identifier, lastChange, longName, look_append, look_one, look_cons, look_opt, look_truthy, look_bool, suffices_some,
    Dialect.form, Dialect.strict, suffices_gives, suffices_string, gives_some]

theorem right_object {Γ : Ctx} {p : Str} {o : SpecObject} (hs : SafeObject Γ o) (hr : Real (objectSaid p o)) :
    Right .specObject (objectSaid p o) ↔ CompleteObject o := by
  obtain ⟨ho1, ho2⟩ := hs.order
  unfold objectSaid at hr ⊢
  generalize hF : (fun t : Tag => if t = .name c!"VALUES" then some (valuesSaid p o.attributes)
      else if t = .name c!"TYPE" then some (refOf c!"TYPE" c!"SPEC-OBJECT-TYPE-REF" o.specObjectType) else none) = F at hr ⊢
  have f1 : F (.name c!"VALUES") = some (valuesSaid p o.attributes) := by rw [← hF]; rfl
  have f2 : F (.name c!"TYPE") = some (refOf c!"TYPE" c!"SPEC-OBJECT-TYPE-REF" o.specObjectType) := by rw [← hF]; simp
  have hcase : ∀ t s, F t = some s → (t = .name c!"VALUES" ∧ s = valuesSaid p o.attributes) ∨
      (t = .name c!"TYPE" ∧ s = refOf c!"TYPE" c!"SPEC-OBJECT-TYPE-REF" o.specObjectType) := by
    intro t s h
    rw [← hF] at h
    dsimp only at h
    split at h
    · rename_i e; injection h with h; exact .inl ⟨e, h.symm⟩
    · split at h
      · rename_i e; injection h with h; exact .inr ⟨e, h.symm⟩
      · cases h
  have hFn : ∀ t s, F t = some s → t = .name s.name := by
    intro t s h
    rcases hcase t s h with ⟨rfl, rfl⟩ | ⟨rfl, rfl⟩ <;> rfl
  have hkids := real_record hr
  have r1 := right_values (t := .values) hs.values (hkids _ (List.mem_filterMap.2 ⟨_, ho1, f1⟩)) rfl
  have r2 : Right .objectType (refOf c!"TYPE" c!"SPEC-OBJECT-TYPE-REF" o.specObjectType) ↔ Gives .localRef o.specObjectType := by
    rw [right_ref (s := .localRef) (hkids _ (List.mem_filterMap.2 ⟨_, ho2, f2⟩)) rfl (by rfl), ref_gives ref_empty]
  have e1 : (sourceOrder o.xmlNode [c!"VALUES", c!"TYPE"]).filter (fun t => (F t).isSome) =
      keepTags [c!"VALUES", c!"TYPE"] (sourceOrder o.xmlNode [c!"VALUES", c!"TYPE"]) := by
    unfold keepTags
    refine filter_same fun t ht => ?_
    rw [← hF, Bool.eq_iff_iff]
    simp only [List.contains_iff_mem, List.map_cons, List.map_nil, List.mem_cons, List.not_mem_nil, or_false]
    by_cases h1 : t = .name c!"VALUES"
    · simp [h1]
    · by_cases h2 : t = .name c!"TYPE" <;> simp [h1, h2]
  rw [right_record hr (by rfl) (fun e => by cases e)]
  have ha : AttrsRight (schema .xsd .specObject).attrs (look (optA c!"DESC" id o.description ++ [(c!"IDENTIFIER", o.identifier)] ++
      truthyA c!"LAST-CHANGE" id o.lastChange ++ optA c!"LONG-NAME" id o.longName)) ↔ (Simple.ok .id o.identifier = true ∧ Gives .dateTime o.lastChange) := by
    rw [← gives_filter date_empty]
    exact right_objectAttrs rfl
  have hmodel : (schema .xsd .specObject).model = .all [alternative, ⟨c!"VALUES", false, .values⟩, ⟨c!"TYPE", true, .objectType⟩] := rfl
  rw [ha, hmodel, kidsRight_ordered hFn, e1]
  constructor
  · rintro ⟨⟨h1, h2⟩, h4, -, h6⟩
    obtain ⟨t1, k1, k2⟩ := h6 _ ho1 _ f1
    cases k1
    obtain ⟨t2, k3, k4⟩ := h6 _ ho2 _ f2
    cases k3
    exact ⟨h1, h2, r2.1 k4, r1.1 k2, h4⟩
  · rintro ⟨h1, h2, h3, h4, h5⟩
    refine ⟨⟨h1, h2⟩, h5, ?_, ?_⟩
    · intro q hq hreq
      simp only [List.mem_cons, List.not_mem_nil, or_false] at hq
      rcases hq with rfl | rfl | rfl
      · cases hreq
      · cases hreq
      · exact ⟨ho2, by rw [f2]; rfl⟩
    · intro t ht c hc
      rcases hcase t c hc with ⟨rfl, rfl⟩ | ⟨rfl, rfl⟩
      · exact ⟨_, rfl, r1.2 h4⟩
      · exact ⟨_, rfl, r2.2 h3⟩

theorem right_relation {Γ : Ctx} {p : Str} {r : SpecRelation} (hs : SafeRelation Γ r) (hr : Real (relationSaid p r)) :
    Right .specRelation (relationSaid p r) ↔ CompleteRelation r := by
  obtain ⟨ho1, ho2, ho3, ho4, ho5⟩ := hs.order
  unfold relationSaid at hr ⊢
  generalize hF : (fun t : Tag => if t = .name c!"TYPE" then some (refOf c!"TYPE" c!"SPEC-RELATION-TYPE-REF" r.relationTypeRef)
      else if t = .name c!"SOURCE" then some (refOf c!"SOURCE" c!"SPEC-OBJECT-REF" r.source)
      else if t = .name c!"TARGET" then some (refOf c!"TARGET" c!"SPEC-OBJECT-REF" r.target)
      else if t = .name c!"VALUES" then r.valuesAttribute.map (fun a => valuesSaid p [a])
      else none) = F at hr ⊢
  have f1 : F (.name c!"TYPE") = some (refOf c!"TYPE" c!"SPEC-RELATION-TYPE-REF" r.relationTypeRef) := by rw [← hF]; rfl
  have f2 : F (.name c!"SOURCE") = some (refOf c!"SOURCE" c!"SPEC-OBJECT-REF" r.source) := by rw [← hF]; simp
  have f3 : F (.name c!"TARGET") = some (refOf c!"TARGET" c!"SPEC-OBJECT-REF" r.target) := by rw [← hF]; simp
  have f4 : F (.name c!"VALUES") = r.valuesAttribute.map (fun a => valuesSaid p [a]) := by rw [← hF]; simp
  have htag : ∀ t ∈ sourceOrder r.xmlNode relationTags, t = .name c!"TYPE" ∨ t = .name c!"SOURCE" ∨ t = .name c!"TARGET" ∨ t = .name c!"VALUES" := by
    intro t ht
    have := ho1 t ht
    simpa only [relationTags, List.map_cons, List.map_nil, List.mem_cons, List.not_mem_nil, or_false] using this
  have hFn : ∀ t s, F t = some s → t = .name s.name := by
    intro t s h
    rw [← hF] at h
    dsimp only at h
    split at h
    · rename_i e; injection h with h; rw [← h]; exact e
    · split at h
      · rename_i e; injection h with h; rw [← h]; exact e
      · split at h
        · rename_i e; injection h with h; rw [← h]; exact e
        · split at h
          · rename_i e
            rw [Option.map_eq_some_iff] at h
            obtain ⟨v, -, rfl⟩ := h
            exact e
          · cases h
  have hkids := real_record hr
  have r1 : Right .relationType (refOf c!"TYPE" c!"SPEC-RELATION-TYPE-REF" r.relationTypeRef) ↔ Gives .localRef r.relationTypeRef := by
    rw [right_ref (s := .localRef) (hkids _ (List.mem_filterMap.2 ⟨_, ho2, f1⟩)) rfl (by rfl), ref_gives ref_empty]
  have r2 : Right .relationEnd (refOf c!"SOURCE" c!"SPEC-OBJECT-REF" r.source) := by
    rw [right_ref (s := .string) (hkids _ (List.mem_filterMap.2 ⟨_, ho3, f2⟩)) rfl (by rfl)]; rfl
  have r3 : Right .relationEnd (refOf c!"TARGET" c!"SPEC-OBJECT-REF" r.target) := by
    rw [right_ref (s := .string) (hkids _ (List.mem_filterMap.2 ⟨_, ho4, f3⟩)) rfl (by rfl)]; rfl
  have r4 : ∀ a, r.valuesAttribute = some a → (Right .relationValues (valuesSaid p [a]) ↔ CompleteValue a) := by
    intro a ha
    have hm := ho5 (by rw [ha]; rfl)
    have hfa : F (.name c!"VALUES") = some (valuesSaid p [a]) := by rw [f4, ha]; rfl
    rw [right_values (t := .relationValues) (Γ := Γ) (fun b hb => by rw [List.mem_singleton.1 hb]; exact (hs.value a ha).1)
      (hkids _ (List.mem_filterMap.2 ⟨_, hm, hfa⟩)) rfl]
    simp
  have e1 : (sourceOrder r.xmlNode relationTags).filter (fun t => (F t).isSome) = relationOrder r := by
    unfold relationOrder
    refine filter_same fun t ht => ?_
    rcases htag t ht with rfl | rfl | rfl | rfl
    · rw [f1]; rfl
    · rw [f2]; rfl
    · rw [f3]; rfl
    · rw [f4]; cases r.valuesAttribute <;> rfl
  have hmodel : (schema .xsd .specRelation).model = .all [alternative, ⟨c!"VALUES", false, .relationValues⟩, ⟨c!"SOURCE", true, .relationEnd⟩,
      ⟨c!"TARGET", true, .relationEnd⟩, ⟨c!"TYPE", true, .relationType⟩] := rfl
  rw [right_record hr (by rfl) (fun e => by cases e), right_objectAttrs rfl, hmodel, kidsRight_ordered hFn, e1]
  constructor
  · rintro ⟨⟨h1, h2⟩, h4, -, h6⟩
    obtain ⟨t1, k1, k2⟩ := h6 _ ho2 _ f1
    cases k1
    refine ⟨h1, h2, r1.1 k2, fun a ha => ?_, h4⟩
    have hm := ho5 (by rw [ha]; rfl)
    obtain ⟨t2, k3, k4⟩ := h6 _ hm (valuesSaid p [a]) (by rw [f4, ha]; rfl)
    cases k3
    exact (r4 a ha).1 k4
  · rintro ⟨h1, h2, h3, h4, h5⟩
    refine ⟨⟨h1, h2⟩, h5, ?_, ?_⟩
    · intro q hq hreq
      simp only [List.mem_cons, List.not_mem_nil, or_false] at hq
      rcases hq with rfl | rfl | rfl | rfl | rfl
      · cases hreq
      · cases hreq
      · exact ⟨ho3, by rw [f2]; rfl⟩
      · exact ⟨ho4, by rw [f3]; rfl⟩
      · exact ⟨ho2, by rw [f1]; rfl⟩
    · intro t ht c hc
      rcases htag t ht with rfl | rfl | rfl | rfl
      · rw [f1] at hc; cases hc; exact ⟨_, rfl, r1.2 h3⟩
      · rw [f2] at hc; cases hc; exact ⟨_, rfl, r2⟩
      · rw [f3] at hc; cases hc; exact ⟨_, rfl, r3⟩
      · rw [f4, Option.map_eq_some_iff] at hc
        obtain ⟨a, ha, rfl⟩ := hc
        exact ⟨_, rfl, (r4 a ha).2 (h4 a ha)⟩

/-! ## Hierarchies and specifications -/

theorem completeHierarchies_iff : ∀ {hs : List Hierarchy}, CompleteHierarchies hs ↔ ∀ h ∈ hs, CompleteHierarchy h
  | [] => by rw [CompleteHierarchies]; simp
  | h :: hs => by rw [CompleteHierarchies, completeHierarchies_iff]; simp

theorem hierarchySaid_name (h : Hierarchy) : (hierarchySaid h).name = c!"SPEC-HIERARCHY" := by
  cases h <;> (rw [hierarchySaid]; rfl)

theorem right_hierarchyAttrs (i : HInfo) : AttrsRight (schema .xsd .hierarchy).attrs (look (hierarchyAttrs i)) ↔
    (Simple.ok .id i.identifier = true ∧ Gives .dateTime i.lastChange) := by
  unfold hierarchyAttrs
  rw [attrsRight_of (by all_declared)]
  simp [schema, desc, identifier, lastChange, longName, isEditable, look_append, look_one, look_cons, look_opt, look_truthy, look_bool, look_nil, suffices_some,
    Dialect.form, Dialect.strict, suffices_gives, suffices_string, suffices_flag, gives_some, gives_filter date_empty]

theorem right_hierarchyObject {o : Option Str} (hr : Real (refOf c!"OBJECT" c!"SPEC-OBJECT-REF" o)) :
    Right .hierarchyObject (refOf c!"OBJECT" c!"SPEC-OBJECT-REF" o) ↔ Gives .localRef o := by
  rw [right_ref (s := .localRef) hr rfl (by rfl), ref_gives ref_empty]

mutual
theorem right_hierarchy : ∀ h : Hierarchy, Real (hierarchySaid h) → (Right .hierarchy (hierarchySaid h) ↔ CompleteHierarchy h)
  | .leaf i, hr => by
    rw [hierarchySaid] at hr ⊢
    have h1 := right_hierarchyObject (real_record hr _ (List.mem_singleton.2 rfl))
    rw [right_record hr (by rfl) (fun e => by cases e), right_hierarchyAttrs, CompleteHierarchy]
    simp [schema, KidsRight, Model.namesRight, Model.typeOf, alternative, refOf_name]
    rw [h1]
    exact ⟨fun h => ⟨h.1.1, h.1.2, h.2⟩, fun h => ⟨⟨h.1, h.2⟩, h.3⟩⟩
  | .node i cs, hr => by
    rw [hierarchySaid] at hr ⊢
    have h1 := right_hierarchyObject (real_record hr _ List.mem_cons_self)
    have h2 := right_children cs (real_record hr (listOf c!"CHILDREN" (hierarchiesSaid cs)) (by simp))
    rw [right_record hr (by rfl) (fun e => by cases e), right_hierarchyAttrs, CompleteHierarchy]
    simp [schema, KidsRight, Model.namesRight, Model.typeOf, alternative, refOf_name, listOf_name]
    rw [h1, h2]
    exact ⟨fun h => ⟨⟨h.1.1, h.1.2, h.2.1⟩, h.2.2⟩, fun h => ⟨⟨h.1.1, h.1.2⟩, h.1.3, h.2⟩⟩

theorem right_children : ∀ hs : List Hierarchy, Real (listOf c!"CHILDREN" (hierarchiesSaid hs)) →
    (Right .children (listOf c!"CHILDREN" (hierarchiesSaid hs)) ↔ CompleteHierarchies hs) := by
  intro hs hr
  have hall := right_allHierarchies hs
  rw [hierarchiesSaid_map] at hr ⊢
  rw [completeHierarchies_iff]
  exact right_items hr rfl (by rfl) (ty := fun _ => .hierarchy) (fun h _ => by rw [hierarchySaid_name]; rfl) (fun h hh hreal => hall h hh hreal)

theorem right_allHierarchies : ∀ hs : List Hierarchy, ∀ h ∈ hs, Real (hierarchySaid h) → (Right .hierarchy (hierarchySaid h) ↔ CompleteHierarchy h)
  | [], _, hm, _ => by cases hm
  | x :: xs, h, hm, hr => by
    by_cases e : h = x
    · rw [e] at hr ⊢; exact right_hierarchy x hr
    · exact right_allHierarchies xs h ((List.mem_cons.1 hm).resolve_left e) hr
end

theorem right_specification {Γ : Ctx} {p : Str} {s : Specification} (hs : SafeSpecification Γ s) (hr : Real (specificationSaid p s)) :
    Right .specification (specificationSaid p s) ↔ CompleteSpecification s := by
  unfold specificationSaid at hr ⊢
  generalize hF : (fun t : Tag => if t = .name c!"TYPE" then (dropEmpty s.specificationType).map (fun v => refOf c!"TYPE" c!"SPECIFICATION-TYPE-REF" (some v))
      else if t = .name c!"CHILDREN" then s.children.map (fun cs => listOf c!"CHILDREN" (hierarchiesSaid cs))
      else if t = .name c!"VALUES" then s.values.map (valuesSaid p)
      else none) = F at hr ⊢
  have f1 : F (.name c!"TYPE") = (dropEmpty s.specificationType).map (fun v => refOf c!"TYPE" c!"SPECIFICATION-TYPE-REF" (some v)) := by rw [← hF]; rfl
  have f2 : F (.name c!"CHILDREN") = s.children.map (fun cs => listOf c!"CHILDREN" (hierarchiesSaid cs)) := by rw [← hF]; simp
  have f3 : F (.name c!"VALUES") = s.values.map (valuesSaid p) := by rw [← hF]; simp
  have hcase : ∀ t c, F t = some c → t = .name c!"TYPE" ∨ t = .name c!"CHILDREN" ∨ t = .name c!"VALUES" := by
    intro t c h
    rw [← hF] at h
    dsimp only at h
    split at h
    · rename_i e; exact .inl e
    · split at h
      · rename_i e; exact .inr (.inl e)
      · split at h
        · rename_i e; exact .inr (.inr e)
        · cases h
  have hFn : ∀ t c, F t = some c → t = .name c.name := by
    intro t c h
    rcases hcase t c h with rfl | rfl | rfl
    · rw [f1, Option.map_eq_some_iff] at h; obtain ⟨v, -, rfl⟩ := h; rfl
    · rw [f2, Option.map_eq_some_iff] at h; obtain ⟨v, -, rfl⟩ := h; rfl
    · rw [f3, Option.map_eq_some_iff] at h; obtain ⟨v, -, rfl⟩ := h; rfl
  have hkids := real_record hr
  have r1 : ∀ v, .name c!"TYPE" ∈ sourceOrder s.xmlNode specificationTags → dropEmpty s.specificationType = some v →
      (Right .specificationType (refOf c!"TYPE" c!"SPECIFICATION-TYPE-REF" (some v)) ↔ Simple.ok .localRef v = true) := by
    intro v hm hv
    rw [right_ref (s := .localRef) (hkids _ (List.mem_filterMap.2 ⟨_, hm, by rw [f1, hv]; rfl⟩)) rfl (by rfl)]
    rfl
  have r2 : ∀ cs, .name c!"CHILDREN" ∈ sourceOrder s.xmlNode specificationTags → s.children = some cs →
      (Right .children (listOf c!"CHILDREN" (hierarchiesSaid cs)) ↔ CompleteHierarchies cs) := by
    intro cs hm hc
    exact right_children cs (hkids _ (List.mem_filterMap.2 ⟨_, hm, by rw [f2, hc]; rfl⟩))
  have r3 : ∀ vs, .name c!"VALUES" ∈ sourceOrder s.xmlNode specificationTags → s.values = some vs →
      (Right .values (valuesSaid p vs) ↔ ∀ a ∈ vs, CompleteValue a) := by
    intro vs hm hv
    exact right_values (t := .values) (hs.values vs hv) (hkids _ (List.mem_filterMap.2 ⟨_, hm, by rw [f3, hv]; rfl⟩)) rfl
  have o1 : ∀ v, dropEmpty s.specificationType = some v → .name c!"TYPE" ∈ sourceOrder s.xmlNode specificationTags := by
    intro v hv
    apply hs.order
    unfold specificationHas
    rw [hv]; rfl
  have o2 : ∀ cs, s.children = some cs → .name c!"CHILDREN" ∈ sourceOrder s.xmlNode specificationTags := by
    intro v hv
    apply hs.order
    unfold specificationHas
    rw [hv]; rfl
  have o3 : ∀ cs, s.values = some cs → .name c!"VALUES" ∈ sourceOrder s.xmlNode specificationTags := by
    intro v hv
    apply hs.order
    unfold specificationHas
    rw [hv]; rfl
  have e1 : (sourceOrder s.xmlNode specificationTags).filter (fun t => (F t).isSome) = specificationOrder s := by
    unfold specificationOrder
    refine filter_same fun t ht => ?_
    unfold specificationHas
    by_cases h1 : t = .name c!"TYPE"
    · rw [h1, f1]; cases dropEmpty s.specificationType <;> rfl
    · by_cases h2 : t = .name c!"CHILDREN"
      · rw [h2, f2]; cases s.children <;> rfl
      · by_cases h3 : t = .name c!"VALUES"
        · rw [h3, f3]; cases s.values <;> rfl
        · rw [← hF]
          simp [h1, h2, h3]
  have hmodel : (schema .xsd .specification).model = .all [alternative, ⟨c!"VALUES", false, .values⟩, ⟨c!"CHILDREN", false, .children⟩,
      ⟨c!"TYPE", true, .specificationType⟩] := rfl
  rw [right_record hr (by rfl) (fun e => by cases e), right_objectAttrs rfl, hmodel, kidsRight_ordered hFn, e1]
  constructor
  · rintro ⟨⟨h1, h2⟩, h4, h5, h6⟩
    refine ⟨h1, h2, ?_, ?_, ?_, h4⟩
    · obtain ⟨hm, hsome⟩ := h5 ⟨c!"TYPE", true, .specificationType⟩ (by simp) rfl
      rw [f1, Option.isSome_map] at hsome
      obtain ⟨v, hv⟩ := Option.isSome_iff_exists.1 hsome
      obtain ⟨t1, k1, k2⟩ := h6 _ hm _ (by rw [f1, hv]; rfl)
      cases k1
      rw [← gives_dropEmpty ref_empty, hv, gives_some]
      exact (r1 v hm hv).1 k2
    · intro vs hv
      obtain ⟨t1, k1, k2⟩ := h6 _ (o3 vs hv) _ (by rw [f3, hv]; rfl)
      cases k1
      exact (r3 vs (o3 vs hv) hv).1 k2
    · intro cs hc
      obtain ⟨t1, k1, k2⟩ := h6 _ (o2 cs hc) _ (by rw [f2, hc]; rfl)
      cases k1
      exact (r2 cs (o2 cs hc) hc).1 k2
  · rintro ⟨h1, h2, h3, h4, h5, h6⟩
    rw [← gives_dropEmpty ref_empty] at h3
    obtain ⟨v, hv, hok⟩ := h3
    refine ⟨⟨h1, h2⟩, h6, ?_, ?_⟩
    · intro q hq hreq
      simp only [List.mem_cons, List.not_mem_nil, or_false] at hq
      rcases hq with rfl | rfl | rfl | rfl
      · cases hreq
      · cases hreq
      · cases hreq
      · exact ⟨o1 v hv, by rw [f1, hv]; rfl⟩
    · intro t ht c hc
      rcases hcase t c hc with rfl | rfl | rfl
      · rw [f1, hv] at hc
        cases hc
        exact ⟨_, rfl, (r1 v ht hv).2 hok⟩
      · rw [f2, Option.map_eq_some_iff] at hc
        obtain ⟨cs, hcs, rfl⟩ := hc
        exact ⟨_, rfl, (r2 cs ht hcs).2 (h5 cs hcs)⟩
      · rw [f3, Option.map_eq_some_iff] at hc
        obtain ⟨vs, hvs, rfl⟩ := hc
        exact ⟨_, rfl, (r3 vs ht hvs).2 (h4 vs hvs)⟩

/-! ## Relation groups -/

theorem right_group {g : RelationGroup} (hr : Real (groupSaid g)) : Right .relationGroup (groupSaid g) ↔ CompleteGroup g := by
  obtain ⟨i, ds, lc, ln, ty, so, ta, rs, sc⟩ := g
  have hiff : CompleteGroup ⟨i, ds, lc, ln, ty, so, ta, rs, sc⟩ ↔ ((Simple.ok .id i = true ∧ Gives .dateTime lc) ∧
      Gives .localRef ty ∧ so.isSome = true ∧ ta.isSome = true ∧ ∀ xs, rs = some xs → ∀ r ∈ xs, Gives .localRef r) :=
    ⟨fun h => ⟨⟨h.1, h.2⟩, h.3, h.4, h.5, h.6⟩, fun h => ⟨h.1.1, h.1.2, h.2.1, h.2.2.1, h.2.2.2.1, h.2.2.2.2⟩⟩
  rw [hiff]
  unfold groupSaid at hr ⊢
  dsimp only at hr ⊢
  have hkids := real_record hr
  rw [right_record hr (by rfl) (fun e => by cases e)]
  have ha : AttrsRight (schema .xsd .relationGroup).attrs (look (optA c!"DESC" id ds ++ [(c!"IDENTIFIER", i)] ++ optA c!"LAST-CHANGE" id lc ++
      truthyA c!"LONG-NAME" id ln)) ↔ (Simple.ok .id i = true ∧ Gives .dateTime lc) := right_objectAttrs rfl
  rw [ha]
  refine and_congr_right fun _ => ?_
  have r1 : ∀ xs, rs = some xs → (Right .groupRelations (listOf c!"SPEC-RELATIONS" (xs.map (textSaid c!"SPEC-RELATION-REF"))) ↔ ∀ r ∈ xs, Gives .localRef r) := by
    rintro xs rfl
    exact right_texts (hkids _ (by simp)) rfl (by rfl)
  have r2 : ∀ v, ty = some v → (Right .groupType (refOf c!"TYPE" c!"RELATION-GROUP-TYPE-REF" (some v)) ↔ Simple.ok .localRef v = true) := by
    rintro v rfl
    exact right_ref (s := .localRef) (hkids _ (by simp [optRefSaid])) rfl (by rfl)
  have r3 : ∀ v, so = some v → Right .groupSpecification (refOf c!"SOURCE-SPECIFICATION" c!"SPECIFICATION-REF" (some v)) := by
    rintro v rfl
    exact (right_ref (s := .string) (hkids _ (by simp [optRefSaid])) rfl (by rfl)).2 rfl
  have r4 : ∀ v, ta = some v → Right .groupSpecification (refOf c!"TARGET-SPECIFICATION" c!"SPECIFICATION-REF" (some v)) := by
    rintro v rfl
    exact (right_ref (s := .string) (hkids _ (by simp [optRefSaid])) rfl (by rfl)).2 rfl
  clear hkids hr ha hiff
  cases rs with
  | none =>
    cases ty with
    | none => cases so <;> cases ta <;> simp [schema, KidsRight, Model.namesRight, Model.typeOf, alternative, optRefSaid, refOf_name, listOf_name, Gives, Dialect.strict]
    | some v =>
      cases so with
      | none => cases ta <;> simp [schema, KidsRight, Model.namesRight, Model.typeOf, alternative, optRefSaid, refOf_name, listOf_name, Gives, Dialect.strict]
      | some w =>
        cases ta with
        | none => simp [schema, KidsRight, Model.namesRight, Model.typeOf, alternative, optRefSaid, refOf_name, listOf_name, Gives, Dialect.strict]
        | some x =>
          simp [schema, KidsRight, Model.namesRight, Model.typeOf, alternative, optRefSaid, refOf_name, listOf_name, Gives, Dialect.strict, r2 v rfl, r3 w rfl, r4 x rfl]
  | some rs =>
    cases ty with
    | none => cases so <;> cases ta <;> simp [schema, KidsRight, Model.namesRight, Model.typeOf, alternative, optRefSaid, refOf_name, listOf_name, Gives, Dialect.strict]
    | some v =>
      cases so with
      | none => cases ta <;> simp [schema, KidsRight, Model.namesRight, Model.typeOf, alternative, optRefSaid, refOf_name, listOf_name, Gives, Dialect.strict]
      | some w =>
        cases ta with
        | none => simp [schema, KidsRight, Model.namesRight, Model.typeOf, alternative, optRefSaid, refOf_name, listOf_name, Gives, Dialect.strict]
        | some x =>
          simp [schema, KidsRight, Model.namesRight, Model.typeOf, alternative, optRefSaid, refOf_name, listOf_name, gives_some, Dialect.strict, r2 v rfl, r3 w rfl, r4 x rfl, r1 rs rfl]
          exact And.comm

end ReqIF.Xsd
