import Verif.Proofs.CompleteItems
import Verif.Props.C72
/-!
# The printed document is valid if and only if the bundle is complete
-/
set_option linter.unusedSimpArgs false
namespace ReqIF.Xsd
open Spec

/-- The kids of a sequence, one by one. -/
theorem kidsRight_parts {o : Bool} (ps : List (Particle × Option Said)) (hn : ∀ q ∈ ps, ∀ c, q.2 = some c → c.name = q.1.name)
    (hd : (ps.map (fun q => q.1.name)).Nodup) :
    KidsRight (.sequence o (ps.map (·.1))) (ps.filterMap (·.2)) ↔
      ∀ q ∈ ps, (q.1.required = true → q.2.isSome = true) ∧ ∀ c, q.2 = some c → Right q.1.type c := by
  have htype : ∀ q ∈ ps, (Model.sequence o (ps.map (·.1))).typeOf q.1.name = some q.1.type := by
    intro q hq
    show ((ps.map (·.1)).find? (fun p => p.name == q.1.name)).map (·.type) = some q.1.type
    induction ps with
    | nil => cases hq
    | cons r ps ih =>
      rw [List.map_cons, List.nodup_cons] at hd
      rw [List.map_cons, List.find?_cons]
      by_cases e : r.1.name = q.1.name
      · rcases List.mem_cons.1 hq with rfl | hm
        · simp
        · exact absurd (List.mem_map.2 ⟨q, hm, e.symm⟩) hd.1
      · have : (r.1.name == q.1.name) = false := by simpa using e
        rw [this]
        refine ih (fun a ha => hn a (List.mem_cons_of_mem _ ha)) hd.2 ?_
        rcases List.mem_cons.1 hq with rfl | hm
        · exact absurd rfl e
        · exact hm
  have hnames : ∀ {n : Str}, n ∈ (ps.filterMap (·.2)).map Said.name ↔ ∃ q ∈ ps, q.2.isSome = true ∧ q.1.name = n := by
    intro n
    simp only [List.mem_map, List.mem_filterMap]
    constructor
    · rintro ⟨c, ⟨q, hq, hc⟩, rfl⟩
      exact ⟨q, hq, by rw [hc]; rfl, (hn q hq c hc).symm⟩
    · rintro ⟨q, hq, hs, rfl⟩
      obtain ⟨c, hc⟩ := Option.isSome_iff_exists.1 hs
      exact ⟨c, ⟨q, hq, hc⟩, hn q hq c hc⟩
  have huniq : ∀ q ∈ ps, ∀ r ∈ ps, q.1.name = r.1.name → q = r := by
    intro q hq r hr e
    clear htype hnames hn
    induction ps with
    | nil => cases hq
    | cons a ps ih =>
      rw [List.map_cons, List.nodup_cons] at hd
      rcases List.mem_cons.1 hq with rfl | h1 <;> rcases List.mem_cons.1 hr with rfl | h2
      · rfl
      · exact absurd (List.mem_map.2 ⟨r, h2, e.symm⟩) hd.1
      · exact absurd (List.mem_map.2 ⟨q, h1, e⟩) hd.1
      · exact ih hd.2 h1 h2
  have hsub : ((ps.filterMap (·.2)).map Said.name).Nodup := by
    refine List.Nodup.sublist ?_ hd
    clear htype hnames huniq hd
    induction ps with
    | nil => exact List.Sublist.refl _
    | cons a ps ih =>
      have i := ih (fun q hq => hn q (List.mem_cons_of_mem _ hq))
      cases h : a.2 with
      | none => rw [List.filterMap_cons, h]; exact i.cons _
      | some c =>
        rw [List.filterMap_cons, h, List.map_cons, List.map_cons]
        rw [hn a (by simp) c h]
        exact i.cons_cons _
  unfold KidsRight
  constructor
  · rintro ⟨⟨-, h1, -⟩, h2⟩ q hq
    refine ⟨fun hreq => ?_, fun c hc => ?_⟩
    · obtain ⟨r, hr, hs, e⟩ := hnames.1 (h1 q.1 (List.mem_map.2 ⟨q, hq, rfl⟩) hreq)
      rw [huniq q hq r hr e.symm]
      exact hs
    · obtain ⟨t, h3, h4⟩ := h2 c (List.mem_filterMap.2 ⟨q, hq, hc⟩)
      rw [hn q hq c hc, htype q hq] at h3
      cases h3
      exact h4
  · intro h
    refine ⟨⟨hsub, ?_, ?_⟩, ?_⟩
    · intro p hp hreq
      obtain ⟨q, hq, rfl⟩ := List.mem_map.1 hp
      exact hnames.2 ⟨q, hq, (h q hq).1 hreq, rfl⟩
    · intro n hm
      obtain ⟨q, hq, -, rfl⟩ := hnames.1 hm
      exact List.mem_map.2 ⟨q.1, List.mem_map.2 ⟨q, hq, rfl⟩, rfl⟩
    · intro c hc
      obtain ⟨q, hq, hqc⟩ := List.mem_filterMap.1 hc
      refine ⟨q.1.type, ?_, (h q hq).2 c hqc⟩
      rw [hn q hq c hqc]
      exact htype q hq

/-! ## The header -/

theorem nonEmpty_dropEmpty {o : Option Str} : (dropEmpty o).isSome = true ↔ Gives .nonEmpty o := by
  unfold dropEmpty Gives
  cases o with
  | none => simp
  | some v => cases v <;> simp [Simple.ok, Option.filter]

def fieldPart (tag : Str) (o : Option Str) : Option Said := (dropEmpty o).map (fun v => textSaid tag (some v))

def repositoryPart : RepositoryId → Option Said
  | .none => none
  | .text s => some (textSaid c!"REPOSITORY-ID" (dropEmpty (some s)))
  | .emptyTag => some (textSaid c!"REPOSITORY-ID" none)

theorem fieldPart_name {tag : Str} {o : Option Str} {c : Said} (h : fieldPart tag o = some c) : c.name = tag := by
  unfold fieldPart at h
  rw [Option.map_eq_some_iff] at h
  obtain ⟨v, -, rfl⟩ := h
  rfl

theorem repositoryPart_name {r : RepositoryId} {c : Said} (h : repositoryPart r = some c) : c.name = c!"REPOSITORY-ID" := by
  cases r <;> cases h <;> rfl

theorem id_empty : Simple.ok .id [] = false := by decide

theorem right_header {h : Header} (hr : Real (headerSaid h)) : Right .theHeader (headerSaid h) ↔ CompleteHeader h := by
  unfold headerSaid at hr ⊢
  have h1 := real_record hr _ (List.mem_singleton.2 rfl)
  have h2 := real_record h1
  rw [right_record hr (by rfl) (fun e => by cases e)]
  show AttrsRight [] _ ∧ KidsRight (one c!"REQ-IF-HEADER" .header) _ ↔ _
  rw [kidsRight_one (by rfl), right_record h1 (by rfl) (fun e => by cases e), attrsRight_of (ds := (schema .xsd .header).attrs) (by all_declared)]
  generalize hps : ([(⟨c!"COMMENT", false, .text .string⟩, fieldPart c!"COMMENT" h.comment),
      (⟨c!"CREATION-TIME", true, .text .dateTime⟩, fieldPart c!"CREATION-TIME" h.creationTime),
      (⟨c!"REPOSITORY-ID", false, .text .string⟩, repositoryPart h.repositoryId),
      (⟨c!"REQ-IF-TOOL-ID", true, .text .string⟩, fieldPart c!"REQ-IF-TOOL-ID" h.reqIfToolId),
      (⟨c!"REQ-IF-VERSION", true, .text .string⟩, fieldPart c!"REQ-IF-VERSION" h.reqIfVersion),
      (⟨c!"SOURCE-TOOL-ID", true, .text .string⟩, fieldPart c!"SOURCE-TOOL-ID" h.sourceToolId),
      (⟨c!"TITLE", true, .text .string⟩, fieldPart c!"TITLE" h.title)] : List (Particle × Option Said)) = ps
  have e1 : (schema .xsd .header).model = .sequence true (ps.map (·.1)) := by rw [← hps]; rfl
  have e2 : fieldSaid c!"COMMENT" h.comment ++ fieldSaid c!"CREATION-TIME" h.creationTime ++ repositorySaid h.repositoryId ++
      fieldSaid c!"REQ-IF-TOOL-ID" h.reqIfToolId ++ fieldSaid c!"REQ-IF-VERSION" h.reqIfVersion ++
      fieldSaid c!"SOURCE-TOOL-ID" h.sourceToolId ++ fieldSaid c!"TITLE" h.title = ps.filterMap (·.2) := by
    have hf : ∀ (a : Particle) (o : Option Said) l, List.filterMap (fun q : Particle × Option Said => q.2) ((a, o) :: l) = o.toList ++ l.filterMap (·.2) := by
      intro a o l
      cases o <;> rfl
    have hrep : repositorySaid h.repositoryId = (repositoryPart h.repositoryId).toList := by cases h.repositoryId <;> rfl
    rw [← hps, hrep]
    simp only [hf, List.append_assoc, List.filterMap_nil, List.append_nil]
    rfl
  rw [e2] at h2 ⊢
  have hn : ∀ q ∈ ps, ∀ c, q.2 = some c → c.name = q.1.name := by
    rw [← hps]
    intro q hq c hc
    simp only [List.mem_cons, List.not_mem_nil, or_false] at hq
    rcases hq with rfl | rfl | rfl | rfl | rfl | rfl | rfl
    · exact fieldPart_name hc
    · exact fieldPart_name hc
    · exact repositoryPart_name hc
    · exact fieldPart_name hc
    · exact fieldPart_name hc
    · exact fieldPart_name hc
    · exact fieldPart_name hc
  rw [e1, kidsRight_parts ps hn (by rw [← hps]; simp only [List.map_cons, List.map_nil]; decide)]
  have hreal : ∀ q ∈ ps, ∀ c, q.2 = some c → Real c := fun q hq c hc => h2 c (List.mem_filterMap.2 ⟨q, hq, hc⟩)
  have text : ∀ {tag : Str} {o : Option Str} {s : Simple}, s.ok [] = false → (∀ c, fieldPart tag o = some c → Real c) →
      (((True → (fieldPart tag o).isSome = true) ∧ ∀ c, fieldPart tag o = some c → Right (.text s) c) ↔ Gives s o) := by
    intro tag o s hs hre
    rw [← gives_dropEmpty hs]
    unfold fieldPart at hre ⊢
    cases hd : dropEmpty o with
    | none => simp [Gives]
    | some v =>
      rw [hd] at hre
      have := right_text (s := s) (hre _ rfl)
      simp [gives_some, this]
  have any : ∀ {tag : Str} {o : Option Str}, (∀ c, fieldPart tag o = some c → Real c) →
      (((True → (fieldPart tag o).isSome = true) ∧ ∀ c, fieldPart tag o = some c → Right (.text .string) c) ↔ Gives .nonEmpty o) := by
    intro tag o hre
    rw [← nonEmpty_dropEmpty]
    unfold fieldPart at hre ⊢
    cases hd : dropEmpty o with
    | none => simp
    | some v =>
      rw [hd] at hre
      have := right_text (s := .string) (hre _ rfl)
      simp [this, Simple.ok]
  have free : ∀ {tag : Str} {o : Option Str}, (∀ c, fieldPart tag o = some c → Real c) → ∀ c, fieldPart tag o = some c → Right (.text .string) c := by
    intro tag o hre c hc
    have hre := hre c hc
    unfold fieldPart at hc
    rw [Option.map_eq_some_iff] at hc
    obtain ⟨v, -, rfl⟩ := hc
    exact (right_text hre).2 rfl
  have freeRep : ∀ c, repositoryPart h.repositoryId = some c → Real c → Right (.text .string) c := by
    intro c hc hre
    cases hrep : h.repositoryId with
    | none => rw [hrep] at hc; cases hc
    | text s => rw [hrep] at hc; cases hc; exact (right_text hre).2 rfl
    | emptyTag => rw [hrep] at hc; cases hc; exact (right_text hre).2 rfl
  rw [← hps] at hreal ⊢
  simp only [List.forall_mem_cons, List.not_mem_nil, false_implies, implies_true, and_true] at hreal ⊢
  obtain ⟨q1, q2, q3, q4, q5, q6, q7⟩ := hreal
  rw [text date_empty q2, any q4, any q5, any q6, any q7]
  have hid : (∀ d ∈ (schema .xsd .header).attrs, Suffices d.type d.required (look [(c!"IDENTIFIER", h.identifier.getD [])] d.name)) ↔ Gives .id h.identifier := by
    rw [← ref_gives id_empty]
    simp [schema, look_one, suffices_some, Dialect.form]
  rw [hid]
  constructor
  · rintro ⟨-, g1, -, g2, -, g3, g4, g5, g6⟩
    exact ⟨g1, g2, g3, g4, g5, g6⟩
  · rintro ⟨g1, g2, g3, g4, g5, g6⟩
    exact ⟨attrsRight_nil, g1, ⟨fun e => (by cases e), free q1⟩, g2, ⟨fun e => (by cases e), fun c hc => freeRep c hc (q3 c hc)⟩, g3, g4, g5, g6⟩

/-! ## The content -/

theorem right_content {Γ : Ctx} {p : Str} {c : Content} (hs : SafeContent Γ c) (hr : Real (contentSaid p c)) :
    Right .content (contentSaid p c) ↔ CompleteContent c := by
  unfold contentSaid at hr ⊢
  have h2 := real_record hr
  rw [right_record hr (by rfl) (fun e => by cases e)]
  generalize hps : ([(⟨c!"DATATYPES", false, .datatypes⟩, c.dataTypes.map (fun xs => listOf c!"DATATYPES" (xs.map dataTypeSaid))),
      (⟨c!"SPEC-TYPES", false, .specTypes⟩, c.specTypes.map (fun xs => listOf c!"SPEC-TYPES" (xs.map (specTypeSaid p)))),
      (⟨c!"SPEC-OBJECTS", false, .specObjects⟩, c.specObjects.map (fun xs => listOf c!"SPEC-OBJECTS" (xs.map (objectSaid p)))),
      (⟨c!"SPEC-RELATIONS", false, .specRelations⟩, c.specRelations.map (fun xs => listOf c!"SPEC-RELATIONS" (xs.map (relationSaid p)))),
      (⟨c!"SPECIFICATIONS", false, .specifications⟩, c.specifications.map (fun xs => listOf c!"SPECIFICATIONS" (xs.map (specificationSaid p)))),
      (⟨c!"SPEC-RELATION-GROUPS", false, .relationGroups⟩, c.specRelationGroups.map (fun xs => listOf c!"SPEC-RELATION-GROUPS" (xs.map groupSaid)))] :
      List (Particle × Option Said)) = ps
  have e1 : (schema .xsd .content).model = .sequence true (ps.map (·.1)) := by rw [← hps]; rfl
  have e2 : containerSaid c!"DATATYPES" dataTypeSaid c.dataTypes ++
    containerSaid c!"SPEC-TYPES" (specTypeSaid p) c.specTypes ++ containerSaid c!"SPEC-OBJECTS" (objectSaid p) c.specObjects ++
    containerSaid c!"SPEC-RELATIONS" (relationSaid p) c.specRelations ++
    containerSaid c!"SPECIFICATIONS" (specificationSaid p) c.specifications ++
    containerSaid c!"SPEC-RELATION-GROUPS" groupSaid c.specRelationGroups = ps.filterMap (·.2) := by
    have hf : ∀ (a : Particle) (o : Option Said) l, List.filterMap (fun q : Particle × Option Said => q.2) ((a, o) :: l) = o.toList ++ l.filterMap (·.2) := by
      intro a o l
      cases o <;> rfl
    rw [← hps]
    simp only [hf, List.append_assoc, List.filterMap_nil, List.append_nil]
    rfl
  rw [e2] at h2 ⊢
  have hn : ∀ q ∈ ps, ∀ c, q.2 = some c → c.name = q.1.name := by
    rw [← hps]
    intro q hq c hc
    simp only [List.mem_cons, List.not_mem_nil, or_false] at hq
    rcases hq with rfl | rfl | rfl | rfl | rfl | rfl <;>
      (dsimp only at hc; rw [Option.map_eq_some_iff] at hc; obtain ⟨v, -, rfl⟩ := hc; rfl)
  rw [e1, kidsRight_parts ps hn (by rw [← hps]; simp only [List.map_cons, List.map_nil]; decide)]
  have hreal : ∀ q ∈ ps, ∀ c, q.2 = some c → Real c := fun q hq c hc => h2 c (List.mem_filterMap.2 ⟨q, hq, hc⟩)
  have part : ∀ {α : Type} {t : TypeName} {nm : Str} {f : α → Said} {o : Option (List α)} {P : α → Prop},
      (∀ c, o.map (fun xs => listOf nm (xs.map f)) = some c → Real c) →
      (∀ xs, o = some xs → Real (listOf nm (xs.map f)) → (Right t (listOf nm (xs.map f)) ↔ ∀ x ∈ xs, P x)) →
      (((false = true → (o.map (fun xs => listOf nm (xs.map f))).isSome = true) ∧ ∀ c, o.map (fun xs => listOf nm (xs.map f)) = some c → Right t c) ↔ All P o) := by
    intro α t nm f o P hre hiff
    cases o with
    | none => simp [All]
    | some xs =>
      have := hiff xs rfl (hre _ rfl)
      simp [All, this]
  rw [← hps] at hreal ⊢
  simp only [List.forall_mem_cons, List.not_mem_nil, false_implies, implies_true, and_true] at hreal ⊢
  obtain ⟨q1, q2, q3, q4, q5, q6⟩ := hreal
  rw [part q1 (P := CompleteDataType) (fun xs _ h => right_dataTypes h),
    part q2 (P := CompleteSpecType) (fun xs hx h => right_items h rfl (by rfl) (ty := fun t => .specType (specKind t)) (fun t _ => by cases t <;> rfl)
      (fun t ht hre => right_specType (hs.specTypes xs hx t ht) hre)),
    part q3 (P := CompleteObject) (fun xs hx h => right_items h rfl (by rfl) (ty := fun _ => .specObject) (fun t _ => rfl)
      (fun t ht hre => right_object (hs.specObjects xs hx t ht) hre)),
    part q4 (P := CompleteRelation) (fun xs hx h => right_items h rfl (by rfl) (ty := fun _ => .specRelation) (fun t _ => rfl)
      (fun t ht hre => right_relation (hs.specRelations xs hx t ht) hre)),
    part q5 (P := CompleteSpecification) (fun xs hx h => right_items h rfl (by rfl) (ty := fun _ => .specification) (fun t _ => rfl)
      (fun t ht hre => right_specification (hs.specifications xs hx t ht) hre)),
    part q6 (P := CompleteGroup) (fun xs hx h => right_items h rfl (by rfl) (ty := fun _ => .relationGroup) (fun t _ => rfl)
      (fun t ht hre => right_group hre))]
  constructor
  · rintro ⟨-, g1, g2, g3, g4, g5, g6⟩
    exact ⟨g1, g2, g3, g4, g5, g6⟩
  · rintro ⟨g1, g2, g3, g4, g5, g6⟩
    exact ⟨attrsRight_nil, g1, g2, g3, g4, g5, g6⟩

/-! ## The root -/

/-- All kids of a printed root are right. -/
theorem right_bundle {as : List (Str × Str)} {p : Str} {b : Bundle} {Γ : Bool → Ctx} (hΓ : ∀ u, IsCtx as p u (Γ u)) (h : SafeBundle as p b)
    (hr : ∀ s ∈ bundleSaid p b, Real s) :
    KidsRight (schema .xsd .reqIf).model (bundleSaid p b) ↔ CompleteBundle b := by
  have htool : Real (listOf c!"TOOL-EXTENSIONS" []) → Right .toolExtensions (listOf c!"TOOL-EXTENSIONS" []) := by
    intro hre
    rw [right_list hre (by rfl) (fun e => by cases e)]
    exact ⟨attrsRight_nil, by simp [schema, KidsRight, Model.namesRight]⟩
  have hhead : ∀ x, b.header = some x → (Right .theHeader (headerSaid x) ↔ CompleteHeader x) := fun x hx =>
    right_header (hr _ (by unfold bundleSaid; rw [hx]; simp))
  have hcore : ∀ x, b.coreContent = some (some x) → (Right .coreContent (recordOf c!"CORE-CONTENT" [] [contentSaid p x]) ↔ CompleteContent x) := by
    intro x hx
    have hre := hr (recordOf c!"CORE-CONTENT" [] [contentSaid p x]) (by unfold bundleSaid; rw [hx]; simp [coreSaid])
    rw [right_record hre (by rfl) (fun e => by cases e)]
    have := right_content (h.content x hx _ (hΓ _)) (real_record hre _ (List.mem_singleton.2 rfl))
    rw [← this]
    have hnm : (contentSaid p x).name = c!"REQ-IF-CONTENT" := rfl
    have ha : AttrsRight (schema .xsd .coreContent).attrs (look []) := attrsRight_nil
    simp [schema, KidsRight, Model.namesRight, Dialect.strict, Model.typeOf, hnm] at ha ⊢
    simp [ha]
  have hempty : b.coreContent = some none → ¬ Right .coreContent (recordOf c!"CORE-CONTENT" [] []) := by
    intro hx
    have hre := hr (recordOf c!"CORE-CONTENT" [] []) (by unfold bundleSaid; rw [hx]; simp [coreSaid])
    rw [right_record hre (by rfl) (fun e => by cases e)]
    simp [schema, KidsRight, Model.namesRight, Dialect.strict]
  generalize hps : ([(⟨c!"THE-HEADER", true, .theHeader⟩, b.header.map headerSaid),
      (⟨c!"CORE-CONTENT", true, .coreContent⟩, b.coreContent.map (fun o => recordOf c!"CORE-CONTENT" [] (o.map (contentSaid p)).toList)),
      (⟨c!"TOOL-EXTENSIONS", false, .toolExtensions⟩, if b.toolExtensionsTagExists then some (listOf c!"TOOL-EXTENSIONS" []) else none)] :
      List (Particle × Option Said)) = ps
  have e1 : (schema .xsd .reqIf).model = .sequence true (ps.map (·.1)) := by rw [← hps]; rfl
  have e2 : bundleSaid p b = ps.filterMap (·.2) := by
    have hf : ∀ (a : Particle) (o : Option Said) l, List.filterMap (fun q : Particle × Option Said => q.2) ((a, o) :: l) = o.toList ++ l.filterMap (·.2) := by
      intro a o l
      cases o <;> rfl
    rw [← hps]
    simp only [hf, List.filterMap_nil, List.append_nil]
    unfold bundleSaid
    rw [List.append_assoc]
    congr 2
    · rcases b.coreContent with _ | _ | x <;> rfl
    · unfold toolSaid
      cases b.toolExtensionsTagExists <;> rfl
  rw [e2] at hr ⊢
  have hn : ∀ q ∈ ps, ∀ c, q.2 = some c → c.name = q.1.name := by
    rw [← hps]
    intro q hq c hc
    simp only [List.mem_cons, List.not_mem_nil, or_false] at hq
    rcases hq with rfl | rfl | rfl
    · dsimp only at hc; rw [Option.map_eq_some_iff] at hc; obtain ⟨v, -, rfl⟩ := hc; rfl
    · dsimp only at hc; rw [Option.map_eq_some_iff] at hc; obtain ⟨v, -, rfl⟩ := hc; rfl
    · dsimp only at hc
      split at hc
      · cases hc; rfl
      · cases hc
  rw [e1, kidsRight_parts ps hn (by rw [← hps]; simp only [List.map_cons, List.map_nil]; decide)]
  have hreal : ∀ q ∈ ps, ∀ c, q.2 = some c → Real c := fun q hq c hc => hr c (List.mem_filterMap.2 ⟨q, hq, hc⟩)
  rw [← hps] at hreal ⊢
  simp only [List.forall_mem_cons, List.not_mem_nil, false_implies, implies_true, and_true] at hreal ⊢
  obtain ⟨q1, q2, q3⟩ := hreal
  constructor
  · rintro ⟨⟨a1, a2⟩, ⟨a3, a4⟩, -⟩
    refine ⟨?_, ?_⟩
    · have := a1 trivial
      rw [Option.isSome_map] at this
      obtain ⟨x, hx⟩ := Option.isSome_iff_exists.1 this
      exact ⟨x, hx, (hhead x hx).1 (a2 _ (by rw [hx]; rfl))⟩
    · have := a3 trivial
      rw [Option.isSome_map] at this
      obtain ⟨o, ho⟩ := Option.isSome_iff_exists.1 this
      have hrt := a4 _ (by rw [ho]; rfl)
      cases o with
      | none => exact absurd hrt (hempty ho)
      | some x => exact ⟨x, ho, (hcore x ho).1 hrt⟩
  · rintro ⟨⟨x, hx, g1⟩, y, hy, g2⟩
    refine ⟨⟨fun _ => by rw [hx]; rfl, fun c hc => ?_⟩, ⟨fun _ => by rw [hy]; rfl, fun c hc => ?_⟩, fun e => (by cases e), fun c hc => ?_⟩
    · rw [hx] at hc; cases hc; exact (hhead x hx).2 g1
    · rw [hy] at hc; cases hc; exact (hcore y hy).2 g2
    · have hre := q3 c hc
      split at hc
      · cases hc; exact htool hre
      · cases hc

theorem resolveAttrs_some {m : NsMap} : ∀ {as : List (Str × Str)} {xs : List Attr}, resolveAttrs m as = some xs →
    ((∀ x ∈ xs, x.ns.isSome = true) ↔ ∀ a ∈ as, (splitQName a.1).1.isSome = true)
  | [], xs, h => by rw [resolveAttrs] at h; cases h; simp
  | a :: as, xs, h => by
    rw [resolveAttrs] at h
    split at h
    · rename_i y ys h1 h2
      cases h
      rw [List.forall_mem_cons, List.forall_mem_cons, resolveAttrs_some h2]
      refine and_congr_left fun _ => ?_
      unfold resolveAttr at h1
      split at h1
      · rename_i l e
        cases h1; rw [e]
      · rename_i q l e
        rw [e]
        split at h1
        · cases h1; simp
        · split at h1
          · cases h1
          · cases h1; simp
    · cases h

/-- What the start tag of the document resolves to. -/
theorem resolveInfo_start {as : List (Str × Str)} {i : Info} (hx : ∀ a ∈ as, a.1 ≠ c!"xmlns:xml") (h : resolveInfo [] c!"REQ-IF" as = some i) :
    (∀ q, NsMap.get? i.nsmap q = attrValue as (declName q)) ∧ i.ns = (attrValue as c!"xmlns").filter (fun u => !u.isEmpty) ∧
      ((∀ x ∈ i.attrs, x.ns.isSome = true) ↔ ∀ a ∈ as, isDecl a = false → (splitQName a.1).1.isSome = true) := by
  unfold resolveInfo at h
  dsimp only at h
  split at h
  · have hp : ∀ m : NsMap, NsMap.push m [] = m := by intro m; simp [NsMap.push]
    rw [hp, stored_eq hx] at h
    have hg := get_declsOf as
    generalize declsOf as = m at h hg
    have e : resolveElemName m c!"REQ-IF" =
      match NsMap.get? m none with
      | none => some (none, none, c!"REQ-IF")
      | some u => if u.isEmpty then some (none, none, c!"REQ-IF") else some (some u, none, c!"REQ-IF") := rfl
    have e' : resolveElemName m c!"REQ-IF" = some ((attrValue as c!"xmlns").filter (fun u => !u.isEmpty), none, c!"REQ-IF") := by
      rw [e, hg none]
      show (match attrValue as c!"xmlns" with | none => _ | some u => _) = _
      cases attrValue as c!"xmlns" with
      | none => rfl
      | some u => cases u <;> simp [Option.filter]
    rw [e'] at h
    cases ha : resolveAttrs m (plainOf as) with
    | none => rw [ha] at h; cases h
    | some bs =>
      rw [ha] at h
      dsimp only at h
      split at h
      · cases h
        refine ⟨hg, rfl, ?_⟩
        rw [resolveAttrs_some ha]
        unfold plainOf isDecl
        simp [List.mem_filter]
      · cases h
  · cases h

/-- What is printed is valid if and only if root and bundle are complete. -/
theorem complete_valid {as : List (Str × Str)} {p : Str} {b : Bundle} (h : SafeBundle as p b) (hx : attrValue as (c!"xmlns:" ++ p) = some xhtmlUri) :
    ∃ out d, unparse b = .ok out ∧ readDoc out = some d ∧ (validRoot .xsd d.root = true ↔ CompleteRoot as ∧ CompleteBundle b) := by
  obtain ⟨out, d, b', g1, g2, ⟨i, ks, g3, g4, -, ⟨-, g5, g6⟩, r, g7, g8⟩, -⟩ := bundle_survives h
  refine ⟨out, d, g1, g2, ?_⟩
  have hsame : byName (saidAll ks) = byName (bundleSaid p b) := by
    have : saidInside d.root = byName (bundleSaid p b) := by rw [← said_strippedRoot g7, g8]
    rw [g3] at this
    exact this
  obtain ⟨hget, hns, hattrs⟩ := resolveInfo_start h.root.1.noXml g5
  have hok : attrsOk [] i.attrs = true ↔ ∀ a ∈ as, isDecl a = false → (splitQName a.1).1.isSome = true := by
    rw [← hattrs]
    simp [attrsOk]
  have hnsiff : i.ns = some reqifNs ↔ attrValue as c!"xmlns" = some reqifNs := by
    rw [hns, Option.filter_eq_some_iff]
    exact ⟨fun e => e.1, fun e => ⟨e, rfl⟩⟩
  rw [g3]
  unfold validRoot valid
  simp only [Bool.and_eq_true, beq_iff_eq]
  rw [validBy, Bool.and_eq_true, Bool.and_eq_true]
  have hroot : CompleteRoot as ↔ i.ns = some reqifNs ∧ attrsOk [] i.attrs = true := by
    rw [hnsiff, hok]
    exact ⟨fun e => ⟨e.1, e.2⟩, fun e => ⟨e.1, e.2⟩⟩
  rw [hroot]
  show (_ ∧ _) ∧ (attrsOk [] i.attrs = true ∧ _) ∧ _ ↔ _
  have hmain : i.ns = some reqifNs → ((schema .xsd .reqIf).model.countOk ks = true ∧ kidsBy (schema .xsd) (some reqifNs) (schema .xsd .reqIf).model ks = true ↔
      CompleteBundle b) := by
    intro hr
    have hws : ks.all elemOrWs = true := by
      have := g6.plain
      rw [List.all_eq_true] at this ⊢
      intro k hk'
      have h := this k hk'
      cases k with
      | elem a b => rfl
      | text s => exact h
      | _ => cases h
    have hd : defaultNs i.nsmap = some reqifNs := by
      unfold defaultNs
      rw [hget none]
      have : attrValue as (declName none) = some reqifNs := hnsiff.1 hr
      rw [this]
      rfl
    have hfine : FineAll ks := laidAll_layout hd (by rw [hget (some p)]; exact hx) ks g6.laid g6.plain
    have hreal : ∀ s ∈ bundleSaid p b, Real s := by
      intro s hs
      obtain ⟨j, ds, h1, h2⟩ := amongst_said hws (byName_mem hsame.symm hs)
      exact ⟨j, ds, fineAll_iff.1 hfine _ h1, h2⟩
    rw [← right_bundle (Γ := fun u => rootCtx i p u) (fun u => ⟨i, g5, rfl⟩) h hreal]
    have hseq : (schema .xsd .reqIf).model = .sequence true [⟨c!"THE-HEADER", true, .theHeader⟩, ⟨c!"CORE-CONTENT", true, .coreContent⟩,
      ⟨c!"TOOL-EXTENSIONS", false, .toolExtensions⟩] := rfl
    have hnames := bundleSaid_names p b
    rw [hseq]
    generalize hes : ([⟨c!"THE-HEADER", true, .theHeader⟩, ⟨c!"CORE-CONTENT", true, .coreContent⟩, ⟨c!"TOOL-EXTENSIONS", false, .toolExtensions⟩] : List Particle) = es
    have hsub : ((bundleSaid p b).map Said.name).Sublist (es.map (·.name)) := by rw [← hes]; exact hnames
    have hdup : (es.map (·.name)).Nodup := by rw [← hes]; decide
    have hcount : (Model.sequence true es).countOk ks = true ↔ (Model.sequence true es).namesRight ((bundleSaid p b).map Said.name) := by
      show seqOk es (childNames ks) = true ↔ _
      rw [g6.names]
      constructor
      · intro e
        exact ⟨hsub.nodup hdup, seqOk_required e, fun n hn => hsub.subset hn⟩
      · intro e
        exact seqOk_of hdup hsub e.2.1
    unfold KidsRight
    rw [hcount]
    refine and_congr_right fun _ => ?_
    constructor
    · intro e c hc
      obtain ⟨j, ds, h1, h2⟩ := amongst_said hws (byName_mem hsame.symm hc)
      obtain ⟨t, k1, k2⟩ := kidsBy_mem rfl e h1
      have hn : c.name = j.name := by rw [← h2, said_name]
      refine ⟨t, by rw [hn]; exact k1, fun a as hf hs => ?_⟩
      have hn' : a.name = j.name := by rw [← said_name (ks := as), hs, hn]
      refine valid_same _ rfl rfl hf (fineAll_iff.1 hfine _ h1) (hs.trans h2.symm) ?_ k2
      rw [hn']
      exact suits_typeOf (t := .reqIf) (by rw [hseq, hes]; exact k1)
    · intro e
      refine kidsBy_of hws fun j ds hm => ?_
      have hf := fineAll_iff.1 hfine _ hm
      obtain ⟨t, k1, k2⟩ := e _ (byName_mem hsame (said_amongst hm))
      rw [said_name] at k1
      refine ⟨?_, t, k1, k2 j ds hf rfl⟩
      rw [Fine] at hf
      exact hf.1
  constructor
  · rintro ⟨⟨h1, -⟩, ⟨h2, h3⟩, h4⟩
    exact ⟨⟨h1, h2⟩, (hmain h1).1 ⟨h3, h4⟩⟩
  · rintro ⟨⟨h1, h2⟩, h3⟩
    have := (hmain h1).2 h3
    exact ⟨⟨h1, g4⟩, ⟨h2, this.1⟩, this.2⟩

end ReqIF.Xsd
