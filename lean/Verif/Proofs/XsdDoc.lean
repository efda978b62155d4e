import Verif.Proofs.XsdParse
import Verif.Proofs.BundleTools
/-! Valid documents parse and print. -/
set_option linter.unusedSimpArgs false
namespace ReqIF.Xsd
open Spec

variable {d : Dialect} {x : Node}

theorem foldPy_inv {α β : Type} {body : β → α → Py β} {I : β → Prop} : ∀ {xs : List α} {b : β}, I b →
    (∀ x ∈ xs, ∀ b, I b → ∃ b', body b x = .ok b' ∧ I b') → ∃ b', foldPy body b xs = .ok b' ∧ I b'
  | [], b, hb, _ => ⟨b, rfl, hb⟩
  | x :: xs, b, hb, h => by
    obtain ⟨b', h1, h2⟩ := h x (by simp) b hb
    rw [foldPy, h1]
    exact foldPy_inv h2 (fun y hy => h y (by simp [hy]))

/-- A container of a valid content is read without error. -/
theorem container_parses {β σ : Type} {body : β → Node → Py β} {init : β} {I : β → Prop} {tag : Str} (hb : I init)
    (h : ∀ c, x.find tag = some c → ∀ k ∈ c.children, ∀ b, I b → ∃ b', body b k = .ok b' ∧ I b') (s : σ) :
    ∃ r, parseContainer none x tag body init s = (.ok r, s) ∧ ∀ b, r = some b → I b := by
  rw [parseContainer_none]
  unfold containerResult
  cases hf : x.find tag with
  | none => exact ⟨none, rfl, by intro b hb; cases hb⟩
  | some c =>
    obtain ⟨b', h1, h2⟩ := foldPy_inv (xs := c.children) hb (h c hf)
    dsimp only
    rw [h1]
    refine ⟨some b', rfl, ?_⟩
    intro b e
    cases e
    exact h2

/-- All items of a list that may be missing. -/
def Each {α : Type} (P : α → Prop) (o : Option (List α)) : Prop := ∀ l, o = some l → ∀ a ∈ l, P a

/-- What the parser makes of a valid content can be printed. -/
structure Printable (d : Dialect) (c : Content) : Prop where
  types : Each (fun t => d.prints = true → ∃ s, unparseSpecType t = .ok s) c.specTypes
  objects : Each (fun t => d.prints = true → ∃ s, unparseSpecObject t = .ok s) c.specObjects
  relations : Each (fun t => d.prints = true → ∃ s, unparseSpecRelation t = .ok s) c.specRelations
  specifications : Each (fun t => d.prints = true → ∃ s, unparseSpecification t = .ok s) c.specifications

theorem Seen.container {nm : Str} {t' : TypeName} (h : Seen d .content x) (ht : (schema d .content).model.typeOf nm = some t')
    (ho : (schema d t').model.isOpen = false) {c : Node} (hf : x.find nm = some c) {k : Node} (hk : k ∈ c.children) :
    ∃ nm t'', k.tag = .name nm ∧ (schema d t').model.typeOf nm = some t'' ∧ Seen d t'' k := by
  obtain ⟨t0, e1, e2, -⟩ := h.find rfl hf
  rw [ht] at e1
  cases e1
  exact e2.child ho hk

theorem notComment {k : Node} {nm : Str} (h : k.tag = .name nm) : isCommentNode k = false := by
  cases k <;> simp [Node.tag] at h <;> rfl

theorem content_parses (hd : d ≠ .xsd) (h : Seen d .content x) : ∃ c l, parseContent (none : Option (Callback Unit)) x () =
    (.ok (c, l, []), ()) ∧ Printable d c := by
  obtain ⟨dts, h1, -⟩ := container_parses (x := x) (σ := Unit) (body := dataTypeStep) (init := ([], [])) (I := fun _ => True) (tag := c!"DATATYPES") trivial (by
    intro c hf k hk b _
    obtain ⟨nm, t', e1, e2, e3⟩ := h.container (nm := c!"DATATYPES") (t' := .datatypes) rfl rfl hf hk
    obtain ⟨kd, -, hkd⟩ := kind_choice e2
    simp only [Prod.mk.injEq] at hkd
    rw [← hkd.2] at e3
    rw [← hkd.1] at e1
    obtain ⟨v, hv⟩ := dataType_parses e3 e1
    unfold dataTypeStep
    rw [hv, py_bind_ok, py_pure]
    exact ⟨_, rfl, trivial⟩) ()
  obtain ⟨sts, h2, g2⟩ := container_parses (x := x) (σ := Unit) (body := specTypeStep) (init := ([], []))
      (I := fun b => ∀ t ∈ b.1, d.prints = true → ∃ s, unparseSpecType t = .ok s) (tag := c!"SPEC-TYPES") (by simp) (by
    intro c hf k hk b hb
    obtain ⟨nm, t', e1, e2, e3⟩ := h.container (nm := c!"SPEC-TYPES") (t' := .specTypes) rfl rfl hf hk
    have hs : ∃ s, t' = .specType s ∧ nm = specTag s := by
      have := typeOf_choice e2
      simp only [List.mem_cons, Prod.mk.injEq, List.not_mem_nil, or_false] at this
      rcases this with ⟨a, b⟩ | ⟨a, b⟩ | ⟨a, b⟩ | ⟨a, b⟩
      · exact ⟨_, b, a⟩
      · exact ⟨_, b, a⟩
      · exact ⟨_, b, a⟩
      · exact ⟨_, b, a⟩
    obtain ⟨s, rfl, rfl⟩ := hs
    obtain ⟨v, hv, hv1⟩ := specType_parses hd e3 e1
    unfold specTypeStep
    rw [hv, py_bind_ok]
    refine ⟨_, rfl, ?_⟩
    intro t ht
    rw [List.mem_append, List.mem_singleton] at ht
    rcases ht with ht | rfl
    · exact hb t ht
    · exact hv1) ()
  obtain ⟨sps, h3, g3⟩ := container_parses (x := x) (σ := Unit) (body := specificationStep) (init := [])
      (I := fun b => ∀ t ∈ b, d.prints = true → ∃ s, unparseSpecification t = .ok s) (tag := c!"SPECIFICATIONS") (by simp) (by
    intro c hf k hk b hb
    obtain ⟨nm, t', e1, e2, e3⟩ := h.container (nm := c!"SPECIFICATIONS") (t' := .specifications) rfl rfl hf hk
    have := typeOf_choice e2
    simp only [List.mem_singleton, Prod.mk.injEq] at this
    obtain ⟨rfl, rfl⟩ := this
    obtain ⟨v, hv, hv1⟩ := specification_parses hd e3 e1
    unfold specificationStep
    rw [hv, py_bind_ok, py_pure]
    refine ⟨_, rfl, ?_⟩
    intro t ht
    rw [List.mem_append, List.mem_singleton] at ht
    rcases ht with ht | rfl
    · exact hb t ht
    · exact fun _ => hv1) ()
  obtain ⟨rels, h4, g4⟩ := container_parses (x := x) (σ := Unit) (body := relationStep) (init := ⟨[], [], []⟩)
      (I := fun b => (∀ t ∈ b.relations, d.prints = true → ∃ s, unparseSpecRelation t = .ok s) ∧ b.errors = []) (tag := c!"SPEC-RELATIONS") (by simp) (by
    intro c hf k hk b hb
    obtain ⟨nm, t', e1, e2, e3⟩ := h.container (nm := c!"SPEC-RELATIONS") (t' := .specRelations) rfl rfl hf hk
    have := typeOf_choice e2
    simp only [List.mem_singleton, Prod.mk.injEq] at this
    obtain ⟨rfl, rfl⟩ := this
    obtain ⟨v, hv, hv1⟩ := specRelation_parses hd e3 e1
    unfold relationStep
    rw [hv, py_bind_ok]
    refine ⟨_, rfl, ?_, hb.2⟩
    intro t ht
    rw [List.mem_append, List.mem_singleton] at ht
    rcases ht with ht | rfl
    · exact hb.1 t ht
    · exact hv1) ()
  obtain ⟨objs, h5, g5⟩ := container_parses (x := x) (σ := Unit) (body := specObjectStep) (init := ([], []))
      (I := fun b => ∀ t ∈ b.1, d.prints = true → ∃ s, unparseSpecObject t = .ok s) (tag := c!"SPEC-OBJECTS") (by simp) (by
    intro c hf k hk b hb
    obtain ⟨nm, t', e1, e2, e3⟩ := h.container (nm := c!"SPEC-OBJECTS") (t' := .specObjects) rfl rfl hf hk
    have := typeOf_choice e2
    simp only [List.mem_singleton, Prod.mk.injEq] at this
    obtain ⟨rfl, rfl⟩ := this
    obtain ⟨v, hv, hv1⟩ := specObject_parses hd e3 e1
    unfold specObjectStep
    rw [notComment e1, if_neg (by decide), hv, py_bind_ok, py_pure]
    refine ⟨_, rfl, ?_⟩
    intro t ht
    rw [List.mem_append, List.mem_singleton] at ht
    rcases ht with ht | rfl
    · exact hb t ht
    · exact hv1) ()
  obtain ⟨groups, h6, -⟩ := container_parses (x := x) (σ := Unit) (body := relationGroupStep) (init := []) (I := fun _ => True) (tag := c!"SPEC-RELATION-GROUPS") trivial (by
    intro c hf k hk b _
    obtain ⟨nm, t', e1, e2, e3⟩ := h.container (nm := c!"SPEC-RELATION-GROUPS") (t' := .relationGroups) rfl rfl hf hk
    have := typeOf_choice e2
    simp only [List.mem_singleton, Prod.mk.injEq] at this
    obtain ⟨rfl, rfl⟩ := this
    obtain ⟨v, hv⟩ := relationGroup_parses e3 e1
    unfold relationGroupStep
    rw [hv, py_bind_ok, py_pure]
    exact ⟨_, rfl, trivial⟩) ()
  have he : (rels.map (·.errors)).getD [] = [] := by
    cases rels with
    | none => rfl
    | some b => exact (g4 b rfl).2
  unfold parseContent
  rw [M.bind_ok h1, M.bind_ok h2, M.bind_ok h3, M.bind_ok h4, M.bind_ok h5, M.bind_ok h6, he]
  refine ⟨_, _, rfl, ?_, ?_, ?_, ?_⟩
  · intro l hl t ht
    simp only [Option.map_eq_some_iff] at hl
    obtain ⟨b, e, rfl⟩ := hl
    exact g2 b e t ht
  · intro l hl t ht
    simp only [Option.map_eq_some_iff] at hl
    obtain ⟨b, e, rfl⟩ := hl
    exact g5 b e t ht
  · intro l hl t ht
    simp only [Option.map_eq_some_iff] at hl
    obtain ⟨b, e, rfl⟩ := hl
    exact (g4 b e).1 t ht
  · intro l hl t ht
    exact g3 l hl t ht

theorem container_prints {α : Type} {f : α → Py Str} {o : Option (List α)} {tag : Str} (h : Each (fun t => ∃ s, f t = .ok s) o) :
    ∃ s, unparseContainer (none : Option (Callback Unit)) tag f o () = (.ok s, ()) := by
  cases o with
  | none => exact ⟨_, rfl⟩
  | some l =>
    obtain ⟨s, hs⟩ := concatPy_all (h l rfl)
    exact ⟨_, unparseContainer_some tag f l hs ()⟩

theorem content_prints {c : Content} (hw : d.prints = true) (h : Printable d c) : ∃ s, unparseContent (none : Option (Callback Unit)) c () = (.ok s, ()) := by
  obtain ⟨a, ha⟩ := container_prints (tag := c!"DATATYPES") (f := fun d => .ok (unparseDataType d)) (o := c.dataTypes) (fun _ _ _ _ => ⟨_, rfl⟩)
  obtain ⟨b, hb⟩ := container_prints (tag := c!"SPEC-TYPES") (f := unparseSpecType) (o := c.specTypes) (fun l hl t ht => h.types l hl t ht hw)
  obtain ⟨o, ho⟩ := container_prints (tag := c!"SPEC-OBJECTS") (f := unparseSpecObject) (o := c.specObjects) (fun l hl t ht => h.objects l hl t ht hw)
  obtain ⟨r, hr⟩ := container_prints (tag := c!"SPEC-RELATIONS") (f := unparseSpecRelation) (o := c.specRelations) (fun l hl t ht => h.relations l hl t ht hw)
  obtain ⟨s, hs⟩ := container_prints (tag := c!"SPECIFICATIONS") (f := unparseSpecification) (o := c.specifications) (fun l hl t ht => h.specifications l hl t ht hw)
  obtain ⟨g, hg⟩ := container_prints (tag := c!"SPEC-RELATION-GROUPS") (f := fun g => .ok (unparseRelationGroup g)) (o := c.specRelationGroups) (fun _ _ _ _ => ⟨_, rfl⟩)
  unfold unparseContent
  rw [M.bind_ok ha, M.bind_ok hb, M.bind_ok ho, M.bind_ok hr, M.bind_ok hs, M.bind_ok hg]
  exact ⟨_, rfl⟩

/-- The header, if there is one, is parsed. -/
theorem optHeader_parses {r : Node} (h : Seen d .reqIf r) :
    ∃ o, optPy parseHeader (r.find c!"THE-HEADER") = .ok o ∧ (∃ s, optPy unparseHeader o = .ok s) ∧
      ((r.find c!"THE-HEADER" = none ∧ o = none) ∨ ∃ hn v, r.find c!"THE-HEADER" = some hn ∧ parseHeader hn = .ok v ∧ o = some v) := by
  rcases h.opt (nm := c!"THE-HEADER") (t' := .theHeader) rfl rfl with hn | ⟨hn, hf, hs, ht⟩
  · rw [hn]
    exact ⟨none, rfl, ⟨_, rfl⟩, .inl ⟨rfl, rfl⟩⟩
  · obtain ⟨v, h1, s, h2⟩ := header_parses hs ht
    rw [hf]
    unfold optPy
    dsimp only
    rw [h1]
    refine ⟨some v, rfl, ?_, .inr ⟨hn, v, rfl, h1, rfl⟩⟩
    dsimp only
    rw [h2]
    exact ⟨_, rfl⟩

/-- What the parser makes of the core content. -/
inductive CoreOf (r : Node) : Option (Option Content) → Lookup → List MissingTag → Prop
  | none (h : r.find c!"CORE-CONTENT" = none) : CoreOf r none Lookup.empty []
  | empty {cn : Node} (h : r.find c!"CORE-CONTENT" = some cn) (hx : cn.find c!"REQ-IF-CONTENT" = none) : CoreOf r (some none) Lookup.empty []
  | some {cn xn : Node} {c : Content} {l : Lookup} (h : r.find c!"CORE-CONTENT" = some cn) (hx : cn.find c!"REQ-IF-CONTENT" = some xn)
      (hc : (parseContent (none : Option (Callback Unit)) xn ()).1 = .ok (c, l, [])) : CoreOf r (some (some c)) l []

/-- The core content, if there is one, is parsed. -/
theorem optCore_parses (hd : d ≠ .xsd) {r : Node} (h : Seen d .reqIf r) :
    ∃ o l, parseCore (none : Option (Callback Unit)) r () = (.ok (o, l, []), ()) ∧
      (d.prints = true → ∃ s, unparseCore (none : Option (Callback Unit)) o () = (.ok s, ())) ∧ CoreOf r o l [] := by
  rcases h.opt (nm := c!"CORE-CONTENT") (t' := .coreContent) rfl rfl with hn | ⟨cn, hf, hs, -⟩
  · refine ⟨none, Lookup.empty, ?_, fun _ => ⟨_, rfl⟩, .none hn⟩
    unfold parseCore
    rw [hn]
  · rcases hs.opt (nm := c!"REQ-IF-CONTENT") (t' := .content) rfl rfl with hx | ⟨xn, hx, hxs, -⟩
    · refine ⟨some none, Lookup.empty, ?_, fun _ => ⟨_, rfl⟩, .empty hf hx⟩
      unfold parseCore
      rw [hf]
      dsimp only
      rw [hx]
    · obtain ⟨c, l, hc1, hc2⟩ := content_parses hd hxs
      refine ⟨some (some c), l, ?_, ?_, .some hf hx (by rw [hc1])⟩
      · unfold parseCore
        rw [hf]
        dsimp only
        rw [hx]
        dsimp only
        rw [M.bind_ok hc1]
      · intro hw
        obtain ⟨s, hs'⟩ := content_prints hw hc2
        refine ⟨lineOpen 2 c!"CORE-CONTENT" ++ s ++ lineClose 2 c!"CORE-CONTENT", ?_⟩
        unfold unparseCore
        dsimp only
        rw [M.bind_ok hs']

/-- A valid document with something in it is parsed without error and without collected
exceptions, and if valid for the unparser, the result can be printed. -/
theorem document_parses {text : Str} {doc : Doc} (hd : d ≠ .xsd) (hr : readDoc text = some doc)
    (hns : (doc.root.nsmap.get? none).isSome = true) (hv : validRoot d doc.root = true) (hp : noSpecials doc.root = true)
    (hk : childNames doc.root.kids ≠ []) :
    ∃ b, parseString text = .ok b ∧ b.exceptions = [] ∧ (d.prints = true → ∃ out, unparse b = .ok out) ∧
      ∃ r, Seen d .reqIf r ∧ r = seen [] doc.root ∧ r.len ≠ 0 ∧ b.namespaceInfo = namespaceInfoOf doc r ∧
        ((r.find c!"THE-HEADER" = none ∧ b.header = none) ∨
          ∃ hn v, r.find c!"THE-HEADER" = some hn ∧ parseHeader hn = .ok v ∧ b.header = some v) ∧
        CoreOf r b.coreContent b.lookup [] ∧ b.toolExtensionsTagExists = (r.find c!"TOOL-EXTENSIONS").isSome := by
  obtain ⟨r, h1, h2, h3, h4⟩ := strippedRoot_seen hr hns hv hp
  have hlen : r.len ≠ 0 := by
    intro h0
    unfold Node.len at h0
    rw [List.length_eq_zero_iff] at h0
    apply hk
    obtain ⟨i, ks, e⟩ : ∃ i ks, doc.root = .elem i ks := by
      cases hroot : doc.root with
      | elem i ks => exact ⟨i, ks, rfl⟩
      | _ => rw [hroot] at hv; cases hv
    rw [e] at hp h4 ⊢
    rw [noSpecials] at hp
    rw [seen_elem] at h4
    have e1 : childNames r.kids = childNames ks := by rw [h4]; exact childNames_seen _ ks hp
    show childNames ks = []
    rw [← e1]
    have hcn : ∀ l : List Node, l.filter (fun n => !n.isText) = [] → childNames l = [] := by
      intro l
      induction l with
      | nil => intro _; rfl
      | cons n l ih =>
        intro h
        cases n with
        | text s => rw [childNames]; exact ih (by simpa [Node.isText] using h); simp
        | elem _ _ => simp [Node.isText] at h
        | comment _ => simp [Node.isText] at h
        | pi _ _ => simp [Node.isText] at h
    exact hcn _ h0
  obtain ⟨hdr, hh1, ⟨hs, hh2⟩, hh3⟩ := optHeader_parses h2
  obtain ⟨core, l, hcore, hc2, hc3⟩ := optCore_parses hd h2
  have ht : text.length ≠ 0 := by
    intro h0
    rw [List.length_eq_zero_iff] at h0
    rw [h0] at hr
    exact absurd hr (by rw [show readDoc [] = none from by decide +kernel]; simp)
  have hl1 : M.lift (σ := Unit) (strippedRoot doc.root) () = (.ok r, ()) := by rw [h1]
  have hl2 : M.lift (σ := Unit) (optPy parseHeader (r.find c!"THE-HEADER")) () = (.ok hdr, ()) := by rw [hh1]
  have hparse : parseString text = .ok (Bundle.mk (namespaceInfo := namespaceInfoOf doc r) (header := hdr)
      (coreContent := core) (toolExtensionsTagExists := (r.find c!"TOOL-EXTENSIONS").isSome)
      (lookup := l) (exceptions := [])) := by
    unfold parseString parseFromString
    rw [if_neg ht, hr]
    dsimp only
    unfold parseReqif
    rw [M.bind_ok hl1, if_pos h3, if_neg hlen, M.bind_ok hl2, M.bind_ok hcore]
  refine ⟨_, hparse, rfl, ?_, r, h2, h4, hlen, rfl, hh3, hc3, rfl⟩
  intro hw
  obtain ⟨s, hs'⟩ := hc2 hw
  have hu1 : M.lift (σ := Unit) (unparseNamespaceInfo (namespaceInfoOf doc r)) () = (.ok (tagDumpOf doc.root ++ c!"\n"), ()) := rfl
  have hu2 : M.lift (σ := Unit) (optPy unparseHeader hdr) () = (.ok hs, ()) := by rw [hh2]
  unfold unparse unparseM
  rw [M.bind_ok hu1, M.bind_ok hu2, M.bind_ok hs']
  exact ⟨_, rfl⟩

/-- A valid document has something in it, a header and a content. -/
theorem strict_full {n : Node} (hd : d.strict = true) (hv : validRoot d n = true) :
    childNames n.kids ≠ [] ∧ (c!"THE-HEADER") ∈ childNames n.kids ∧ (c!"CORE-CONTENT") ∈ childNames n.kids := by
  cases n with
  | elem i ks =>
    simp only [validRoot, Bool.and_eq_true, beq_iff_eq, valid] at hv
    have hv := hv.2
    rw [validBy, Bool.and_eq_true, Bool.and_eq_true] at hv
    have e : (schema d .reqIf).model = .sequence true [⟨c!"THE-HEADER", true, .theHeader⟩, ⟨c!"CORE-CONTENT", true, .coreContent⟩,
      ⟨c!"TOOL-EXTENSIONS", false, .toolExtensions⟩] := by
      cases d <;> first | rfl | cases hd
    have hc := hv.1.2
    rw [e] at hc
    simp only [Model.countOk] at hc
    have h1 := seqOk_mem hc ⟨c!"THE-HEADER", true, .theHeader⟩ (by simp) rfl
    have h2 := seqOk_mem hc ⟨c!"CORE-CONTENT", true, .coreContent⟩ (by simp) rfl
    exact ⟨List.ne_nil_of_mem h1, h1, h2⟩
  | _ => cases hv

/-- A valid document is parsed to a bundle with header and content. -/
theorem document_full {text : Str} {doc : Doc} (hd : d ≠ .xsd) (hst : d.strict = true) (hr : readDoc text = some doc)
    (hns : (doc.root.nsmap.get? none).isSome = true) (hv : validRoot d doc.root = true) (hp : noSpecials doc.root = true) :
    ∃ b h c, parseString text = .ok b ∧ b.exceptions = [] ∧ b.header = some h ∧ b.coreContent = some (some c) ∧
      (d.prints = true → ∃ out, unparse b = .ok out) := by
  obtain ⟨b, h1, h2, h3, r, h4, h5, -, -, h6, h7, -⟩ := document_parses hd hr hns hv hp (strict_full hst hv).1
  obtain ⟨hn, hhf, -, -⟩ := h4.need (nm := c!"THE-HEADER") (t' := .theHeader) rfl (by cases d <;> first | rfl | cases hst) rfl
  obtain ⟨cn, hcf, hcs, -⟩ := h4.need (nm := c!"CORE-CONTENT") (t' := .coreContent) rfl (by cases d <;> first | rfl | cases hst) rfl
  obtain ⟨xn, hxf, -, -⟩ := hcs.need (nm := c!"REQ-IF-CONTENT") (t' := .content) rfl (by cases d <;> first | rfl | cases hst) rfl
  rcases h6 with ⟨h6, -⟩ | ⟨hn', v, -, -, h8⟩
  · rw [h6] at hhf; cases hhf
  generalize b.lookup = lk at h7
  cases hcc : b.coreContent with
  | none =>
    rw [hcc] at h7
    cases h7 with
    | none h => rw [h] at hcf; cases hcf
  | some o =>
    cases o with
    | none =>
      rw [hcc] at h7
      cases h7 with
      | empty h hx =>
        rw [hcf] at h
        cases h
        rw [hx] at hxf
        cases hxf
    | some c => exact ⟨b, v, c, h1, h2, h8, hcc, h3⟩

end ReqIF.Xsd
