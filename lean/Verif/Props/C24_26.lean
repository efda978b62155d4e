import Verif.Proofs.NoXml
import Verif.Proofs.PlainDoc
import Verif.Spec.Text
/-!
# C24-C26: which error, and the empty document
-/
set_option linter.unusedSimpArgs false

namespace ReqIF
open Spec

/-! ## C24 -/

theorem NoXml.foldPy {α β : Type} {body : β → α → Py β} (h : ∀ b a, NoXml (body b a)) (b : β) (xs : List α) :
    NoXml (foldPy body b xs) := by
  induction xs generalizing b with
  | nil => exact NoXml.ok _
  | cons x xs ih =>
    unfold ReqIF.foldPy
    split
    · rename_i e he; exact (h b x).of_eq he
    · exact ih _

theorem NoXml.mbind {σ α β : Type} {m : M σ α} {f : α → M σ β} {s : σ} (hm : NoXml (m s).1)
    (hf : ∀ a s', NoXml (f a s').1) : NoXml (M.bind m f s).1 := by
  unfold M.bind
  split
  · exact hf _ _
  · rename_i h
    rw [h] at hm
    exact NoXml.of_eq hm rfl

theorem NoXml.container {β : Type} {content : Node} {tag : Str} {body : β → Node → Py β} {init : β}
    (h : ∀ b a, NoXml (body b a)) (s : Unit) : NoXml (parseContainer none content tag body init s).1 := by
  rw [parseContainer_none]
  unfold containerResult
  split
  · exact NoXml.ok _
  · split
    · rename_i e he; exact (NoXml.foldPy h _ _).of_eq he
    · exact NoXml.ok _

theorem parseContent_noXml (x : Node) (s : Unit) : NoXml (parseContent none x s).1 := by
  unfold parseContent
  refine NoXml.mbind (NoXml.container (fun b a => ?_) _) fun _ _ =>
    NoXml.mbind (NoXml.container (fun b a => ?_) _) fun _ _ =>
    NoXml.mbind (NoXml.container (fun b a => ?_) _) fun _ _ =>
    NoXml.mbind (NoXml.container (fun b a => ?_) _) fun _ _ =>
    NoXml.mbind (NoXml.container (fun b a => ?_) _) fun _ _ =>
    NoXml.mbind (NoXml.container (fun b a => ?_) _) fun _ _ => NoXml.ok _
  · unfold dataTypeStep
    exact NoXml.bind (parseDataType_noXml a) fun _ => NoXml.pure _
  · unfold specTypeStep
    refine NoXml.bind (parseSpecType_noXml a) fun o => ?_
    cases o <;> exact NoXml.pure _
  · unfold specificationStep
    exact NoXml.bind (parseSpecification_noXml a) fun _ => NoXml.pure _
  · unfold relationStep
    refine NoXml.bind (parseSpecRelation_noXml a) fun o => ?_
    cases o with
    | ok r => exact NoXml.pure _
    | error e => exact NoXml.bind (stringifyNode_noXml _ _) fun _ => NoXml.pure _
  · unfold specObjectStep
    split
    · exact NoXml.ok _
    · exact NoXml.bind (parseSpecObject_noXml a) fun _ => NoXml.pure _
  · unfold relationGroupStep
    exact NoXml.bind (parseRelationGroup_noXml a) fun _ => NoXml.pure _

mutual
/-- Stripping fails exactly on processing instructions. -/
theorem stripTags_pi (n : Node) : (hasPI n = false → ∃ n', stripTags false n = .ok n') ∧
    (hasPI n = true → stripTags false n = .error .typeError) := by
  match n with
  | .text _ => exact ⟨fun _ => ⟨_, rfl⟩, fun h => by cases h⟩
  | .comment _ => exact ⟨fun _ => ⟨_, rfl⟩, fun h => by cases h⟩
  | .pi _ _ => exact ⟨(fun h => by cases h), fun _ => rfl⟩
  | .elem i ks =>
    obtain ⟨h1, h2⟩ := stripTags_pis ks
    constructor
    · intro h
      obtain ⟨ks', hk⟩ := h1 h
      unfold stripTags
      rw [hk]
      dsimp only
      split <;> exact ⟨_, rfl⟩
    · intro h
      unfold stripTags
      rw [h2 h]
theorem stripTags_pis (ns : List Node) : (hasPIs ns = false → ∃ ns', stripTagsList false ns = .ok ns') ∧
    (hasPIs ns = true → stripTagsList false ns = .error .typeError) := by
  match ns with
  | [] => exact ⟨fun _ => ⟨_, rfl⟩, fun h => by cases h⟩
  | n :: ns =>
    obtain ⟨h1, h2⟩ := stripTags_pi n
    obtain ⟨h3, h4⟩ := stripTags_pis ns
    constructor
    · intro h
      simp only [hasPIs, Bool.or_eq_false_iff] at h
      obtain ⟨n', hn⟩ := h1 h.1
      obtain ⟨ns', hns⟩ := h3 h.2
      unfold stripTagsList
      rw [hn, hns]
      exact ⟨_, rfl⟩
    · intro h
      simp only [hasPIs, Bool.or_eq_true] at h
      unfold stripTagsList
      cases hn : hasPI n with
      | true => rw [h2 hn]
      | false =>
        obtain ⟨n', hn'⟩ := h1 hn
        rw [hn']
        dsimp only
        rw [h4 (by rcases h with h | h; · rw [hn] at h; cases h
                   · exact h)]
end

theorem firstElem_elem {ns : List Node} {r : Node} (h : firstElem ns = some r) : ∃ i ks, r = .elem i ks := by
  induction ns with
  | nil => cases h
  | cons n ns ih =>
    cases n with
    | elem i ks => cases h; exact ⟨i, ks, rfl⟩
    | text s => exact ih h
    | comment s => exact ih h
    | pi s t => exact ih h

theorem readDoc_root {text : Str} {d : Doc} (h : readDoc text = some d) : ∃ i ks, d.root = .elem i ks := by
  unfold readDoc at h
  split at h
  · cases h
  · split at h
    · cases h
    · split at h
      · cases h
      · rename_i hf
        cases h
        exact firstElem_elem hf

/-- The tag the root check sees. -/
theorem strippedRoot_tag (i : Info) (ks : List Node) (r : Node) (h : strippedRoot (.elem i ks) = .ok r) :
    (r.tag = .name c!"REQ-IF" ↔ isReqifRoot (.elem i ks) = true) ∧ ∃ j ks', r = .elem j ks' := by
  have clark_ne : ∀ u n, clark (some u) n ≠ c!"REQ-IF" := by intro u n h; cases h
  unfold strippedRoot at h
  unfold isReqifRoot
  simp only [Node.nsmap] at h
  cases hd : NsMap.get? i.nsmap none with
  | none =>
    rw [hd] at h
    cases h
    refine ⟨?_, i, ks, rfl⟩
    simp only [Node.tag, Info.tag, Tag.name.injEq, hd, Option.isSome_none, Bool.false_and, Bool.or_false,
      Bool.and_eq_true, beq_iff_eq]
    cases hn : i.ns with
    | none => simp [clark]
    | some u => simp [clark_ne u i.name]
  | some v =>
    rw [hd] at h
    dsimp only at h
    unfold stripNamespace at h
    split at h
    · cases h
    · rename_i r' hr
      cases h
      unfold stripTags at hr
      split at hr
      · cases hr
      · split at hr
        · rename_i hc
          cases hr
          refine ⟨?_, _, _, rfl⟩
          simp only [Bool.not_false, Bool.true_and] at hc
          simp only [cleanup, Node.tag, Tag.name.injEq, hd, Option.isSome_some, Bool.true_and, hc]
          show clark i.ns i.name = _ ↔ _
          cases hn : i.ns with
          | none =>
            constructor
            · intro he
              unfold Info.tag at hc
              rw [hn, he] at hc
              exact absurd hc (by decide)
            · intro he
              simp only [Option.isNone_none, Bool.true_or, Bool.and_true, beq_iff_eq] at he
              exact he
          | some u => simp [clark_ne u i.name]
        · rename_i hc
          cases hr
          refine ⟨?_, _, _, rfl⟩
          have hc : containsStr xhtmlNs i.tag = false := by simpa using hc
          simp only [cleanup, Node.tag, Tag.name.injEq, hd, Option.isSome_some, Bool.true_and, hc]
          show i.name = _ ↔ _
          simp

/-- **C24**, each cause. -/
theorem C24_causes (text : Str) :
    (parseString text = .error (.xmlParsing .emptyDocument) ↔ text = []) ∧
    (parseString text = .error (.xmlParsing .notWellFormed) ↔ text ≠ [] ∧ readDoc text = none) ∧
    ((∃ t, parseString text = .error (.xmlParsing (.wrongRoot t))) ↔
      ∃ d, readDoc text = some d ∧ isReqifRoot d.root = false ∧
        ¬ (hasDefaultNs d.root = true ∧ hasPI d.root = true)) := by
  unfold parseString parseFromString
  by_cases h0 : text = []
  · subst h0
    have hr : readDoc [] = none := rfl
    rw [hr]
    simp [M.lift]
  · have hl : ¬ text.length = 0 := by simpa using h0
    rw [if_neg hl]
    cases hd : readDoc text with
    | none => simp [M.lift, h0]
    | some d =>
      dsimp only
      obtain ⟨i, ks, hroot⟩ := readDoc_root hd
      -- no other cause once the document is read
      have other : ∀ c, (parseReqif (none : Option (Callback Unit)) d ()).1 = .error (.xmlParsing c) →
          (∃ t, c = .wrongRoot t) ∧ isReqifRoot d.root = false ∧
            ¬ (hasDefaultNs d.root = true ∧ hasPI d.root = true) := by
        intro c hc
        unfold parseReqif at hc
        cases hs : strippedRoot d.root with
        | error e =>
          exfalso
          rw [hs] at hc
          simp only [M.bind, M.lift, Except.error.injEq] at hc
          subst hc
          unfold strippedRoot at hs
          split at hs
          · exact stripNamespace_noXml _ _ _ hs
          · cases hs
        | ok r =>
          rw [hs] at hc
          rw [hroot] at hs
          obtain ⟨htag, -⟩ := strippedRoot_tag i ks r hs
          simp only [M.bind, M.lift] at hc
          split at hc
          · exfalso
            split at hc
            · cases hc
            · refine NoXml.mbind (m := M.lift (optPy parseHeader (r.find c!"THE-HEADER"))) (s := ()) ?_ ?_ c hc
              · unfold optPy M.lift
                split
                · exact NoXml.ok _
                · split
                  · rename_i e he; exact (parseHeader_noXml _).of_eq he
                  · exact NoXml.ok _
              · intro a s'
                refine NoXml.mbind ?_ fun _ _ => NoXml.ok _
                unfold parseCore
                cases r.find c!"CORE-CONTENT" with
                | none => exact NoXml.ok _
                | some cc =>
                  dsimp only
                  cases cc.find c!"REQ-IF-CONTENT" with
                  | none => exact NoXml.ok _
                  | some x => exact NoXml.mbind (parseContent_noXml _ _) fun _ _ => NoXml.ok _
          · rename_i hne
            cases hc
            refine ⟨⟨_, rfl⟩, ?_, ?_⟩
            · rw [hroot]
              cases hb : isReqifRoot (.elem i ks) with
              | false => rfl
              | true => exact absurd (htag.mpr hb) hne
            · rintro ⟨h1, h2⟩
              rw [hroot] at h1 h2
              unfold strippedRoot at hs
              unfold hasDefaultNs at h1
              obtain ⟨v, hv⟩ := Option.isSome_iff_exists.mp h1
              rw [hv] at hs
              dsimp only at hs
              unfold stripNamespace at hs
              rw [(stripTags_pi _).2 h2] at hs
              cases hs
      refine ⟨⟨?_, ?_⟩, ⟨?_, ?_⟩, ⟨?_, ?_⟩⟩
      · intro h; obtain ⟨⟨t, ht⟩, -⟩ := other _ h; cases ht
      · intro h; exact absurd h h0
      · intro h; obtain ⟨⟨t, ht⟩, -⟩ := other _ h; cases ht
      · rintro ⟨-, h⟩; cases h
      · rintro ⟨t, h⟩
        obtain ⟨-, h1, h2⟩ := other _ h
        exact ⟨d, rfl, h1, h2⟩
      · rintro ⟨d', hd', h1, h2⟩
        cases hd'
        unfold parseReqif
        have hs : ∃ r, strippedRoot d.root = .ok r := by
          unfold strippedRoot
          cases hn : NsMap.get? d.root.nsmap none with
          | none => exact ⟨_, rfl⟩
          | some v =>
            have hp : hasPI d.root = false := by
              cases hb : hasPI d.root with
              | false => rfl
              | true => exact absurd ⟨by unfold hasDefaultNs; rw [hn]; rfl, hb⟩ h2
            obtain ⟨n', hn'⟩ := (stripTags_pi d.root).1 hp
            unfold stripNamespace
            rw [hn']
            exact ⟨_, rfl⟩
        obtain ⟨r, hs⟩ := hs
        have htag := (strippedRoot_tag i ks r (by rw [← hroot]; exact hs)).1
        rw [hs]
        simp only [M.bind, M.lift]
        rw [if_neg]
        · exact ⟨_, rfl⟩
        · intro ht
          rw [hroot] at h1
          rw [htag.mp ht] at h1
          cases h1

/-- **C24.** `ReqIFXMLParsingError` is raised exactly when the text is not a well-formed
document (the empty text included) or its root is not REQ-IF, the latter unless a
default namespace is declared and there is a processing instruction inside the root. -/
theorem C24_xml_error (text : Str) :
    (∃ c, parseString text = .error (.xmlParsing c)) ↔
      readDoc text = none ∨
      ∃ d, readDoc text = some d ∧ isReqifRoot d.root = false ∧
        ¬ (hasDefaultNs d.root = true ∧ hasPI d.root = true) := by
  obtain ⟨h1, h2, h3⟩ := C24_causes text
  constructor
  · rintro ⟨c, hc⟩
    cases c with
    | emptyDocument => rw [h1.mp hc]; exact Or.inl rfl
    | notWellFormed => exact Or.inl (h2.mp hc).2
    | wrongRoot t => exact Or.inr (h3.mp ⟨t, hc⟩)
  · rintro (h | h)
    · by_cases h0 : text = []
      · exact ⟨_, h1.mpr h0⟩
      · exact ⟨_, h2.mpr ⟨h0, h⟩⟩
    · obtain ⟨t, ht⟩ := h3.mpr h
      exact ⟨_, ht⟩

/-- **C24.** A well-formed document with a REQ-IF root never raises it. -/
theorem C24_reqif_root (text : Str) (d : Doc) (hd : readDoc text = some d) (hr : isReqifRoot d.root = true) (c : XmlCause) :
    parseString text ≠ .error (.xmlParsing c) := by
  intro h
  rcases (C24_xml_error text).mp ⟨c, h⟩ with h | ⟨d', hd', hr', -⟩
  · rw [hd] at h; cases h
  · rw [hd] at hd'
    cases hd'
    rw [hr] at hr'
    cases hr'

/-- The exception in `C24_xml_error` is needed: a wrong root with a processing
instruction inside raises `TypeError`. -/
theorem C24_pi_first : parseString c!"<a xmlns=\"u\"><?p?></a>" = .error .typeError :=
  errOf_eq (by decide +kernel)

example : errOf (parseString c!"<a xmlns=\"u\"/>") = some (.xmlParsing (.wrongRoot c!"a")) := by decide +kernel
example : errOf (parseString c!"<a>") = some (.xmlParsing .notWellFormed) := by decide +kernel
/-- A REQ-IF root whose content fails, with another error. -/
example : errOf (parseString c!"<REQ-IF xmlns=\"u\"><THE-HEADER/></REQ-IF>") = some .notImplemented := by
  decide +kernel
example : (readDoc c!"<REQ-IF xmlns=\"u\"><THE-HEADER/></REQ-IF>").any (fun d => isReqifRoot d.root) = true := by
  decide +kernel

/-! ## C26 -/

/-- The root's namespace declarations respect the rules for namespaces. -/
theorem readDoc_declOk {text : Str} {d : Doc} (h : readDoc text = some d) :
    ∀ x ∈ d.root.nsmap, declOk x = true := by
  have key : ∀ (xs : List Xml) (ns : List Node), resolveList [] xs = some ns → ∀ r, firstElem ns = some r →
      ∀ x ∈ r.nsmap, declOk x = true := by
    intro xs
    induction xs with
    | nil => intro ns h r hr; cases h; cases hr
    | cons x xs ih =>
      intro ns h r hr
      unfold resolveList at h
      split at h
      · rename_i n ns' hn hns
        cases h
        cases n with
        | text s => exact ih _ hns r hr
        | comment s => exact ih _ hns r hr
        | pi s t => exact ih _ hns r hr
        | elem i ks =>
          cases hr
          cases x with
          | text s => cases hn
          | comment s => cases hn
          | pi s t => cases hn
          | elem name attrs kids =>
            unfold resolve at hn
            split at hn
            · cases hn
            · rename_i i' hi
              split at hn
              · cases hn
              · cases hn
                unfold resolveInfo at hi
                simp only at hi
                split at hi
                · rename_i hc
                  split at hi
                  · split at hi
                    · cases hi
                      intro y hy
                      simp only [Bool.and_eq_true, List.all_eq_true] at hc
                      simp only [Node.nsmap, NsMap.push, List.filter_nil, List.append_nil, storedDecls] at hy
                      exact hc.2 y (List.mem_filter.mp hy).1
                    · cases hi
                  · cases hi
                · cases hi
      · cases h
  unfold readDoc at h
  split at h
  · cases h
  · split at h
    · cases h
    · rename_i hr
      split at h
      · cases h
      · rename_i hf
        cases h
        exact key _ _ hr _ hf

theorem get?_mem {m : NsMap} {p : Option Str} {u : Str} (h : NsMap.get? m p = some u) : (p, u) ∈ m := by
  unfold NsMap.get? at h
  obtain ⟨a, ha, rfl⟩ := Option.map_eq_some_iff.mp h
  have hp := List.find?_some ha
  simp only [beq_iff_eq] at hp
  subst hp
  exact List.mem_of_find?_eq_some ha

theorem stripTagsList_isText {ks ks' : List Node} (h : stripTagsList false ks = .ok ks') (c : NsMap) :
    (cleanupList c ks').map Node.isText = ks.map Node.isText := by
  induction ks generalizing ks' with
  | nil => cases h; rfl
  | cons n ns ih =>
    unfold stripTagsList at h
    split at h
    · cases h
    · rename_i n' hn
      split at h
      · cases h
      · rename_i ns' hns
        cases h
        simp only [cleanupList, List.map_cons, ih hns]
        congr 1
        cases n with
        | text s => cases hn; rfl
        | comment s => cases hn; rfl
        | pi s t => cases hn
        | elem i ks =>
          unfold stripTags at hn
          split at hn
          · cases hn
          · split at hn <;> (cases hn; rfl)

theorem filter_len {α : Type} (p q : α → Bool) : ∀ (a b : List α), a.map p = b.map q →
    (a.filter (fun x => !p x)).length = (b.filter (fun x => !q x)).length
  | [], [], _ => rfl
  | [], _ :: _, h => by cases h
  | _ :: _, [], h => by cases h
  | x :: a, y :: b, h => by
    simp only [List.map_cons, List.cons.injEq] at h
    have := filter_len p q a b h.2
    simp only [List.filter_cons, h.1]
    split <;> simp [this]

theorem strippedRoot_len {root r : Node} (h : strippedRoot root = .ok r) (hr : ∃ i ks, root = .elem i ks) :
    r.len = root.len := by
  obtain ⟨i, ks, rfl⟩ := hr
  unfold strippedRoot at h
  split at h
  · unfold stripNamespace at h
    split at h
    · cases h
    · rename_i r' hr
      cases h
      unfold stripTags at hr
      split at hr
      · cases hr
      · rename_i ks' hks
        unfold Node.len Node.children
        have e := fun c => filter_len _ _ _ _ (stripTagsList_isText hks c)
        split at hr <;> (cases hr; simp only [cleanup, Node.kids]; exact e _)
  · cases h; rfl

/-- **C26.** A document whose REQ-IF root has no child nodes gives a bundle
without header, content, tool extensions and errors, with the declared namespaces. -/
theorem C26_empty_root (text : Str) (d : Doc) (hd : readDoc text = some d) (hr : isReqifRoot d.root = true)
    (hc : d.root.children = []) :
    ∃ b, parseString text = .ok b ∧ b.header = none ∧ b.coreContent = none ∧
      b.toolExtensionsTagExists = false ∧ b.exceptions = [] ∧
      b.namespaceInfo = NamespaceInfo.empty (NsMap.get? d.root.nsmap none)
        (NsMap.get? d.root.nsmap (some c!"configuration")) ∧
      b = Bundle.createEmpty (NsMap.get? d.root.nsmap none)
        (NsMap.get? d.root.nsmap (some c!"configuration")) := by
  refine ⟨_, ?_, rfl, rfl, rfl, rfl, rfl, rfl⟩
  have h0 : text ≠ [] := by rintro rfl; cases hd
  obtain ⟨i, ks, hroot⟩ := readDoc_root hd
  have hpi : hasPI d.root = false := by
    rw [hroot] at hc ⊢
    have : ∀ ks : List Node, ks.filter (fun k => !k.isText) = [] → hasPIs ks = false := by
      intro ks
      induction ks with
      | nil => intro _; rfl
      | cons k ks ih =>
        intro h
        cases k with
        | text s => exact ih h
        | _ => cases h
    exact this ks hc
  have hs : ∃ r, strippedRoot d.root = .ok r := by
    unfold strippedRoot
    split
    · obtain ⟨n', hn'⟩ := (stripTags_pi d.root).1 hpi
      unfold stripNamespace
      rw [hn']
      exact ⟨_, rfl⟩
    · exact ⟨_, rfl⟩
  obtain ⟨r, hs⟩ := hs
  have htag := (strippedRoot_tag i ks r (by rw [← hroot]; exact hs)).1
  have hlen : r.len = 0 := by
    rw [strippedRoot_len hs (readDoc_root hd)]
    unfold Node.len
    rw [hc]; rfl
  unfold parseString parseFromString
  rw [if_neg (by simpa using h0), hd]
  unfold parseReqif
  simp only [M.bind, M.lift, hs]
  rw [if_pos (htag.mpr (by rw [← hroot]; exact hr)), if_pos hlen]

/-- The attributes of the root printed for an empty bundle. -/
def emptyAttrs (ns cfg : Option Str) : List (Str × Str) :=
  (ns.map (fun u => (c!"xmlns", u))).toList ++ (cfg.map (fun u => (c!"xmlns:configuration", u))).toList

theorem unparse_empty (ns cfg : Option Str) (h : ns.isSome = true ∨ cfg.isSome = true) :
    unparse (Bundle.createEmpty ns cfg) =
      .ok (declText ++ (Src.elem c!"REQ-IF" (emptyAttrs ns cfg) [.text c!"\n"]).render ++ c!"\n") := by
  cases ns with
  | some u =>
    cases cfg with
    | none => simp [unparse, unparseM, unparseNamespaceInfo, Bundle.createEmpty, NamespaceInfo.empty, namespaceComponents,
        component, M.bind, M.lift, M.pure, optPy, unparseCore, joinSpace, emptyAttrs, Src.render, renderList, attrsText,
        xmlDeclLine, declText]
    | some v => simp [unparse, unparseM, unparseNamespaceInfo, Bundle.createEmpty, NamespaceInfo.empty, namespaceComponents,
        component, M.bind, M.lift, M.pure, optPy, unparseCore, joinSpace, emptyAttrs, Src.render, renderList, attrsText,
        xmlDeclLine, declText]
  | none =>
    cases cfg with
    | none => simp at h
    | some v => simp [unparse, unparseM, unparseNamespaceInfo, Bundle.createEmpty, NamespaceInfo.empty, namespaceComponents,
        component, M.bind, M.lift, M.pure, optPy, unparseCore, joinSpace, emptyAttrs, Src.render, renderList, attrsText,
        xmlDeclLine, declText]

/-- **C26.** Without a default namespace and a `configuration` namespace the empty
bundle cannot be written. -/
theorem C26_no_namespace : unparse (Bundle.createEmpty none none) = .error .assertion := rfl

/-- **C26.** The bundle of an empty document can be written and read again, if it has
a namespace to write, the namespace names need no escaping, and the default
namespace is not that of XHTML. -/
theorem C26_round_trip (text : Str) (d : Doc) (hd : readDoc text = some d) (hr : isReqifRoot d.root = true)
    (hc : d.root.children = [])
    (hn : (NsMap.get? d.root.nsmap none).isSome = true ∨ (NsMap.get? d.root.nsmap (some c!"configuration")).isSome = true)
    (h1 : ∀ u, NsMap.get? d.root.nsmap none = some u → PlainAttr u ∧ containsStr xhtmlNs u = false)
    (h2 : ∀ u, NsMap.get? d.root.nsmap (some c!"configuration") = some u → PlainAttr u) :
    ∃ b s, parseString text = .ok b ∧ unparse b = .ok s ∧ parseString s = .ok b := by
  obtain ⟨b, hb, -, -, -, -, -, hbe⟩ := C26_empty_root text d hd hr hc
  have hdecl := readDoc_declOk hd
  generalize hns : NsMap.get? d.root.nsmap none = ns at *
  generalize hcfg : NsMap.get? d.root.nsmap (some c!"configuration") = cfg at *
  have dn : ∀ u, ns = some u → declOk (none, u) = true := by
    rintro u rfl; exact hdecl _ (get?_mem hns)
  have dc : ∀ u, cfg = some u → declOk (some c!"configuration", u) = true := by
    rintro u rfl; exact hdecl _ (get?_mem hcfg)
  refine ⟨b, _, hb, by rw [hbe]; exact unparse_empty ns cfg hn, ?_⟩
  have hmem : ∀ a ∈ emptyAttrs ns cfg, isQName a.1 = true ∧ PlainAttr a.2 := by
    intro a ha
    simp only [emptyAttrs, List.mem_append, Option.mem_toList, Option.map_eq_some_iff] at ha
    rcases ha with ⟨u, hu, rfl⟩ | ⟨u, hu, rfl⟩
    · exact ⟨rfl, (h1 u hu).1⟩
    · exact ⟨rfl, h2 u hu⟩
  have hread := readDoc_plainRoot c!"REQ-IF" (by decide) (emptyAttrs ns cfg) hmem
  have hrd : readDoc (declText ++ (Src.elem c!"REQ-IF" (emptyAttrs ns cfg) [.text c!"\n"]).render ++ c!"\n") =
      some (let r := Node.elem ⟨ns.bind (fun u => if u.isEmpty then none else some u), none, c!"REQ-IF",
          declsOf (emptyAttrs ns cfg), declsOf (emptyAttrs ns cfg), []⟩ [.text c!"\n"]
        ⟨some ⟨some c!"UTF-8"⟩, [r], r⟩) := by
    rw [hread]
    cases ns with
    | none =>
      cases cfg with
      | none => simp at hn
      | some v =>
        have e2 := dc v rfl
        simp [emptyAttrs, resolveInfo, declsOf, plainOf, declaredPrefix, splitQName, noDup, e2, storedDecls, NsMap.push,
          resolveElemName, NsMap.get?, resolveAttrs]
    | some u =>
      have e1 := dn u rfl
      cases cfg with
      | none =>
        cases u with
        | nil => simp [emptyAttrs, resolveInfo, declsOf, plainOf, declaredPrefix, noDup, e1, storedDecls, NsMap.push,
            resolveElemName, splitQName, NsMap.get?, resolveAttrs]
        | cons x u => simp [emptyAttrs, resolveInfo, declsOf, plainOf, declaredPrefix, noDup, e1, storedDecls, NsMap.push,
            resolveElemName, splitQName, NsMap.get?, resolveAttrs]
      | some v =>
        have e2 := dc v rfl
        cases u with
        | nil => simp [emptyAttrs, resolveInfo, declsOf, plainOf, declaredPrefix, splitQName, noDup, e1, e2, storedDecls,
            NsMap.push, resolveElemName, NsMap.get?, resolveAttrs]
        | cons x u => simp [emptyAttrs, resolveInfo, declsOf, plainOf, declaredPrefix, splitQName, noDup, e1, e2, storedDecls,
            NsMap.push, resolveElemName, NsMap.get?, resolveAttrs]
  have hget1 : NsMap.get? (declsOf (emptyAttrs ns cfg)) none = ns := by
    cases ns <;> cases cfg <;> simp [emptyAttrs, declsOf, declaredPrefix, splitQName, NsMap.get?]
  have hget2 : NsMap.get? (declsOf (emptyAttrs ns cfg)) (some c!"configuration") = cfg := by
    cases ns <;> cases cfg <;> simp [emptyAttrs, declsOf, declaredPrefix, splitQName, NsMap.get?]
  obtain ⟨b', hb', -, -, -, -, -, hbe'⟩ := C26_empty_root _ _ hrd (by
    unfold isReqifRoot
    simp only [Node.nsmap, hget1, Info.tag, beq_self_eq_true, Bool.true_and]
    cases ns with
    | none => rfl
    | some u =>
      have hx := (h1 u rfl).2
      simp only [Option.bind_some, Option.isSome_some, Bool.true_and]
      split
      · rfl
      · rw [containsStr_clark (by decide) (by decide) (by decide), hx]
        rfl) rfl
  rw [hb']
  simp only [Node.nsmap, hget1, hget2] at hbe'
  rw [hbe, hbe']

set_option maxRecDepth 20000 in
/-- Non-vacuity: a root with a default namespace, an attribute and only white space. -/
example : (match readDoc c!"<REQ-IF xmlns=\"http://u\" a=\"1\">\n </REQ-IF>" with
    | some d => isReqifRoot d.root && d.root.children.isEmpty && (NsMap.get? d.root.nsmap none == some c!"http://u")
    | none => false) = true := by decide +kernel

end ReqIF
