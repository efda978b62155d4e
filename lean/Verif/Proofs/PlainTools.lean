import Verif.Proofs.PlainSeen
import Verif.Spec.Said
import Verif.Proofs.XsdParse
import Verif.Props.C48
/-! What an element of a plain document contains. -/
set_option linter.unusedSimpArgs false
namespace ReqIF.Xsd
open Spec

/-! ## XHTML below -/

mutual
theorem hasXhtml_seen (m : NsMap) : ∀ n : Node, noSpecials n = true → hasXhtml (seen m n) = hasXhtml n
  | .text s, _ => by rw [seen_text]
  | .comment s, h => by simp [noSpecials] at h
  | .pi t d, h => by simp [noSpecials] at h
  | .elem i ks, h => by
    rw [noSpecials] at h
    rw [seen_elem, hasXhtml, hasXhtml, haveXhtml_seen _ ks h]
    congr 1
    unfold Info.tag
    dsimp only
    rw [stripInfo_name]
    unfold stripInfo
    split
    · rfl
    · rename_i hc
      dsimp only
      unfold Info.tag at hc
      rw [Bool.eq_false_iff.2 hc]
      simp

theorem haveXhtml_seen (m : NsMap) : ∀ ns : List Node, noSpecialsAll ns = true → haveXhtml (seenAll m ns) = haveXhtml ns
  | [], _ => by rw [seenAll_nil]
  | n :: ns, h => by
    rw [noSpecialsAll, Bool.and_eq_true] at h
    rw [seenAll_cons, haveXhtml, haveXhtml, hasXhtml_seen m n h.1, haveXhtml_seen m ns h.2]
end

theorem haveXhtml_mem : ∀ {ns : List Node} {n : Node}, n ∈ ns → hasXhtml n = true → haveXhtml ns = true
  | [], n, hn, _ => by cases hn
  | a :: ns, n, hn, h => by
    rw [haveXhtml, Bool.or_eq_true]
    rcases List.mem_cons.1 hn with rfl | hn
    · exact .inl h
    · exact .inr (haveXhtml_mem hn h)

/-! ## Plain elements as seen -/

/-- The declarations kept, if there is XHTML: the prefix `p` comes first. -/
structure Env (K : NsMap) (p : Str) : Prop where
  name : isNCName p = true
  noDefault : ∀ d ∈ K, d.1 ≠ none

/-- A plain element as the parser sees it; `X` holds if there is XHTML in the document. -/
structure PSeen (X : Prop) (K : NsMap) (p : Str) (t : TypeName) (n : Node) : Prop where
  seen : Seen .lenient t n
  neat : Neat K p n
  fits : fits t n = true
  first : hasXhtml n = true → NsMap.firstKey K = some p ∧ X

variable {X : Prop} {K : NsMap} {p : Str} {t : TypeName} {n : Node}

theorem fitsAll_mem : ∀ {ks : List Node}, fitsAll t ks = true → ∀ {i : Info} {cs : List Node} {t' : TypeName}, .elem i cs ∈ ks →
    (schema .lenient t).model.typeOf i.name = some t' → fits t' (.elem i cs) = true
  | [], _, i, cs, t', hm, _ => by cases hm
  | k :: ks, h, i, cs, t', hm, ht => by
    rcases List.mem_cons.1 hm with rfl | hm
    · rw [fitsAll, ht, Bool.and_eq_true] at h
      exact h.1
    · refine fitsAll_mem ?_ hm ht
      cases k with
      | elem j c => rw [fitsAll, Bool.and_eq_true] at h; exact h.2
      | text s => rw [fitsAll] at h; exact h; all_goals simp
      | comment s => rw [fitsAll] at h; exact h; all_goals simp
      | pi a b => rw [fitsAll] at h; exact h; all_goals simp

/-- An element without namespace and with this name. -/
def Named (nm : Str) (n : Node) : Prop := ∃ i ks, n = .elem i ks ∧ i.ns = none ∧ i.name = nm

theorem Named.tag {nm : Str} (h : Named nm n) : n.tag = .name nm := by
  obtain ⟨i, ks, rfl, h1, rfl⟩ := h
  simp only [Node.tag, Info.tag, h1]
  rfl

theorem kid_pseen {m : Node} (h : Seen .lenient t m) (ho : (schema .lenient t).model.isOpen = false) (hn : NeatAll K p m.kids)
    (hf : fitsAll t m.kids = true) (hx : haveXhtml m.kids = true → NsMap.firstKey K = some p ∧ X) {c : Node} (hc : c ∈ m.children) :
    ∃ nm t', Named nm c ∧ (schema .lenient t).model.typeOf nm = some t' ∧ PSeen X K p t' c := by
  unfold Node.children at hc
  rw [List.mem_filter] at hc
  obtain ⟨i, cs, t', e, h1, h2, h3⟩ := kid_seen ho h.kidsOk h.kidsPlain h.keptKids c hc.1 (by simpa using hc.2)
  refine ⟨i.name, t', ⟨i, cs, e, h1, rfl⟩, h2, h3, neatAll_mem hn c hc.1, ?_, fun hh => hx (haveXhtml_mem hc.1 hh)⟩
  rw [e] at hc ⊢
  exact fitsAll_mem hf hc.1 h2

theorem PSeen.fitsKids (h : PSeen X K p t n) {nm : Str} (ht : ((schema .lenient t).model.typeOf nm).isSome = true) :
    fitsAll t n.kids = true := by
  have hf := h.fits
  obtain ⟨i, ks, rfl⟩ := h.seen.isElem
  rw [Xsd.fits.eq_def] at hf
  dsimp only at hf
  rw [Bool.and_eq_true] at hf
  cases t with
  | text s => simp [schema, Model.typeOf] at ht
  | xhtmlContent b => simp [schema, Model.typeOf] at ht
  | _ => exact hf.2

theorem hasXhtml_kids (h : haveXhtml n.kids = true) : hasXhtml n = true := by
  cases n with
  | elem i ks => rw [hasXhtml, Bool.or_eq_true]; exact .inr h
  | _ => simp [Node.kids, haveXhtml] at h

theorem PSeen.child (h : PSeen X K p t n) (ho : (schema .lenient t).model.isOpen = false) {c : Node} (hc : c ∈ n.children) :
    ∃ nm t', Named nm c ∧ (schema .lenient t).model.typeOf nm = some t' ∧ PSeen X K p t' c := by
  obtain ⟨nm, t', -, h2, -⟩ := h.seen.child ho hc
  exact kid_pseen h.seen ho h.neat.kids.1 (h.fitsKids (nm := nm) (by rw [h2]; rfl)) (fun hh => h.first (hasXhtml_kids hh)) hc

theorem PSeen.find (h : PSeen X K p t n) (ho : (schema .lenient t).model.isOpen = false) {nm : Str} {c : Node} {t' : TypeName}
    (ht : (schema .lenient t).model.typeOf nm = some t') (hc : n.find nm = some c) : PSeen X K p t' c ∧ Named nm c := by
  obtain ⟨h1, h2⟩ := find_children hc
  obtain ⟨nm', t'', e1, e2, e3⟩ := h.child ho h1
  have e := e1.tag
  rw [h2] at e
  have e : nm = nm' := by injection e
  subst e
  rw [ht] at e2
  cases e2
  exact ⟨e3, e1⟩

theorem PSeen.need (h : PSeen X K p t n) {nm : Str} {t' : TypeName} (ho : (schema .lenient t).model.isOpen = false)
    (hn : (schema .lenient t).model.needs nm = true) (ht : (schema .lenient t).model.typeOf nm = some t') :
    ∃ c, n.find nm = some c ∧ PSeen X K p t' c ∧ Named nm c := by
  obtain ⟨c, hc, -, -⟩ := h.seen.need ho hn ht
  obtain ⟨h1, h2⟩ := h.find ho ht hc
  exact ⟨c, hc, h1, h2⟩

theorem PSeen.opt (h : PSeen X K p t n) {nm : Str} {t' : TypeName} (ho : (schema .lenient t).model.isOpen = false)
    (ht : (schema .lenient t).model.typeOf nm = some t') :
    n.find nm = none ∨ ∃ c, n.find nm = some c ∧ PSeen X K p t' c ∧ Named nm c := by
  cases hf : n.find nm with
  | none => exact .inl rfl
  | some c =>
    obtain ⟨h1, h2⟩ := h.find ho ht hf
    exact .inr ⟨c, rfl, h1, h2⟩

/-! ## Attributes -/

theorem PSeen.keeps (h : PSeen X K p t n) {name v : Str} (hv : n.attr? name = some v) : (escaping t name).keeps v = true := by
  have hf := h.fits
  have hn := h.neat
  obtain ⟨i, ks, rfl⟩ := h.seen.isElem
  rw [Xsd.fits.eq_def] at hf
  dsimp only at hf
  rw [Bool.and_eq_true] at hf
  rw [Neat] at hn
  unfold Node.attr? at hv
  rw [Option.map_eq_some_iff] at hv
  obtain ⟨a, ha, rfl⟩ := hv
  have h1 : a ∈ i.attrs := List.mem_of_find?_eq_some ha
  have h2 := List.find?_some ha
  simp only [beq_iff_eq] at h2
  have h3 := (hn.1.attrs a h1).1
  have h4 : a.name = name := by
    unfold Attr.key clark at h2
    rw [h3] at h2
    exact h2
  have := List.all_eq_true.1 hf.1 a h1
  rw [h4] at this
  exact this

theorem PSeen.plainAttr (h : PSeen X K p t n) {name : Str} (he : escaping t name = .none) : Opt PlainAttr (n.attr? name) := by
  intro v hv
  have := h.keeps hv
  rw [he] at this
  simpa [Escaping.keeps] using this

theorem PSeen.htmlAttr (h : PSeen X K p t n) {name : Str} (he : escaping t name = .html) : Opt HtmlAttr (n.attr? name) := by
  intro v hv
  have := h.keeps hv
  rw [he] at this
  simpa [Escaping.keeps] using this

theorem PSeen.lxmlAttr (h : PSeen X K p t n) {name : Str} (he : escaping t name = .lxml) : Opt EscAttr (n.attr? name) := by
  intro v hv
  have := h.keeps hv
  rw [he] at this
  simpa [Escaping.keeps] using this

/-- A required attribute, unescaped. -/
theorem PSeen.attr (h : PSeen X K p t n) {name : Str}
    (hr : (schema .lenient t).attrs.any (fun a => a.name == name && a.required) = true) (he : escaping t name = .none) :
    ∃ v, n.attr? name = some v ∧ PlainAttr v := by
  obtain ⟨v, hv⟩ := h.seen.attr hr
  exact ⟨v, hv, h.plainAttr he v hv⟩

/-! ## Texts -/

theorem texts_kids : ∀ {ks : List Node}, noSpecialsAll ks = true → childNames ks = [] → noTextTwice ks = true →
    ks = [] ∨ ∃ s, ks = [.text s]
  | [], _, _, _ => .inl rfl
  | [k], hs, hc, _ => by
    cases k with
    | elem i cs => simp [childNames] at hc
    | text s => exact .inr ⟨s, rfl⟩
    | comment s => simp [noSpecialsAll, noSpecials] at hs
    | pi a b => simp [noSpecialsAll, noSpecials] at hs
  | a :: b :: ks, hs, hc, ht => by
    rw [noSpecialsAll, noSpecialsAll, Bool.and_eq_true, Bool.and_eq_true] at hs
    rw [noTextTwice, Bool.and_eq_true] at ht
    cases a with
    | elem i cs => simp [childNames] at hc
    | comment s => simp [noSpecials] at hs
    | pi x y => simp [noSpecials] at hs
    | text s =>
      cases b with
      | elem i cs => simp [childNames] at hc
      | comment s => simp [noSpecials] at hs
      | pi x y => simp [noSpecials] at hs
      | text s' => simp [Node.isText] at ht

theorem PSeen.text {s : Simple} {nm : Str} (h : PSeen X K p (.text s) n) (hnm : Named nm n) :
    (n.text? = none ∧ n.kids = [] ∧ nm ≠ c!"SPEC-OBJECT-REF") ∨
      ∃ v, n.text? = some v ∧ v ≠ [] ∧ (nm ≠ c!"TITLE" → PlainText v) ∧ (nm = c!"TITLE" → TitleText v) := by
  have hc := h.seen.countOk
  have hk := h.seen.kidsPlain
  have ht := h.neat.kids.2
  have hf := h.fits
  obtain ⟨i, ks, rfl, -, rfl⟩ := hnm
  simp only [schema, Model.countOk, Node.kids, Bool.and_eq_true, List.isEmpty_iff] at hc hk ht
  rw [Xsd.fits.eq_def] at hf
  dsimp only at hf
  rw [Bool.and_eq_true] at hf
  have hf := hf.2
  unfold textFits at hf
  rw [Bool.and_eq_true] at hf
  rcases texts_kids hk hc.1 ht with rfl | ⟨v, rfl⟩
  · refine .inl ⟨rfl, rfl, ?_⟩
    intro e
    rw [e] at hf
    exact absurd hf.2 (by simp)
  · refine .inr ⟨v, rfl, ?_⟩
    have := hf.1
    simp only [List.all_cons, List.all_nil, Bool.and_true, Bool.and_eq_true, Bool.not_eq_true', List.isEmpty_eq_false_iff] at this
    refine ⟨this.1, ?_, ?_⟩
    · intro e
      have := this.2
      rw [if_neg e] at this
      simpa using this
    · intro e
      have := this.2
      rw [if_pos e] at this
      simpa using this

theorem PSeen.optText {s : Simple} {nm : Str} (h : PSeen X K p (.text s) n) (hnm : Named nm n) (he : nm ≠ c!"TITLE") :
    Opt PlainText n.text? := by
  intro v hv
  rcases h.text hnm with ⟨h1, -⟩ | ⟨w, h1, -, h2, -⟩
  · rw [h1] at hv; cases hv
  · rw [h1] at hv; cases hv; exact h2 he

theorem PSeen.ref {nm : Str} (h : PSeen X K p (.text .localRef) n) (hnm : Named nm n) (he : nm ≠ c!"TITLE") : PlainElem n.text? := by
  obtain ⟨s, hs⟩ := h.seen.refText
  rcases h.text hnm with ⟨h1, -⟩ | ⟨w, h1, h3, h2, -⟩
  · rw [hs] at h1; cases h1
  · exact ⟨w, h1, h3, h2 he⟩

/-! ## XHTML -/

theorem treeOf_isText {n : Node} (h : noSpecials n = true) : (treeOf n).isText = !isElement n := by
  cases n with
  | elem i ks => rw [treeOf]; rfl
  | text s => rw [treeOf]; rfl
  | comment s => simp [noSpecials] at h
  | pi a b => simp [noSpecials] at h

theorem treesOf_isText : ∀ {ns : List Node}, noSpecialsAll ns = true → (treesOf ns).all XTree.isText = !ns.any isElement
  | [], _ => rfl
  | n :: ns, h => by
    rw [noSpecialsAll, Bool.and_eq_true] at h
    rw [treesOf, List.all_cons, List.any_cons, treeOf_isText h.1, treesOf_isText h.2, Bool.not_or]

theorem isElement_not {n : Node} (h : noSpecials n = true) : isElement n = !n.isText := by
  cases n with
  | elem i ks => rfl
  | text s => rfl
  | comment s => simp [noSpecials] at h
  | pi a b => simp [noSpecials] at h

theorem treesOf_adjacent : ∀ {ns : List Node}, noSpecialsAll ns = true → noTextTwice ns = true → noAdjacentText (treesOf ns) = true
  | [], _, _ => rfl
  | [a], _, _ => rfl
  | a :: b :: ns, hs, ht => by
    rw [noSpecialsAll, Bool.and_eq_true] at hs
    have hb := hs.2
    rw [noSpecialsAll, Bool.and_eq_true] at hb
    rw [noTextTwice, Bool.and_eq_true] at ht
    rw [treesOf, treesOf, noAdjacentText, Bool.and_eq_true]
    refine ⟨?_, ?_⟩
    · rw [treeOf_isText hs.1, treeOf_isText hb.1, isElement_not hs.1, isElement_not hb.1, Bool.not_not, Bool.not_not]
      exact ht.1
    · have := treesOf_adjacent hs.2 ht.2
      rw [treesOf] at this
      exact this

mutual
theorem tree_content (hK : ∀ d ∈ K, d.1 ≠ none) : ∀ n : Node, noSpecials n = true → Neat K p n → isXhtml n = true →
    IsContent p (treeOf n) n
  | .text s, _, _, _ => by rw [treeOf]; unfold IsContent; rfl
  | .comment s, h, _, _ => by simp [noSpecials] at h
  | .pi t d, h, _, _ => by simp [noSpecials] at h
  | .elem i ks, hs, hn, hx => by
    rw [noSpecials] at hs
    rw [Neat] at hn
    rw [isXhtml, Bool.and_eq_true, beq_iff_eq] at hx
    rw [treeOf]
    unfold IsContent
    have e : i.ns.isSome = true := by rw [hx.1]; rfl
    exact ⟨rfl, hn.1.pfx e, e, (by rw [hn.1.nsmap]; exact hK), rfl, trees_content hK ks hs hn.2.2 hx.2⟩

theorem trees_content (hK : ∀ d ∈ K, d.1 ≠ none) : ∀ ns : List Node, noSpecialsAll ns = true → NeatAll K p ns → areXhtml ns = true →
    AllContent p (treesOf ns) ns
  | [], _, _, _ => by rw [treesOf]; unfold AllContent; trivial
  | n :: ns, hs, hn, hx => by
    rw [noSpecialsAll, Bool.and_eq_true] at hs
    rw [NeatAll] at hn
    rw [areXhtml, Bool.and_eq_true] at hx
    rw [treesOf]
    unfold AllContent
    exact ⟨tree_content hK n hs.1 hn.1 hx.1, trees_content hK ns hs.2 hn.2 hx.2⟩
end

mutual
theorem tree_wf : ∀ n : Node, noSpecials n = true → Neat K p n → xhtmlFits n = true → (treeOf n).WF
  | .text s, _, _, h => by
    rw [xhtmlFits, Bool.and_eq_true] at h
    rw [treeOf]
    unfold XTree.WF
    refine ⟨by simpa using h.1, ?_⟩
    intro c hc
    have := List.all_eq_true.1 h.2 c hc
    simpa using this
  | .comment s, h, _, _ => by simp [noSpecials] at h
  | .pi t d, h, _, _ => by simp [noSpecials] at h
  | .elem i ks, hs, hn, h => by
    rw [noSpecials] at hs
    rw [Neat] at hn
    rw [xhtmlFits, Bool.and_eq_true] at h
    have hkey : ∀ a ∈ i.attrs, a.key = a.name := by
      intro a ha
      unfold Attr.key clark
      rw [(hn.1.attrs a ha).1]
    rw [treeOf]
    unfold XTree.WF
    refine ⟨hn.1.name, ?_, ?_, treesOf_adjacent hs hn.2.1, trees_wf ks hs hn.2.2 h.2⟩
    · intro a ha
      obtain ⟨b, hb, rfl⟩ := List.mem_map.1 ha
      have h1 := hn.1.attrs b hb
      have h2 := List.all_eq_true.1 h.1 b hb
      dsimp only
      rw [hkey b hb]
      exact ⟨h1.2.1, h1.2.2, by simpa using h2⟩
    · have e : (i.attrs.map (fun a => (a.key, a.value))).map (·.1) = i.attrs.map (·.name) := by
        rw [List.map_map]
        apply List.map_congr_left
        intro a ha
        exact hkey a ha
      rw [e]
      exact hn.1.nodup

theorem trees_wf : ∀ ns : List Node, noSpecialsAll ns = true → NeatAll K p ns → xhtmlFitsAll ns = true → AllWF (treesOf ns)
  | [], _, _, _ => by rw [treesOf]; unfold AllWF; trivial
  | n :: ns, hs, hn, hx => by
    rw [noSpecialsAll, Bool.and_eq_true] at hs
    rw [NeatAll] at hn
    rw [xhtmlFitsAll, Bool.and_eq_true] at hx
    rw [treesOf]
    unfold AllWF
    exact ⟨tree_wf n hs.1 hn.1 hx.1, trees_wf ns hs.2 hn.2 hx.2⟩
end

theorem noElement_names : ∀ {ns : List Node}, ns.any isElement = false → childNames ns = []
  | [], _ => rfl
  | .elem i ks :: ns, h => by simp [isElement] at h
  | .text s :: ns, h => by rw [childNames]; exact noElement_names (by simpa [isElement] using h); all_goals simp
  | .comment s :: ns, h => by rw [childNames]; exact noElement_names (by simpa [isElement] using h); all_goals simp
  | .pi a b :: ns, h => by rw [childNames]; exact noElement_names (by simpa [isElement] using h); all_goals simp

theorem element_xhtml : ∀ {ns : List Node}, ns.any isElement = true → areXhtml ns = true → haveXhtml ns = true
  | [], h, _ => by cases h
  | n :: ns, h, hx => by
    rw [areXhtml, Bool.and_eq_true] at hx
    rw [haveXhtml, Bool.or_eq_true]
    rw [List.any_cons, Bool.or_eq_true] at h
    rcases h with h | h
    · cases n with
      | elem i ks =>
        left
        have h1 := hx.1
        rw [isXhtml, Bool.and_eq_true, beq_iff_eq] at h1
        rw [hasXhtml, Bool.or_eq_true]
        left
        unfold Info.tag
        rw [h1.1, Option.isSome_some, Bool.true_and]
        exact containsStr_append (sub := xhtmlNs) (by decide) c!"{" (c!"}" ++ i.name)
      | _ => cases h
    · exact .inr (element_xhtml h hx.2)

/-- What the parser makes of XHTML content. -/
theorem PSeen.content {b : Bool} (hE : Env K p) (h : PSeen X K p (.xhtmlContent b) n) : ∃ ts, ts = treesOf n.kids ∧ AllWF ts ∧ noAdjacentText ts = true ∧
    (n.nsmap ≠ [] → stringifyNamespacedChildren n = .ok (printAll p ts)) ∧ (n.nsmap = [] → stringifyChildren n = .ok (printAll p ts)) ∧
    (ts.all XTree.isText = true → escape (printAll p ts) = printAll p ts) ∧
    ((!ts.all XTree.isText) = n.kids.any isElement) ∧ (n.kids.any isElement = true → X) := by
  have hc := h.seen.countOk
  have hk := h.seen.kidsPlain
  have hn := h.neat
  have ht := h.neat.kids.2
  have hf := h.fits
  have hfirst := h.first
  obtain ⟨i, ks, rfl⟩ := h.seen.isElem
  simp only [schema, Model.countOk, Node.kids, Bool.and_eq_true] at hc hk ht
  rw [Xsd.fits.eq_def] at hf
  dsimp only at hf
  rw [Bool.and_eq_true] at hf
  have hf := hf.2
  unfold contentFits at hf
  rw [Bool.and_eq_true, Bool.or_eq_true, beq_iff_eq] at hf
  rw [Neat] at hn
  have hxs := hc.1
  have hall := treesOf_isText hk
  have hcont := trees_content hE.noDefault ks hk hn.2.2 hxs
  have hm : i.nsmap = K := hn.1.nsmap
  refine ⟨treesOf ks, rfl, trees_wf ks hk hn.2.2 hf.1, treesOf_adjacent hk ht, ?_, ?_, ?_, ?_, ?_⟩
  · intro hne
    unfold stringifyNamespacedChildren
    have hne' : i.nsmap ≠ [] := hne
    rw [if_neg (by simpa [Node.nsmap] using hne')]
    show stringifyNsKids i.nsmap.firstKey false ks = _
    cases ha : ks.any isElement with
    | true =>
      have hf1 := (hfirst (hasXhtml_kids (n := .elem i ks) (element_xhtml ha hxs))).1
      rw [hm, hf1]
      exact allContent_print _ _ hcont
    | false =>
      rcases texts_kids hk (noElement_names ha) ht with rfl | ⟨s, rfl⟩
      · rw [stringifyNsKids, treesOf, printAll]
      · rw [stringifyNsKids, stringifyNsNode, stringifyNsKids, treesOf, treesOf, treeOf, printAll, printAll, XTree.print, lxmlEscape_eq]
  · intro he
    have he' : i.nsmap = [] := he
    have ha : ks.any isElement = false := by
      rw [Bool.eq_false_iff]
      intro ha
      have hf1 := (hfirst (hasXhtml_kids (n := .elem i ks) (element_xhtml ha hxs))).1
      rw [← hm, he'] at hf1
      cases hf1
    rw [ha] at hf
    have hesc := hf.2.resolve_left (by simp)
    unfold stringifyChildren
    rcases texts_kids hk (noElement_names ha) ht with rfl | ⟨s, rfl⟩
    · rw [treesOf, printAll]; rfl
    · simp only [textOf, List.append_nil] at hesc
      rw [treesOf, treesOf, treeOf, printAll, printAll, XTree.print, hesc]
      simp only [Node.kids, stringifyChildrenGo]
  · intro hat
    rw [hall] at hat
    have ha : ks.any isElement = false := by simpa using hat
    rw [ha] at hf
    have hesc := hf.2.resolve_left (by simp)
    rcases texts_kids hk (noElement_names ha) ht with rfl | ⟨s, rfl⟩
    · rw [treesOf, printAll]; rfl
    · simp only [textOf, List.append_nil] at hesc
      rw [treesOf, treesOf, treeOf, printAll, printAll, XTree.print, List.append_nil, hesc, hesc]
  · rw [hall, Bool.not_not]; rfl
  · intro ha
    exact (hfirst (hasXhtml_kids (n := .elem i ks) (element_xhtml ha hxs))).2

theorem PSeen.xhtml {b : Bool} (hE : Env K p) (h : PSeen X K p (.xhtmlContent b) n) : ∃ ts, AllWF ts ∧ noAdjacentText ts = true ∧
    (n.nsmap ≠ [] → stringifyNamespacedChildren n = .ok (printAll p ts)) ∧ (n.nsmap = [] → stringifyChildren n = .ok (printAll p ts)) ∧
    (ts.all XTree.isText = true → escape (printAll p ts) = printAll p ts) ∧
    ((!ts.all XTree.isText) = n.kids.any isElement) ∧ (n.kids.any isElement = true → X) := by
  obtain ⟨ts, -, h⟩ := h.content hE
  exact ⟨ts, h⟩

/-- The XHTML prefix is usable in the document that is written. -/
def XOk (Γ : Ctx) : Prop := Γ.Bound ∧ Γ.keep.firstKey = some Γ.pfx

theorem safeXhtml_of {Γ : Ctx} {ts : List XTree} (hE : Env K p) (hp : Γ.pfx = p) (h1 : AllWF ts) (h2 : noAdjacentText ts = true)
    (h3 : ts.all XTree.isText = true → escape (printAll p ts) = printAll p ts)
    (hu : (printAll p ts).contains '<' = true → XOk Γ) : SafeXhtml Γ (printAll p ts) := by
  rw [print_lt] at hu
  refine ⟨(by rw [hp]; exact hE.name), ts, h1, h2, (by rw [hp]), ?_, ?_⟩
  · intro ha
    exact hu (by rw [ha]; rfl)
  · intro hk
    have ha : ts.all XTree.isText = true := by
      cases ha : ts.all XTree.isText with
      | true => rfl
      | false =>
        have := (hu (by rw [ha]; rfl)).2
        rw [hk] at this
        cases this
    exact ⟨ha, h3 ha⟩

end ReqIF.Xsd
