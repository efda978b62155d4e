import Verif.Props.C33
import Verif.Spec.Content
/-!
# C48: namespaced XHTML content is reproduced exactly
-/
namespace ReqIF
open Spec

/-! ## The value string is the printed content -/

theorem attrsOut_key (as : List Attr) :
    attrsOut as = (as.map (fun a => (a.key, a.value))).flatMap (fun a => c!" " ++ a.1 ++ c!"=\"" ++ escape a.2 ++ c!"\"") := by
  induction as with
  | nil => rfl
  | cons a as ih => rw [attrsOut, ih, List.map_cons, List.flatMap_cons, lxmlEscape_eq]

mutual
theorem content_print {p : Str} : ∀ (t : XTree) (n : Node), IsContent p t n → stringifyNsNode (some p) false n = .ok (t.print p)
  | .elem name attrs kids, .elem i ks, h => by
    unfold IsContent at h
    obtain ⟨rfl, -, h2, h3, rfl, h5⟩ := h
    have ho : hasOwnNs i = false := hasOwnNs_clean h3
    have hobj : isObjectTag i.tag = false := by
      obtain ⟨u, hu⟩ := Option.isSome_iff_exists.1 h2
      unfold isObjectTag Info.tag
      rw [hu]
      simp [clark, asciiLower]
    have htag : nsTagOut (some p) false i = p ++ c!":" ++ i.name := by
      unfold nsTagOut
      rw [ho, h2]
      simp [fmtOpt]
    have hdecl : nsDeclOut i = [] := by
      unfold nsDeclOut
      rw [ho]; rfl
    rw [stringifyNsNode, allContent_print kids ks h5, htag, hdecl, hobj, attrsOut_key]
    cases kids with
    | nil =>
      cases ks with
      | nil =>
        rw [XTree.print]
        simp
      | cons k ks => unfold AllContent at h5; exact h5.elim
    | cons k kids =>
      cases ks with
      | nil => unfold AllContent at h5; exact h5.elim
      | cons k' ks =>
        rw [XTree.print, printAll]
        simp
  | .text s, .text s', h => by
    unfold IsContent at h
    rw [stringifyNsNode, XTree.print, lxmlEscape_eq, h]
  | .elem .., .text _, h => by unfold IsContent at h; exact h.elim
  | .elem .., .comment _, h => by unfold IsContent at h; exact h.elim
  | .elem .., .pi .., h => by unfold IsContent at h; exact h.elim
  | .text _, .elem .., h => by unfold IsContent at h; exact h.elim
  | .text _, .comment _, h => by unfold IsContent at h; exact h.elim
  | .text _, .pi .., h => by unfold IsContent at h; exact h.elim

theorem allContent_print {p : Str} : ∀ (ts : List XTree) (ns : List Node), AllContent p ts ns →
    stringifyNsKids (some p) false ns = .ok (printAll p ts)
  | [], [], _ => by rw [stringifyNsKids, printAll]
  | t :: ts, n :: ns, h => by
    unfold AllContent at h
    rw [stringifyNsKids, printAll, content_print t n h.1, allContent_print ts ns h.2]
  | [], _ :: _, h => by unfold AllContent at h; exact h.elim
  | _ :: _, [], h => by unfold AllContent at h; exact h.elim
end

mutual
theorem xml_content {Γ : Ctx} (hb : Γ.Bound) (hc : Γ.Clean) (hp : isNCName Γ.pfx = true) :
    ∀ t : XTree, IsContent Γ.pfx t ((t.xml Γ.pfx).final Γ)
  | .elem n as ks => by
    obtain ⟨u, hu, -⟩ := hb.bound
    have hi := info_qual (Γ := Γ) hp n as
    rw [XTree.xml, Xml.final, IsContent, hi]
    refine ⟨rfl, rfl, by rw [hu]; rfl, hc, ?_, xmlAll_content hb hc hp ks⟩
    induction as with
    | nil => rfl
    | cons a as ih =>
      simp only [plainAttrs, List.map_cons, List.map_map, Attr.key, clark]
      simp [Function.comp_def]
  | .text s => by rw [XTree.xml, Xml.final, IsContent]

theorem xmlAll_content {Γ : Ctx} (hb : Γ.Bound) (hc : Γ.Clean) (hp : isNCName Γ.pfx = true) :
    ∀ ts : List XTree, AllContent Γ.pfx ts (finalList Γ (xmlAll Γ.pfx ts))
  | [] => by rw [xmlAll, finalList, AllContent]; trivial
  | t :: ts => by
    rw [xmlAll, finalList, AllContent]
    exact ⟨xml_content hb hc hp t, xmlAll_content hb hc hp ts⟩
end

theorem firstKey_ne {m : NsMap} {p : Str} (h : m.firstKey = some p) : m ≠ [] := by
  rintro rfl
  cases h

/-- **C48**, the value: the value string of an XHTML attribute value is its content, printed
with the prefix. -/
theorem C48_value {p : Str} {ts : List XTree} {x : Node} {a : SpecObjectAttribute} (hx : HasContent p ts x)
    (h : parseXhtmlAttributeValue x = .ok a) : a.type = .xhtml ∧ a.value = .str (printAll p ts) := by
  obtain ⟨w, h1, h2, h3⟩ := hx
  unfold parseXhtmlAttributeValue at h
  have f1 : findReq x c!"THE-VALUE" = .ok w := by unfold findReq; rw [h1]; rfl
  rw [f1, py_bind_ok, if_pos (List.length_pos_iff.2 (firstKey_ne h2))] at h
  have hs : stringifyNamespacedChildren w = .ok (printAll p ts) := by
    unfold stringifyNamespacedChildren
    have : w.nsmap.isEmpty = false := by simpa using firstKey_ne h2
    rw [this, h2, allContent_print ts _ h3]
    rfl
  rw [hs, py_bind_ok] at h
  obtain ⟨st, -, h⟩ := py_bind_inv h
  obtain ⟨d, -, h⟩ := py_bind_inv h
  obtain ⟨r, -, h⟩ := py_bind_inv h
  rw [py_pure] at h
  cases h
  exact ⟨rfl, rfl⟩

/-- **C48**, one step: the value, written to a document in which the prefix is bound and the
first one in use, is read again with the same content and the same value string. -/
theorem C48_step {as : List (Str × Str)} (hr : RootAttrs as) {p : Str} (hp : isNCName p = true) {ts : List XTree} {Γ : Ctx}
    (hΓ : IsCtx as p (!ts.all XTree.isText) Γ) (hb : Γ.Bound) (hk : Γ.keep.firstKey = some p)
    (hwf : AllWF ts) (hna : noAdjacentText ts = true) {x : Node} {a : SpecObjectAttribute}
    (hx : HasContent p ts x) (h : parseXhtmlAttributeValue x = .ok a) (href : PlainElem a.definitionRef) :
    ∃ t x' s, unparseAttributeValue a = .ok t ∧ ReadsAs as t [x'] ∧ HasContent p ts x' ∧
      x'.tag = .name c!"ATTRIBUTE-VALUE-XHTML" ∧
      parseXhtmlAttributeValue x' = .ok ⟨.xhtml, a.definitionRef, a.value, some s, some x'⟩ := by
  obtain ⟨h1, h2⟩ := C48_value hx h
  obtain ⟨hc, hs⟩ := IsCtx.spec hΓ hr
  have hpf : Γ.pfx = p := by
    obtain ⟨i, -, rfl⟩ := hΓ
    rfl
  subst hpf
  obtain ⟨n, n1, n2, ⟨s, n3⟩, ⟨w, w1, w2, w3⟩, -⟩ := xhtmlTemplate_tree hc hp hwf hna (fun _ => ⟨hb, hk⟩)
    (fun e => absurd e (firstKey_ne hk)) href
  rw [print_lt] at n1
  refine ⟨_, n, s, ?_, hs _ _ n1, ⟨w, w1, by rw [w2]; exact hk, ?_⟩, n2, ?_⟩
  · unfold unparseAttributeValue
    rw [h1, h2]
  · rw [w3]
    exact xmlAll_content hb hc hp ts
  · rw [h2]; exact n3

theorem ReadsAs.unique {as : List (Str × Str)} {t : Str} {ns ms : List Node} (h1 : ReadsAs as t ns) (h2 : ReadsAs as t ms) : ns = ms := by
  obtain ⟨d, r, a1, a2, a3⟩ := h1
  obtain ⟨d', r', b1, b2, b3⟩ := h2
  rw [a1] at b1
  cases b1
  rw [a2] at b2
  cases b2
  rw [← a3, ← b3]

/-- **C48.**  However often the value is written and read again, the content and the value
string stay the same; and every such step succeeds. -/
theorem C48_stable {as : List (Str × Str)} (hr : RootAttrs as) {p : Str} (hp : isNCName p = true) {ts : List XTree} {Γ : Ctx}
    (hΓ : IsCtx as p (!ts.all XTree.isText) Γ) (hb : Γ.Bound) (hk : Γ.keep.firstKey = some p)
    (hwf : AllWF ts) (hna : noAdjacentText ts = true) {x : Node} {a : SpecObjectAttribute}
    (hx : HasContent p ts x) (ht : x.tag = .name c!"ATTRIBUTE-VALUE-XHTML") (h : parseAttributeValue x = .ok a)
    (href : PlainElem a.definitionRef) {y : Node} (hy : RewrittenMany as x y) :
    HasContent p ts y ∧ (∃ b, parseAttributeValue y = .ok b ∧ b.type = .xhtml ∧ b.value = .str (printAll p ts) ∧
      b.definitionRef = a.definitionRef) ∧ ∃ z, Rewritten as y z := by
  have hpar : ∀ z : Node, z.tag = .name c!"ATTRIBUTE-VALUE-XHTML" → parseAttributeValue z = parseXhtmlAttributeValue z := by
    intro z hz
    simp only [parseAttributeValue, hz]
    rfl
  suffices key : HasContent p ts y ∧ y.tag = .name c!"ATTRIBUTE-VALUE-XHTML" ∧ ∃ b, parseXhtmlAttributeValue y = .ok b ∧
      b.definitionRef = a.definitionRef by
    obtain ⟨k1, k2, b, k3, k4⟩ := key
    obtain ⟨b1, b2⟩ := C48_value k1 k3
    obtain ⟨t, z, s, z1, z2, -⟩ := C48_step hr hp hΓ hb hk hwf hna k1 k3 (by rw [k4]; exact href)
    exact ⟨k1, ⟨b, by rw [hpar y k2]; exact k3, b1, b2, k4⟩, z, b, t, by rw [hpar y k2]; exact k3, z1, z2⟩
  induction hy with
  | refl => exact ⟨hx, ht, a, by rw [← hpar x ht]; exact h, rfl⟩
  | @step y z hy hs ih =>
    obtain ⟨k1, k2, b, k3, k4⟩ := ih
    obtain ⟨t, z', s, z1, z2, z3, z4, z5⟩ := C48_step hr hp hΓ hb hk hwf hna k1 k3 (by rw [k4]; exact href)
    obtain ⟨b', t', y1, y2, y3⟩ := hs
    rw [hpar y k2, k3] at y1
    cases y1
    rw [z1] at y2
    cases y2
    have := ReadsAs.unique y3 z2
    cases this
    exact ⟨z3, z4, _, z5, k4⟩

/-! ## Non-vacuity -/

/-- The namespaces in force in a customary document, after the cleanup. -/
def xhtmlMap : NsMap := [(some c!"xhtml", c!"http://www.w3.org/1999/xhtml")]

/-- An XHTML element in such a document. -/
def xhtmlEl (name : Str) (attrs : List (Str × Str)) (ks : List Node) : Node :=
  .elem ⟨some c!"http://www.w3.org/1999/xhtml", some c!"xhtml", name, [], xhtmlMap, attrs.map (fun a => ⟨none, none, a.1, a.2⟩)⟩ ks

/-- An XHTML value as read from a customary document. -/
def xhtmlValueEl : Node :=
  .elem ⟨none, none, c!"ATTRIBUTE-VALUE-XHTML", [], xhtmlMap, []⟩
    [.elem ⟨none, none, c!"THE-VALUE", [], xhtmlMap, []⟩
      [.text c!"\n  ", xhtmlEl c!"div" [(c!"class", c!"a")] [.text c!"x < ", xhtmlEl c!"br" [] [], .text c!" y"], .text c!"\n"],
     .elem ⟨none, none, c!"DEFINITION", [], xhtmlMap, []⟩
      [.elem ⟨none, none, c!"ATTRIBUTE-DEFINITION-XHTML-REF", [], xhtmlMap, []⟩ [.text c!"d"]]]

example : ∃ Γ a, IsCtx usualRoot c!"xhtml" (!exampleContent.all XTree.isText) Γ ∧ Γ.Bound ∧ Γ.keep.firstKey = some c!"xhtml" ∧
    AllWF exampleContent ∧ noAdjacentText exampleContent = true ∧ HasContent c!"xhtml" exampleContent xhtmlValueEl ∧
    xhtmlValueEl.tag = .name c!"ATTRIBUTE-VALUE-XHTML" ∧ parseAttributeValue xhtmlValueEl = .ok a ∧ PlainElem a.definitionRef := by
  refine ⟨_, _, ⟨_, rfl, rfl⟩, ⟨by decide, _, rfl, by decide⟩, rfl, ?_, rfl, ⟨_, rfl, rfl, ?_⟩, rfl, rfl, by decide⟩
  · unfold exampleContent
    simp only [AllWF, XTree.WF]
    decide
  · unfold exampleContent
    simp only [AllContent, IsContent, Node.kids, xhtmlEl]
    decide

/-- A value with this content. -/
def valueElOf (ks : List Node) : Node := .elem ⟨none, none, c!"ATTRIBUTE-VALUE-XHTML", [], xhtmlMap, []⟩
  [.elem ⟨none, none, c!"THE-VALUE", [], xhtmlMap, []⟩ ks,
   .elem ⟨none, none, c!"DEFINITION", [], xhtmlMap, []⟩
    [.elem ⟨none, none, c!"ATTRIBUTE-DEFINITION-XHTML-REF", [], xhtmlMap, []⟩ [.text c!"d"]]]

/-- **C48**, the opposite: a comment in the content cannot be read. -/
theorem C48_comment (s : Str) (pre post : List Node) (h : stringifyNsKids (some c!"xhtml") false pre = .ok s) (t : Str) :
    parseXhtmlAttributeValue (valueElOf (pre ++ .comment t :: post)) = .error .valueError := by
  have key : ∀ (pre : List Node) (s : Str), stringifyNsKids (some c!"xhtml") false pre = .ok s →
      stringifyNsKids (some c!"xhtml") false (pre ++ .comment t :: post) = .error .valueError := by
    intro pre
    induction pre with
    | nil => intro s h; rw [List.nil_append, stringifyNsKids, stringifyNsNode]
    | cons n pre ih =>
      intro s h
      rw [stringifyNsKids] at h
      rw [List.cons_append, stringifyNsKids]
      cases hn : stringifyNsNode (some c!"xhtml") false n with
      | error e => rw [hn] at h; cases h
      | ok a =>
        rw [hn] at h
        dsimp only at h ⊢
        cases hp : stringifyNsKids (some c!"xhtml") false pre with
        | error e => rw [hp] at h; cases h
        | ok b => rw [ih b hp]
  have e : stringifyNamespacedChildren (.elem ⟨none, none, c!"THE-VALUE", [], xhtmlMap, []⟩ (pre ++ .comment t :: post)) =
      .error .valueError := key pre s h
  have f : findReq (valueElOf (pre ++ .comment t :: post)) c!"THE-VALUE" =
      .ok (.elem ⟨none, none, c!"THE-VALUE", [], xhtmlMap, []⟩ (pre ++ .comment t :: post)) := rfl
  unfold parseXhtmlAttributeValue
  rw [f, py_bind_ok, if_pos (by simp [Node.nsmap, xhtmlMap]), e]
  rfl

/-- **C48**, the opposite: an attribute with a prefix is printed with its namespace in
braces, which no XML reader accepts. -/
theorem C48_attribute : ∃ a, parseXhtmlAttributeValue (valueElOf
      [.elem ⟨some c!"http://www.w3.org/1999/xhtml", some c!"xhtml", c!"p", [], xhtmlMap, [⟨some c!"u", some c!"q", c!"lang", c!"de"⟩]⟩ []]) = .ok a ∧
    a.value = .str c!"<xhtml:p {u}lang=\"de\"/>" := ⟨_, rfl, rfl⟩

end ReqIF
