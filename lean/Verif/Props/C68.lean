import Verif.Props.C48
import Verif.Proofs.Stringify
import Verif.Spec.Html
/-!
# C68: HTML becomes an XHTML value

`lxml_convert_to_reqif_ns_xhtml_string` turns HTML into the text of an XHTML attribute
value.  The HTML parser is a parameter; what it gives is a tree without namespaces.
-/
set_option linter.unusedSimpArgs false
namespace ReqIF
open Spec

/-! ## The text of a value whose empty objects keep their end tags -/

mutual
def Spec.XTree.hsrc (p : Str) : XTree → Src
  | .elem n as [] => if isObject n then .elem (qual p n) (escAttrs as) [] else .empty (qual p n) (escAttrs as)
  | .elem n as (k :: ks) => .elem (qual p n) (escAttrs as) (k.hsrc p :: hsrcAll p ks)
  | .text s => .text (escape s)

def hsrcAll (p : Str) : List XTree → List Src
  | [] => []
  | t :: ts => t.hsrc p :: hsrcAll p ts
end

mutual
theorem hsrc_render (p : Str) : ∀ t : XTree, (t.hsrc p).render = t.html p
  | .elem n as [] => by
    rw [XTree.hsrc, XTree.html]
    split
    · rw [Src.render, attrsText_esc, renderList]
      simp [qual]
    · rw [Src.render, attrsText_esc]
      simp [qual]
  | .elem n as (k :: ks) => by
    rw [XTree.hsrc, XTree.html, Src.render, renderList, attrsText_esc, hsrc_render p k, hsrcAll_render p ks]
    simp [qual]
  | .text s => by rw [XTree.hsrc, XTree.html, Src.render]

theorem hsrcAll_render (p : Str) : ∀ ts : List XTree, renderList (hsrcAll p ts) = htmlText p ts
  | [] => by rw [hsrcAll, htmlText, renderList]
  | t :: ts => by rw [hsrcAll, htmlText, renderList, hsrc_render p t, hsrcAll_render p ts]
end

mutual
theorem hsrc_exec (p : Str) : ∀ (t : XTree) (s : Str × List Xml), (t.hsrc p).exec s = (t.src p).exec s
  | .elem n as [], s => by
    rw [XTree.hsrc, XTree.src]
    split
    · rw [Src.exec, Src.exec, execList]
      cases flushK s.1 s.2 <;> cases decodeAttrs (escAttrs as) <;> rfl
    · rfl
  | .elem n as (k :: ks), s => by
    have e : ∀ st, execList (k.hsrc p :: hsrcAll p ks) st = execList (k.src p :: srcAll p ks) st := by
      intro st
      rw [execList, execList, hsrc_exec p k st]
      cases (k.src p).exec st with
      | none => rfl
      | some st' => exact hsrcAll_exec p ks st'
    rw [XTree.hsrc, XTree.src, Src.exec, Src.exec, e]
  | .text t, s => by rw [XTree.hsrc, XTree.src]

theorem hsrcAll_exec (p : Str) : ∀ (ts : List XTree) (s : Str × List Xml), execList (hsrcAll p ts) s = execList (srcAll p ts) s
  | [], s => by rw [hsrcAll, srcAll]
  | t :: ts, s => by
    rw [hsrcAll, srcAll, execList, execList, hsrc_exec p t s]
    cases (t.src p).exec s with
    | none => rfl
    | some s' => exact hsrcAll_exec p ts s'
end

theorem hsrcAll_eval (p : Str) (ts : List XTree) : evalKids (hsrcAll p ts) = evalKids (srcAll p ts) := by
  unfold evalKids
  rw [hsrcAll_exec]

mutual
theorem hsrc_lex {p : Str} (hp : isNCName p = true) : ∀ t : XTree, t.WF → (t.hsrc p).lexOk = true
  | .elem n as [], h => by
    unfold XTree.WF at h
    rw [XTree.hsrc]
    split
    · rw [Src.lexOk, isQName_qual hp h.1, (xattrs h.2.1 h.2.2.1).lex, lexOkList]; rfl
    · rw [Src.lexOk, isQName_qual hp h.1, (xattrs h.2.1 h.2.2.1).lex]; rfl
  | .elem n as (k :: ks), h => by
    unfold XTree.WF AllWF at h
    rw [XTree.hsrc, Src.lexOk, isQName_qual hp h.1, (xattrs h.2.1 h.2.2.1).lex, lexOkList, hsrc_lex hp k h.2.2.2.2.1,
      hsrcAll_lex hp ks h.2.2.2.2.2]; rfl
  | .text s, _ => by
    rw [XTree.hsrc, Src.lexOk]
    have := escape_noLt s
    simpa using this

theorem hsrcAll_lex {p : Str} (hp : isNCName p = true) : ∀ ts : List XTree, AllWF ts → lexOkList (hsrcAll p ts) = true
  | [], _ => by rw [hsrcAll, lexOkList]
  | t :: ts, h => by
    unfold AllWF at h
    rw [hsrcAll, lexOkList, hsrc_lex hp t h.1, hsrcAll_lex hp ts h.2]; rfl
end

mutual
theorem hsrc_cr {p : Str} (hp : isNCName p = true) : ∀ t : XTree, t.WF → '\r' ∉ (t.hsrc p).render
  | .elem n as [], h => by
    unfold XTree.WF at h
    have h1 := qname_noCr (isQName_qual hp h.1)
    have h2 := (xattrs h.2.1 h.2.2.1).cr
    rw [XTree.hsrc]
    split
    · rw [Src.render, renderList]
      simp only [List.mem_append, List.mem_cons, not_or]
      simp [h1, h2]
    · rw [Src.render]
      simp only [List.mem_append, List.mem_cons, not_or]
      simp [h1, h2]
  | .elem n as (k :: ks), h => by
    unfold XTree.WF AllWF at h
    have h1 := qname_noCr (isQName_qual hp h.1)
    have h2 := (xattrs h.2.1 h.2.2.1).cr
    have h3 := hsrc_cr hp k h.2.2.2.2.1
    have h4 := hsrcAll_cr hp ks h.2.2.2.2.2
    rw [XTree.hsrc, Src.render, renderList]
    simp only [List.mem_append, List.mem_cons, not_or]
    simp [h1, h2, h3, h4]
  | .text s, h => by
    unfold XTree.WF at h
    rw [XTree.hsrc, Src.render]
    exact escape_noCr (fun c hc => (h.2 c hc).2)

theorem hsrcAll_cr {p : Str} (hp : isNCName p = true) : ∀ ts : List XTree, AllWF ts → '\r' ∉ renderList (hsrcAll p ts)
  | [], _ => by rw [hsrcAll, renderList]; simp
  | t :: ts, h => by
    unfold AllWF at h
    rw [hsrcAll, renderList]
    simp only [List.mem_append, not_or]
    exact ⟨hsrc_cr hp t h.1, hsrcAll_cr hp ts h.2⟩
end

mutual
theorem html_print (p : Str) : ∀ t : XTree, t.fullObjects = true → t.html p = t.print p
  | .elem n as [], h => by
    rw [XTree.fullObjects, Bool.and_eq_true] at h
    have : isObject n = false := by simpa using h.1
    rw [XTree.html, XTree.print, this]
    simp
  | .elem n as (k :: ks), h => by
    rw [XTree.fullObjects, Bool.and_eq_true, fullObjectsAll, Bool.and_eq_true] at h
    rw [XTree.html, XTree.print, html_print p k h.2.1, htmlText_print p ks h.2.2]
  | .text s, _ => by rw [XTree.html, XTree.print]

theorem htmlText_print (p : Str) : ∀ ts : List XTree, fullObjectsAll ts = true → htmlText p ts = printAll p ts
  | [], _ => by rw [htmlText, printAll]
  | t :: ts, h => by
    rw [fullObjectsAll, Bool.and_eq_true] at h
    rw [htmlText, printAll, html_print p t h.1, htmlText_print p ts h.2]
end

/-! ## The conversion -/

mutual
theorem html_node (p : Str) : ∀ (t : XTree) (n : Node), IsHtml t n → stringifyNsNode (some p) true n = .ok (t.html p)
  | .elem name attrs kids, .elem i ks, h => by
    unfold IsHtml at h
    obtain ⟨h1, h2, h3, h4, h5⟩ := h
    have ho : hasOwnNs i = false := by unfold hasOwnNs; rw [h2]
    have htag : nsTagOut (some p) true i = p ++ c!":" ++ name := by
      unfold nsTagOut
      rw [ho, h1]
      simp [fmtOpt]
    have hdecl : nsDeclOut i = [] := by unfold nsDeclOut; rw [ho]; rfl
    have hobj : isObjectTag i.tag = isObject name := by
      rw [isObjectTag_eq]
      unfold Info.tag
      rw [h2, h1]
      rfl
    have hattrs : attrsOut i.attrs = attrs.flatMap (fun a => c!" " ++ a.1 ++ c!"=\"" ++ escape a.2 ++ c!"\"") := by
      rw [h4]; exact attrsOut_plain attrs
    rw [stringifyNsNode, html_nodes p kids ks h5, htag, hdecl, hobj, hattrs]
    cases kids with
    | nil =>
      cases ks with
      | nil =>
        rw [XTree.html]
        cases isObject name
        · simp
        · simp [htmlText]
      | cons k ks => unfold AllHtml at h5; exact h5.elim
    | cons k kids =>
      cases ks with
      | nil => unfold AllHtml at h5; exact h5.elim
      | cons k' ks =>
        rw [XTree.html, htmlText]
        simp
  | .text s, .text s', h => by
    unfold IsHtml at h
    rw [stringifyNsNode, XTree.html, lxmlEscape_eq, h]
  | .elem .., .text _, h => by unfold IsHtml at h; exact h.elim
  | .elem .., .comment _, h => by unfold IsHtml at h; exact h.elim
  | .elem .., .pi .., h => by unfold IsHtml at h; exact h.elim
  | .text _, .elem .., h => by unfold IsHtml at h; exact h.elim
  | .text _, .comment _, h => by unfold IsHtml at h; exact h.elim
  | .text _, .pi .., h => by unfold IsHtml at h; exact h.elim

theorem html_nodes (p : Str) : ∀ (ts : List XTree) (ns : List Node), AllHtml ts ns → stringifyNsKids (some p) true ns = .ok (htmlText p ts)
  | [], [], _ => by rw [stringifyNsKids, htmlText]
  | t :: ts, n :: ns, h => by
    unfold AllHtml at h
    rw [stringifyNsKids, htmlText, html_node p t n h.1, html_nodes p ts ns h.2]
  | [], _ :: _, h => by unfold AllHtml at h; exact h.elim
  | _ :: _, [], h => by unfold AllHtml at h; exact h.elim
end

/-- The prefix asked for. -/
def xhtmlPrefix (reqifXhtml : Bool) : Str := if reqifXhtml then c!"reqif-xhtml" else c!"xhtml"

/-- **C68**, the text: every element gets the prefix, attributes and texts are escaped once, and
empty elements are empty tags except for `object`. -/
theorem C68_text (fragment : Str → Py Node) (string : Str) (reqifXhtml : Bool) (ts : List XTree) (n : Node)
    (hf : fragment string = .ok n) (hn : AllHtml ts n.kids) :
    convertToReqifNs fragment string reqifXhtml = .ok (htmlText (xhtmlPrefix reqifXhtml) ts) := by
  unfold convertToReqifNs stringifyNamespacedChildrenAs
  rw [hf]
  exact html_nodes _ ts n.kids hn

mutual
theorem nsNode_ok (p : Option Str) (b : Bool) : ∀ n : Node, (∃ s, stringifyNsNode p b n = .ok s) ↔ noSpecials n = true
  | .elem i ks => by
    have ih := nsKids_ok p b ks
    rw [stringifyNsNode, noSpecials]
    by_cases hk : (!ks.isEmpty || isObjectTag i.tag) = true
    · rw [if_pos hk, ← ih]
      cases stringifyNsKids p b ks with
      | error e => simp
      | ok s => simp
    · rw [if_neg hk]
      have : ks = [] := by
        cases ks with
        | nil => rfl
        | cons k ks => exact absurd rfl hk
      subst this
      simp [noSpecialsAll]
  | .text s => by simp [stringifyNsNode, noSpecials]
  | .comment s => by simp [stringifyNsNode, noSpecials]
  | .pi t d => by simp [stringifyNsNode, noSpecials]

theorem nsKids_ok (p : Option Str) (b : Bool) : ∀ ns : List Node, (∃ s, stringifyNsKids p b ns = .ok s) ↔ noSpecialsAll ns = true
  | [] => by simp [stringifyNsKids, noSpecialsAll]
  | n :: ns => by
    have h1 := nsNode_ok p b n
    have h2 := nsKids_ok p b ns
    rw [stringifyNsKids, noSpecialsAll, Bool.and_eq_true, ← h1, ← h2]
    cases stringifyNsNode p b n with
    | error e => simp
    | ok s =>
      cases stringifyNsKids p b ns with
      | error e => simp
      | ok s' => simp
end

/-- **C68**, when it succeeds: exactly if the HTML has neither comments nor processing
instructions. -/
theorem C68_succeeds (fragment : Str → Py Node) (string : Str) (reqifXhtml : Bool) (n : Node) (hf : fragment string = .ok n) :
    (∃ s, convertToReqifNs fragment string reqifXhtml = .ok s) ↔ noSpecialsAll n.kids = true := by
  unfold convertToReqifNs stringifyNamespacedChildrenAs
  rw [hf]
  exact nsKids_ok _ _ _

/-- An XHTML value printed with its empty objects as given, and read. -/
theorem htmlTemplate_tree {Γ : Ctx} (hc : Γ.Clean) (hp : isNCName Γ.pfx = true) {ts : List XTree} (hwf : AllWF ts)
    (hna : noAdjacentText ts = true) (hb : Γ.Bound) (hk : Γ.keep.firstKey = some Γ.pfx) {o : Option Str} (ho : PlainElem o) :
    ∃ n, Shows Γ (!ts.all XTree.isText) (xhtmlTemplate (htmlText Γ.pfx ts) (fmtOpt o)) [n] ∧ n.tag = .name c!"ATTRIBUTE-VALUE-XHTML" ∧
      (∃ s, parseXhtmlAttributeValue n = .ok ⟨.xhtml, o, .str (printAll Γ.pfx ts), some s, some n⟩) ∧ HasContent Γ.pfx ts n := by
  obtain ⟨d, r, hd, hr, ht, hs⟩ := Shows.ref (Γ := Γ) 14 16 (outer := c!"DEFINITION")
    (inner := c!"ATTRIBUTE-DEFINITION-XHTML-REF") (by decide) (by decide) ho
  have hg : GoodList Γ (xmlAll Γ.pfx ts) := xmlAll_good hb hp ts hwf
  have w3 := Shows.source (Γ := Γ) 14 (tag := c!"THE-VALUE") (by decide) (hsrcAll_lex hp ts hwf) (hsrcAll_cr hp ts hwf)
    (by rw [hsrcAll_eval]; exact srcAll_eval ts hwf hna) (goodList_iff.1 hg) (fits_xhtml (by decide) (xmlAll_inXhtml hp ts))
  rw [xmlAll_prefixed hp, hsrcAll_render] at w3
  generalize hw : (Node.elem ⟨none, none, c!"THE-VALUE", [], Γ.keep, []⟩ (finalList Γ (xmlAll Γ.pfx ts))) = w at w3
  have w1 : w.tag = .name c!"THE-VALUE" := by rw [← hw]; rfl
  have w2 : w.nsmap = Γ.keep := by rw [← hw]; rfl
  have wk : w.kids = finalList Γ (xmlAll Γ.pfx ts) := by rw [← hw]; rfl
  have w4 : hasPI w = false := by rw [← hw, hasPI]; exact goodList_noPI _ hg
  have hne := firstKey_ne hk
  have w5 : stringifyNamespacedChildren w = .ok (printAll Γ.pfx ts) := by
    unfold stringifyNamespacedChildren
    have : Γ.keep.isEmpty = false := by simpa using hne
    rw [w2, this, wk, hk]
    exact xmlAll_print hb hc hp ts
  obtain ⟨n, n1, -, n2⟩ := Shows.block 12 (tag := c!"ATTRIBUTE-VALUE-XHTML") (by decide) (hs.append w3)
  have f0 : n.find c!"THE-VALUE" = some w := by
    rw [find_eq, n1.children]
    simp [hd.tag, w1]
  have f1 : findReq n c!"THE-VALUE" = .ok w := by unfold findReq; rw [f0]; rfl
  have f2 : findReq n c!"DEFINITION" = .ok d := by
    unfold findReq
    rw [find_eq, n1.children]
    simp [hd.tag, orAttr]
  have f3 : findReq d c!"ATTRIBUTE-DEFINITION-XHTML-REF" = .ok r := by
    unfold findReq
    rw [find_one hd hr.tag]; rfl
  obtain ⟨s, hs2⟩ := convert_ok w w4
  refine ⟨n, ?_, n1.tag, ?_, ⟨w, f0, by rw [w2]; exact hk, ?_⟩⟩
  · rw [Bool.false_or] at n2
    refine n2.congr ?_
    simp only [xhtmlTemplate, List.append_assoc]
  · unfold parseXhtmlAttributeValue
    rw [f1]
    simp only [py_bind_ok, py_pure, w2]
    have : Γ.keep.length > 0 := List.length_pos_iff.2 hne
    simp only [this, if_true, w5, hs2, f2, f3, py_bind_ok, py_pure, ht]
    exact ⟨_, rfl⟩
  · rw [wk]; exact xmlAll_content hb hc hp ts

/-- **C68**, round trip: converted HTML, made the value of an XHTML attribute and written to a
document in which the prefix is bound to XHTML and the first one in use, is read back with the
content the HTML had.  If every `object` has content the value string is the same, too. -/
theorem C68_roundtrip (fragment : Str → Py Node) (string : Str) (reqifXhtml : Bool) (ts : List XTree) (html : Node) (v : Str)
    (hf : fragment string = .ok html) (hh : AllHtml ts html.kids) (hwf : AllWF ts) (hna : noAdjacentText ts = true)
    (hv : convertToReqifNs fragment string reqifXhtml = .ok v)
    {as : List (Str × Str)} (hr : RootAttrs as) {Γ : Ctx} (hΓ : IsCtx as (xhtmlPrefix reqifXhtml) (!ts.all XTree.isText) Γ)
    (hb : Γ.Bound) (hk : Γ.keep.firstKey = some (xhtmlPrefix reqifXhtml)) {ref : Option Str} (href : PlainElem ref) :
    ∃ t x a, unparseAttributeValue ⟨.xhtml, ref, .str v, none, none⟩ = .ok t ∧ ReadsAs as t [x] ∧
      parseAttributeValue x = .ok a ∧ a.type = .xhtml ∧ a.definitionRef = ref ∧ HasContent (xhtmlPrefix reqifXhtml) ts x ∧
      a.value = .str (printAll (xhtmlPrefix reqifXhtml) ts) ∧ (fullObjectsAll ts = true → a.value = .str v) := by
  have hp : isNCName (xhtmlPrefix reqifXhtml) = true := by cases reqifXhtml <;> decide
  rw [C68_text fragment string reqifXhtml ts html hf hh] at hv
  cases hv
  obtain ⟨hc, hs⟩ := IsCtx.spec hΓ hr
  have hpf : Γ.pfx = xhtmlPrefix reqifXhtml := by
    obtain ⟨i, -, rfl⟩ := hΓ
    rfl
  rw [← hpf] at hp hk ⊢
  obtain ⟨n, n1, n2, ⟨s, n3⟩, n4⟩ := htmlTemplate_tree hc hp hwf hna hb hk href
  refine ⟨_, n, ⟨.xhtml, ref, .str (printAll Γ.pfx ts), some s, some n⟩, rfl, hs _ _ n1, ?_, rfl, rfl, n4, rfl, ?_⟩
  · simp only [parseAttributeValue, n2]
    exact n3
  · intro hfull
    rw [htmlText_print _ ts hfull]

/-! ## Concrete cases -/

/-- An element as the HTML parser gives it. -/
def htmlEl (name : Str) (attrs : List (Str × Str)) (ks : List Node) : Node :=
  .elem ⟨none, none, name, [], [], attrs.map (fun a => ⟨none, none, a.1, a.2⟩)⟩ ks

/-- `<div>a &lt; b<br><object data="f.png"></object></div>` as the HTML parser gives it. -/
def htmlExample : Node := htmlEl c!"NOT-USED" []
  [htmlEl c!"div" [(c!"class", c!"c")] [.text c!"a < b", htmlEl c!"br" [] [], htmlEl c!"object" [(c!"data", c!"f.png")] []]]

def htmlContent : List XTree :=
  [.elem c!"div" [(c!"class", c!"c")] [.text c!"a < b", .elem c!"br" [] [], .elem c!"object" [(c!"data", c!"f.png")] []]]

example : convertToReqifNs (fun _ => .ok htmlExample) [] true = .ok
    c!"<reqif-xhtml:div class=\"c\">a &lt; b<reqif-xhtml:br/><reqif-xhtml:object data=\"f.png\"></reqif-xhtml:object></reqif-xhtml:div>" := rfl

/-- The hypotheses of `C68_roundtrip` are met. -/
example : ∃ Γ, AllHtml htmlContent htmlExample.kids ∧ AllWF htmlContent ∧ noAdjacentText htmlContent = true ∧
    IsCtx usualRoot (xhtmlPrefix false) (!htmlContent.all XTree.isText) Γ ∧ Γ.Bound ∧ Γ.keep.firstKey = some (xhtmlPrefix false) := by
  refine ⟨_, ?_, ?_, rfl, ⟨_, rfl, rfl⟩, ⟨by decide, _, rfl, by decide⟩, rfl⟩
  · unfold htmlContent htmlExample
    simp [AllHtml, IsHtml, Node.kids, htmlEl]
  · unfold htmlContent
    simp only [AllWF, XTree.WF]
    decide

set_option maxRecDepth 20000 in
/-- **C68**, the opposite: an empty `object` loses its end tag once the value has been written
and read. -/
theorem C68_object : convertToReqifNs (fun _ => .ok (htmlEl c!"NOT-USED" [] [htmlEl c!"object" [(c!"data", c!"f.png")] []])) [] false =
      .ok c!"<xhtml:object data=\"f.png\"></xhtml:object>" ∧
    rereadValues usualRoot [⟨.xhtml, some c!"d", .str c!"<xhtml:object data=\"f.png\"></xhtml:object>", none, none⟩] =
      some (some [⟨.xhtml, some c!"d", .str c!"<xhtml:object data=\"f.png\"/>"⟩]) := ⟨rfl, by decide +kernel⟩

/-- **C68**, the opposite: HTML with a comment is refused. -/
theorem C68_comment (fragment : Str → Py Node) (string : Str) (reqifXhtml : Bool) (n : Node) (hf : fragment string = .ok n)
    (c : Str) (hc : Node.comment c ∈ n.kids) : ∀ s, convertToReqifNs fragment string reqifXhtml ≠ .ok s := by
  intro s hs
  have := (C68_succeeds fragment string reqifXhtml n hf).1 ⟨s, hs⟩
  have key : ∀ ns : List Node, noSpecialsAll ns = true → Node.comment c ∉ ns := by
    intro ns
    induction ns with
    | nil => intro _ h; cases h
    | cons k ns ih =>
      intro h hm
      rw [noSpecialsAll, Bool.and_eq_true] at h
      rcases List.mem_cons.1 hm with rfl | hm
      · have := h.1; simp [noSpecials] at this
      · exact ih h.2 hm
  exact key _ this hc

end ReqIF
