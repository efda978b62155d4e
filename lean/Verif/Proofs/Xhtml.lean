import Verif.Proofs.ItemTools
import Verif.Props.C18_23
/-!
# XHTML content

Printed content is read as the tree it was printed from, and that tree is
printed as the same text.
-/
namespace ReqIF
open Spec

/-- Qualified name of an element. -/
def qual (p n : Str) : Str := p ++ c!":" ++ n

/-- Attributes as printed. -/
def escAttrs (as : List (Str × Str)) : List (Str × Str) := as.map (fun a => (a.1, escape a.2))

mutual
/-- The source text of content. -/
def Spec.XTree.src (p : Str) : XTree → Src
  | .elem n as [] => .empty (qual p n) (escAttrs as)
  | .elem n as (k :: ks) => .elem (qual p n) (escAttrs as) (k.src p :: srcAll p ks)
  | .text s => .text (escape s)

def srcAll (p : Str) : List XTree → List Src
  | [] => []
  | t :: ts => t.src p :: srcAll p ts
end

mutual
/-- The tree that is meant. -/
def Spec.XTree.xml (p : Str) : XTree → Xml
  | .elem n as ks => .elem (qual p n) as (xmlAll p ks)
  | .text s => .text s

def xmlAll (p : Str) : List XTree → List Xml
  | [] => []
  | t :: ts => t.xml p :: xmlAll p ts
end

theorem attrsText_esc (as : List (Str × Str)) :
    attrsText (escAttrs as) = as.flatMap (fun a => c!" " ++ a.1 ++ c!"=\"" ++ escape a.2 ++ c!"\"") := by
  unfold attrsText escAttrs
  rw [List.flatMap_map]
  rfl

mutual
theorem src_render (p : Str) : ∀ t : XTree, (t.src p).render = t.print p
  | .elem n as [] => by
    rw [XTree.src, XTree.print, Src.render, attrsText_esc]
    simp [qual]
  | .elem n as (k :: ks) => by
    rw [XTree.src, XTree.print, Src.render, renderList, attrsText_esc, src_render p k, srcAll_render p ks]
    simp [qual]
  | .text s => by rw [XTree.src, XTree.print, Src.render]

theorem srcAll_render (p : Str) : ∀ ts : List XTree, renderList (srcAll p ts) = printAll p ts
  | [] => by rw [srcAll, printAll, renderList]
  | t :: ts => by rw [srcAll, printAll, renderList, src_render p t, srcAll_render p ts]
end

theorem splitQName_qual {p n : Str} (hp : isNCName p = true) : splitQName (qual p n) = (some p, n) := by
  have h : ∀ c ∈ p, (c != ':') = true := by
    intro c hc
    have := ncname_chars hp c hc
    rw [bne_iff_ne]
    rintro rfl
    revert this; decide
  unfold splitQName qual
  rw [List.append_assoc]
  rw [List.dropWhile_append_of_pos h, List.takeWhile_append_of_pos h]
  simp

theorem isQName_qual {p n : Str} (hp : isNCName p = true) (hn : isNCName n = true) : isQName (qual p n) = true := by
  unfold isQName
  rw [splitQName_qual hp]
  simp [hp, hn]

theorem escape_noLt (s : Str) : '<' ∉ escape s := mem_flatMap_notMem (fun c => (escChar_notMem c).1) _
theorem escape_noQuote (s : Str) : '"' ∉ escape s := mem_flatMap_notMem (fun c => (escChar_notMem c).2.2.1) _
theorem escape_noCr {s : Str} (h : ∀ c ∈ s, c ≠ '\r') : '\r' ∉ escape s := by
  intro hm
  simp only [escape, List.mem_flatMap] at hm
  obtain ⟨c, hc, hm⟩ := hm
  by_cases hn : c = '\n'
  · subst hn; revert hm; decide
  · exact (escChar_shape c (h c hc) hn).1 hm

theorem escape_ne_nil {s : Str} (h : s ≠ []) : escape s ≠ [] := by
  cases s with
  | nil => exact absurd rfl h
  | cons c s =>
    simp only [escape, List.flatMap_cons]
    intro he
    have := List.append_eq_nil_iff.1 he
    revert this
    unfold escChar
    repeat' split
    all_goals simp

/-- Attributes of an element of the content. -/
theorem xattrs {as : List (Str × Str)} (h1 : ∀ a ∈ as, isNCName a.1 = true ∧ a.1 ≠ c!"xmlns" ∧ EscAttr a.2)
    (h2 : (as.map (·.1)).Nodup) : AnyAttributes (escAttrs as) as := by
  refine ⟨⟨?_, ?_, ?_⟩, ?_, ?_⟩
  · clear h2
    induction as with
    | nil => rfl
    | cons a as ih =>
      have := attrRaw_esc (h1 a (by simp)).2.2
      rw [lxmlEscape_eq] at this
      simp only [escAttrs, List.map_cons, decodeAttrs, this.dec]
      have ih := ih (fun b hb => h1 b (by simp [hb]))
      unfold escAttrs at ih
      rw [ih]
  · intro a ha
    obtain ⟨b, _, rfl⟩ := List.mem_map.1 ha
    exact escape_noQuote _
  · intro a ha
    obtain ⟨b, hb, rfl⟩ := List.mem_map.1 ha
    exact escape_noCr (fun c hc => ((h1 b hb).2.2 c hc).2.2)
  · intro a ha
    obtain ⟨b, hb, rfl⟩ := List.mem_map.1 ha
    exact ⟨(h1 b hb).1, (h1 b hb).2.1⟩
  · unfold escAttrs
    rw [List.map_map]
    exact h2

mutual
theorem src_lex {p : Str} (hp : isNCName p = true) : ∀ t : XTree, t.WF → (t.src p).lexOk = true
  | .elem n as [], h => by
    unfold XTree.WF at h
    rw [XTree.src, Src.lexOk, isQName_qual hp h.1, (xattrs h.2.1 h.2.2.1).lex]; rfl
  | .elem n as (k :: ks), h => by
    unfold XTree.WF AllWF at h
    rw [XTree.src, Src.lexOk, isQName_qual hp h.1, (xattrs h.2.1 h.2.2.1).lex, lexOkList, src_lex hp k h.2.2.2.2.1,
      srcAll_lex hp ks h.2.2.2.2.2]; rfl
  | .text s, _ => by
    rw [XTree.src, Src.lexOk]
    have := escape_noLt s
    simpa using this

theorem srcAll_lex {p : Str} (hp : isNCName p = true) : ∀ ts : List XTree, AllWF ts → lexOkList (srcAll p ts) = true
  | [], _ => by rw [srcAll, lexOkList]
  | t :: ts, h => by
    unfold AllWF at h
    rw [srcAll, lexOkList, src_lex hp t h.1, srcAll_lex hp ts h.2]; rfl
end

mutual
theorem src_cr {p : Str} (hp : isNCName p = true) : ∀ t : XTree, t.WF → '\r' ∉ (t.src p).render
  | .elem n as [], h => by
    unfold XTree.WF at h
    have h1 := qname_noCr (isQName_qual hp h.1)
    have h2 := (xattrs h.2.1 h.2.2.1).cr
    rw [XTree.src, Src.render]
    simp only [List.mem_append, List.mem_cons, not_or]
    simp [h1, h2]
  | .elem n as (k :: ks), h => by
    unfold XTree.WF AllWF at h
    have h1 := qname_noCr (isQName_qual hp h.1)
    have h2 := (xattrs h.2.1 h.2.2.1).cr
    have h3 := src_cr hp k h.2.2.2.2.1
    have h4 := srcAll_cr hp ks h.2.2.2.2.2
    rw [XTree.src, Src.render, renderList]
    simp only [List.mem_append, List.mem_cons, not_or]
    simp [h1, h2, h3, h4]
  | .text s, h => by
    unfold XTree.WF at h
    rw [XTree.src, Src.render]
    exact escape_noCr (fun c hc => (h.2 c hc).2)

theorem srcAll_cr {p : Str} (hp : isNCName p = true) : ∀ ts : List XTree, AllWF ts → '\r' ∉ renderList (srcAll p ts)
  | [], _ => by rw [srcAll, renderList]; simp
  | t :: ts, h => by
    unfold AllWF at h
    rw [srcAll, renderList]
    simp only [List.mem_append, not_or]
    exact ⟨src_cr hp t h.1, srcAll_cr hp ts h.2⟩
end

theorem decodeText_esc {s : Str} (h : ∀ c ∈ s, isXmlChar c = true ∧ c ≠ '\r') : decodeText (escape s) = some s := by
  rw [decodeText_escape, mapChars_eq_self]
  intro c hc
  simp [textBack, (h c hc).1]

mutual
/-- Reading one element. -/
theorem src_eval {p : Str} : ∀ t : XTree, t.WF → t.isText = false → (t.src p).eval = some (t.xml p)
  | .elem n as [], h, _ => by
    unfold XTree.WF at h
    rw [XTree.src, XTree.xml, Src.eval, (xattrs h.2.1 h.2.2.1).read.dec, xmlAll]
  | .elem n as (k :: ks), h, _ => by
    unfold XTree.WF at h
    have := srcAll_eval (p := p) (k :: ks) h.2.2.2.2 h.2.2.2.1
    rw [srcAll] at this
    rw [XTree.src, XTree.xml, Src.eval, (xattrs h.2.1 h.2.2.1).read.dec, this]
  | .text s, _, h => by simp [XTree.isText] at h

/-- Reading a list of items, some raw text pending. -/
theorem srcAll_exec {p : Str} : ∀ ts : List XTree, AllWF ts → noAdjacentText ts = true →
    ∀ (buf : Str) (acc acc' : List Xml), flushK buf acc = some acc' → (∀ s, acc.head? ≠ some (.text s)) →
      (buf ≠ [] → ∀ s r, ts ≠ .text s :: r) →
      ∃ b a, execList (srcAll p ts) (buf, acc) = some (b, a) ∧ flushK b a = some ((xmlAll p ts).reverse ++ acc')
  | [], _, _, buf, acc, acc', hf, _, _ => ⟨buf, acc, by rw [srcAll, execList], by rw [xmlAll]; simpa using hf⟩
  | .text s :: ts, h, hn, buf, acc, acc', hf, ha, hb => by
    unfold AllWF XTree.WF at h
    have hbuf : buf = [] := by
      by_cases e : buf = []
      · exact e
      · exact absurd rfl (hb e s ts)
    subst hbuf
    simp only [flushK, Option.some.injEq] at hf
    subst hf
    have hn2 : noAdjacentText ts = true := by
      cases ts with
      | nil => rfl
      | cons t ts => simp only [noAdjacentText, Bool.and_eq_true] at hn; exact hn.2
    have hfl : flushK (escape s).reverse acc = some (.text s :: acc) := by
      unfold flushK
      split
      · rename_i e; simp at e; exact absurd e (escape_ne_nil h.1.1)
      · rw [List.reverse_reverse, decodeText_esc h.1.2, Option.map_some]
        unfold addText
        split
        · rename_i s' ks; exact absurd rfl (ha s')
        · rfl
    obtain ⟨b, a, h1, h2⟩ := srcAll_exec ts h.2 hn2 (escape s).reverse acc (.text s :: acc) hfl ha (by
      intro _ s' r e
      subst e
      simp [noAdjacentText, XTree.isText] at hn)
    refine ⟨b, a, ?_, ?_⟩
    · rw [srcAll, XTree.src, execList, Src.exec]
      simpa using h1
    · rw [h2, xmlAll, XTree.xml]; simp
  | .elem n as ks :: ts, h, hn, buf, acc, acc', hf, ha, hb => by
    unfold AllWF at h
    have hn2 : noAdjacentText ts = true := by
      cases ts with
      | nil => rfl
      | cons t ts => simp only [noAdjacentText, Bool.and_eq_true] at hn; exact hn.2
    have he := src_eval (p := p) (.elem n as ks) h.1 rfl
    have hel : ((XTree.elem n as ks).src p).isElem = true := by
      cases ks <;> rw [XTree.src] <;> rfl
    obtain ⟨b, a, h1, h2⟩ := srcAll_exec ts h.2 hn2 [] ((XTree.elem n as ks).xml p :: acc') ((XTree.elem n as ks).xml p :: acc') rfl
      (by rw [XTree.xml]; intro s e; simp at e) (by simp)
    refine ⟨b, a, ?_, ?_⟩
    · rw [srcAll, execList, exec_elem _ hel, hf, he]
      exact h1
    · rw [h2, xmlAll]; simp

theorem srcAll_eval {p : Str} : ∀ ts : List XTree, AllWF ts → noAdjacentText ts = true →
    evalKids (srcAll p ts) = some (xmlAll p ts) := by
  intro ts h hn
  obtain ⟨b, a, h1, h2⟩ := srcAll_exec (p := p) ts h hn [] [] [] rfl (by simp) (by simp)
  unfold evalKids
  rw [h1]
  dsimp only
  rw [h2]
  simp
end

theorem xmlAll_inXhtml {p : Str} (hp : isNCName p = true) (ts : List XTree) : (xmlAll p ts).all Xml.inXhtml = true := by
  induction ts with
  | nil => rw [xmlAll]; rfl
  | cons t ts ih =>
    rw [xmlAll, List.all_cons, ih, Bool.and_true]
    cases t with
    | elem n as ks =>
      rw [XTree.xml]
      show (splitQName _).1.isSome = true
      rw [splitQName_qual hp]
      rfl
    | text s => rw [XTree.xml]; rfl

theorem fits_qual {p n : Str} (hp : isNCName p = true) {ks : List Xml} (hk : ks.all Xml.inXhtml = true) : Fits (qual p n) ks := by
  unfold Fits
  rw [splitQName_qual hp, if_pos (by rfl)]
  exact hk

mutual
theorem xml_good {Γ : Ctx} (hb : Γ.Bound) (hp : isNCName Γ.pfx = true) : ∀ t : XTree, t.WF → (t.xml Γ.pfx).Good Γ
  | .elem n as ks, h => by
    unfold XTree.WF at h
    rw [XTree.xml, Xml.Good]
    refine ⟨⟨isQName_qual hp h.1, ?_⟩, ⟨⟨fun a ha => ⟨(h.2.1 a ha).1, (h.2.1 a ha).2.1⟩, h.2.2.1⟩,
      (fun hq => by rw [splitQName_qual hp] at hq; cases hq), fits_qual hp (xmlAll_inXhtml hp ks)⟩, xmlAll_good hb hp ks h.2.2.2.2⟩
    intro q hq
    rw [splitQName_qual hp] at hq
    cases hq
    exact ⟨rfl, hb⟩
  | .text s, _ => by rw [XTree.xml, Xml.Good]; trivial

theorem xmlAll_good {Γ : Ctx} (hb : Γ.Bound) (hp : isNCName Γ.pfx = true) : ∀ ts : List XTree, AllWF ts → GoodList Γ (xmlAll Γ.pfx ts)
  | [], _ => by rw [xmlAll, GoodList]; trivial
  | t :: ts, h => by
    unfold AllWF at h
    rw [xmlAll, GoodList]
    exact ⟨xml_good hb hp t h.1, xmlAll_good hb hp ts h.2⟩
end

theorem xmlAll_prefixed {p : Str} (hp : isNCName p = true) (ts : List XTree) :
    (xmlAll p ts).any Xml.prefixed = !ts.all XTree.isText := by
  induction ts with
  | nil => rw [xmlAll]; rfl
  | cons t ts ih =>
    rw [xmlAll, List.any_cons, ih, List.all_cons]
    cases t with
    | elem n as ks => rw [XTree.xml, Xml.prefixed, splitQName_qual hp]; rfl
    | text s => rw [XTree.xml, Xml.prefixed] <;> simp [XTree.isText]

theorem print_lt (p : Str) (ts : List XTree) : (printAll p ts).contains '<' = !ts.all XTree.isText := by
  induction ts with
  | nil => rw [printAll]; rfl
  | cons t ts ih =>
    rw [printAll, List.all_cons]
    cases t with
    | elem n as ks =>
      rw [XTree.print.eq_def]
      simp [XTree.isText]
    | text s =>
      rw [XTree.print]
      have := escape_noLt s
      simp only [List.contains_eq_mem, List.mem_append] at ih ⊢
      simp [this, XTree.isText]
      simpa using ih

/-! ## Printing what was read -/

/-- No default namespace is left. -/
def Ctx.Clean (Γ : Ctx) : Prop := ∀ d ∈ Γ.keep, d.1 ≠ none

theorem info_qual {Γ : Ctx} (hp : isNCName Γ.pfx = true) (n : Str) (as : List (Str × Str)) :
    Γ.info (qual Γ.pfx n) as = ⟨NsMap.get? Γ.scope (some Γ.pfx), some Γ.pfx, n, [], Γ.keep, plainAttrs as⟩ := by
  unfold Ctx.info
  rw [splitQName_qual hp]

theorem attrsOut_plain (as : List (Str × Str)) :
    attrsOut (plainAttrs as) = as.flatMap (fun a => c!" " ++ a.1 ++ c!"=\"" ++ escape a.2 ++ c!"\"") := by
  induction as with
  | nil => rfl
  | cons a as ih =>
    simp only [plainAttrs, List.map_cons, attrsOut, List.flatMap_cons, lxmlEscape_eq, Attr.key, clark] at ih ⊢
    rw [ih]

theorem hasOwnNs_clean {i : Info} (h : ∀ d ∈ i.nsmap, d.1 ≠ none) : hasOwnNs i = false := by
  unfold hasOwnNs
  split
  · rfl
  · rw [List.any_eq_false]
    intro d hd
    have := h d hd
    simp [this]

mutual
theorem xml_print {Γ : Ctx} (hb : Γ.Bound) (hc : Γ.Clean) (hp : isNCName Γ.pfx = true) : ∀ t : XTree,
    stringifyNsNode (some Γ.pfx) false ((t.xml Γ.pfx).final Γ) = .ok (t.print Γ.pfx)
  | .elem n as ks => by
    obtain ⟨u, hu, -⟩ := hb.bound
    have hi := info_qual (Γ := Γ) hp n as
    rw [hu] at hi
    have ho : hasOwnNs (Γ.info (qual Γ.pfx n) as) = false := hasOwnNs_clean (by rw [hi]; exact hc)
    have hobj : isObjectTag (Γ.info (qual Γ.pfx n) as).tag = false := by
      rw [hi]
      unfold isObjectTag Info.tag
      simp [clark, asciiLower]
    have htag : nsTagOut (some Γ.pfx) false (Γ.info (qual Γ.pfx n) as) = Γ.pfx ++ c!":" ++ n := by
      unfold nsTagOut
      rw [ho, hi]
      simp [fmtOpt]
    have hdecl : nsDeclOut (Γ.info (qual Γ.pfx n) as) = [] := by
      unfold nsDeclOut
      rw [ho]; rfl
    have hat : attrsOut (Γ.info (qual Γ.pfx n) as).attrs = as.flatMap (fun a => c!" " ++ a.1 ++ c!"=\"" ++ escape a.2 ++ c!"\"") := by
      rw [hi]; exact attrsOut_plain as
    rw [XTree.xml, Xml.final, stringifyNsNode, xmlAll_print hb hc hp ks, htag, hdecl, hat, hobj]
    cases ks with
    | nil =>
      rw [xmlAll, finalList, XTree.print]
      simp
    | cons k ks =>
      rw [xmlAll, finalList, XTree.print, printAll]
      simp
  | .text s => by rw [XTree.xml, Xml.final, stringifyNsNode, XTree.print, lxmlEscape_eq]

theorem xmlAll_print {Γ : Ctx} (hb : Γ.Bound) (hc : Γ.Clean) (hp : isNCName Γ.pfx = true) : ∀ ts : List XTree,
    stringifyNsKids (some Γ.pfx) false (finalList Γ (xmlAll Γ.pfx ts)) = .ok (printAll Γ.pfx ts)
  | [] => by rw [xmlAll, finalList, stringifyNsKids, printAll]
  | t :: ts => by
    rw [xmlAll, finalList, stringifyNsKids, printAll, xml_print hb hc hp t, xmlAll_print hb hc hp ts]
end

theorem xmlText_print {Γ : Ctx} {p : Str} (k : Option Str) : ∀ ts : List XTree, ts.all XTree.isText = true →
    stringifyNsKids k false (finalList Γ (xmlAll p ts)) = .ok (printAll p ts)
  | [], _ => by rw [xmlAll, finalList, stringifyNsKids, printAll]
  | .text s :: ts, h => by
    rw [List.all_cons, Bool.and_eq_true] at h
    rw [xmlAll, finalList, stringifyNsKids, printAll, XTree.xml, Xml.final, stringifyNsNode, XTree.print, lxmlEscape_eq,
      xmlText_print k ts h.2]
  | .elem n as ks :: ts, h => by simp [XTree.isText] at h

/-! ## The stripped value -/

mutual
theorem good_noPI {Γ : Ctx} : ∀ x : Xml, x.Good Γ → hasPI (x.final Γ) = false
  | .elem q as ks, h => by
    unfold Xml.Good at h
    rw [Xml.final, hasPI]
    exact goodList_noPI ks h.2.2
  | .text s, _ => by rw [Xml.final, hasPI] <;> simp
  | .comment s, h => by unfold Xml.Good at h; exact h.elim
  | .pi t d, h => by unfold Xml.Good at h; exact h.elim

theorem goodList_noPI {Γ : Ctx} : ∀ xs : List Xml, GoodList Γ xs → hasPIs (finalList Γ xs) = false
  | [], _ => by rw [finalList, hasPIs]
  | x :: xs, h => by
    unfold GoodList at h
    rw [finalList, hasPIs, good_noPI x h.1, goodList_noPI xs h.2]; rfl
end

mutual
theorem stripFull_ok : ∀ n : Node, hasPI n = false → ∃ n', stripTags true n = .ok n' ∧ hasPI n' = false
  | .text s, _ => ⟨.text s, by rw [stripTags], rfl⟩
  | .comment s, _ => ⟨.comment s, by rw [stripTags], rfl⟩
  | .pi t d, h => by simp [hasPI] at h
  | .elem i ks, h => by
    rw [hasPI] at h
    obtain ⟨ks', h1, h2⟩ := stripFullList_ok ks h
    refine ⟨.elem { i with ns := none, pfx := none } ks', ?_, by rw [hasPI]; exact h2⟩
    rw [stripTags, h1]
    rfl

theorem stripFullList_ok : ∀ ns : List Node, hasPIs ns = false → ∃ ns', stripTagsList true ns = .ok ns' ∧ hasPIs ns' = false
  | [], _ => ⟨[], by rw [stripTagsList], rfl⟩
  | n :: ns, h => by
    rw [hasPIs, Bool.or_eq_false_iff] at h
    obtain ⟨n', h1, h2⟩ := stripFull_ok n h.1
    obtain ⟨ns', h3, h4⟩ := stripFullList_ok ns h.2
    exact ⟨n' :: ns', by rw [stripTagsList, h1, h3], by rw [hasPIs, h2, h4]; rfl⟩
end

mutual
theorem cleanup_noPI : ∀ (m : NsMap) (n : Node), hasPI n = false → hasPI (cleanup m n) = false
  | m, .text s, _ => by rw [cleanup]; rfl; simp
  | m, .comment s, _ => by rw [cleanup]; rfl; simp
  | m, .pi t d, h => by simp [hasPI] at h
  | m, .elem i ks, h => by
    rw [hasPI] at h
    rw [cleanup, hasPI]
    exact cleanupList_noPI _ ks h

theorem cleanupList_noPI : ∀ (m : NsMap) (ns : List Node), hasPIs ns = false → hasPIs (cleanupList m ns) = false
  | m, [], _ => by rw [cleanupList, hasPIs]
  | m, n :: ns, h => by
    rw [hasPIs, Bool.or_eq_false_iff] at h
    rw [cleanupList, hasPIs, cleanup_noPI m n h.1, cleanupList_noPI m ns h.2]; rfl
end

theorem stringifyChildrenGo_ok (ns : List Node) (h : hasPIs ns = false) : ∃ s, stringifyChildrenGo ns = .ok s := by
  induction ns with
  | nil => exact ⟨_, rfl⟩
  | cons n ns ih =>
    rw [hasPIs, Bool.or_eq_false_iff] at h
    obtain ⟨b, hb⟩ := ih h.2
    have h1 := stringifyNode_ok true n h.1
    cases n with
    | text t => exact ⟨lxmlEscapeForHtml t ++ t ++ b, by rw [stringifyChildrenGo, hb]⟩
    | pi t d => simp [hasPI] at h
    | comment s =>
      cases hn : stringifyNode true (.comment s) with
      | error e => rw [hn] at h1; cases h1
      | ok a => exact ⟨a ++ b, by rw [stringifyChildrenGo, hb, hn]; simp⟩
    | elem i ks =>
      cases hn : stringifyNode true (.elem i ks) with
      | error e => rw [hn] at h1; cases h1
      | ok a => exact ⟨a ++ b, by rw [stringifyChildrenGo, hb, hn]; simp⟩

theorem stringifyChildren_ok (n : Node) (h : hasPI n = false) : ∃ s, stringifyChildren n = .ok s := by
  have hk : hasPIs n.kids = false := by
    cases n with
    | elem i ks => rw [hasPI] at h; exact h
    | _ => rfl
  unfold stringifyChildren
  split
  · rename_i t ks e
    rw [e, hasPIs, Bool.or_eq_false_iff] at hk
    obtain ⟨s, hs⟩ := stringifyChildrenGo_ok ks hk.2
    exact ⟨t ++ s, by rw [hs]⟩
  · exact stringifyChildrenGo_ok _ hk

theorem convert_ok (n : Node) (h : hasPI n = false) : ∃ s, convertChildrenFromReqifNs n = .ok s := by
  have hd : hasPI n.detach = false := by
    cases n with
    | elem i ks => rw [hasPI] at h; unfold Node.detach; dsimp only; rw [hasPI]; exact h
    | _ => exact h
  obtain ⟨n', h1, h2⟩ := stripFull_ok _ hd
  obtain ⟨s, hs⟩ := stringifyChildren_ok (cleanup [] n') (cleanup_noPI [] n' h2)
  exact ⟨s, by unfold convertChildrenFromReqifNs stripNamespace; rw [h1]; exact hs⟩

theorem escape_self_noAmp {s : Str} : escape s = s → ∀ c ∈ s, escChar c = [c] := by
  have hlen : ∀ c, 1 ≤ (escChar c).length := by
    intro c
    unfold escChar
    repeat' split
    all_goals simp
  have hle : ∀ s : Str, s.length ≤ (escape s).length := by
    intro s
    induction s with
    | nil => simp
    | cons c s ih =>
      have := hlen c
      simp only [escape, List.flatMap_cons, List.length_append, List.length_cons] at ih ⊢
      omega
  induction s with
  | nil => intro _ c hc; cases hc
  | cons c s ih =>
    intro h d hd
    have h1 := congrArg List.length h
    have h2 := hle s
    have h3 := hlen c
    simp only [escape, List.flatMap_cons, List.length_append, List.length_cons] at h1 h2
    have h4 : (escChar c).length = 1 := by omega
    obtain ⟨e, he⟩ := List.length_eq_one_iff.1 h4
    simp only [escape, List.flatMap_cons, he, List.cons_append, List.nil_append, List.cons.injEq] at h
    rcases List.mem_cons.1 hd with rfl | hd
    · rw [he, h.1]
    · exact ih h.2 d hd

theorem escape_of_chars {s : Str} (h : ∀ c ∈ s, escChar c = [c]) : escape s = s := by
  unfold escape
  induction s with
  | nil => rfl
  | cons c s ih =>
    rw [List.flatMap_cons, h c (by simp), ih (fun d hd => h d (by simp [hd]))]
    rfl

/-- An element holding XHTML content. -/
theorem Shows.xhtmlTree {Γ : Ctx} (hc : Γ.Clean) (k : Nat) {tag : Str} (ht : xhtmlTag tag = true) (hp : isNCName Γ.pfx = true)
    {ts : List XTree} (hwf : AllWF ts) (hna : noAdjacentText ts = true)
    (hel : ts.all XTree.isText = false → Γ.Bound ∧ Γ.keep.firstKey = some Γ.pfx)
    (hno : Γ.keep = [] → ts.all XTree.isText = true ∧ escape (printAll Γ.pfx ts) = printAll Γ.pfx ts) :
    ∃ n, n = .elem ⟨none, none, tag, [], Γ.keep, []⟩ (finalList Γ (xmlAll Γ.pfx ts)) ∧ n.nsmap = Γ.keep ∧
      n.kids = finalList Γ (xmlAll Γ.pfx ts) ∧
      Shows Γ ((printAll Γ.pfx ts).contains '<') (lineElem k tag (printAll Γ.pfx ts)) [n] ∧ hasPI n = false ∧
      (Γ.keep ≠ [] → stringifyNamespacedChildren n = .ok (printAll Γ.pfx ts)) ∧
      (Γ.keep = [] → stringifyChildren n = .ok (printAll Γ.pfx ts)) := by
  have hg : GoodList Γ (xmlAll Γ.pfx ts) := by
    by_cases he : ts.all XTree.isText = true
    · rw [goodList_iff]
      intro x hx
      have hmem : ∀ ts : List XTree, ts.all XTree.isText = true → ∀ x ∈ xmlAll Γ.pfx ts, ∃ s, x = .text s := by
        intro ts
        induction ts with
        | nil => intro _ x hx; rw [xmlAll] at hx; cases hx
        | cons t ts ih =>
          intro he x hx
          rw [List.all_cons, Bool.and_eq_true] at he
          rw [xmlAll] at hx
          rcases List.mem_cons.1 hx with rfl | hx
          · cases t with
            | text s => exact ⟨s, by rw [XTree.xml]⟩
            | elem n as ks => simp [XTree.isText] at he
          · exact ih he.2 x hx
      obtain ⟨s, rfl⟩ := hmem ts he x hx
      rw [Xml.Good]; trivial
    · exact xmlAll_good (hel (by simpa using he)).1 hp ts hwf
  have hs := Shows.source (Γ := Γ) k (xhtmlTag_name ht) (srcAll_lex hp ts hwf) (srcAll_cr hp ts hwf) (srcAll_eval ts hwf hna) (goodList_iff.1 hg)
    (fits_xhtml ht (xmlAll_inXhtml hp ts))
  rw [xmlAll_prefixed hp, srcAll_render, ← print_lt Γ.pfx ts] at hs
  refine ⟨.elem ⟨none, none, tag, [], Γ.keep, []⟩ (finalList Γ (xmlAll Γ.pfx ts)), rfl, rfl, rfl, hs, ?_, ?_, ?_⟩
  · rw [hasPI]; exact goodList_noPI _ hg
  · intro hk
    have hk : Γ.keep.isEmpty = false := by simpa using hk
    show (if Γ.keep.isEmpty = true then (.error .assertion : Py Str) else
      stringifyNsKids Γ.keep.firstKey false (finalList Γ (xmlAll Γ.pfx ts))) = _
    rw [hk]
    simp only [Bool.false_eq_true, if_false]
    by_cases he : ts.all XTree.isText = true
    · exact xmlText_print _ ts he
    · obtain ⟨hb, hf⟩ := hel (by simpa using he)
      rw [hf]
      exact xmlAll_print hb hc hp ts
  · intro hk
    obtain ⟨he, hself⟩ := hno hk
    match ts, he, hna with
    | [], _, _ => rw [xmlAll, finalList, printAll]; rfl
    | [.text s], _, _ =>
      rw [xmlAll, xmlAll, finalList, finalList, XTree.xml, Xml.final, printAll, printAll, XTree.print, List.append_nil]
      rw [printAll, printAll, XTree.print, List.append_nil] at hself
      have : escape s = s := by
        have h1 := escape_self_noAmp hself
        have hamp : '&' ∉ escape s := fun hm => by have := h1 _ hm; revert this; decide
        have : ∀ c ∈ s, escChar c = [c] := by
          intro c hc
          have hsub : ∀ d ∈ escChar c, d ∈ escape s := fun d hd => by
            simp only [escape, List.mem_flatMap]; exact ⟨c, hc, hd⟩
          unfold escChar
          unfold escChar at hsub
          repeat' split
          all_goals first
            | rfl
            | (exfalso; apply hamp; apply hsub; simp_all; done)
        exact escape_of_chars this
      rw [this]
      show (.ok (s ++ []) : Py Str) = _
      rw [List.append_nil]
    | .text a :: .text b :: _, _, hna => simp [noAdjacentText, XTree.isText] at hna
    | .text a :: .elem _ _ _ :: _, he, _ => simp [XTree.isText] at he
    | .elem _ _ _ :: _, he, _ => simp [XTree.isText] at he

theorem Shows.xhtml {Γ : Ctx} (hc : Γ.Clean) (k : Nat) {tag : Str} (ht : xhtmlTag tag = true) {v : Str} (h : SafeXhtml Γ v) :
    ∃ n, (∃ ts, AllWF ts ∧ noAdjacentText ts = true ∧ v = printAll Γ.pfx ts ∧
        n = .elem ⟨none, none, tag, [], Γ.keep, []⟩ (finalList Γ (xmlAll Γ.pfx ts))) ∧
      n.nsmap = Γ.keep ∧ Shows Γ (v.contains '<') (lineElem k tag v) [n] ∧ hasPI n = false ∧
      (Γ.keep ≠ [] → stringifyNamespacedChildren n = .ok v) ∧ (Γ.keep = [] → stringifyChildren n = .ok v) := by
  obtain ⟨hp, ts, hwf, hna, rfl, hel, hno⟩ := h
  obtain ⟨n, h1, h2, -, h3⟩ := Shows.xhtmlTree hc k ht hp hwf hna hel hno
  exact ⟨n, ⟨ts, hwf, hna, rfl, h1⟩, h2, h3⟩

theorem resolveAttrs_pfx {m : NsMap} : ∀ {as : List (Str × Str)} {xs : List Attr}, resolveAttrs m as = some xs →
    ∀ a ∈ xs, a.ns.isSome = true → a.pfx ≠ none
  | [], xs, h, a, ha, _ => by simp only [resolveAttrs, Option.some.injEq] at h; subst h; cases ha
  | b :: as, xs, h, a, ha, hn => by
    rw [resolveAttrs] at h
    split at h
    · rename_i x ys hx hys
      cases h
      rcases List.mem_cons.1 ha with rfl | ha
      · unfold resolveAttr at hx
        split at hx
        · cases hx; simp at hn
        · split at hx
          · cases hx; simp
          · split at hx
            · cases hx
            · cases hx; simp
      · exact resolveAttrs_pfx hys a ha hn
    · cases h

/-- No default namespace survives in the root. -/
theorem rootCtx_clean {ras rvs : List (Str × Str)} {ri : Info} (hr : RootTag ras rvs ri) (p : Str) (u : Bool) : (rootCtx ri p u).Clean := by
  intro d hd hn
  change d ∈ keptDecls ri p u at hd
  unfold keptDecls at hd
  cases hg : NsMap.get? ri.nsmap none with
  | none =>
    rw [hg] at hd
    dsimp only at hd
    unfold NsMap.get? at hg
    rw [Option.map_eq_none_iff, List.find?_eq_none] at hg
    exact hg d hd (by simp [hn])
  | some v =>
    rw [hg] at hd
    dsimp only at hd
    obtain ⟨-, hd⟩ := List.mem_filter.1 hd
    rw [hn] at hd
    simp only [reduceCtorEq, beq_iff_eq, Bool.or_eq_true, Bool.and_eq_true, and_false, or_false, List.any_eq_true] at hd
    have hres := hr.res
    have key : ∀ a ∈ ri.attrs, a.ns.isSome = true → a.pfx ≠ none := by
      unfold resolveInfo at hres
      dsimp only at hres
      split at hres
      · split at hres
        · rename_i has
          split at hres
          · cases hres; exact resolveAttrs_pfx has
          · cases hres
        · cases hres
      · cases hres
    rcases hd with ⟨a, ha, h1, h2⟩
    exact key a ha h1 h2

end ReqIF
