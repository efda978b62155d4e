import Verif.Proofs.Final
import Verif.Proofs.Attrs
/-!
# Printed text and the nodes it is read as

`Shows Γ u text ns`: `text` is a piece of the content of an element (lines of
elements, as the unparser prints them); in a document with context `Γ` its
elements are read as the nodes `ns`.  `u` says whether it holds XHTML elements.
-/
namespace ReqIF
open Spec

theorem goodList_iff {Γ : Ctx} {xs : List Xml} : GoodList Γ xs ↔ ∀ x ∈ xs, x.Good Γ := by
  induction xs with
  | nil => simp [GoodList]
  | cons x xs ih => simp [GoodList, ih]

theorem prefixedList_eq (xs : List Xml) : prefixedList xs = xs.any Xml.prefixed := by
  induction xs with
  | nil => simp [prefixedList]
  | cons x xs ih => simp [prefixedList, ih]

theorem finalList_eq (Γ : Ctx) (xs : List Xml) : finalList Γ xs = xs.map (Xml.final Γ) := by
  induction xs with
  | nil => simp [finalList]
  | cons x xs ih => simp [finalList, ih]

def Xml.isText : Xml → Bool
  | .text _ => true
  | _ => false

theorem final_isText (Γ : Ctx) (x : Xml) : (x.final Γ).isText = x.isText := by
  cases x <;> unfold Xml.final <;> rfl

theorem finalList_filter (Γ : Ctx) (xs : List Xml) :
    (finalList Γ xs).filter (fun k => !k.isText) = finalList Γ (xs.filter (fun x => !x.isText)) := by
  rw [finalList_eq, finalList_eq, List.filter_map]
  congr 1
  apply List.filter_congr
  intro x _
  simp [final_isText]

theorem addText_filter (t : Str) (ks : List Xml) :
    (addText t ks).filter (fun x => !x.isText) = ks.filter (fun x => !x.isText) := by
  unfold addText
  split <;> simp [Xml.isText]

theorem addText_any (t : Str) (ks : List Xml) : (addText t ks).any Xml.prefixed = ks.any Xml.prefixed := by
  unfold addText
  split <;> simp [Xml.prefixed]

theorem addText_good {Γ : Ctx} {t : Str} {ks : List Xml} (h : ∀ x ∈ ks, x.Good Γ) : ∀ x ∈ addText t ks, x.Good Γ := by
  intro x hx
  unfold addText at hx
  split at hx
  · rcases List.mem_cons.1 hx with rfl | hx
    · unfold Xml.Good; trivial
    · exact h x (by simp [hx])
  · rcases List.mem_cons.1 hx with rfl | hx
    · unfold Xml.Good; trivial
    · exact h x hx

theorem addText_ne (t : Str) (ks : List Xml) : addText t ks ≠ [] := by
  unfold addText; split <;> simp

/-- Layout characters. -/
def IsLayout (s : Str) : Prop := ∀ c ∈ s, c = ' ' ∨ c = '\n'

theorem isLayout_spaces (n : Nat) : IsLayout (spaces n) := by
  intro c hc
  exact Or.inl (List.eq_of_mem_replicate hc)

theorem isLayout_plain {s : Str} (h : IsLayout s) : PlainText s := by
  constructor
  · intro c hc
    rcases h c hc with rfl | rfl <;> decide
  · exact containsStr_of_notMem (x := ']') (by decide) (fun hm => by rcases h _ hm with h | h <;> revert h <;> decide)

theorem addText_plain {t : Str} {ks : List Xml} (ht : IsLayout t) (h : ks.all Xml.inReqif = true) :
    (addText t ks).all Xml.inReqif = true := by
  have hw : t.all isWs = true := by
    rw [List.all_eq_true]
    intro c hc
    rcases ht c hc with rfl | rfl <;> decide
  unfold addText
  split
  · rw [List.all_cons, Bool.and_eq_true] at h ⊢
    refine ⟨?_, h.2⟩
    have := h.1
    simp only [Xml.inReqif, List.all_append, Bool.and_eq_true] at this ⊢
    exact ⟨this, hw⟩
  · rw [List.all_cons, h, Bool.and_true]
    exact hw

/-- The name of an element with elements of ReqIF in any order. -/
def blockTag (tag : Str) : Bool := isNCName tag && !Xsd.xhtmlNames.contains tag && !Xsd.holdsText tag && (orderOf tag).isNone

/-- The name of an element with elements of ReqIF. -/
def nestTag (tag : Str) : Bool := isNCName tag && !Xsd.xhtmlNames.contains tag && !Xsd.holdsText tag

/-- The name of an element with a text. -/
def textTag (tag : Str) : Bool := isNCName tag && !Xsd.xhtmlNames.contains tag && Xsd.holdsText tag

/-- The name of an element with XHTML. -/
def xhtmlTag (tag : Str) : Bool := isNCName tag && Xsd.xhtmlNames.contains tag

theorem blockTag_nest {tag : Str} (h : blockTag tag = true) : nestTag tag = true ∧ orderOf tag = none := by
  simp only [blockTag, Bool.and_eq_true] at h
  simp only [nestTag, Bool.and_eq_true]
  exact ⟨h.1, by simpa using h.2⟩

theorem nestTag_name {tag : Str} (h : nestTag tag = true) : isNCName tag = true := by
  simp only [nestTag, Bool.and_eq_true] at h; exact h.1.1

theorem textTag_name {tag : Str} (h : textTag tag = true) : isNCName tag = true := by
  simp only [textTag, Bool.and_eq_true] at h; exact h.1.1

theorem xhtmlTag_name {tag : Str} (h : xhtmlTag tag = true) : isNCName tag = true := by
  simp only [xhtmlTag, Bool.and_eq_true] at h; exact h.1

theorem blockTag_name {tag : Str} (h : blockTag tag = true) : isNCName tag = true := nestTag_name (blockTag_nest h).1

theorem fits_nest {tag : Str} (h : nestTag tag = true) {ks : List Xml} (hk : ks.all Xml.inReqif = true)
    (ho : ∀ l, orderOf tag = some l → (xmlNames ks).Sublist l) : Fits tag ks := by
  unfold Fits
  rw [splitQName_ncname (nestTag_name h)]
  simp only [nestTag, Bool.and_eq_true, Bool.not_eq_true'] at h
  dsimp only
  rw [h.1.2, h.2, if_neg (by simp), if_neg (by simp)]
  exact ⟨hk, ho⟩

theorem fits_text {tag : Str} (h : textTag tag = true) {ks : List Xml} (hk : ks = [] ∨ ∃ v, ks = [.text v]) : Fits tag ks := by
  unfold Fits
  rw [splitQName_ncname (textTag_name h)]
  simp only [textTag, Bool.and_eq_true, Bool.not_eq_true'] at h
  dsimp only
  rw [h.1.2, h.2, if_neg (by simp), if_pos rfl]
  exact hk

theorem fits_xhtml {tag : Str} (h : xhtmlTag tag = true) {ks : List Xml} (hk : ks.all Xml.inXhtml = true) : Fits tag ks := by
  unfold Fits
  rw [splitQName_ncname (xhtmlTag_name h)]
  simp only [xhtmlTag, Bool.and_eq_true] at h
  dsimp only
  rw [h.2, if_pos (by simp)]
  exact hk

theorem fits_nil {tag : Str} (h : isNCName tag = true) : Fits tag [] := by
  unfold Fits
  rw [splitQName_ncname h]
  split
  · rfl
  · split
    · exact Or.inl rfl
    · exact ⟨rfl, fun l _ => List.nil_sublist l⟩

theorem xmlNames_filter (xs : List Xml) : xmlNames (xs.filter (fun x => !x.isText)) = xmlNames xs := by
  induction xs with
  | nil => rfl
  | cons x xs ih =>
    cases x with
    | text s => simp only [List.filter_cons, Xml.isText, Bool.not_true, Bool.false_eq_true, if_false]; exact ih
    | elem q as ks => rw [List.filter_cons_of_pos (by rfl), xmlNames, xmlNames, ih]
    | comment s => rw [List.filter_cons_of_pos (by rfl)]; exact ih
    | pi t d => rw [List.filter_cons_of_pos (by rfl)]; exact ih

theorem childNames_final (Γ : Ctx) (xs : List Xml) : Xsd.childNames (finalList Γ xs) = xmlNames xs := by
  induction xs with
  | nil => rfl
  | cons x xs ih =>
    unfold finalList
    cases x with
    | elem q as ks =>
      unfold Xml.final
      rw [Xsd.childNames, xmlNames, ih]
      unfold Ctx.info
      cases splitQName q with
      | mk p l => cases p <;> rfl
    | _ => unfold Xml.final; rw [Xsd.childNames, xmlNames, ih] <;> simp

/-- One element item and what it denotes. -/
structure Item (Γ : Ctx) (s : Src) (e : Xml) : Prop where
  isElem : s.isElem = true
  lex : s.lexOk = true
  cr : '\r' ∉ s.render
  eval : s.eval = some e
  good : e.Good Γ
  notText : e.isText = false
  plain : e.inReqif = true

/-- Element items with layout between them. -/
inductive Lay (Γ : Ctx) : List Src → List Xml → Prop
  | nil : Lay Γ [] []
  | text {raw : Str} {ks : List Src} {es : List Xml} (h : IsLayout raw) (t : Lay Γ ks es) : Lay Γ (.text raw :: ks) es
  | item {s : Src} {e : Xml} {ks : List Src} {es : List Xml} (h : Item Γ s e) (t : Lay Γ ks es) : Lay Γ (s :: ks) (e :: es)

theorem Lay.append {Γ : Ctx} {k1 k2 : List Src} {e1 e2 : List Xml} (h1 : Lay Γ k1 e1) (h2 : Lay Γ k2 e2) :
    Lay Γ (k1 ++ k2) (e1 ++ e2) := by
  induction h1 with
  | nil => exact h2
  | text h _ ih => exact .text h ih
  | item h _ ih => exact .item h ih

theorem Lay.lex {Γ : Ctx} {ks : List Src} {es : List Xml} (h : Lay Γ ks es) : lexOkList ks = true := by
  induction h with
  | nil => rfl
  | text h _ ih =>
    simp only [lexOkList, Src.lexOk, ih, Bool.and_true, Bool.not_eq_true', List.contains_eq_mem, decide_eq_false_iff_not]
    intro hm
    rcases h _ hm with h | h <;> revert h <;> decide
  | item h _ ih => simp [lexOkList, h.lex, ih]

theorem Lay.cr {Γ : Ctx} {ks : List Src} {es : List Xml} (h : Lay Γ ks es) : '\r' ∉ renderList ks := by
  induction h with
  | nil => simp [renderList]
  | text h _ ih =>
    simp only [renderList, Src.render, List.mem_append, not_or]
    refine ⟨fun hm => ?_, ih⟩
    rcases h _ hm with h | h <;> revert h <;> decide
  | item h _ ih => simp only [renderList, List.mem_append, not_or]; exact ⟨h.cr, ih⟩

theorem Lay.good {Γ : Ctx} {ks : List Src} {es : List Xml} (h : Lay Γ ks es) : ∀ e ∈ es, e.Good Γ := by
  induction h with
  | nil => simp
  | text _ _ ih => exact ih
  | item h _ ih =>
    intro e he
    rcases List.mem_cons.1 he with rfl | he
    · exact h.good
    · exact ih e he

theorem flushK_layout {buf : Str} (h : IsLayout buf) (acc : List Xml) :
    flushK buf acc = some (if buf = [] then acc else addText buf.reverse acc) := by
  unfold flushK
  cases buf with
  | nil => rfl
  | cons c b =>
    have h2 : IsLayout (c :: b).reverse := fun d hd => h d (List.mem_reverse.1 hd)
    simp only [reduceCtorEq, if_false]
    rw [decodeText_plain (isLayout_plain h2)]
    rfl

theorem Lay.exec {Γ : Ctx} {ks : List Src} {es : List Xml} (h : Lay Γ ks es) : ∀ (buf : Str) (acc : List Xml), IsLayout buf →
    ∃ buf' acc', execList ks (buf, acc) = some (buf', acc') ∧ IsLayout buf' ∧
      acc'.filter (fun x => !x.isText) = es.reverse ++ acc.filter (fun x => !x.isText) ∧
      ((∀ x ∈ acc, x.Good Γ) → ∀ x ∈ acc', x.Good Γ) ∧
      (acc'.any Xml.prefixed = (acc.any Xml.prefixed || es.any Xml.prefixed)) ∧
      ((buf ≠ [] ∨ acc ≠ []) → (buf' ≠ [] ∨ acc' ≠ [])) ∧
      (acc.all Xml.inReqif = true → acc'.all Xml.inReqif = true) := by
  induction h with
  | nil => intro buf acc hb; exact ⟨buf, acc, rfl, hb, by simp, id, by simp, id, id⟩
  | @text raw ks es hl _ ih =>
    intro buf acc hb
    have : IsLayout (raw.reverse ++ buf) := by
      intro c hc
      rcases List.mem_append.1 hc with hc | hc
      · exact hl c (List.mem_reverse.1 hc)
      · exact hb c hc
    obtain ⟨b', a', h1, h2, h3, h4, h5, h6, h7⟩ := ih (raw.reverse ++ buf) acc this
    refine ⟨b', a', ?_, h2, h3, h4, h5, ?_, h7⟩
    · simp only [execList, Src.exec]; exact h1
    · rintro (h | h)
      · exact h6 (Or.inl (by simp [h]))
      · exact h6 (Or.inr h)
  | @item s e ks es hi _ ih =>
    intro buf acc hb
    obtain ⟨b', a', h1, h2, h3, h4, h5, -, h7⟩ := ih [] (e :: if buf = [] then acc else addText buf.reverse acc)
      (by intro c hc; simp at hc)
    have hf : (if buf = [] then acc else addText buf.reverse acc).filter (fun x => !x.isText) = acc.filter (fun x => !x.isText) := by
      split
      · rfl
      · exact addText_filter _ _
    have hp : (if buf = [] then acc else addText buf.reverse acc).any Xml.prefixed = acc.any Xml.prefixed := by
      split
      · rfl
      · exact addText_any _ _
    refine ⟨b', a', ?_, h2, ?_, ?_, ?_, ?_, ?_⟩
    · simp only [execList]
      rw [exec_elem s hi.isElem, flushK_layout hb, hi.eval]
      exact h1
    · rw [h3]
      simp only [List.filter_cons, hi.notText, Bool.not_false, if_true, hf]
      simp
    · intro hg
      apply h4
      intro x hx
      rcases List.mem_cons.1 hx with rfl | hx
      · exact hi.good
      · split at hx
        · exact hg x hx
        · exact addText_good hg x hx
    · rw [h5]
      simp only [List.any_cons, hp]
      cases e.prefixed <;> cases acc.any Xml.prefixed <;> simp
    · intro _
      by_cases hb' : b' = []
      · right
        intro ha
        rw [ha] at h3
        have := congrArg List.length h3
        simp [hi.notText] at this
      · exact Or.inl hb'
    · intro ha
      apply h7
      rw [List.all_cons, hi.plain, Bool.true_and]
      split
      · exact ha
      · exact addText_plain (fun c hc => hb c (List.mem_reverse.1 hc)) ha

/-- Content of an element: items with layout. -/
theorem Lay.evalKids {Γ : Ctx} {ks : List Src} {es : List Xml} (h : Lay Γ ks es) :
    ∃ xs, evalKids ks = some xs ∧ xs.filter (fun x => !x.isText) = es ∧ (∀ x ∈ xs, x.Good Γ) ∧
      xs.any Xml.prefixed = es.any Xml.prefixed ∧ xs.all Xml.inReqif = true := by
  obtain ⟨b, a, h1, h2, h3, h4, h5, -, h7⟩ := h.exec [] [] (by intro c hc; simp at hc)
  refine ⟨(if b = [] then a else addText b.reverse a).reverse, ?_, ?_, ?_, ?_, ?_⟩
  · unfold ReqIF.evalKids
    rw [h1]
    dsimp only
    rw [flushK_layout h2]
    rfl
  · rw [List.filter_reverse]
    have : (if b = [] then a else addText b.reverse a).filter (fun x => !x.isText) = a.filter (fun x => !x.isText) := by
      split
      · rfl
      · exact addText_filter _ _
    rw [this, h3]; simp
  · intro x hx
    rw [List.mem_reverse] at hx
    have hg := h4 (by simp)
    split at hx
    · exact hg x hx
    · exact addText_good hg x hx
  · rw [List.any_reverse]
    have : (if b = [] then a else addText b.reverse a).any Xml.prefixed = a.any Xml.prefixed := by
      split
      · rfl
      · exact addText_any _ _
    rw [this, h5]; simp
  · rw [List.all_reverse]
    split
    · exact h7 rfl
    · exact addText_plain (fun c hc => h2 c (List.mem_reverse.1 hc)) (h7 rfl)

/-- Content that starts with a line feed is not empty. -/
theorem Lay.evalKids_ne {Γ : Ctx} {ks : List Src} {es : List Xml} (h : Lay Γ ks es) (c : Char) (raw : Str) (hl : IsLayout (c :: raw))
    (xs : List Xml) (hx : ReqIF.evalKids (.text (c :: raw) :: ks) = some xs) : xs ≠ [] := by
  obtain ⟨b, a, h1, h2, -, -, -, h6, -⟩ := h.exec ((c :: raw).reverse ++ []) [] (by
    intro d hd; simp only [List.append_nil, List.mem_reverse] at hd; exact hl d hd)
  have hne := h6 (Or.inl (by simp))
  unfold ReqIF.evalKids at hx
  simp only [execList, Src.exec] at hx
  rw [h1] at hx
  dsimp only at hx
  rw [flushK_layout h2] at hx
  simp only [Option.map_some, Option.some.injEq] at hx
  rw [← hx]
  rcases hne with hb | ha
  · rw [if_neg hb]
    simp [addText_ne]
  · split
    · simpa using ha
    · simp [addText_ne]

/-- Printed lines and the nodes they are read as. -/
def Shows (Γ : Ctx) (u : Bool) (text : Str) (ns : List Node) : Prop :=
  ∃ ks es, text = renderList ks ∧ Lay Γ ks es ∧ finalList Γ es = ns ∧ es.any Xml.prefixed = u

theorem Shows.nil (Γ : Ctx) : Shows Γ false [] [] := ⟨[], [], rfl, .nil, by simp [finalList], rfl⟩

theorem Shows.append {Γ : Ctx} {u1 u2 : Bool} {t1 t2 : Str} {n1 n2 : List Node} (h1 : Shows Γ u1 t1 n1)
    (h2 : Shows Γ u2 t2 n2) : Shows Γ (u1 || u2) (t1 ++ t2) (n1 ++ n2) := by
  obtain ⟨k1, e1, rfl, l1, rfl, rfl⟩ := h1
  obtain ⟨k2, e2, rfl, l2, rfl, rfl⟩ := h2
  exact ⟨k1 ++ k2, e1 ++ e2, (renderList_append _ _).symm, l1.append l2, by simp [finalList_eq], by simp⟩

theorem Shows.layout {Γ : Ctx} {s : Str} (h : IsLayout s) : Shows Γ false s [] :=
  ⟨[.text s], [], by simp [renderList, Src.render], .text h .nil, by simp [finalList], rfl⟩

/-! ## Attributes -/

/-- A printed attribute value and what it is read as. -/
structure AttrRaw (raw v : Str) : Prop where
  dec : decodeAttr raw = some v
  quote : '"' ∉ raw
  cr : '\r' ∉ raw

theorem attrRaw_plain {v : Str} (h : PlainAttr v) : AttrRaw v v :=
  ⟨decodeAttr_plain h, fun hm => (h _ hm).2.2.2.1 rfl, fun hm => (h _ hm).2.2.2.2.2.2 rfl⟩

theorem attrRaw_esc {v : Str} (h : EscAttr v) : AttrRaw (lxmlEscapeForHtml v) v := by
  rw [lxmlEscape_eq]
  refine ⟨?_, mem_flatMap_notMem (fun c => (escChar_notMem c).2.2.1) _, ?_⟩
  · rw [decodeAttr_escape, mapChars_eq_self]
    intro c hc
    obtain ⟨h1, h2, h3⟩ := h c hc
    simp [attrBack, h1, h2, h3]
  · intro hm
    simp only [escape, List.mem_flatMap] at hm
    obtain ⟨c, hc, hm⟩ := hm
    obtain ⟨-, h2, h3⟩ := h c hc
    exact (escChar_shape c h3 h2).1 hm

theorem attrRaw_html {v : Str} (h : HtmlAttr v) : AttrRaw (htmlEscape v) v := by
  refine ⟨?_, ?_, ?_⟩
  · rw [decodeAttr_htmlEscape, mapChars_eq_self]
    intro c hc
    obtain ⟨h1, h2, h3, h4⟩ := h c hc
    by_cases h5 : c = ' '
    · subst h5; decide
    · simp [attrBackHtml, h1, h2, h3, h4]
  · rw [htmlEscape_eq]; exact mem_flatMap_notMem (fun c => (htmlEscChar_notMem c).2.2) _
  · rw [htmlEscape_eq]
    intro hm
    simp only [List.mem_flatMap] at hm
    obtain ⟨c, hc, hm⟩ := hm
    obtain ⟨-, -, h2, h3⟩ := h c hc
    exact (htmlEscChar_shape c h3 h2).1 hm

/-- A printed attribute list and what it is read as. -/
structure AttrsRead (as vs : List (Str × Str)) : Prop where
  dec : decodeAttrs as = some vs
  quote : ∀ a ∈ as, '"' ∉ a.2
  cr : ∀ a ∈ as, '\r' ∉ a.2

theorem AttrsRead.nil : AttrsRead [] [] := ⟨rfl, by simp, by simp⟩

theorem decodeAttrs_append {a b a' b' : List (Str × Str)} (h1 : decodeAttrs a = some a') (h2 : decodeAttrs b = some b') :
    decodeAttrs (a ++ b) = some (a' ++ b') := by
  induction a generalizing a' with
  | nil => simp only [decodeAttrs, Option.some.injEq] at h1; subst h1; exact h2
  | cons x a ih =>
    simp only [decodeAttrs, List.cons_append] at h1 ⊢
    cases hd : decodeAttr x.2 with
    | none => rw [hd] at h1; cases h1
    | some v =>
      rw [hd] at h1
      dsimp only at h1 ⊢
      cases hr : decodeAttrs a with
      | none => rw [hr] at h1; cases h1
      | some vs =>
        rw [hr] at h1
        rw [ih hr]
        cases h1
        rfl

theorem AttrsRead.append {a b a' b' : List (Str × Str)} (h1 : AttrsRead a a') (h2 : AttrsRead b b') :
    AttrsRead (a ++ b) (a' ++ b') := by
  refine ⟨decodeAttrs_append h1.dec h2.dec, ?_, ?_⟩
  · intro x hx
    rcases List.mem_append.1 hx with hx | hx
    · exact h1.quote x hx
    · exact h2.quote x hx
  · intro x hx
    rcases List.mem_append.1 hx with hx | hx
    · exact h1.cr x hx
    · exact h2.cr x hx

theorem AttrsRead.one (n : Str) {raw v : Str} (h : AttrRaw raw v) : AttrsRead [(n, raw)] [(n, v)] := by
  refine ⟨?_, ?_, ?_⟩
  · simp only [decodeAttrs, h.dec]
  · simpa using h.quote
  · simpa using h.cr

theorem AttrsRead.opt (n : Str) {f : Str → Str} {o : Option Str} (h : ∀ v, o = some v → AttrRaw (f v) v) :
    AttrsRead (optA n f o) (optA n id o) := by
  cases o with
  | none => exact .nil
  | some v => exact .one n (h v rfl)

theorem AttrsRead.truthy (n : Str) {f : Str → Str} {o : Option Str} (h : ∀ v, o = some v → AttrRaw (f v) v) :
    AttrsRead (truthyA n f o) (truthyA n id o) := by
  unfold truthyA
  apply AttrsRead.opt
  intro v hv
  rw [Option.filter_eq_some_iff] at hv
  exact h v hv.1

theorem AttrsRead.bool (n : Str) (o : Option Bool) : AttrsRead (boolA n o) (boolA n o) := by
  cases o with
  | none => exact .nil
  | some b =>
    refine .one n (attrRaw_plain ?_)
    cases b <;> (unfold PlainAttr boolOut; decide)

theorem decodeAttrs_names {as vs : List (Str × Str)} (h : decodeAttrs as = some vs) : vs.map (·.1) = as.map (·.1) := by
  induction as generalizing vs with
  | nil => simp only [decodeAttrs, Option.some.injEq] at h; subst h; rfl
  | cons a as ih =>
    simp only [decodeAttrs] at h
    cases hd : decodeAttr a.2 with
    | none => rw [hd] at h; cases h
    | some v =>
      rw [hd] at h
      dsimp only at h
      cases hr : decodeAttrs as with
      | none => rw [hr] at h; cases h
      | some ws => rw [hr] at h; cases h; simp [ih hr]

/-- Attribute names taken from a list of distinct names. -/
def NamesIn (as : List (Str × Str)) (names : List Str) : Prop := (as.map (·.1)).Sublist names

theorem NamesIn.append {a b : List (Str × Str)} {m n : List Str} (h1 : NamesIn a m) (h2 : NamesIn b n) : NamesIn (a ++ b) (m ++ n) := by
  unfold NamesIn
  rw [List.map_append]
  exact List.Sublist.append h1 h2

theorem NamesIn.one (n v : Str) : NamesIn [(n, v)] [n] := List.Sublist.refl _
theorem NamesIn.opt (n : Str) (f : Str → Str) (o : Option Str) : NamesIn (optA n f o) [n] := by
  cases o with
  | none => exact List.nil_sublist _
  | some v => exact List.Sublist.refl _
theorem NamesIn.truthy (n : Str) (f : Str → Str) (o : Option Str) : NamesIn (truthyA n f o) [n] := NamesIn.opt n f _
theorem NamesIn.bool (n : Str) (o : Option Bool) : NamesIn (boolA n o) [n] := by
  cases o with
  | none => exact List.nil_sublist _
  | some v => exact List.Sublist.refl _

/-- Names that can be attribute names of one ReqIF element, in alphabetical order. -/
def okNames (names : List Str) : Bool := names.all (fun n => isNCName n && n != c!"xmlns") && decide (Increasing names)

theorem before_irrefl : ∀ a : Str, before a a = false
  | [] => rfl
  | c :: a => by simp [before, before_irrefl a]

theorem increasing_nodup {names : List Str} (h : Increasing names) : names.Nodup := by
  refine List.Pairwise.imp ?_ h
  rintro a b hab rfl
  rw [before_irrefl] at hab
  cases hab

theorem okNames_attrs {as : List (Str × Str)} {names : List Str} (h : NamesIn as names) (hn : okNames names = true) :
    AttrsOk as ∧ Increasing (as.map (·.1)) := by
  simp only [okNames, Bool.and_eq_true, List.all_eq_true, bne_iff_ne, decide_eq_true_iff] at hn
  refine ⟨⟨fun a ha => ?_, List.Nodup.sublist h (increasing_nodup hn.2)⟩, List.Pairwise.sublist h hn.2⟩
  exact hn.1 a.1 (h.subset (List.mem_map_of_mem ha))

/-- A whole attribute list: printed form, what is read, and the names. -/
structure AnyAttributes (as vs : List (Str × Str)) : Prop where
  read : AttrsRead as vs
  ok : AttrsOk as

theorem AnyAttributes.okv {as vs : List (Str × Str)} (h : AnyAttributes as vs) : AttrsOk vs := by
  have e := decodeAttrs_names h.read.dec
  refine ⟨fun a ha => ?_, by rw [e]; exact h.ok.2⟩
  have : a.1 ∈ as.map (·.1) := by rw [← e]; exact List.mem_map_of_mem ha
  obtain ⟨b, hb, he⟩ := List.mem_map.1 this
  rw [← he]; exact h.ok.1 b hb

theorem AnyAttributes.lex {as vs : List (Str × Str)} (h : AnyAttributes as vs) : as.all attrLexOk = true := by
  rw [List.all_eq_true]
  intro a ha
  have h1 := isQName_of_ncname (h.ok.1 a ha).1
  have h2 := h.read.quote a ha
  simp [attrLexOk, h1, h2]

theorem AnyAttributes.cr {as vs : List (Str × Str)} (h : AnyAttributes as vs) : '\r' ∉ attrsText as := by
  intro hm
  simp only [attrsText, List.mem_flatMap] at hm
  obtain ⟨a, ha, hm⟩ := hm
  simp only [List.mem_append, List.mem_cons] at hm
  have h1 := qname_noCr (isQName_of_ncname (h.ok.1 a ha).1)
  have h2 := h.read.cr a ha
  simp_all

/-- A whole attribute list in alphabetical order. -/
structure Attributes (as vs : List (Str × Str)) : Prop where
  read : AttrsRead as vs
  ok : AttrsOk as ∧ Increasing (as.map (·.1))

theorem Attributes.nil : Attributes [] [] := ⟨.nil, by simp [AttrsOk, Increasing]⟩
theorem Attributes.any {as vs : List (Str × Str)} (h : Attributes as vs) : AnyAttributes as vs := ⟨h.read, h.ok.1⟩
theorem Attributes.lex {as vs : List (Str × Str)} (h : Attributes as vs) : as.all attrLexOk = true := h.any.lex
theorem Attributes.cr {as vs : List (Str × Str)} (h : Attributes as vs) : '\r' ∉ attrsText as := h.any.cr
theorem Attributes.okv {as vs : List (Str × Str)} (h : Attributes as vs) (p : Prop) :
    AttrsOk vs ∧ (p → Increasing (vs.map (·.1))) :=
  ⟨h.any.okv, fun _ => by rw [decodeAttrs_names h.read.dec]; exact h.ok.2⟩

/-- The value of an attribute in a list. -/
def look (vs : List (Str × Str)) (k : Str) : Option Str := (vs.find? (fun a => a.1 == k)).map (·.2)

theorem look_append (a b : List (Str × Str)) (k : Str) : look (a ++ b) k = (look a k).or (look b k) := by
  unfold look
  rw [List.find?_append]
  cases a.find? (fun a => a.1 == k) <;> simp

theorem look_nil (k : Str) : look [] k = none := rfl
theorem look_one (n v k : Str) : look [(n, v)] k = if n = k then some v else none := by
  unfold look
  by_cases h : n = k <;> simp [h]
theorem look_opt (n : Str) (o : Option Str) (k : Str) : look (optA n id o) k = if n = k then o else none := by
  cases o with
  | none => simp [optA, look_nil]
  | some v => simp [optA, look_one]
theorem look_truthy (n : Str) (o : Option Str) (k : Str) :
    look (truthyA n id o) k = if n = k then o.filter (fun v => !v.isEmpty) else none := look_opt n _ k
theorem look_bool (n : Str) (o : Option Bool) (k : Str) : look (boolA n o) k = if n = k then o.map boolOut else none := by
  cases o with
  | none => simp [boolA, look_nil]
  | some v => simp [boolA, look_one]

/-! ## Elements -/

/-- A ReqIF element as the parser sees it: tag, attributes and child nodes. -/
structure IsEl (n : Node) (tag : Str) (vs : List (Str × Str)) (cs : List Node) : Prop where
  named : ∃ i ks, n = .elem i ks ∧ i.name = tag
  tag : n.tag = .name tag
  attr : ∀ k, n.attr? k = look vs k
  children : n.children = cs
  elem : ∃ i ks, n = .elem i ks

theorem find_eq (n : Node) (t : Str) : n.find t = n.children.find? (fun k => k.tag == .name t) := by
  unfold Node.find Node.children
  rw [List.find?_filter]
  congr 1
  funext a
  rw [Bool.eq_iff_iff]
  simp

theorem plainAttrs_look (vs : List (Str × Str)) (k : Str) :
    ((plainAttrs vs).find? (fun a => a.key == k)).map (·.value) = look vs k := by
  unfold plainAttrs look
  rw [List.find?_map]
  simp only [Option.map_map, Attr.key, clark]
  rfl

theorem info_ncname (Γ : Ctx) {tag : Str} (h : isNCName tag = true) (vs : List (Str × Str)) :
    Γ.info tag vs = ⟨none, none, tag, [], Γ.keep, plainAttrs vs⟩ := by
  unfold Ctx.info
  rw [splitQName_ncname h]

theorem nameOk_ncname (Γ : Ctx) {tag : Str} (h : isNCName tag = true) : Γ.NameOk tag := by
  refine ⟨isQName_of_ncname h, ?_⟩
  rw [splitQName_ncname h]
  simp

theorem isEl_final (Γ : Ctx) {tag : Str} (h : isNCName tag = true) (vs : List (Str × Str)) (ks : List Node) :
    IsEl (.elem (Γ.info tag vs) ks) tag vs (ks.filter (fun k => !k.isText)) := by
  rw [info_ncname Γ h]
  exact ⟨⟨_, _, rfl, rfl⟩, rfl, fun k => plainAttrs_look vs k, rfl, _, _, rfl⟩

theorem inReqif_ncname {tag : Str} (h : isNCName tag = true) (as : List (Str × Str)) (ks : List Xml) :
    (Xml.elem tag as ks).inReqif = true := by
  show (splitQName tag).1.isNone = true
  rw [splitQName_ncname h]
  rfl

/-- A start tag, lines of content, and an end tag. -/
theorem Shows.nest {Γ : Ctx} {u : Bool} {body : Str} {cs : List Node} (k : Nat) {tag : Str} (hn : nestTag tag = true)
    {as vs : List (Str × Str)} (ha : Attributes as vs) (hb : Shows Γ u body cs)
    (ho : ∀ l, orderOf tag = some l → (Xsd.childNames cs).Sublist l) :
    ∃ n, IsEl n tag vs cs ∧ n.kids ≠ [] ∧ n.nsmap = Γ.keep ∧
      Shows Γ u (spaces k ++ c!"<" ++ tag ++ attrsText as ++ c!">\n" ++ body ++ lineClose k tag) [n] := by
  have ht := nestTag_name hn
  obtain ⟨ks, es, rfl, hl, rfl, rfl⟩ := hb
  have hl2 : Lay Γ (ks ++ [.text (spaces k)]) es := by
    have := hl.append (Lay.text (isLayout_spaces k) Lay.nil)
    simpa using this
  have hnl : IsLayout c!"\n" := by intro c hc; simp at hc; exact Or.inr hc
  have hl3 : Lay Γ (.text c!"\n" :: (ks ++ [.text (spaces k)])) es := .text hnl hl2
  obtain ⟨xs, hx, hf, hg, hp, hr⟩ := hl3.evalKids
  have hne := hl2.evalKids_ne _ _ hnl xs hx
  refine ⟨(Xml.elem tag vs xs).final Γ, ?_, ?_, ?_, ?_⟩
  · unfold Xml.final
    have := isEl_final Γ ht vs (finalList Γ xs)
    rw [finalList_filter, hf] at this
    exact this
  · unfold Xml.final
    show finalList Γ xs ≠ []
    rw [finalList_eq]
    simpa using hne
  · unfold Xml.final
    exact info_nsmap Γ tag vs
  · have hren : '\r' ∉ (Src.elem tag as (.text c!"\n" :: (ks ++ [.text (spaces k)]))).render := by
      have h1 := qname_noCr (isQName_of_ncname ht)
      have h2 := ha.cr
      have h3 := hl3.cr
      simp only [Src.render, List.mem_append, List.mem_cons, not_or]
      simp [h1, h2, h3]
    refine ⟨[.text (spaces k), .elem tag as (.text c!"\n" :: (ks ++ [.text (spaces k)])), .text c!"\n"], [.elem tag vs xs],
      ?_, .text (isLayout_spaces k) (.item ⟨rfl, ?_, hren, ?_, ?_, rfl, inReqif_ncname ht _ _⟩ (.text hnl .nil)), by simp [finalList], ?_⟩
    · simp [renderList, Src.render, renderList_append, lineClose]
    · simp only [Src.lexOk, isQName_of_ncname ht, ha.lex, hl3.lex, Bool.and_true]
    · simp only [Src.eval, ha.read.dec, hx]
    · unfold Xml.Good
      refine ⟨nameOk_ncname Γ ht, ⟨(ha.okv True).1, fun _ => (ha.okv True).2 trivial, fits_nest hn hr fun l hl => ?_⟩, goodList_iff.2 hg⟩
      rw [← xmlNames_filter, hf, ← childNames_final Γ]
      exact ho l hl
    · simp only [List.any_cons, List.any_nil, Bool.or_false, Xml.prefixed, splitQName_ncname ht, Option.isSome_none,
        Bool.false_or, prefixedList_eq, hp]

/-- A start tag, lines of content, and an end tag. -/
theorem Shows.elem {Γ : Ctx} {u : Bool} {body : Str} {cs : List Node} (k : Nat) {tag : Str} (ht : blockTag tag = true)
    {as vs : List (Str × Str)} (ha : Attributes as vs) (hb : Shows Γ u body cs) :
    ∃ n, IsEl n tag vs cs ∧ n.kids ≠ [] ∧ n.nsmap = Γ.keep ∧
      Shows Γ u (spaces k ++ c!"<" ++ tag ++ attrsText as ++ c!">\n" ++ body ++ lineClose k tag) [n] :=
  Shows.nest k (blockTag_nest ht).1 ha hb (fun l hl => by rw [(blockTag_nest ht).2] at hl; cases hl)

/-- An empty element. -/
theorem Shows.empty {Γ : Ctx} (k : Nat) {tag : Str} (ht : isNCName tag = true) {as vs : List (Str × Str)} (ha : Attributes as vs) :
    ∃ n, IsEl n tag vs [] ∧ n.kids = [] ∧ Shows Γ false (spaces k ++ c!"<" ++ tag ++ attrsText as ++ c!"/>\n") [n] := by
  have hnl : IsLayout c!"\n" := by intro c hc; simp at hc; exact Or.inr hc
  refine ⟨(Xml.elem tag vs []).final Γ, ?_, ?_, ?_⟩
  · unfold Xml.final finalList; exact isEl_final Γ ht vs []
  · unfold Xml.final finalList; rfl
  · have hren : '\r' ∉ (Src.empty tag as).render := by
      simp only [Src.render, List.mem_append, List.mem_cons, not_or]
      exact ⟨⟨⟨by decide, qname_noCr (isQName_of_ncname ht)⟩, ha.cr⟩, by decide⟩
    refine ⟨[.text (spaces k), .empty tag as, .text c!"\n"], [.elem tag vs []], ?_,
      .text (isLayout_spaces k) (.item ⟨rfl, ?_, hren, ?_, ?_, rfl, inReqif_ncname ht _ _⟩ (.text hnl .nil)), by simp [finalList], ?_⟩
    · simp [renderList, Src.render]
    · simp only [Src.lexOk, isQName_of_ncname ht, ha.lex, Bool.and_true]
    · simp only [Src.eval, ha.read.dec]
    · unfold Xml.Good
      exact ⟨nameOk_ncname Γ ht, ⟨(ha.okv True).1, fun _ => (ha.okv True).2 trivial, fits_nil ht⟩, goodList_iff.2 (by simp)⟩
    · simp [Xml.prefixed, splitQName_ncname ht, prefixedList]

/-- An element whose content is given by its source. -/
theorem Shows.source {Γ : Ctx} (k : Nat) {tag : Str} (ht : isNCName tag = true) {ks : List Src} {xs : List Xml}
    (hlex : lexOkList ks = true) (hcr : '\r' ∉ renderList ks) (hev : evalKids ks = some xs) (hg : ∀ x ∈ xs, x.Good Γ)
    (hfit : Fits tag xs) :
    Shows Γ (xs.any Xml.prefixed) (lineElem k tag (renderList ks))
      [.elem ⟨none, none, tag, [], Γ.keep, []⟩ (finalList Γ xs)] := by
  have hnl : IsLayout c!"\n" := by intro c hc; simp at hc; exact Or.inr hc
  have h1 := qname_noCr (isQName_of_ncname ht)
  have hren : '\r' ∉ (Src.elem tag [] ks).render := by
    simp only [Src.render, List.mem_append, List.mem_cons, not_or]
    simp [h1, hcr, attrsText]
  refine ⟨[.text (spaces k), .elem tag [] ks, .text c!"\n"], [.elem tag [] xs], ?_,
    .text (isLayout_spaces k) (.item ⟨rfl, ?_, hren, ?_, ?_, rfl, inReqif_ncname ht _ _⟩ (.text hnl .nil)), ?_, ?_⟩
  · simp [renderList, Src.render, lineElem, attrsText]
  · simp only [Src.lexOk, isQName_of_ncname ht, hlex, List.all_nil, Bool.and_true]
  · simp only [Src.eval, decodeAttrs, hev]
  · unfold Xml.Good
    exact ⟨nameOk_ncname Γ ht, ⟨by simp [AttrsOk], fun _ => by simp [Increasing], hfit⟩, goodList_iff.2 hg⟩
  · rw [finalList, finalList, Xml.final, info_ncname Γ ht]; rfl
  · simp only [List.any_cons, List.any_nil, Bool.or_false, Xml.prefixed, splitQName_ncname ht, Option.isSome_none,
      Bool.false_or, prefixedList_eq]

/-- An element with text. -/
theorem Shows.leaf {Γ : Ctx} (k : Nat) {tag : Str} (hx : textTag tag = true) {raw v : Str} (hne : raw ≠ []) (hlt : '<' ∉ raw)
    (hcr : '\r' ∉ raw) (hd : decodeText raw = some v) :
    ∃ n, IsEl n tag [] [] ∧ n.text? = some v ∧ Shows Γ false (lineElem k tag raw) [n] := by
  have ht := textTag_name hx
  have hf : flushK raw.reverse [] = some [.text v] := by
    unfold flushK
    split
    · rename_i h; simp at h; exact absurd h hne
    · rw [List.reverse_reverse, hd]; rfl
  have := Shows.source (Γ := Γ) k ht (ks := [.text raw]) (xs := [.text v]) (by simp [lexOkList, Src.lexOk, hlt])
    (by simpa [renderList, Src.render] using hcr)
    (by simp only [evalKids, execList, Src.exec, List.append_nil, hf, Option.map_some, List.reverse_cons, List.reverse_nil, List.nil_append])
    (by simp [Xml.Good]) (fits_text hx (Or.inr ⟨v, rfl⟩))
  refine ⟨.elem ⟨none, none, tag, [], Γ.keep, []⟩ [.text v], ?_, ?_, ?_⟩
  rotate_left 2
  · simpa [renderList, Src.render, Xml.prefixed, finalList, Xml.final] using this
  · have := isEl_final Γ ht [] [.text v]
    rw [info_ncname Γ ht] at this
    exact this
  · rfl

/-- An element with text printed as it is. -/
theorem Shows.plainLeaf {Γ : Ctx} (k : Nat) {tag : Str} (ht : textTag tag = true) {v : Str} (hne : v ≠ []) (h : PlainText v) :
    ∃ n, IsEl n tag [] [] ∧ n.text? = some v ∧ Shows Γ false (lineElem k tag v) [n] :=
  Shows.leaf k ht hne (fun hm => (h.1 _ hm).2.1 rfl) (fun hm => (h.1 _ hm).2.2.2 rfl) (decodeText_plain h)

/-- An element without attributes around printed lines. -/
theorem Shows.nestBlock {Γ : Ctx} {u : Bool} {body : Str} {cs : List Node} (k : Nat) {tag : Str} (ht : nestTag tag = true)
    (hb : Shows Γ u body cs) (ho : ∀ l, orderOf tag = some l → (Xsd.childNames cs).Sublist l) :
    ∃ n, IsEl n tag [] cs ∧ n.kids ≠ [] ∧ Shows Γ u (lineOpen k tag ++ body ++ lineClose k tag) [n] := by
  obtain ⟨n, h1, h2, -, h3⟩ := Shows.nest k ht Attributes.nil hb ho
  refine ⟨n, h1, h2, ?_⟩
  have : lineOpen k tag ++ body ++ lineClose k tag =
      spaces k ++ c!"<" ++ tag ++ attrsText [] ++ c!">\n" ++ body ++ lineClose k tag := by
    simp [lineOpen, attrsText]
  rw [this]; exact h3

theorem Shows.block {Γ : Ctx} {u : Bool} {body : Str} {cs : List Node} (k : Nat) {tag : Str} (ht : blockTag tag = true)
    (hb : Shows Γ u body cs) :
    ∃ n, IsEl n tag [] cs ∧ n.kids ≠ [] ∧ Shows Γ u (lineOpen k tag ++ body ++ lineClose k tag) [n] :=
  Shows.nestBlock k (blockTag_nest ht).1 hb (fun l hl => by rw [(blockTag_nest ht).2] at hl; cases hl)

end ReqIF
