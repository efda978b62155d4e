import Verif.Spec.Anonymous
import Verif.Proofs.OutputValid
import Verif.Proofs.XsdDoc
import Verif.Props.C52_55
/-! Documents with the covered strings replaced: what stays as it was. -/
set_option linter.unusedSimpArgs false
namespace ReqIF
open Spec

mutual
/-- The same tree with the covered strings replaced; XHTML values are texts. -/
inductive Disguised (u : Str) (f : Str → Str) : Option Info → Node → Node → Prop
  | text (s : Str) : Disguised u f p (.text s) (.text s)
  | comment (s : Str) : Disguised u f p (.comment s) (.comment s)
  | pi (a b : Str) : Disguised u f p (.pi a b) (.pi a b)
  | value {i : Info} (ks : List Node) (s : Str) (h : xhtmlValue u p i = true) (hs : ∃ t, s = f t) :
      Disguised u f p (.elem i ks) (.elem i [.text s])
  | header {i : Info} {ks ls : List Node} (h : headerText u p i = true) (hk : DisguisedAll u f (some i) ks ls) :
      Disguised u f p (.elem i ks) (.elem (mapCovered u f i) (mapLeading f ls))
  | elem {i : Info} {ks ls : List Node} (h : xhtmlValue u p i = false) (hh : headerText u p i = false)
      (hk : DisguisedAll u f (some i) ks ls) : Disguised u f p (.elem i ks) (.elem (mapCovered u f i) ls)

inductive DisguisedAll (u : Str) (f : Str → Str) : Option Info → List Node → List Node → Prop
  | nil : DisguisedAll u f p [] []
  | cons {n r : Node} {ns rs : List Node} (hn : Disguised u f p n r) (hs : DisguisedAll u f p ns rs) :
      DisguisedAll u f p (n :: ns) (r :: rs)
end

variable {u : Str}

mutual
theorem disguise_node (hash : Str → Nat) : ∀ (p : Option Info) (x r : Node),
    anonXhtml hash u (p.any (isA u c!"ATTRIBUTE-VALUE-XHTML")) (rewriteTexts u (anonymizeString hash) p x) = .ok r →
    Disguised u (anonymizeString hash) p x r
  | p, .text s, r, h => by cases h; exact .text s
  | p, .comment s, r, h => by cases h; exact .comment s
  | p, .pi a b, r, h => by cases h; exact .pi a b
  | p, .elem i ks, r, h => by
    simp only [rewriteTexts, anonXhtml, inNs_eq, isA_mapCovered] at h
    by_cases hx : xhtmlValue u p i = true
    · have hv : isA u c!"THE-VALUE" i = true := by
        simp only [xhtmlValue, Bool.and_eq_true] at hx; exact hx.2
      rw [if_pos (by simpa [xhtmlValue] using hx), mapCovered_value _ hv] at h
      split at h
      · cases h
      · cases h; exact .value _ _ hx ⟨_, rfl⟩
    · rw [if_neg (by simpa [xhtmlValue] using hx)] at h
      rw [Bool.not_eq_true] at hx
      by_cases hh : headerText u p i = true
      · rw [if_pos hh, anonXhtmlList_mapLeading] at h
        cases hk : anonXhtmlList hash u (isA u c!"ATTRIBUTE-VALUE-XHTML" i)
            (rewriteTextsList u (anonymizeString hash) (some i) ks) with
        | error e => rw [hk] at h; cases h
        | ok ls =>
          rw [hk] at h
          cases h
          exact .header hh (disguise_list hash (some i) ks ls hk)
      · rw [if_neg hh] at h
        rw [Bool.not_eq_true] at hh
        cases hk : anonXhtmlList hash u (isA u c!"ATTRIBUTE-VALUE-XHTML" i)
            (rewriteTextsList u (anonymizeString hash) (some i) ks) with
        | error e => rw [hk] at h; cases h
        | ok ls =>
          rw [hk] at h
          cases h
          exact .elem hx hh (disguise_list hash (some i) ks ls hk)

theorem disguise_list (hash : Str → Nat) : ∀ (p : Option Info) (xs rs : List Node),
    anonXhtmlList hash u (p.any (isA u c!"ATTRIBUTE-VALUE-XHTML")) (rewriteTextsList u (anonymizeString hash) p xs) = .ok rs →
    DisguisedAll u (anonymizeString hash) p xs rs
  | p, [], rs, h => by cases h; exact .nil
  | p, x :: xs, rs, h => by
    simp only [rewriteTextsList, anonXhtmlList] at h
    cases ha : anonXhtml hash u (p.any (isA u c!"ATTRIBUTE-VALUE-XHTML"))
        (rewriteTexts u (anonymizeString hash) p x) with
    | error e => rw [ha] at h; cases h
    | ok y =>
      rw [ha] at h
      dsimp only at h
      cases hb : anonXhtmlList hash u (p.any (isA u c!"ATTRIBUTE-VALUE-XHTML"))
          (rewriteTextsList u (anonymizeString hash) p xs) with
      | error e => rw [hb] at h; cases h
      | ok ys =>
        rw [hb] at h
        cases h
        exact .cons (disguise_node hash p x y ha) (disguise_list hash p xs ys hb)
end

theorem anonymizeTree_disguise {hash : Str → Nat} {root r : Node} (h : anonymizeTree hash root = .ok r)
    (hu : root.nsmap.get? none = some u) : Disguised u (anonymizeString hash) none root r := by
  unfold anonymizeTree at h
  rw [hu] at h
  dsimp only at h
  cases h1 : anonText hash u c!"COMMENT" false root with
  | error e => rw [h1] at h; cases h
  | ok r1 =>
    rw [h1] at h
    dsimp only at h
    cases h2 : anonText hash u c!"TITLE" false r1 with
    | error e => rw [h2] at h; cases h
    | ok r2 =>
      rw [h2] at h
      dsimp only at h
      rw [texts_node (u := u) hash none root r1 r2 h1 h2] at h
      exact disguise_node hash none root r h

/-! ## Identifiers and references -/

namespace Xsd
variable {f : Str → Str}

theorem isA_inv {name : Str} {i : Info} (h : isA u name i = true) : i.ns = some u ∧ i.name = name := by
  simpa [isA] using h

theorem value_name {p : Option Info} {i : Info} (h : xhtmlValue u p i = true) : i.name = c!"THE-VALUE" := by
  simp only [xhtmlValue, Bool.and_eq_true] at h
  exact (isA_inv h.2).2

theorem header_name {p : Option Info} {i : Info} (h : Spec.headerText u p i = true) : i.name = c!"COMMENT" ∨ i.name = c!"TITLE" := by
  simp only [Spec.headerText, Bool.and_eq_true, Bool.or_eq_true] at h
  exact h.2.imp (fun h => (isA_inv h).2) (fun h => (isA_inv h).2)

theorem coveredAttr_key {i : Info} {a : Attr} (h : coveredAttr u i a = true) :
    a.key = c!"LONG-NAME" ∨ i.name = c!"ATTRIBUTE-VALUE-STRING" ∧ a.key = c!"THE-VALUE" := by
  simp only [coveredAttr, Bool.or_eq_true, Bool.and_eq_true, decide_eq_true_eq] at h
  exact h.imp (fun h => h.2) (fun h => ⟨(isA_inv h.1).2, h.2⟩)

theorem find_covered (i : Info) (key : Str) (h1 : key ≠ c!"LONG-NAME") (h2 : key ≠ c!"THE-VALUE") (as : List Attr) :
    (as.map (fun a => if coveredAttr u i a then { a with value := f a.value } else a)).find? (fun a => a.key == key) =
      as.find? (fun a => a.key == key) := by
  induction as with
  | nil => rfl
  | cons a as ih =>
    by_cases hc : coveredAttr u i a = true
    · have hk : (a.key == key) = false := by
        rw [beq_eq_false_iff_ne]
        rcases coveredAttr_key hc with e | ⟨-, e⟩ <;> rw [e] <;> exact Ne.symm ‹_›
      have hk' : (Attr.key { a with value := f a.value } == key) = false := hk
      simp only [List.map_cons, hc, if_true, List.find?_cons, hk, hk', ih]
    · simp only [List.map_cons, hc, List.find?_cons, ih]
      rfl

theorem attr_covered {i : Info} {key : Str} (h1 : key ≠ c!"LONG-NAME") (h2 : key ≠ c!"THE-VALUE") (ks ls : List Node) :
    (Node.elem (mapCovered u f i) ls).attr? key = (Node.elem i ks).attr? key := by
  unfold Node.attr?
  simp only [Node.attrs, mapCovered, find_covered i key h1 h2]

theorem text_disguised {p : Option Info} {ks ls : List Node} (h : DisguisedAll u f p ks ls) (i j : Info) :
    (Node.elem j ls).text? = (Node.elem i ks).text? := by
  cases h with
  | nil => rfl
  | cons hn hs => cases hn <;> rfl

mutual
theorem entries_disguised : ∀ (p : Option Info) (n r : Node), Disguised u f p n r → ∀ holder, entries holder r = entries holder n
  | _, _, _, .text _, _ => rfl
  | _, _, _, .comment _, _ => rfl
  | _, _, _, .pi _ _, _ => rfl
  | _, _, _, .value ks s h _, holder => by
    rw [entries, entries, if_pos (by rw [value_name h]; rfl), if_pos (by rw [value_name h]; rfl)]
  | _, _, _, .header (i := i) h hk, holder => by
    have hn : noEntries i.name = true := by
      rcases header_name h with e | e <;> rw [e] <;> rfl
    rw [entries, entries, if_pos (show noEntries (mapCovered u f i).name = true from hn), if_pos hn]
  | _, _, _, .elem (i := i) (ks := ks) (ls := ls) h hh hk, holder => by
    have e : (mapCovered u f i).name = i.name := rfl
    rw [entries, entries, text_disguised hk i (mapCovered u f i), e,
      attr_covered (by decide) (by decide) ks ls, entriesAll_disguised _ _ _ hk]

theorem entriesAll_disguised : ∀ (p : Option Info) (ns rs : List Node), DisguisedAll u f p ns rs →
    ∀ holder, entriesAll holder rs = entriesAll holder ns
  | _, _, _, .nil, _ => rfl
  | _, _, _, .cons hn hs, holder => by
    rw [entriesAll, entriesAll, entries_disguised _ _ _ hn, entriesAll_disguised _ _ _ hs]
end

theorem documentEntries_disguised {n r : Node} (h : Disguised u f none n r) : documentEntries r = documentEntries n := by
  cases h with
  | text s => rfl
  | comment s => rfl
  | pi a b => rfl
  | value ks s h => simp [xhtmlValue] at h
  | header h hk => simp [Spec.headerText] at h
  | elem h hh hk => exact entriesAll_disguised _ _ _ hk _

/-! ## Elements and texts -/

theorem childNames_leading (f : Str → Str) : ∀ ks : List Node, childNames (mapLeading f ks) = childNames ks
  | [] => rfl
  | .text _ :: _ => rfl
  | .comment _ :: _ => rfl
  | .pi _ _ :: _ => rfl
  | .elem _ _ :: _ => rfl

theorem childNames_disguised : ∀ (p : Option Info) (ns rs : List Node), DisguisedAll u f p ns rs → childNames rs = childNames ns
  | _, _, _, .nil => rfl
  | _, _, _, .cons hn hs => by
    cases hn with
    | text s => simp only [childNames, childNames_disguised _ _ _ hs]
    | comment s => simp only [childNames, childNames_disguised _ _ _ hs]
    | pi a b => simp only [childNames, childNames_disguised _ _ _ hs]
    | value ks s h => simp only [childNames, childNames_disguised _ _ _ hs]
    | header h hk => simp only [childNames, childNames_disguised _ _ _ hs]; rfl
    | elem h hh hk => simp only [childNames, childNames_disguised _ _ _ hs]; rfl

theorem textOf_disguised : ∀ (p : Option Info) (ns rs : List Node), DisguisedAll u f p ns rs → textOf rs = textOf ns
  | _, _, _, .nil => rfl
  | _, _, _, .cons hn hs => by
    cases hn <;> simp only [textOf, textOf_disguised _ _ _ hs]

theorem isEmpty_disguised {p : Option Info} {ns rs : List Node} (h : DisguisedAll u f p ns rs) : rs.isEmpty = ns.isEmpty := by
  cases h <;> rfl

mutual
theorem isXhtml_disguised : ∀ (p : Option Info) (n r : Node), Disguised u f p n r → isXhtml n = true → isXhtml r = true
  | _, _, _, .text _, _ => rfl
  | _, _, _, .comment _, _ => rfl
  | _, _, _, .pi _ _, _ => rfl
  | _, _, _, .value ks s h _, hv => by
    rw [isXhtml, Bool.and_eq_true] at hv ⊢
    exact ⟨hv.1, rfl⟩
  | _, _, _, .header (i := i) (ls := ls) h hk, hv => by
    rw [isXhtml, Bool.and_eq_true] at hv ⊢
    refine ⟨hv.1, ?_⟩
    have := areXhtml_disguised _ _ _ hk hv.2
    cases ls with
    | nil => rfl
    | cons l ls => cases l <;> exact this
  | _, _, _, .elem h hh hk, hv => by
    rw [isXhtml, Bool.and_eq_true] at hv ⊢
    exact ⟨hv.1, areXhtml_disguised _ _ _ hk hv.2⟩

theorem areXhtml_disguised : ∀ (p : Option Info) (ns rs : List Node), DisguisedAll u f p ns rs → areXhtml ns = true → areXhtml rs = true
  | _, _, _, .nil, _ => rfl
  | _, _, _, .cons hn hs, hv => by
    rw [areXhtml, Bool.and_eq_true] at hv ⊢
    exact ⟨isXhtml_disguised _ _ _ hn hv.1, areXhtml_disguised _ _ _ hs hv.2⟩
end

theorem declaresNothing_disguised : ∀ (p : Option Info) (ns rs : List Node), DisguisedAll u f p ns rs →
    rs.any declaresNothing = ns.any declaresNothing
  | _, _, _, .nil => rfl
  | _, _, _, .cons hn hs => by
    rw [List.any_cons, List.any_cons, declaresNothing_disguised _ _ _ hs]
    cases hn <;> rfl

theorem countOk_disguised {p : Option Info} {ns rs : List Node} (h : DisguisedAll u f p ns rs) {m : Model}
    (hc : m.countOk ns = true) : m.countOk rs = true := by
  have e := childNames_disguised _ _ _ h
  cases m with
  | sequence b es => cases b <;> simpa only [Model.countOk, e] using hc
  | emptyOrOne es => simpa only [Model.countOk, e, isEmpty_disguised h] using hc
  | text s => simpa only [Model.countOk, e, textOf_disguised _ _ _ h] using hc
  | xhtml b =>
    rw [Model.countOk, Bool.and_eq_true] at hc ⊢
    exact ⟨areXhtml_disguised _ _ _ h hc.1, by rw [declaresNothing_disguised _ _ _ h]; exact hc.2⟩
  | _ => simpa only [Model.countOk, e] using hc

mutual
theorem noSpecials_disguised : ∀ (p : Option Info) (n r : Node), Disguised u f p n r → noSpecials n = true → noSpecials r = true
  | _, _, _, .text _, _ => rfl
  | _, _, _, .comment _, h => h
  | _, _, _, .pi _ _, h => h
  | _, _, _, .value ks s h _, hv => rfl
  | _, _, _, .header (i := i) (ls := ls) h hk, hv => by
    rw [noSpecials] at hv ⊢
    have := noSpecialsAll_disguised _ _ _ hk hv
    cases ls with
    | nil => rfl
    | cons l ls => cases l <;> exact this
  | _, _, _, .elem h hh hk, hv => by
    rw [noSpecials] at hv ⊢
    exact noSpecialsAll_disguised _ _ _ hk hv

theorem noSpecialsAll_disguised : ∀ (p : Option Info) (ns rs : List Node), DisguisedAll u f p ns rs →
    noSpecialsAll ns = true → noSpecialsAll rs = true
  | _, _, _, .nil, _ => rfl
  | _, _, _, .cons hn hs, hv => by
    rw [noSpecialsAll, Bool.and_eq_true] at hv ⊢
    exact ⟨noSpecials_disguised _ _ _ hn hv.1, noSpecialsAll_disguised _ _ _ hs hv.2⟩
end

/-! ## Validity -/

/-- What is used of the names of the elements of a type `t'` in an element of type `t`. -/
def nameTells (t : TypeName) (nm : Str) (t' : TypeName) : Bool :=
  (nm != c!"ATTRIBUTE-VALUE-STRING" || match t' with | .value _ .string => true | _ => false) &&
  (nm != c!"REQ-IF-HEADER" || match t' with | .header => true | _ => false) &&
  (nm != c!"ATTRIBUTE-VALUE-XHTML" || match t' with
    | .value b .xhtml => !b || (match t with | .defaultValue _ => true | _ => false)
    | _ => false) &&
  (match t' with | .defaultValue _ => nm == c!"DEFAULT-VALUE" | _ => true)

theorem nameTells_kids {d : Dialect} {t t' : TypeName} {nm : Str} (ht : (schema d t).model.typeOf nm = some t') :
    nameTells t nm t' = true := by
  refine pairs_all (f := nameTells t) ?_ ht
  cases t with
  | value b k => cases d <;> cases b <;> cases k <;> rfl
  | definition s k => cases d <;> cases s <;> cases k <;> rfl
  | specType s => cases d <;> cases s <;> rfl
  | specAttributes s => cases d <;> cases s <;> rfl
  | defaultValue k => cases d <;> cases k <;> rfl
  | dataType k => cases d <;> cases k <;> rfl
  | definitionType k => cases d <;> cases k <;> rfl
  | valueDefinition k => cases d <;> cases k <;> rfl
  | _ => cases d <;> rfl

/-- What is known of an element and its type. -/
structure Told (d : Dialect) (t : TypeName) (i : Info) : Prop where
  string : i.name = c!"ATTRIBUTE-VALUE-STRING" → ∃ b, t = .value b .string
  header : i.name = c!"REQ-IF-HEADER" → t = .header
  xhtml : i.name = c!"ATTRIBUTE-VALUE-XHTML" → ∃ b, t = .value b .xhtml ∧ (d = .xsd ∨ b = false)
  default : ∀ k, t = .defaultValue k → i.name = c!"DEFAULT-VALUE"

theorem told_kids {d : Dialect} {t t' : TypeName} {i j : Info} (hi : Told d t i) {ks : List Node}
    (hdef : d = .xsd ∨ (i.name == c!"DEFAULT-VALUE" && (childNames ks).contains c!"ATTRIBUTE-VALUE-XHTML") = false)
    (hj : j.name ∈ childNames ks) (ht : (schema d t).model.typeOf j.name = some t') : Told d t' j := by
  have h := nameTells_kids ht
  simp only [nameTells, Bool.and_eq_true, Bool.or_eq_true, bne_iff_ne, ne_eq] at h
  obtain ⟨⟨⟨h1, h2⟩, h3⟩, h4⟩ := h
  refine ⟨fun e => ?_, fun e => ?_, fun e => ?_, fun k e => ?_⟩
  · have h1 := h1.resolve_left (fun h => h e)
    cases t' with
    | value b k => cases k <;> first | exact ⟨b, rfl⟩ | cases h1
    | _ => cases h1
  · have h2 := h2.resolve_left (fun h => h e)
    cases t' <;> first | rfl | cases h2
  · have h3 := h3.resolve_left (fun h => h e)
    cases t' with
    | value b k =>
      cases k with
      | xhtml =>
        refine ⟨b, rfl, ?_⟩
        cases b with
        | false => exact .inr rfl
        | true =>
          rcases hdef with hx | hx
          · exact .inl hx
          · cases t with
            | defaultValue k =>
              rw [hi.default k rfl] at hx
              rw [e] at hj
              simp [hj] at hx
            | _ => cases h3
      | _ => cases h3
    | _ => cases h3
  · rw [e] at h4
    simpa using h4

theorem clark_plain {a : Attr} {k : Str} (hk : k.head? ≠ some '{') (h : a.key = k) : a.ns = none ∧ a.name = k := by
  unfold Attr.key clark at h
  cases hn : a.ns with
  | none => rw [hn] at h; exact ⟨rfl, h⟩
  | some v => rw [hn] at h; subst h; exact absurd rfl hk

theorem longName_string {d : Dialect} (t : TypeName) :
    ((schema d t).attrs.all fun a => a.name != c!"LONG-NAME" || decide (a.type = .string)) = true := by
  cases t with
  | value b k => cases d <;> cases b <;> cases k <;> rfl
  | definition s k => cases d <;> cases s <;> cases k <;> rfl
  | specType s => cases d <;> cases s <;> rfl
  | specAttributes s => cases d <;> cases s <;> rfl
  | defaultValue k => cases d <;> cases k <;> rfl
  | dataType k => cases d <;> cases k <;> rfl
  | definitionType k => cases d <;> cases k <;> rfl
  | valueDefinition k => cases d <;> cases k <;> rfl
  | _ => cases d <;> rfl

theorem attrsOk_disguised {d : Dialect} {t : TypeName} {i : Info} (hi : Told d t i)
    (h : attrsOk (schema d t).attrs i.attrs = true) : attrsOk (schema d t).attrs (mapCovered u f i).attrs = true := by
  rw [attrsOk, Bool.and_eq_true] at h ⊢
  have hany : ∀ g : Attr → Bool, (∀ a v, g { a with value := v } = g a) →
      (mapCovered u f i).attrs.any g = i.attrs.any g := by
    intro g hg
    simp only [mapCovered, List.any_map]
    congr 1
    funext a
    simp only [Function.comp]
    split
    · exact hg a _
    · rfl
  refine ⟨?_, ?_⟩
  · simp only [mapCovered, List.all_map, List.all_eq_true, Function.comp]
    intro a ha
    have h1 := List.all_eq_true.1 h.1 a ha
    by_cases hc : coveredAttr u i a = true
    · rw [if_pos hc]
      simp only [Bool.or_eq_true] at h1 ⊢
      rcases h1 with h1 | h1
      · exact .inl h1
      refine .inr ?_
      obtain ⟨x, hx1, hx2⟩ := List.any_eq_true.1 h1
      rw [Bool.and_eq_true, beq_iff_eq] at hx2
      refine List.any_eq_true.2 ⟨x, hx1, ?_⟩
      rw [Bool.and_eq_true, beq_iff_eq]
      refine ⟨hx2.1, ?_⟩
      rcases coveredAttr_key hc with e | ⟨e1, e2⟩
      · have hn := (clark_plain (by decide) e).2
        have hs := List.all_eq_true.1 (longName_string (d := d) t) x hx1
        rw [hx2.1, hn] at hs
        simp only [bne_self_eq_false, Bool.false_or, decide_eq_true_eq] at hs
        rw [hs]
        rfl
      · obtain ⟨b, rfl⟩ := hi.string e1
        simp only [schema, List.mem_singleton] at hx1
        subst hx1
        rfl
    · rw [if_neg hc]
      exact h1
  · refine List.all_eq_true.2 fun x hx => ?_
    have := List.all_eq_true.1 h.2 x hx
    rw [hany _ (fun a v => rfl)]
    exact this

theorem kidsBy_loose {decl : TypeName → Complex} {ns : Option Str} {m : Model} (h1 : m.isOpen = true) (h2 : m.mixed = true) :
    ∀ ks : List Node, kidsBy decl ns m ks = true
  | [] => by rw [kidsBy]
  | .elem i ks :: r => by simp [kidsBy, h1, kidsBy_loose h1 h2 r]
  | .text s :: r => by simp [kidsBy, h2, kidsBy_loose h1 h2 r]
  | .comment s :: r => by simp [kidsBy, kidsBy_loose h1 h2 r]
  | .pi a b :: r => by simp [kidsBy, kidsBy_loose h1 h2 r]

theorem kidsBy_texts {decl : TypeName → Complex} {ns : Option Str} {m : Model} (h2 : m.mixed = true) :
    ∀ ks : List Node, childNames ks = [] → kidsBy decl ns m ks = true
  | [], _ => by rw [kidsBy]
  | .elem i ks :: r, h => by cases h
  | .text s :: r, h => by simp [kidsBy, h2, kidsBy_texts h2 r h]
  | .comment s :: r, h => by simp [kidsBy, kidsBy_texts h2 r h]
  | .pi a b :: r, h => by simp [kidsBy, kidsBy_texts h2 r h]

/-- What is known of a place for an element: its type if it is the text of the header or an XHTML value. -/
structure Placed (u : Str) (d : Dialect) (p : Option Info) (t : TypeName) (i : Info) : Prop where
  header : Spec.headerText u p i = true → t = .text .string
  value : xhtmlValue u p i = true → ∃ b, t = .xhtmlContent b ∧ (d = .xsd ∨ b = false)

theorem placed_kids {d : Dialect} {t t' : TypeName} {i j : Info} (hi : Told d t i)
    (ht : (schema d t).model.typeOf j.name = some t') : Placed u d (some i) t' j := by
  refine ⟨fun h => ?_, fun h => ?_⟩
  · have hn := header_name h
    simp only [Spec.headerText, Option.any_some, Bool.and_eq_true] at h
    have := hi.header (isA_inv h.1).2
    subst this
    rcases hn with e | e <;> rw [e] at ht <;> simp [schema, Model.typeOf] at ht <;> exact ht.symm
  · have hn := value_name h
    simp only [xhtmlValue, Option.any_some, Bool.and_eq_true] at h
    obtain ⟨b, rfl, hb⟩ := hi.xhtml (isA_inv h.1).2
    rw [hn] at ht
    refine ⟨b, ?_, hb⟩
    simp [schema, Model.typeOf] at ht
    exact ht.symm

mutual
theorem valid_disguised {d : Dialect} {ns : Option Str} : ∀ (p : Option Info) (n r : Node), Disguised u f p n r →
    ∀ t, (∀ i ks, n = .elem i ks → Told d t i ∧ Placed u d p t i) → (d = .xsd ∨ hasXhtmlDefault n = false) →
    validBy (schema d) ns t n = true → validBy (schema d) ns t r = true
  | _, _, _, .text _, _, _, _, h => h
  | _, _, _, .comment _, _, _, _, h => h
  | _, _, _, .pi _ _, _, _, _, h => h
  | _, _, _, .value (i := i) ks s h _, t, hi, _, hv => by
    obtain ⟨-, hp⟩ := hi _ _ rfl
    obtain ⟨b, rfl, hb⟩ := hp.value h
    rw [validBy, Bool.and_eq_true, Bool.and_eq_true] at hv ⊢
    refine ⟨⟨hv.1.1, ?_⟩, kidsBy_loose rfl rfl _⟩
    have e : (d != Dialect.xsd && b) = false := by
      rcases hb with rfl | rfl
      · rfl
      · simp
    simp only [schema, e]
    rfl
  | _, _, _, .header (i := i) (ks := ks) (ls := ls) h hk, t, hi, _, hv => by
    obtain ⟨ht, hp⟩ := hi _ _ rfl
    have e := hp.header h
    subst e
    rw [validBy, Bool.and_eq_true, Bool.and_eq_true] at hv ⊢
    have hc : childNames (mapLeading f ls) = [] := by
      rw [childNames_leading, childNames_disguised _ _ _ hk]
      have := hv.1.2
      simp only [schema, Model.countOk, Bool.and_eq_true, List.isEmpty_iff] at this
      exact this.1
    refine ⟨⟨attrsOk_disguised ht hv.1.1, ?_⟩, kidsBy_texts rfl _ hc⟩
    have : ∀ s, (d.form Simple.string).ok s = true := by intro s; cases d <;> rfl
    simp only [schema, Model.countOk, hc, this]
    rfl
  | _, _, _, .elem (i := i) (ks := ks) (ls := ls) h hh hk, t, hi, hx, hv => by
    obtain ⟨ht, -⟩ := hi _ _ rfl
    rw [validBy, Bool.and_eq_true, Bool.and_eq_true] at hv ⊢
    have hx' : d = .xsd ∨ (i.name == c!"DEFAULT-VALUE" && (childNames ks).contains c!"ATTRIBUTE-VALUE-XHTML") = false ∧
        haveXhtmlDefault ks = false := by
      refine hx.imp_right fun hx => ?_
      rwa [hasXhtmlDefault, Bool.or_eq_false_iff] at hx
    exact ⟨⟨attrsOk_disguised ht hv.1.1, countOk_disguised hk hv.1.2⟩,
      kids_disguised _ _ _ hk t i rfl ht (fun j t' hj hj' => told_kids ht (hx'.imp_right (·.1)) hj hj')
        (hx'.imp_right (·.2)) hv.2⟩

theorem kids_disguised {d : Dialect} {ns : Option Str} : ∀ (p : Option Info) (xs rs : List Node), DisguisedAll u f p xs rs →
    ∀ t i, p = some i → Told d t i →
    (∀ (j : Info) t', j.name ∈ childNames xs → (schema d t).model.typeOf j.name = some t' → Told d t' j) →
    (d = .xsd ∨ haveXhtmlDefault xs = false) →
    kidsBy (schema d) ns (schema d t).model xs = true → kidsBy (schema d) ns (schema d t).model rs = true
  | _, _, _, .nil, _, _, _, _, _, _, h => h
  | p, _, _, .cons (n := n) (r := r) (ns := xs) (rs := rs) hn hs, t, i, hp, ht, hj, hx, hv => by
    have hx' : d = .xsd ∨ hasXhtmlDefault n = false ∧ haveXhtmlDefault xs = false := by
      refine hx.imp_right fun hx => ?_
      rwa [haveXhtmlDefault, Bool.or_eq_false_iff] at hx
    have hj' : ∀ (j : Info) t', j.name ∈ childNames xs → (schema d t).model.typeOf j.name = some t' → Told d t' j := by
      intro j t' h1 h2
      refine hj j t' ?_ h2
      cases n <;> first | exact h1 | exact List.mem_cons_of_mem _ h1
    have hv' : kidsBy (schema d) ns (schema d t).model xs = true := by
      cases n with
      | elem j ks => rw [kidsBy, Bool.and_eq_true] at hv; exact hv.2
      | text s => rw [kidsBy, Bool.and_eq_true] at hv; exact hv.2
      | comment s => rwa [kidsBy] at hv; all_goals simp
      | pi a b => rwa [kidsBy] at hv; all_goals simp
    have ih := kids_disguised p xs rs hs t i hp ht hj' (hx'.imp_right (·.2)) hv'
    have key : ∀ (j k : Info) (ks ls : List Node), n = .elem j ks → r = .elem k ls → k.name = j.name → k.ns = j.ns →
        kidsBy (schema d) ns (schema d t).model (r :: rs) = true := by
      intro j k ks ls e1 e2 e3 e4
      have hrec := valid_disguised (d := d) (ns := ns) p n r hn
      subst e1 e2
      rw [kidsBy, Bool.and_eq_true] at hv ⊢
      refine ⟨?_, ih⟩
      have h1 := hv.1
      rw [Bool.or_eq_true, Bool.and_eq_true] at h1 ⊢
      rw [e3, e4]
      refine h1.imp_right fun h1 => ⟨h1.1, ?_⟩
      have h2 := h1.2
      cases hto : (schema d t).model.typeOf j.name with
      | none => rw [hto] at h2; cases h2
      | some t' =>
        rw [hto] at h2
        refine hrec t' ?_ (hx'.imp_right (·.1)) h2
        intro j' ks' e
        cases e
        refine ⟨hj j t' (by simp [childNames]) hto, ?_⟩
        rw [hp]
        exact placed_kids ht hto
    cases hn with
    | text s => rw [kidsBy, Bool.and_eq_true] at hv ⊢; exact ⟨hv.1, ih⟩
    | comment s => rw [kidsBy]; exact ih; all_goals simp
    | pi a b => rw [kidsBy]; exact ih; all_goals simp
    | value ks s h => exact key _ _ _ _ rfl rfl rfl rfl
    | header h hk => exact key _ _ _ _ rfl rfl rfl rfl
    | elem h hh hk => exact key _ _ _ _ rfl rfl rfl rfl
end

theorem validRoot_disguised {d : Dialect} {n r : Node} (h : Disguised u f none n r) (hd : d = .xsd ∨ hasXhtmlDefault n = false)
    (hv : validRoot d n = true) : validRoot d r = true := by
  have key := valid_disguised (d := d) (ns := some reqifNs) none n r h .reqIf
  cases h with
  | text s => exact hv
  | comment s => exact hv
  | pi a b => exact hv
  | value ks s h => simp [xhtmlValue] at h
  | header h hk => simp [Spec.headerText] at h
  | elem h hh hk =>
    rename_i i ks ls
    simp only [validRoot, Bool.and_eq_true, beq_iff_eq] at hv ⊢
    refine ⟨hv.1, key ?_ hd hv.2⟩
    intro j js e
    cases e
    refine ⟨⟨fun e => ?_, fun e => ?_, fun e => ?_, fun k e => ?_⟩, ⟨fun e => ?_, fun e => ?_⟩⟩
    · rw [hv.1.2] at e; cases e
    · rw [hv.1.2] at e; cases e
    · rw [hv.1.2] at e; cases e
    · cases e
    · simp [Spec.headerText] at e
    · simp [xhtmlValue] at e

/-! ## XHTML contents -/

theorem silent_disguised : ∀ (p : Option Info) (ns rs : List Node), DisguisedAll u f p ns rs → rs.all isSilent = ns.all isSilent
  | _, _, _, .nil => rfl
  | _, _, _, .cons hn hs => by
    rw [List.all_cons, List.all_cons, silent_disguised _ _ _ hs]
    cases hn <;> rfl

theorem elements_disguised : ∀ (p : Option Info) (ns rs : List Node), DisguisedAll u f p ns rs →
    (rs.filter isElement).map isBlockElement = (ns.filter isElement).map isBlockElement
  | _, _, _, .nil => rfl
  | _, _, _, .cons hn hs => by
    have := elements_disguised _ _ _ hs
    cases hn <;> simp only [List.filter_cons, isElement, if_true, if_false, Bool.false_eq_true, List.map_cons, this] <;> rfl

theorem isBlock_map (xs : List Node) : isBlock xs =
    ((match (xs.filter isElement).map isBlockElement with
      | [b] => b
      | _ => false) && xs.all isSilent) := by
  rw [isBlock]
  congr 1
  generalize xs.filter isElement = ys
  match ys with
  | [] => rfl
  | [_] => rfl
  | _ :: _ :: _ => rfl

theorem isBlock_disguised {p : Option Info} {ns rs : List Node} (h : DisguisedAll u f p ns rs) : isBlock rs = isBlock ns := by
  rw [isBlock_map, isBlock_map, silent_disguised _ _ _ h, elements_disguised _ _ _ h]

theorem contents_leading (f : Str → Str) (b : Bool) : ∀ ks : List Node, xhtmlContentsAll b (mapLeading f ks) = xhtmlContentsAll b ks
  | [] => rfl
  | .text _ :: _ => by simp only [mapLeading, xhtmlContentsAll, xhtmlContents]
  | .comment _ :: _ => rfl
  | .pi _ _ :: _ => rfl
  | .elem _ _ :: _ => rfl

/-- An XHTML content that is no XHTML value, and a block. -/
def otherBlock (c : Str × List Node) : Bool := c.1 != c!"THE-VALUE" && isBlock c.2

mutual
theorem contents_disguised : ∀ (p : Option Info) (n r : Node), Disguised reqifNs f p n r →
    ∀ b, b = p.any (isA reqifNs c!"ATTRIBUTE-VALUE-XHTML") →
    (xhtmlContents b r).all (fun c => isBlock c.2) = (xhtmlContents b n).all otherBlock
  | _, _, _, .text _, _, _ => rfl
  | _, _, _, .comment _, _, _ => rfl
  | _, _, _, .pi _ _, _, _ => rfl
  | p, _, _, .value (i := i) ks s h _, b, hb => by
    have hn := value_name h
    have hc : (b && i.ns == some reqifNs && xhtmlNames.contains i.name) = true := by
      simp only [xhtmlValue, Bool.and_eq_true] at h
      rw [hb, h.1, hn, (isA_inv h.2).1]
      rfl
    rw [xhtmlContents, if_pos hc, xhtmlContents, if_pos hc, hn]
    rfl
  | p, _, _, .header (i := i) (ls := ls) h hk, b, hb => by
    have hn := header_name h
    have hc : (b && i.ns == some reqifNs && xhtmlNames.contains i.name) = false := by
      rcases hn with e | e <;> rw [e] <;> simp [xhtmlNames]
    have ht : (i.name == c!"TOOL-EXTENSIONS") = false := by
      rcases hn with e | e <;> rw [e] <;> rfl
    rw [xhtmlContents, xhtmlContents, contents_leading]
    have e1 : (mapCovered reqifNs f i).ns = i.ns := rfl
    have e2 : (mapCovered reqifNs f i).name = i.name := rfl
    rw [e1, e2, hc, ht]
    exact contentsAll_disguised _ _ _ hk _ (by simp [isA, Bool.beq_eq_decide_eq])
  | p, _, _, .elem (i := i) (ls := ls) h hh hk, b, hb => by
    rw [xhtmlContents, xhtmlContents]
    have e1 : (mapCovered reqifNs f i).ns = i.ns := rfl
    have e2 : (mapCovered reqifNs f i).name = i.name := rfl
    rw [e1, e2]
    by_cases hc : (b && i.ns == some reqifNs && xhtmlNames.contains i.name) = true
    · rw [if_pos hc, if_pos hc]
      simp only [List.all_cons, List.all_nil, Bool.and_true, otherBlock, isBlock_disguised hk]
      have : (i.name != c!"THE-VALUE") = true := by
        rw [bne_iff_ne]
        intro e
        simp only [Bool.and_eq_true, beq_iff_eq] at hc
        have : xhtmlValue reqifNs p i = true := by
          simp only [xhtmlValue, ← hb, hc.1.1, isA, hc.1.2, e]
          decide
        rw [h] at this
        cases this
      rw [this]
      rfl
    · rw [if_neg hc, if_neg hc]
      split
      · rfl
      · exact contentsAll_disguised _ _ _ hk _ (by simp [isA, Bool.beq_eq_decide_eq])

theorem contentsAll_disguised : ∀ (p : Option Info) (ns rs : List Node), DisguisedAll reqifNs f p ns rs →
    ∀ b, b = p.any (isA reqifNs c!"ATTRIBUTE-VALUE-XHTML") →
    (xhtmlContentsAll b rs).all (fun c => isBlock c.2) = (xhtmlContentsAll b ns).all otherBlock
  | _, _, _, .nil, _, _ => rfl
  | _, _, _, .cons hn hs, b, hb => by
    rw [xhtmlContentsAll, xhtmlContentsAll, List.all_append, List.all_append, contents_disguised _ _ _ hn b hb,
      contentsAll_disguised _ _ _ hs b hb]
end

end Xsd
end ReqIF
