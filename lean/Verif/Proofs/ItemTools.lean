import Verif.Proofs.RootDoc
import Verif.Proofs.ParseInv
import Verif.Spec.RoundTrip
/-! Tools for the round trips of single items. -/
namespace ReqIF
open Spec

theorem rootTag_eq (as : List (Str × Str)) : rootTag as = c!"<REQ-IF" ++ attrsText as ++ c!">" := by
  unfold rootTag attrsText
  simp

theorem rootTag_of {as : List (Str × Str)} (h : RootAttrs as) : ∃ ri, RootTag as as ri := by
  obtain ⟨h1, ri, h2, h3⟩ := h
  refine ⟨ri, ?_, ?_, decodeAttrs_plain (fun a ha => (h1 a ha).2), h2, h3⟩
  · rw [List.all_eq_true]
    intro a ha
    simp only [attrLexOk, (h1 a ha).1, Bool.true_and, Bool.not_eq_true', List.contains_eq_mem, decide_eq_false_iff_not]
    intro hm
    exact ((h1 a ha).2 _ hm).2.2.2.1 rfl
  · intro hm
    simp only [attrsText, List.mem_flatMap] at hm
    obtain ⟨a, h, hm⟩ := hm
    simp only [List.mem_append, List.mem_cons] at hm
    have e1 := qname_noCr (h1 a h).1
    have e2 : '\r' ∉ a.2 := fun hm => ((h1 a h).2 _ hm).2.2.2.2.2.2 rfl
    simp_all

/-- Printed lines are read as the nodes they show. -/
theorem readsAs_of_shows {as : List (Str × Str)} {ri : Info} (hr : RootTag as as ri) {p : Str} {u : Bool} {text : Str}
    {cs : List Node} (h : Shows (rootCtx ri p u) u text cs) : ReadsAs as text cs := by
  obtain ⟨ks0, ks, h1, h2, h3, -⟩ := readDoc_tag hr h
  refine ⟨⟨some ⟨some c!"UTF-8"⟩, [.elem ri ks0], .elem ri ks0⟩, .elem (keptInfo ri p u) ks, ?_, h2, h3⟩
  unfold document
  rw [rootTag_eq]
  exact h1

theorem isSelfClosed_iff {n : Node} (h : ∃ i ks, n = .elem i ks) : isSelfClosedTag n = true ↔ n.kids = [] := by
  obtain ⟨i, ks, rfl⟩ := h
  unfold isSelfClosedTag Node.len Node.children Node.kids
  cases ks with
  | nil => simp [Node.text?]
  | cons k ks =>
    cases k <;> simp [Node.text?, Node.isText]

theorem selfClosed_nil {n : Node} (h : ∃ i ks, n = .elem i ks) (hk : n.kids = []) : isSelfClosedTag n = true :=
  (isSelfClosed_iff h).2 hk

theorem selfClosed_ne {n : Node} (h : ∃ i ks, n = .elem i ks) (hk : n.kids ≠ []) : isSelfClosedTag n = false := by
  rw [Bool.eq_false_iff]
  exact fun e => hk ((isSelfClosed_iff h).1 e)

/-- An element that is empty or has only layout inside. -/
theorem Shows.emptyOr {Γ : Ctx} (k : Nat) {tag : Str} (ht : blockTag tag = true) {as vs : List (Str × Str)} (ha : Attributes as vs)
    (sc : Bool) : ∃ n, IsEl n tag vs [] ∧ isSelfClosedTag n = sc ∧
      Shows Γ false (spaces k ++ c!"<" ++ tag ++ attrsText as ++ (if sc then c!"/>\n" else c!">\n" ++ lineClose k tag)) [n] := by
  cases sc with
  | true =>
    obtain ⟨n, h1, h2, h3⟩ := Shows.empty (Γ := Γ) k (blockTag_name ht) ha
    exact ⟨n, h1, selfClosed_nil h1.elem h2, h3⟩
  | false =>
    obtain ⟨n, h1, h2, -, h3⟩ := Shows.elem k ht ha (Shows.nil Γ)
    refine ⟨n, h1, selfClosed_ne h1.elem h2, ?_⟩
    simpa using h3

theorem Shows.congr {Γ : Ctx} {u : Bool} {t t' : Str} {ns : List Node} (h : Shows Γ u t ns) (e : t' = t) : Shows Γ u t' ns := e ▸ h

/-- A list of items, each printed as one node that `parse` reads. -/
theorem Shows.items {α β δ : Type} {Γ : Ctx} {print : α → Str} {parse : Node → Py β} {g : α → β} {φ : Node → δ} {F : α → δ} (xs : List α)
    (h : ∀ x ∈ xs, ∃ n, Shows Γ false (print x) [n] ∧ parse n = .ok (g x) ∧ φ n = F x) :
    ∃ ns, Shows Γ false (xs.flatMap print) ns ∧ mapPy parse ns = .ok (xs.map g) ∧ ns.map φ = xs.map F := by
  induction xs with
  | nil => exact ⟨[], Shows.nil Γ, rfl, rfl⟩
  | cons x xs ih =>
    obtain ⟨n, h1, h2, hf⟩ := h x (by simp)
    obtain ⟨ns, h3, h4, hfs⟩ := ih (fun y hy => h y (by simp [hy]))
    refine ⟨n :: ns, ?_, ?_, by simp [hf, hfs]⟩
    · have := h1.append h3
      simpa using this
    · simp only [mapPy, h2, h4, List.map_cons]

theorem mapPy_append {α β : Type} {f : α → Py β} {xs ys : List α} {as bs : List β} (h1 : mapPy f xs = .ok as)
    (h2 : mapPy f ys = .ok bs) : mapPy f (xs ++ ys) = .ok (as ++ bs) := by
  induction xs generalizing as with
  | nil => simp only [mapPy] at h1; cases h1; exact h2
  | cons x xs ih =>
    simp only [mapPy, List.cons_append] at h1 ⊢
    cases hx : f x with
    | error e => rw [hx] at h1; cases h1
    | ok y =>
      rw [hx] at h1
      dsimp only at h1 ⊢
      cases hr : mapPy f xs with
      | error e => rw [hr] at h1; cases h1
      | ok zs =>
        rw [hr] at h1
        cases h1
        rw [ih hr]
        rfl

/-! ## Numbers -/

theorem digitsGo_append (a : Str) (ha : ∀ c ∈ a, c.isDigit = true) (acc : Nat) (b : Bool) (tl : Str) :
    digitsGo acc b (a ++ tl) = digitsGo (Nat.ofDigitChars 10 a acc) (b || !a.isEmpty) tl := by
  induction a generalizing acc b with
  | nil => simp [Nat.ofDigitChars]
  | cons c a ih =>
    have hc := ha c (by simp)
    have hc2 : ('0' ≤ c && c ≤ '9') = true := by
      simp only [Char.isDigit, Bool.and_eq_true, decide_eq_true_eq] at hc
      simp only [Bool.and_eq_true, decide_eq_true_eq]
      exact ⟨hc.1, hc.2⟩
    simp only [List.cons_append, digitsGo, hc2, if_true]
    rw [ih (fun d hd => ha d (by simp [hd]))]
    simp [Nat.ofDigitChars]

theorem digitsGo_toDigits (n : Nat) : digitsGo 0 false (Nat.toDigits 10 n) = some n := by
  have h := digitsGo_append (Nat.toDigits 10 n) (fun c hc => Nat.isDigit_of_mem_toDigits (by decide) (by decide) hc) 0 false []
  rw [List.append_nil] at h
  rw [h]
  have hne : Nat.toDigits 10 n ≠ [] := Nat.toDigits_ne_nil
  simp [digitsGo, hne, Nat.ofDigitChars_ten_toDigits]

theorem strip_noSpace {s : Str} (h : ∀ c ∈ s, isPySpace c = false) : strip s = s := by
  have h1 : ∀ l : Str, (∀ c ∈ l, isPySpace c = false) → l.dropWhile isPySpace = l := by
    intro l hl
    cases l with
    | nil => rfl
    | cons c l => simp [hl c (by simp)]
  unfold strip lstrip rstrip
  rw [h1 s h, h1 s.reverse (fun c hc => h c (List.mem_reverse.1 hc)), List.reverse_reverse]

theorem isDigit_facts {c : Char} (h : c.isDigit = true) : isPySpace c = false ∧ c ≠ '-' ∧ c ≠ '+' ∧
    isXmlChar c = true ∧ c ≠ '<' ∧ c ≠ '&' ∧ c ≠ '"' ∧ c ≠ '\t' ∧ c ≠ '\n' ∧ c ≠ '\r' := by
  simp only [Char.isDigit, Bool.and_eq_true, decide_eq_true_eq] at h
  have h1 : 48 ≤ c.toNat := h.1
  have h2 : c.toNat ≤ 57 := h.2
  have hne : ∀ d : Char, (d.toNat < 48 ∨ 57 < d.toNat) → c ≠ d := by
    rintro d hd rfl; omega
  refine ⟨?_, hne _ (by decide), hne _ (by decide), ?_, hne _ (by decide), hne _ (by decide), hne _ (by decide),
    hne _ (by decide), hne _ (by decide), hne _ (by decide)⟩
  · have : ∀ n : Nat, 48 ≤ n → n ≤ 57 → ((9 ≤ n && n ≤ 13) || (28 ≤ n && n ≤ 32) || n == 0x85 || n == 0xA0 || n == 0x1680 ||
        (0x2000 ≤ n && n ≤ 0x200A) || n == 0x2028 || n == 0x2029 || n == 0x202F || n == 0x205F || n == 0x3000) = false := by
      intro n h1 h2
      simp
      omega
    exact this _ h1 h2
  · have : ∀ n : Nat, 48 ≤ n → n ≤ 57 → (n == 0x9 || n == 0xA || n == 0xD || (0x20 ≤ n && n ≤ 0xD7FF) ||
        (0xE000 ≤ n && n ≤ 0xFFFD) || (0x10000 ≤ n && n ≤ 0x10FFFF)) = true := by
      intro n h1 h2
      simp
      omega
    exact this _ h1 h2

theorem toDigits_digit {n : Nat} {c : Char} (h : c ∈ Nat.toDigits 10 n) : c.isDigit = true :=
  Nat.isDigit_of_mem_toDigits (by decide) (by decide) h

theorem pyInt_fmtInt (n : Int) : pyInt (fmtInt n) = some n := by
  cases n with
  | ofNat n =>
    unfold pyInt fmtInt
    rw [strip_noSpace (fun c hc => (isDigit_facts (toDigits_digit hc)).1)]
    have hne : Nat.toDigits 10 n ≠ [] := Nat.toDigits_ne_nil
    cases hd : Nat.toDigits 10 n with
    | nil => exact absurd hd hne
    | cons c s =>
      have hc := isDigit_facts (toDigits_digit (n := n) (c := c) (by simp [hd]))
      have := digitsGo_toDigits n
      rw [hd] at this
      split
      · rename_i h; injection h with h _; exact absurd h hc.2.1
      · rename_i h; injection h with h _; exact absurd h hc.2.2.1
      · rw [this]; rfl
  | negSucc n =>
    unfold pyInt fmtInt
    rw [strip_noSpace]
    · simp [digitsGo_toDigits]
      omega
    · intro c hc
      rcases List.mem_cons.1 hc with rfl | hc
      · decide
      · exact (isDigit_facts (toDigits_digit hc)).1

theorem plainAttr_fmtInt (n : Int) : PlainAttr (fmtInt n) := by
  have key : ∀ m, PlainAttr (Nat.toDigits 10 m) := by
    intro m c hc
    obtain ⟨-, -, -, h⟩ := isDigit_facts (toDigits_digit hc)
    exact h
  cases n with
  | ofNat n => exact key n
  | negSucc n =>
    intro c hc
    rcases List.mem_cons.1 hc with rfl | hc
    · decide
    · exact key _ c hc

end ReqIF

namespace ReqIF
open Spec

/-! ## Attribute lists -/

theorem AttrsRead.onePlain (n : Str) {v : Str} (h : PlainAttr v) : AttrsRead [(n, v)] [(n, v)] := .one n (attrRaw_plain h)
theorem AttrsRead.oneHtml (n : Str) {v : Str} (h : HtmlAttr v) : AttrsRead [(n, htmlEscape v)] [(n, v)] := .one n (attrRaw_html h)
theorem AttrsRead.optPlain (n : Str) {o : Option Str} (h : Opt PlainAttr o) : AttrsRead (optA n id o) (optA n id o) :=
  .opt n (f := id) fun v hv => attrRaw_plain (h v hv)
theorem AttrsRead.optEsc (n : Str) {o : Option Str} (h : Opt EscAttr o) : AttrsRead (optA n lxmlEscapeForHtml o) (optA n id o) :=
  .opt n fun v hv => attrRaw_esc (h v hv)
theorem AttrsRead.truthyPlain (n : Str) {o : Option Str} (h : Opt PlainAttr o) : AttrsRead (truthyA n id o) (truthyA n id o) :=
  .truthy n (f := id) fun v hv => attrRaw_plain (h v hv)
theorem AttrsRead.truthyEsc (n : Str) {o : Option Str} (h : Opt EscAttr o) : AttrsRead (truthyA n lxmlEscapeForHtml o) (truthyA n id o) :=
  .truthy n fun v hv => attrRaw_esc (h v hv)

/-- Proves `AttrsRead` and the distinctness of names for a concatenation of attributes. -/
macro "attributes" : tactic => `(tactic| (
  apply Attributes.mk
  rotate_left
  apply okNames_attrs
  repeat' with_reducible first
      | exact NamesIn.one _ _ | exact NamesIn.opt _ _ _ | exact NamesIn.truthy _ _ _ | exact NamesIn.bool _ _
      | apply NamesIn.append
  decide
  try (repeat' with_reducible first
      | (apply AttrsRead.onePlain; assumption) | (apply AttrsRead.oneHtml; assumption) | (apply AttrsRead.optPlain; assumption)
      | (apply AttrsRead.optEsc; assumption) | (apply AttrsRead.truthyPlain; assumption) | (apply AttrsRead.truthyEsc; assumption)
      | exact AttrsRead.bool _ _ | apply AttrsRead.append)))

theorem look_cons (n v k : Str) (r : List (Str × Str)) : look ((n, v) :: r) k = if n = k then some v else look r k := by
  have := look_append [(n, v)] r k
  rw [look_one] at this
  simp only [List.cons_append, List.nil_append] at this
  rw [this]
  split <;> simp

/-- Printed attributes as a list. -/
macro "attrs_text" : tactic => `(tactic| (
  simp only [attrsText_append, attrsText_optA, attrsText_truthyA, attrsText_boolA, attrsText_one, List.append_assoc]; try rfl))

end ReqIF
