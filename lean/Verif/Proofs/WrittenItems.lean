import Verif.Proofs.WrittenTools
import Verif.Proofs.PlainItems
/-! What is written for the elements of a plain document is what is printed for the items
parsed from them. -/
set_option linter.unusedSimpArgs false
namespace ReqIF.Xsd
open Spec

variable {X : Prop} {K : NsMap} {p : Str} {x : Node}

/-! ## Numbers -/

theorem digit_toDigits {c : Char} (h : isDigit c = true) : ∃ k, k < 10 ∧ Nat.toDigits 10 k = [c] ∧ (c ≠ '0' → 0 < k) := by
  unfold isDigit at h
  rw [Bool.and_eq_true, decide_eq_true_eq, decide_eq_true_eq] at h
  have h1 : 48 ≤ c.toNat := h.1
  have h2 : c.toNat ≤ 57 := h.2
  have e : ∃ k, k < 10 ∧ c = Char.ofNat (48 + k) := ⟨c.toNat - 48, by omega, by rw [show 48 + (c.toNat - 48) = c.toNat by omega, Char.ofNat_toNat]⟩
  obtain ⟨k, hk, rfl⟩ := e
  refine ⟨k, hk, ?_⟩
  clear h h1 h2
  revert k
  decide

theorem usual_digits (r : Str) {c : Char} (hc : isDigit c = true) (h0 : c ≠ '0') : r.all isDigit = true →
    ∃ n, 0 < n ∧ Nat.toDigits 10 n = c :: r.reverse := by
  induction r with
  | nil =>
    intro _
    obtain ⟨k, -, h2, h3⟩ := digit_toDigits hc
    exact ⟨k, h3 h0, h2⟩
  | cons e r ih =>
    intro hr
    rw [List.all_cons, Bool.and_eq_true] at hr
    obtain ⟨n, h1, h2⟩ := ih hr.2
    obtain ⟨k, h3, h4, -⟩ := digit_toDigits hr.1
    refine ⟨10 * n + k, by omega, ?_⟩
    rw [← Nat.toDigits_append_toDigits (by decide) h1 h3, h2, h4, List.reverse_cons]
    rfl

theorem usual_digits' (d : Str) {c : Char} (hc : isDigit c = true) (h0 : c ≠ '0') (hd : d.all isDigit = true) :
    ∃ n, 0 < n ∧ Nat.toDigits 10 n = c :: d := by
  have := usual_digits d.reverse hc h0 (by rw [List.all_reverse]; exact hd)
  rw [List.reverse_reverse] at this
  exact this

theorem ofDigits_usual : ∀ (d : Str) (acc : Nat) (b : Bool) {n : Nat}, d.all isDigit = true → digitsGo acc b d = some n →
    n = Nat.ofDigitChars 10 d acc
  | [], acc, b, n, _, h => by
    rw [digitsGo] at h
    split at h
    · cases h; rfl
    · cases h
  | c :: d, acc, b, n, hd, h => by
    rw [List.all_cons, Bool.and_eq_true] at hd
    have hc : ('0' ≤ c && c ≤ '9') = true := hd.1
    rw [digitsGo, if_pos hc] at h
    exact ofDigits_usual d _ true hd.2 h

theorem ofDigits_short : ∀ (d : Str), d.all isDigit = true → Nat.ofDigitChars 10 d 0 = Nat.ofDigitChars 10 (d.dropWhile (· == '0')) 0
  | [], _ => rfl
  | c :: d, hd => by
    rw [List.all_cons, Bool.and_eq_true] at hd
    rw [List.dropWhile_cons]
    by_cases hc : c = '0'
    · subst hc
      rw [if_pos (by decide), ← ofDigits_short d hd.2]
      rfl
    · rw [if_neg (by simpa using hc)]

/-- The digits of a number, without leading zeros, are the number's. -/
theorem digits_usual {d : Str} {n : Nat} (hd : d.all isDigit = true) (h : digitsGo 0 false d = some n) (sign : Str) :
    shortDigits sign d = (if n = 0 then c!"0" else sign ++ Nat.toDigits 10 n) := by
  have hn := ofDigits_usual d 0 false hd h
  rw [ofDigits_short d hd] at hn
  unfold shortDigits
  have hd' : (d.dropWhile (· == '0')).all isDigit = true := by
    rw [List.all_eq_true] at hd ⊢
    exact fun c hc => hd c (List.dropWhile_sublist _ |>.subset hc)
  have hz : ∀ c, (d.dropWhile (· == '0')).head? = some c → c ≠ '0' := by
    intro c hc
    have := List.head?_dropWhile_not (· == '0') d
    rw [hc] at this
    simpa using this
  generalize d.dropWhile (· == '0') = e at hn hd' hz
  cases e with
  | nil => rw [hn]; rfl
  | cons c e =>
    rw [List.all_cons, Bool.and_eq_true] at hd'
    obtain ⟨m, h1, h2⟩ := usual_digits' e hd'.1 (hz c rfl) hd'.2
    have : n = m := by
      rw [hn, ← h2, Nat.ofDigitChars_ten_toDigits]
    dsimp only
    rw [if_neg (by omega), this, h2]

theorem fmtInt_usual {v : Str} {n : Int} (h : isInteger (trim v) = true) (hn : pyInt v = some n) : fmtInt n = usualInteger v := by
  obtain ⟨a, b, e, ha, hb⟩ := trim_split v
  unfold usualInteger
  have hds : ∀ u : Str, u.all isDigit = true → ∀ c ∈ u, isPySpace c = false := fun u hu c hc =>
    (isDigit_facts' (List.all_eq_true.1 hu c hc)).1
  have hstrip : strip v = trim v := by
    rw [e, ← e]
    have hne : trim v ≠ [] ∧ ∀ c ∈ trim v, isPySpace c = false := by
      generalize trim v = t at h
      unfold isInteger at h
      split at h
      · rw [Bool.and_eq_true] at h
        refine ⟨by simp, ?_⟩
        intro c hc
        rcases List.mem_cons.1 hc with rfl | hc
        · decide
        · exact hds _ h.2 c hc
      · rw [Bool.and_eq_true] at h
        refine ⟨by simp, ?_⟩
        intro c hc
        rcases List.mem_cons.1 hc with rfl | hc
        · decide
        · exact hds _ h.2 c hc
      · rw [Bool.and_eq_true] at h
        refine ⟨by rintro rfl; simp at h, hds _ h.2⟩
    have := strip_around ha hb hne.1 hne.2
    rw [← e] at this
    exact this
  unfold pyInt at hn
  rw [hstrip] at hn
  generalize trim v = t at h hn
  unfold isInteger at h
  split at h
  · rename_i d
    rw [Bool.and_eq_true] at h
    cases hm : digitsGo 0 false d with
    | none => simp [hm] at hn
    | some m =>
      simp [hm] at hn
      subst hn
      show _ = shortDigits ['-'] d
      rw [digits_usual h.2 hm]
      cases m with
      | zero => rfl
      | succ m => rfl
  · rename_i d
    rw [Bool.and_eq_true] at h
    cases hm : digitsGo 0 false d with
    | none => simp [hm] at hn
    | some m =>
      simp [hm] at hn
      subst hn
      show _ = shortDigits [] d
      rw [digits_usual h.2 hm]
      cases m with
      | zero => rfl
      | succ m => rfl
  · rename_i h1 h2
    rw [Bool.and_eq_true] at h
    cases hm : digitsGo 0 false t with
    | none =>
      split at hn
      · exact absurd rfl (h1 _)
      · exact absurd rfl (h2 _)
      · simp [hm] at hn
    | some m =>
      have hn : n = Int.ofNat m := by
        split at hn
        · exact absurd rfl (h1 _)
        · exact absurd rfl (h2 _)
        · simp [hm] at hn
          exact hn.symm
      subst hn
      have hs := digits_usual h.2 hm []
      suffices hh : fmtInt (Int.ofNat m) = shortDigits [] t by
        rw [hh]
        split
        · exact absurd rfl (h1 _)
        · exact absurd rfl (h2 _)
        · rfl
      rw [hs]
      cases m with
      | zero => rfl
      | succ m => rfl

/-! ## Tools -/

theorem filterMap_same {α β : Type} {f g : α → Option β} {l : List α} (h : ∀ x ∈ l, f x = g x) : l.filterMap f = l.filterMap g := by
  induction l with
  | nil => rfl
  | cons a l ih => rw [List.filterMap_cons, List.filterMap_cons, h a (by simp), ih (fun x hx => h x (by simp [hx]))]

/-- A property only the child with a name can have. -/
theorem PSeen.anyFound (h : PSeen X K p t n) (hm : (schema .lenient t).model.single = true) {nm : Str} {f : Node → Bool}
    (hx : ∀ i cs, f (.elem i cs) = true → .elem i cs ∈ n.children → i.name = nm) (ht : ∀ k, f k = true → k.isText = false) :
    n.kids.any f = ((n.find nm).map f).getD false := by
  rw [Bool.eq_iff_iff, List.any_eq_true]
  constructor
  · rintro ⟨k, hk, hf⟩
    have hc : k ∈ n.children := List.mem_filter.2 ⟨hk, by rw [ht k hf]; rfl⟩
    obtain ⟨nm', t', h1, -, -⟩ := h.child (single_closed hm) hc
    obtain ⟨i, cs, rfl, e1, e2⟩ := h1
    rw [h.found hm hc ⟨i, cs, rfl, e1, hx i cs hf hc⟩]
    exact hf
  · intro e
    cases hf : n.find nm with
    | none => rw [hf] at e; cases e
    | some c =>
      rw [hf] at e
      exact ⟨c, (List.mem_filter.1 (find_children hf).1).1, e⟩

theorem PSeen.out (_h : PSeen X K p t n) {nm : Str} {c : Node} {t' : TypeName} (hf : n.find nm = some c) (hn : Named nm c)
    (ht : (schema .lenient t).model.typeOf nm = some t') (hw : writesChild t nm c.kids = true) : outs t n nm = [said (written t' c)] :=
  outs_some hf hn ht hw

/-- No other attributes are printed. -/
macro "no_other" : tactic => `(tactic|
  (intro k hk
   simp only [List.mem_cons, List.not_mem_nil, or_false, forall_eq_or_imp, forall_eq] at hk
   simp [look_append, look_opt, look_one, look_cons, look_truthy, look_bool, look_nil, hk]))

/-! ## Data types -/

theorem enumValue_said (h : PSeen X K p .enumValue x) (hn : Named c!"ENUM-VALUE" x) {v : EnumValue} (hv : parseEnumValue x = .ok v) :
    said (written .enumValue x) = enumValueSaid v := by
  have w1 : ∀ k, writtenValue .enumValue k = some := fun _ => rfl
  have w2 : ∀ k, writtenValue .embeddedValue k = some := fun _ => rfl
  obtain ⟨i, hi, -⟩ := h.attr (name := c!"IDENTIFIER") rfl rfl
  obtain ⟨q, hq, hq1, hq2⟩ := h.need (nm := c!"PROPERTIES") (t' := .properties) rfl rfl rfl
  obtain ⟨e, he, he1, he2⟩ := hq1.need (nm := c!"EMBEDDED-VALUE") (t' := .embeddedValue) rfl rfl rfl
  obtain ⟨k, hk, -⟩ := he1.attr (name := c!"KEY") rfl rfl
  unfold parseEnumValue at hv
  rw [attrReq_some hi, py_bind_ok, findReq_some hq, py_bind_ok, findReq_some he, py_bind_ok, attrReq_some hk, py_bind_ok, py_pure] at hv
  cases hv
  have e1 : said (written .embeddedValue e) = recordOf c!"EMBEDDED-VALUE" ([(c!"KEY", k)] ++ optA c!"OTHER-CONTENT" id (e.attr? c!"OTHER-CONTENT")) [] := by
    refine he1.says he2 (by decide) rfl (names := [c!"KEY", c!"OTHER-CONTENT"]) (cnames := []) rfl rfl ?_ (by no_other) (by simp) (fun k _ => rfl)
    simp [look_append, look_opt, look_one, look_cons, hk, w2]
  have e2 : said (written .properties q) = recordOf c!"PROPERTIES" [] [recordOf c!"EMBEDDED-VALUE" ([(c!"KEY", k)] ++ optA c!"OTHER-CONTENT" id (e.attr? c!"OTHER-CONTENT")) []] := by
    refine hq1.says hq2 (by decide) rfl (names := []) (cnames := [c!"EMBEDDED-VALUE"]) rfl rfl (by simp) (fun k _ => rfl) ?_ ?_
    · simp [hq1.out he he2 rfl rfl, e1, byName, recordOf, Said.name]
    · intro k hk
      simp [byName, recordOf, Said.name]
      exact fun h => hk _ (by simp) h
  unfold enumValueSaid
  refine h.says hn (by decide) rfl (names := [c!"DESC", c!"IDENTIFIER", c!"LAST-CHANGE", c!"LONG-NAME"])
    (cnames := [c!"ALTERNATIVE-ID", c!"PROPERTIES"]) rfl rfl ?_ (by no_other) ?_ ?_
  · simp [look_append, look_opt, look_one, look_cons, hi, w1]
  · simp [h.gone (nm := c!"ALTERNATIVE-ID") (t' := .alternativeIds) rfl rfl rfl, h.out hq hq2 rfl rfl, e2, byName, recordOf, Said.name]
  · intro k hk
    simp [byName, recordOf, Said.name]
    exact fun h => hk _ (by simp) h

/-- No other children are printed. -/
macro "no_child" : tactic => `(tactic|
  (intro k hk
   simp only [List.mem_cons, List.not_mem_nil, or_false, forall_eq_or_imp, forall_eq] at hk
   simp [byName, recordOf, listOf, refOf, textSaid, xhtmlSaid, Said.name, hk]))

theorem dataType_said {k : Kind} (h : PSeen X K p (.dataType k) x) (hn : Named (c!"DATATYPE-DEFINITION-" ++ k.name) x)
    {v : DataType} (hv : parseDataType x = .ok v) : said (written (.dataType k) x) = dataTypeSaid v := by
  obtain ⟨i, hi, -⟩ := h.attr (name := c!"IDENTIFIER") rfl rfl
  have ht := hn.tag
  have hc : tagContains x c!"DATATYPE-DEFINITION-" = .ok true := by
    unfold tagContains
    rw [ht]
    cases k <;> rfl
  have halt := h.gone (nm := c!"ALTERNATIVE-ID") (t' := .alternativeIds) (by cases k <;> rfl) (by cases k <;> rfl) rfl
  unfold parseDataType at hv
  rw [hc, py_bind_ok, assertTrue, py_bind_ok] at hv
  dsimp only at hv
  rw [attrReq_some hi, py_bind_ok, ht] at hv
  cases k with
  | enumeration =>
    have w1 : writtenValue (.dataType .enumeration) c!"DESC" = some := rfl
    have w2 : writtenValue (.dataType .enumeration) c!"IDENTIFIER" = some := rfl
    have w3 : writtenValue (.dataType .enumeration) c!"LONG-NAME" = some := rfl
    rw [if_pos (by decide)] at hv
    have hl := truthy_written (o := x.attr? c!"LAST-CHANGE") (f := writtenValue (.dataType .enumeration) c!"LAST-CHANGE") (fun _ => rfl)
    rcases h.opt (nm := c!"SPECIFIED-VALUES") (t' := .specifiedValues) rfl rfl with hm | ⟨sv, hs, hs1, hs2⟩
    · rw [hm] at hv
      cases hv
      unfold dataTypeSaid
      refine h.says hn (by decide) rfl (names := [c!"DESC", c!"IDENTIFIER", c!"LAST-CHANGE", c!"LONG-NAME"])
        (cnames := [c!"ALTERNATIVE-ID", c!"SPECIFIED-VALUES"]) rfl rfl ?_ (by no_other) ?_ (fun k _ => rfl)
      · simp [look_append, look_opt, look_one, look_cons, look_truthy, hi, hl, w1, w2, w3]
      · simp [halt, outs_missing hm, byName]
    · rw [hs] at hv
      dsimp only at hv
      obtain ⟨vs, hvs, hv⟩ := py_bind_inv hv
      cases hv
      have e1 : said (written .specifiedValues sv) = listOf c!"SPECIFIED-VALUES" (vs.map enumValueSaid) := by
        rw [hs1.saysList hs2 (by decide) rfl rfl, mapPy_said hvs]
        intro c hc w hw
        obtain ⟨nm, t', h1, h2, h3⟩ := hs1.child rfl hc
        have := typeOf_choice h2
        simp only [List.mem_singleton, Prod.mk.injEq] at this
        rw [this.2] at h3
        rw [this.1] at h1
        rw [kidOut_some h1 rfl rfl, Option.map_some, enumValue_said h3 h1 hw]
      unfold dataTypeSaid
      refine h.says hn (by decide) rfl (names := [c!"DESC", c!"IDENTIFIER", c!"LAST-CHANGE", c!"LONG-NAME"])
        (cnames := [c!"ALTERNATIVE-ID", c!"SPECIFIED-VALUES"]) rfl rfl ?_ (by no_other) ?_ (by no_child)
      · simp [look_append, look_opt, look_one, look_cons, look_truthy, hi, hl, w1, w2, w3]
      · simp [halt, h.out hs hs2 rfl rfl, e1, byName, listOf, Said.name]
  | string =>
    have w1 : writtenValue (.dataType .string) c!"DESC" = some := rfl
    have w2 : writtenValue (.dataType .string) c!"IDENTIFIER" = some := rfl
    have w3 : writtenValue (.dataType .string) c!"LONG-NAME" = some := rfl
    rw [if_neg (by decide), if_pos (by decide)] at hv
    have hl := truthy_written (o := x.attr? c!"LAST-CHANGE") (f := writtenValue (.dataType .string) c!"LAST-CHANGE") (fun _ => rfl)
    have hl2 := truthy_written (o := x.attr? c!"MAX-LENGTH") (f := writtenValue (.dataType .string) c!"MAX-LENGTH") (fun _ => rfl)
    cases hv
    unfold dataTypeSaid
    refine h.says hn (by decide) rfl (names := [c!"DESC", c!"IDENTIFIER", c!"LAST-CHANGE", c!"LONG-NAME", c!"MAX-LENGTH"])
        (cnames := [c!"ALTERNATIVE-ID"]) rfl rfl ?_ (by no_other) ?_ (fun k _ => rfl)
    · simp [look_append, look_opt, look_one, look_cons, look_truthy, hi, hl, hl2, w1, w2, w3]
    · simp [halt, byName]
  | integer =>
    have w1 : writtenValue (.dataType .integer) c!"DESC" = some := rfl
    have w2 : writtenValue (.dataType .integer) c!"IDENTIFIER" = some := rfl
    have w3 : writtenValue (.dataType .integer) c!"MAX" = some := rfl
    have w4 : writtenValue (.dataType .integer) c!"MIN" = some := rfl
    rw [if_neg (by decide), if_neg (by decide), if_pos (by decide)] at hv
    have hl := truthy_written (o := x.attr? c!"LAST-CHANGE") (f := writtenValue (.dataType .integer) c!"LAST-CHANGE") (fun _ => rfl)
    have hl2 := truthy_written (o := x.attr? c!"LONG-NAME") (f := writtenValue (.dataType .integer) c!"LONG-NAME") (fun _ => rfl)
    cases hv
    unfold dataTypeSaid
    refine h.says hn (by decide) rfl (names := [c!"DESC", c!"IDENTIFIER", c!"LAST-CHANGE", c!"LONG-NAME", c!"MAX", c!"MIN"])
        (cnames := [c!"ALTERNATIVE-ID"]) rfl rfl ?_ (by no_other) ?_ (fun k _ => rfl)
    · simp [look_append, look_opt, look_one, look_cons, look_truthy, hi, hl, hl2, w1, w2, w3, w4]
    · simp [halt, byName]
  | real =>
    have w1 : writtenValue (.dataType .real) c!"DESC" = some := rfl
    have w2 : writtenValue (.dataType .real) c!"IDENTIFIER" = some := rfl
    have w3 : writtenValue (.dataType .real) c!"MAX" = some := rfl
    have w4 : writtenValue (.dataType .real) c!"MIN" = some := rfl
    have w5 : writtenValue (.dataType .real) c!"LAST-CHANGE" = some := rfl
    have w6 : writtenValue (.dataType .real) c!"LONG-NAME" = some := rfl
    rw [if_neg (by decide), if_neg (by decide), if_neg (by decide), if_pos (by decide)] at hv
    have key : ∀ acc : Option Int, (x.attr? c!"ACCURACY").bind (writtenValue (.dataType .real) c!"ACCURACY") = acc.map fmtInt → said (written (.dataType .real) x) = dataTypeSaid
        ⟨⟨i, x.attr? c!"DESC", x.attr? c!"LAST-CHANGE", x.attr? c!"LONG-NAME", isSelfClosedTag x⟩,
          .real acc (x.attr? c!"MAX") (x.attr? c!"MIN")⟩ := by
      intro acc ha
      unfold dataTypeSaid
      refine h.says hn (by decide) rfl (names := [c!"DESC", c!"IDENTIFIER", c!"LAST-CHANGE", c!"LONG-NAME", c!"ACCURACY", c!"MAX", c!"MIN"])
          (cnames := [c!"ALTERNATIVE-ID"]) rfl rfl ?_ (by no_other) ?_ (fun k _ => rfl)
      · simp [look_append, look_opt, look_one, look_cons, look_truthy, hi, ha, w1, w2, w3, w4, w5, w6]
      · simp [halt, byName]
    cases ha : x.attr? c!"ACCURACY" with
    | none =>
      rw [ha] at hv
      cases hv
      exact key none (by rw [ha]; rfl)
    | some a =>
      rw [ha] at hv
      dsimp only at hv
      cases hm : pyInt a with
      | none => rw [hm] at hv; cases hv
      | some n =>
        rw [hm] at hv
        cases hv
        refine key (some n) ?_
        have := h.attrName ha
        rw [ha, Option.map_some, fmtInt_usual (by simpa [schema, usual, desc, identifier, lastChange, longName, Simple.ok] using this) hm]
        rfl
  | xhtml =>
    have w1 : writtenValue (.dataType .xhtml) c!"DESC" = some := rfl
    have w2 : writtenValue (.dataType .xhtml) c!"IDENTIFIER" = some := rfl
    have w3 : writtenValue (.dataType .xhtml) c!"LONG-NAME" = some := rfl
    rw [if_neg (by decide), if_neg (by decide), if_neg (by decide), if_neg (by decide), if_pos (by decide)] at hv
    have hl := truthy_written (o := x.attr? c!"LAST-CHANGE") (f := writtenValue (.dataType .xhtml) c!"LAST-CHANGE") (fun _ => rfl)
    cases hv
    unfold dataTypeSaid
    refine h.says hn (by decide) rfl (names := [c!"DESC", c!"IDENTIFIER", c!"LAST-CHANGE", c!"LONG-NAME"])
        (cnames := [c!"ALTERNATIVE-ID"]) rfl rfl ?_ (by no_other) ?_ (fun k _ => rfl)
    · simp [look_append, look_opt, look_one, look_cons, look_truthy, hi, hl, w1, w2, w3]
    · simp [halt, byName]
  | date =>
    have w1 : writtenValue (.dataType .date) c!"DESC" = some := rfl
    have w2 : writtenValue (.dataType .date) c!"IDENTIFIER" = some := rfl
    rw [if_neg (by decide), if_neg (by decide), if_neg (by decide), if_neg (by decide), if_neg (by decide), if_pos (by decide)] at hv
    have hl := truthy_written (o := x.attr? c!"LAST-CHANGE") (f := writtenValue (.dataType .date) c!"LAST-CHANGE") (fun _ => rfl)
    have hl2 := truthy_written (o := x.attr? c!"LONG-NAME") (f := writtenValue (.dataType .date) c!"LONG-NAME") (fun _ => rfl)
    cases hv
    unfold dataTypeSaid
    refine h.says hn (by decide) rfl (names := [c!"DESC", c!"IDENTIFIER", c!"LAST-CHANGE", c!"LONG-NAME"])
        (cnames := [c!"ALTERNATIVE-ID"]) rfl rfl ?_ (by no_other) ?_ (fun k _ => rfl)
    · simp [look_append, look_opt, look_one, look_cons, look_truthy, hi, hl, hl2, w1, w2]
    · simp [halt, byName]
  | boolean =>
    have w1 : writtenValue (.dataType .boolean) c!"DESC" = some := rfl
    have w2 : writtenValue (.dataType .boolean) c!"IDENTIFIER" = some := rfl
    have w3 : writtenValue (.dataType .boolean) c!"LONG-NAME" = some := rfl
    rw [if_neg (by decide), if_neg (by decide), if_neg (by decide), if_neg (by decide), if_neg (by decide), if_neg (by decide),
      if_pos (by decide)] at hv
    have hl := truthy_written (o := x.attr? c!"LAST-CHANGE") (f := writtenValue (.dataType .boolean) c!"LAST-CHANGE") (fun _ => rfl)
    cases hv
    unfold dataTypeSaid
    refine h.says hn (by decide) rfl (names := [c!"DESC", c!"IDENTIFIER", c!"LAST-CHANGE", c!"LONG-NAME"])
        (cnames := [c!"ALTERNATIVE-ID"]) rfl rfl ?_ (by no_other) ?_ (fun k _ => rfl)
    · simp [look_append, look_opt, look_one, look_cons, look_truthy, hi, hl, w1, w2, w3]
    · simp [halt, byName]

/-! ## Attribute values -/

/-- If all child elements have the name, the first one is found. -/
theorem find_head {nm : Str} (h : ∀ c ∈ x.children, c.tag = .name nm) {c : Node} (hc : firstChild x = .ok c) : x.find nm = some c := by
  unfold firstChild at hc
  unfold Node.children at h hc
  unfold Node.find
  generalize x.kids = ks at h hc
  induction ks with
  | nil => cases hc
  | cons k ks ih =>
    rw [List.filter_cons] at h hc
    rw [List.find?_cons]
    cases ht : k.isText with
    | true =>
      simp only [ht, Bool.not_true, Bool.false_eq_true, if_false] at h hc
      rw [Bool.not_true, Bool.false_and]
      exact ih h hc
    | false =>
      simp only [ht, Bool.not_false, if_true] at h hc
      cases hc
      rw [h c (by simp)]
      simp

theorem ref_text {t : TypeName} {outer inner : Str} {s : Simple} (h : PSeen X K p t x) (hn : Named outer x)
    (hm : schema .lenient t = ⟨[], one inner (.text s)⟩) (h1 : isRecordName outer = true) (h2 : isTextName inner = true)
    (hw : ∀ ks, writesChild t inner ks = true) :
    ∃ r, x.find inner = some r ∧ firstChild x = .ok r ∧ said (written t x) = refOf outer inner r.text? ∧ PSeen X K p (.text s) r ∧ Named inner r := by
  obtain ⟨r, hr, hr1, hr2⟩ := h.need (nm := inner) (t' := .text s) (by rw [hm]; rfl) (by rw [hm]; simp [one, Model.needs])
    (by rw [hm]; simp [one, Model.typeOf])
  obtain ⟨r', hr', -⟩ := find_firstChild hr
  have e : x.find inner = some r' := by
    refine find_head ?_ hr'
    intro c hc
    obtain ⟨nm, t', e1, e2, -⟩ := h.child (by rw [hm]; rfl) hc
    rw [hm] at e2
    have := typeOf_choice e2
    simp only [List.mem_singleton, Prod.mk.injEq] at this
    rw [e1.tag, this.1]
  rw [hr] at e
  cases e
  exact ⟨r, hr, hr', h.saysRef hn hm h1 h2 hw hr, hr1, hr2⟩

theorem value_ref {b : Bool} {k : Kind} (h : PSeen X K p (.value b k) x) (hn : !b || k.namesDefinition) : ∃ e r, x.find c!"DEFINITION" = some e ∧
    e.find (c!"ATTRIBUTE-DEFINITION-" ++ k.name ++ c!"-REF") = some r ∧ firstChild e = .ok r ∧
    outs (.value b k) x c!"DEFINITION" = [refOf c!"DEFINITION" (c!"ATTRIBUTE-DEFINITION-" ++ k.name ++ c!"-REF") r.text?] := by
  obtain ⟨e, he, he1, he2⟩ := h.need (nm := c!"DEFINITION") (t' := .valueDefinition k) (by cases k <;> rfl)
    (by cases k <;> cases b <;> first | rfl | cases hn) (by cases k <;> rfl)
  obtain ⟨r, hr, hr1, hr2, -, -⟩ := ref_text he1 he2 rfl (by decide) (by cases k <;> decide) (fun _ => by cases k <;> rfl)
  refine ⟨e, r, he, hr, hr1, ?_⟩
  rw [h.out he he2 (t' := .valueDefinition k) (by cases k <;> rfl) (by cases k <;> cases b <;> first | rfl | cases hn), hr2]

theorem value_first {k : Kind} (h : PSeen X K p (.value false k) x)
    (hm : (schema .lenient (.value false k)).model = .all [⟨c!"DEFINITION", true, .valueDefinition k⟩]) :
    ∃ e r, x.find c!"DEFINITION" = some e ∧ firstChild x = .ok e ∧ firstChild e = .ok r ∧
      outs (.value false k) x c!"DEFINITION" = [refOf c!"DEFINITION" (c!"ATTRIBUTE-DEFINITION-" ++ k.name ++ c!"-REF") r.text?] := by
  obtain ⟨e, r, he, hr, hr1, hr2⟩ := value_ref h rfl
  obtain ⟨e', he', -⟩ := find_firstChild he
  have e2 : x.find c!"DEFINITION" = some e' := by
    refine find_head ?_ he'
    intro c hc
    obtain ⟨nm, t', e1, e2, -⟩ := h.child (by rw [hm]; rfl) hc
    rw [hm] at e2
    simp only [Model.typeOf, Option.map_eq_some_iff] at e2
    obtain ⟨q, hq, -⟩ := e2
    have h1 := List.mem_of_find?_eq_some hq
    have h2 := List.find?_some hq
    rw [List.mem_singleton] at h1
    rw [h1, beq_iff_eq] at h2
    rw [e1.tag, ← h2]
  rw [he] at e2
  cases e2
  exact ⟨e, r, he, he', hr1, hr2⟩

/-- A value in an attribute. -/
theorem simple_kind_said {b : Bool} {k : Kind} (h : PSeen X K p (.value b k) x) (hn : Named (c!"ATTRIBUTE-VALUE-" ++ k.name) x)
    (hk : k ≠ .enumeration ∧ k ≠ .xhtml) {v : Str} (hv : x.attr? c!"THE-VALUE" = some v) {ks : List Said}
    (h1 : outs (.value b k) x c!"DEFINITION" = ks) (h2 : ∀ s ∈ ks, s.name = c!"DEFINITION") :
    said (written (.value b k) x) = recordOf (c!"ATTRIBUTE-VALUE-" ++ k.name) [(c!"THE-VALUE", v)] ks := by
  obtain ⟨h3, h4⟩ := hk
  refine h.says hn (by cases k <;> decide) (by cases k <;> rfl) (names := [c!"THE-VALUE"]) (cnames := [c!"DEFINITION"])
    (by cases k <;> first | rfl | exact absurd rfl h3 | exact absurd rfl h4) (by cases k <;> first | rfl | exact absurd rfl h3 | exact absurd rfl h4) ?_ (by no_other) ?_ ?_
  · have w : writtenValue (.value b k) c!"THE-VALUE" = some := by cases k <;> first | rfl | exact absurd rfl h4
    simp [look_cons, hv, w]
  · intro n hn
    rw [List.mem_singleton] at hn
    subst hn
    rw [h1]
    unfold byName
    rw [List.filter_eq_self.2]
    intro s hs
    rw [h2 s hs]
    decide
  · intro n hn
    unfold byName
    rw [List.filter_eq_nil_iff]
    intro s hs
    rw [h2 s hs, beq_iff_eq]
    exact hn _ (by simp)

theorem simpleValue_said {k : Kind} {t : AttrType} {tag : Str} (h : PSeen X K p (.value false k) x) (hn : Named (c!"ATTRIBUTE-VALUE-" ++ k.name) x)
    (hk : k ≠ .enumeration ∧ k ≠ .xhtml) (htn : t.pyName = k.name) (ht : tag = c!"ATTRIBUTE-DEFINITION-" ++ k.name ++ c!"-REF")
    {a : SpecObjectAttribute} (hv : parseSimpleValue x t tag = .ok a) :
    a.type = t ∧ ∃ v, a.value = .str v ∧ said (written (.value false k) x) = recordOf (c!"ATTRIBUTE-VALUE-" ++ t.pyName) [(c!"THE-VALUE", v)]
      [refOf c!"DEFINITION" (c!"ATTRIBUTE-DEFINITION-" ++ t.pyName ++ c!"-REF") a.definitionRef] := by
  obtain ⟨v, hv'⟩ := h.seen.attr (name := c!"THE-VALUE") (by cases k <;> first | rfl | exact absurd rfl hk.1 | exact absurd rfl hk.2)
  obtain ⟨e, r, he, hr, -, hr1⟩ := value_ref h rfl
  unfold parseSimpleValue at hv
  rw [attrReq_some hv', py_bind_ok, findReq_some he, py_bind_ok, ht, findReq_some hr, py_bind_ok, py_pure] at hv
  cases hv
  refine ⟨rfl, v, rfl, ?_⟩
  rw [htn]
  refine simple_kind_said h hn hk hv' hr1 ?_
  intro s hs
  rw [List.mem_singleton] at hs
  rw [hs]
  rfl

theorem xhtml_kind_said {b : Bool} (h : PSeen X K p (.value b .xhtml) x) (hn : Named c!"ATTRIBUTE-VALUE-XHTML" x) {s1 s2 : Said}
    (h1 : outs (.value b .xhtml) x c!"DEFINITION" = [s1]) (h2 : outs (.value b .xhtml) x c!"THE-VALUE" = [s2])
    (n1 : s1.name = c!"DEFINITION") (n2 : s2.name = c!"THE-VALUE") : said (written (.value b .xhtml) x) = recordOf c!"ATTRIBUTE-VALUE-XHTML" [] [s1, s2] := by
  refine h.says hn (by decide) rfl (names := [c!"IS-SIMPLIFIED"]) (cnames := [c!"THE-VALUE", c!"THE-ORIGINAL-VALUE", c!"DEFINITION"]) rfl rfl ?_ (fun _ _ => rfl) ?_ ?_
  · have w : ∀ a, writtenValue (.value b .xhtml) c!"IS-SIMPLIFIED" a = none := fun _ => rfl
    simp [look_nil, w]
  · simp [h.gone (nm := c!"THE-ORIGINAL-VALUE") (t' := .xhtmlContent false) rfl rfl (by cases b <;> rfl), h1, h2, byName, n1, n2]
  · intro k hk
    simp only [List.mem_cons, List.not_mem_nil, or_false, forall_eq_or_imp, forall_eq] at hk
    simp [byName, n1, n2, hk]

theorem xhtmlValue_said (hE : Env K p) (h : PSeen X K p (.value false .xhtml) x) (hn : Named c!"ATTRIBUTE-VALUE-XHTML" x)
    {a : SpecObjectAttribute} (hv : parseXhtmlAttributeValue x = .ok a) : a.type = .xhtml ∧ said (written (.value false .xhtml) x) = valueSaid p a := by
  obtain ⟨v, hf, hv1, hv2⟩ := h.need (nm := c!"THE-VALUE") (t' := .xhtmlContent false) rfl rfl rfl
  obtain ⟨e, r, he, hr, -, hr1⟩ := value_ref h rfl
  have hr' : e.find c!"ATTRIBUTE-DEFINITION-XHTML-REF" = some r := hr
  obtain ⟨s, t1, t3, t4⟩ := hv1.saysXhtml hE hv2 (by decide)
  unfold parseXhtmlAttributeValue at hv
  rw [findReq_some hf, py_bind_ok] at hv
  have fin : a.type = .xhtml ∧ a.definitionRef = r.text? ∧ a.value = .str s := by
    split at hv
    · rename_i hl
      rw [t3 (by intro e; rw [e] at hl; simp at hl), py_bind_ok] at hv
      obtain ⟨s, -, hv⟩ := py_bind_inv hv
      rw [findReq_some he, py_bind_ok, findReq_some hr', py_bind_ok, py_pure] at hv
      cases hv
      exact ⟨rfl, rfl, rfl⟩
    · rename_i hl
      rw [t4 (by cases hh : v.nsmap with
        | nil => rfl
        | cons a as => rw [hh] at hl; simp at hl), py_bind_ok, findReq_some he, py_bind_ok, findReq_some hr', py_bind_ok, py_pure] at hv
      cases hv
      exact ⟨rfl, rfl, rfl⟩
  obtain ⟨e1, e2, e3⟩ := fin
  refine ⟨e1, ?_⟩
  unfold valueSaid
  rw [e1, e2, e3]
  exact xhtml_kind_said h hn hr1 (by rw [h.out hf hv2 rfl rfl, t1]) rfl rfl

/-- A list of references. -/
theorem refs_said {t : TypeName} {outer inner : Str} {s : Simple} (h : PSeen X K p t x) (hn : Named outer x)
    (hm : schema .lenient t = ⟨[], .choice 0 none [(inner, .text s)]⟩) (h1 : isListName outer = true) (h2 : isTextName inner = true)
    (hf : onlyFirst t = false) (hw : ∀ ks, writesChild t inner ks = true) :
    said (written t x) = listOf outer ((x.children.map Node.text?).map (textSaid inner)) := by
  rw [h.saysList hn h1 (by rw [hm]) hf, List.map_map]
  congr 1
  rw [List.map_filterMap, ← List.filterMap_eq_map]
  apply filterMap_same
  intro c hc
  obtain ⟨nm, t', e1, e2, e3⟩ := h.child (by rw [hm]; rfl) hc
  rw [hm] at e2
  have := typeOf_choice e2
  simp only [List.mem_singleton, Prod.mk.injEq] at this
  rw [this.1] at e1
  rw [this.2] at e3
  rw [kidOut_some e1 (t' := .text s) (by rw [hm]; simp [Model.typeOf]) (hw _), Option.map_some, e3.saysText e1 h2]
  rfl

theorem enum_kind_said {b : Bool} (h : PSeen X K p (.value b .enumeration) x) (hn : Named c!"ATTRIBUTE-VALUE-ENUMERATION" x) {s1 s2 : Said}
    (h1 : outs (.value b .enumeration) x c!"DEFINITION" = [s1]) (h2 : outs (.value b .enumeration) x c!"VALUES" = [s2])
    (n1 : s1.name = c!"DEFINITION") (n2 : s2.name = c!"VALUES") : said (written (.value b .enumeration) x) = recordOf c!"ATTRIBUTE-VALUE-ENUMERATION" [] [s1, s2] := by
  refine h.says hn (by decide) rfl (names := []) (cnames := [c!"DEFINITION", c!"VALUES"]) rfl rfl (by simp) (fun _ _ => rfl) ?_ ?_
  · simp [h1, h2, byName, n1, n2]
  · intro k hk
    simp only [List.mem_cons, List.not_mem_nil, or_false, forall_eq_or_imp, forall_eq] at hk
    simp [byName, n1, n2, hk]

theorem value_said {k : Kind} (hE : Env K p) (h : PSeen X K p (.value false k) x) (hn : Named (c!"ATTRIBUTE-VALUE-" ++ k.name) x)
    {a : SpecObjectAttribute} (hv : parseAttributeValue x = .ok a) : said (written (.value false k) x) = valueSaid p a := by
  unfold parseAttributeValue at hv
  rw [hn.tag] at hv
  cases k with
  | string =>
    rw [if_pos (by decide)] at hv
    obtain ⟨v, hv'⟩ := h.seen.attr (name := c!"THE-VALUE") rfl
    obtain ⟨e, r, he0, he, hr, hr1⟩ := value_first h rfl
    rw [attrReq_some hv', py_bind_ok, he, py_bind_ok, hr, py_bind_ok, py_pure] at hv
    cases hv
    exact simple_kind_said h hn (by decide) hv' hr1 (by intro s hs; rw [List.mem_singleton] at hs; rw [hs]; rfl)
  | enumeration =>
    rw [if_neg (by decide), if_pos (by decide)] at hv
    obtain ⟨e, r, he, hr, -, hr1⟩ := value_ref h rfl
    have hr' : e.find c!"ATTRIBUTE-DEFINITION-ENUMERATION-REF" = some r := hr
    obtain ⟨vs, hvs, hvs1, hvs2⟩ := h.need (nm := c!"VALUES") (t' := .enumRefs false) rfl rfl rfl
    rw [findReq_some he, py_bind_ok, findReq_some hr', py_bind_ok, hvs] at hv
    cases hv
    refine enum_kind_said h hn hr1 ?_ rfl rfl
    rw [h.out hvs hvs2 rfl rfl, refs_said hvs1 hvs2 rfl (by decide) (by decide) rfl (fun _ => rfl)]
  | integer =>
    rw [if_neg (by decide), if_neg (by decide), if_pos (by decide)] at hv
    obtain ⟨e1, v, e2, e3⟩ := simpleValue_said h hn (by decide) rfl rfl hv
    rw [e3]; unfold valueSaid; rw [e1, e2]
  | real =>
    rw [if_neg (by decide), if_neg (by decide), if_neg (by decide), if_pos (by decide)] at hv
    obtain ⟨e1, v, e2, e3⟩ := simpleValue_said h hn (by decide) rfl rfl hv
    rw [e3]; unfold valueSaid; rw [e1, e2]
  | boolean =>
    rw [if_neg (by decide), if_neg (by decide), if_neg (by decide), if_neg (by decide), if_pos (by decide)] at hv
    obtain ⟨e1, v, e2, e3⟩ := simpleValue_said h hn (by decide) rfl rfl hv
    rw [e3]; unfold valueSaid; rw [e1, e2]
  | date =>
    rw [if_neg (by decide), if_neg (by decide), if_neg (by decide), if_neg (by decide), if_neg (by decide), if_pos (by decide)] at hv
    obtain ⟨e1, v, e2, e3⟩ := simpleValue_said h hn (by decide) rfl rfl hv
    rw [e3]; unfold valueSaid; rw [e1, e2]
  | xhtml =>
    rw [if_neg (by decide), if_neg (by decide), if_neg (by decide), if_neg (by decide), if_neg (by decide), if_neg (by decide),
      if_pos (by decide)] at hv
    exact (xhtmlValue_said hE h hn hv).2

theorem values_said (hE : Env K p) {n : Node} (h : PSeen X K p .values n) (hn : Named c!"VALUES" n)
    {vs : Option (List SpecObjectAttribute)} (hv : parseAttributeValues (some n) = .ok vs) : ∃ l, vs = some l ∧ said (written .values n) = valuesSaid p l := by
  unfold parseAttributeValues at hv
  dsimp only at hv
  obtain ⟨l, hl, hv⟩ := py_bind_inv hv
  cases hv
  have e : n.children.filter (fun c => !isCommentNode c) = n.children := by
    rw [List.filter_eq_self]
    intro c hc
    obtain ⟨nm, t', ⟨i, ks, rfl, -⟩, -⟩ := h.child rfl hc
    rfl
  rw [e] at hl
  refine ⟨l, rfl, ?_⟩
  unfold valuesSaid
  rw [h.saysList hn (by decide) rfl rfl, mapPy_said hl]
  intro c hc w hw
  obtain ⟨nm, t', h1, h2, h3⟩ := h.child rfl hc
  obtain ⟨k, -, hk⟩ := kind_choice h2
  cases hk
  rw [kidOut_some h1 h2 rfl, Option.map_some, value_said hE h3 h1 hw]

/-! ## Attribute definitions -/

/-- What the default value of a definition says is what is printed for it. -/
def DefaultKept (p : Str) (T : TypeName) (x : Node) (t : AttrType) (q : DefaultPart) : Prop :=
  ∀ e, x.find c!"DEFAULT-VALUE" = some e → ∀ a : SpecAttributeDefinition, a.type = t → a.defaultValueDefinitionRef = q.1 →
    (kidOut T e).map said = q.2.map (defaultSaid p a)

/-- Is there a list of references that is not empty? -/
def namesValue : Node → Bool
  | .elem _ cs => cs.any fun c => match c with
    | .elem i rs => i.name == c!"VALUES" && !(childNames rs).isEmpty
    | _ => false
  | _ => false

theorem namesDefault_eq (ks : List Node) : namesDefault ks = ks.any namesValue := by
  unfold namesDefault
  congr 1

theorem kept_default {s : SpecKind} {k : Kind} (h : PSeen X K p (.definition s k) x) {e : Node} (he : x.find c!"DEFAULT-VALUE" = some e) :
    (isSelfClosedTag e = true ∧ (k = .string ∨ k = .xhtml ∨ k = .enumeration) ∧
      (kidOut (.definition s k) e).map said = some (recordOf c!"DEFAULT-VALUE" [] [])) ∨
    (isSelfClosedTag e = false ∧ ∃ v, e.find (c!"ATTRIBUTE-VALUE-" ++ k.name) = some v ∧ PSeen X K p (.value true k) v ∧
      Named (c!"ATTRIBUTE-VALUE-" ++ k.name) v ∧ (k = .enumeration → namesDefault e.kids = namesValue v) ∧
      (kidOut (.definition s k) e).map said = if k = .enumeration ∧ namesDefault e.kids = false then none
        else some (recordOf c!"DEFAULT-VALUE" [] [said (written (.value true k) v)])) := by
  obtain ⟨he1, he2⟩ := h.find (nm := c!"DEFAULT-VALUE") (t' := .defaultValue k) rfl rfl he
  have hs := fun {ks : List Said} => he1.says he2 (by decide) (by cases k <;> rfl) (names := []) (cnames := [c!"ATTRIBUTE-VALUE-" ++ k.name])
    (vs := []) (ks := ks) rfl (by cases k <;> rfl) (by simp) (fun _ _ => rfl)
  rcases plain_default h with hn | ⟨e', he', hh⟩
  · rw [hn] at he; cases he
  · rw [he] at he'
    cases he'
    rcases hh with ⟨h1, h2, h3⟩ | ⟨h1, v, hv, -⟩
    · refine .inl ⟨h2, h3, ?_⟩
      rw [kidOut_some he2 rfl (by rw [h1]; cases k <;> rfl), Option.map_some, hs (ks := []) ?_ (fun _ _ => rfl)]
      intro nm _
      refine outs_missing ?_
      unfold Node.find
      rw [h1]
      rfl
    · obtain ⟨hv1, hv2⟩ := he1.find (t' := .value true k) (by cases k <;> rfl) (by cases k <;> rfl) hv
      have hkids : e.kids ≠ [] := by
        intro e0
        unfold Node.find at hv
        rw [e0] at hv
        cases hv
      have hnames : k = .enumeration → namesDefault e.kids = namesValue v := by
        intro hk
        subst hk
        rw [namesDefault_eq, he1.anyFound rfl (nm := c!"ATTRIBUTE-VALUE-ENUMERATION") ?_ ?_]
        · have hv' : e.find c!"ATTRIBUTE-VALUE-ENUMERATION" = some v := hv
          rw [hv']
          rfl
        · intro i cs _ hc
          obtain ⟨nm', t', ⟨j, ds, e3, -, rfl⟩, e2, -⟩ := he1.child rfl hc
          cases e3
          have := typeOf_choice (a := 0) (b := some 1) e2
          simp only [List.mem_singleton, Prod.mk.injEq] at this
          exact this.1
        · intro k hk
          cases k <;> first | rfl | cases hk
      refine .inr ⟨h1, v, hv, hv1, hv2, hnames, ?_⟩
      have hname : (said (written (.value true k) v)).name = c!"ATTRIBUTE-VALUE-" ++ k.name := by
        obtain ⟨i, cs, rfl, -, e⟩ := hv2
        rw [written_elem, said_name (i := writtenInfo _ i)]
        exact e
      have hw : writesChild (.definition s k) c!"DEFAULT-VALUE" e.kids = !decide (k = .enumeration ∧ namesDefault e.kids = false) := by
        cases k with
        | enumeration =>
          cases hks : e.kids with
          | nil => exact absurd hks hkids
          | cons a as =>
            show (true && (c!"DEFAULT-VALUE" != c!"DEFAULT-VALUE" || false || namesDefault (a :: as))) = _
            cases namesDefault (a :: as) <;> simp
        | _ => simp [writesChild, keepsChild]
      split
      · rename_i hc
        rw [kidOut_none he2 rfl (by rw [hw]; simp [hc])]
        rfl
      rename_i hc
      rw [kidOut_some he2 rfl (by rw [hw, Bool.not_eq_true', decide_eq_false_iff_not]; exact hc), Option.map_some]
      congr 1
      refine hs ?_ ?_
      · intro nm hnm
        rw [List.mem_singleton] at hnm
        rw [hnm, he1.out hv hv2 (t' := .value true k) (by cases k <;> rfl) (by cases k <;> rfl), byName_cons, hname, if_pos rfl]
        rfl
      · intro nm hnm
        rw [byName_cons, hname, if_neg (hnm _ (by simp))]
        rfl

theorem default_simple_said {k : Kind} {v : Node} (h : PSeen X K p (.value true k) v) (hn : Named (c!"ATTRIBUTE-VALUE-" ++ k.name) v)
    (hk : k.namesDefinition = false) {a : Str} (ha : v.attr? c!"THE-VALUE" = some a) :
    said (written (.value true k) v) = recordOf (c!"ATTRIBUTE-VALUE-" ++ k.name) [(c!"THE-VALUE", a)] [] := by
  have hg := h.gone (nm := c!"DEFINITION") (t' := .valueDefinition k) (by cases k <;> rfl) (by cases k <;> rfl) (by cases k <;> first | rfl | cases hk)
  exact simple_kind_said h hn (by cases k <;> simp_all [Kind.namesDefinition]) ha hg (by simp)

theorem defaultString_said {s : SpecKind} (h : PSeen X K p (.definition s .string) x) {q : DefaultPart}
    (hq : parseDefaultString x = .ok q) : DefaultKept p (.definition s .string) x .string q := by
  intro e he
  unfold parseDefaultString at hq
  rw [he] at hq
  dsimp only at hq
  rcases kept_default h he with ⟨h1, -, h2⟩ | ⟨h1, v, hv, hv1, hv2, h3, h2⟩
  · rw [h1, if_pos rfl] at hq
    cases hq
    exact fun a _ _ => h2
  · have hv' : e.find c!"ATTRIBUTE-VALUE-STRING" = some v := hv
    obtain ⟨a, ha⟩ := hv1.seen.attr (name := c!"THE-VALUE") rfl
    rw [h1, if_neg (by decide), hv'] at hq
    dsimp only at hq
    rw [attrReq_some ha, py_bind_ok, py_pure] at hq
    cases hq
    intro d hd _
    rw [h2, if_neg (by simp), default_simple_said hv1 hv2 rfl ha]
    unfold defaultSaid
    rw [hd]
    rfl

theorem defaultSimple_said {s : SpecKind} {k : Kind} {t : AttrType} {tag : Str} (h : PSeen X K p (.definition s k) x)
    (ht : tag = c!"ATTRIBUTE-VALUE-" ++ k.name) (hk : (k = .integer ∧ t = .integer) ∨ (k = .real ∧ t = .real) ∨ (k = .date ∧ t = .date))
    {q : DefaultPart} (hq : parseDefaultSimple x tag = .ok q) : DefaultKept p (.definition s k) x t q := by
  intro e he
  unfold parseDefaultSimple at hq
  rw [he] at hq
  dsimp only at hq
  rcases kept_default h he with ⟨-, h1, -⟩ | ⟨h1, v, hv, hv1, hv2, h3, h2⟩
  · rcases hk with ⟨rfl, -⟩ | ⟨rfl, -⟩ | ⟨rfl, -⟩ <;> simp at h1
  · obtain ⟨a, ha⟩ := hv1.seen.attr (name := c!"THE-VALUE") (by rcases hk with ⟨rfl, -⟩ | ⟨rfl, -⟩ | ⟨rfl, -⟩ <;> rfl)
    rw [ht, hv] at hq
    dsimp only at hq
    rw [attrReq_some ha, py_bind_ok, py_pure] at hq
    cases hq
    intro d hd _
    rw [h2, if_neg (by rcases hk with ⟨rfl, -⟩ | ⟨rfl, -⟩ | ⟨rfl, -⟩ <;> simp), default_simple_said hv1 hv2 (by rcases hk with ⟨rfl, -⟩ | ⟨rfl, -⟩ | ⟨rfl, -⟩ <;> rfl) ha]
    unfold defaultSaid
    rw [hd]
    rcases hk with ⟨rfl, rfl⟩ | ⟨rfl, rfl⟩ | ⟨rfl, rfl⟩ <;> rfl

theorem defaultBoolean_said {s : SpecKind} (h : PSeen X K p (.definition s .boolean) x) {q : DefaultPart}
    (hq : parseDefaultBoolean x = .ok q) : DefaultKept p (.definition s .boolean) x .boolean q := by
  intro e he
  unfold parseDefaultBoolean at hq
  rw [he] at hq
  dsimp only at hq
  rcases kept_default h he with ⟨-, h1, -⟩ | ⟨h1, v, hv, hv1, hv2, h3, h2⟩
  · simp at h1
  · have hv' : e.find c!"ATTRIBUTE-VALUE-BOOLEAN" = some v := hv
    obtain ⟨a, ha⟩ := hv1.seen.attr (name := c!"THE-VALUE") rfl
    obtain ⟨f, r, hf, hr, -, hr1⟩ := value_ref hv1 rfl
    have hr' : f.find c!"ATTRIBUTE-DEFINITION-BOOLEAN-REF" = some r := hr
    rw [hv'] at hq
    dsimp only at hq
    rw [attrReq_some ha, py_bind_ok, hf] at hq
    dsimp only at hq
    rw [hr'] at hq
    cases hq
    intro d hd hd2
    have hd2 : d.defaultValueDefinitionRef = r.text? := hd2
    rw [h2, if_neg (by simp), simple_kind_said hv1 hv2 (by decide) ha hr1 (by intro s hs; rw [List.mem_singleton] at hs; rw [hs]; rfl)]
    unfold defaultSaid
    rw [hd, hd2]
    rfl

theorem defaultXhtml_said {s : SpecKind} (hE : Env K p) (h : PSeen X K p (.definition s .xhtml) x) {q : DefaultPart}
    (hq : parseDefaultXhtml x = .ok q) : DefaultKept p (.definition s .xhtml) x .xhtml q := by
  intro e he
  unfold parseDefaultXhtml at hq
  rw [he] at hq
  dsimp only at hq
  rcases kept_default h he with ⟨h1, -, h2⟩ | ⟨h1, v, hv, hv1, hv2, h3, h2⟩
  · rw [h1, if_pos rfl] at hq
    cases hq
    exact fun a _ _ => h2
  · have hv' : e.find c!"ATTRIBUTE-VALUE-XHTML" = some v := hv
    obtain ⟨f, r, hf, hr, -, hr1⟩ := value_ref hv1 rfl
    have hr' : f.find c!"ATTRIBUTE-DEFINITION-XHTML-REF" = some r := hr
    obtain ⟨tv, htv, htv1, htv2⟩ := hv1.need (nm := c!"THE-VALUE") (t' := .xhtmlContent true) rfl rfl rfl
    obtain ⟨w, t1, t3, -⟩ := htv1.saysXhtml hE htv2 (by decide)
    rw [h1, if_neg (by decide), hv'] at hq
    dsimp only at hq
    rw [hf] at hq
    dsimp only at hq
    rw [hr'] at hq
    dsimp only at hq
    rw [py_bind_ok, findReq_some htv, py_bind_ok, t3 (htv1.seen.outer (by decide)), py_bind_ok, py_pure] at hq
    cases hq
    intro d hd hd2
    have hd2 : d.defaultValueDefinitionRef = r.text? := hd2
    rw [h2, if_neg (by simp), xhtml_kind_said hv1 hv2 hr1 (by rw [hv1.out htv htv2 rfl rfl, t1]) rfl rfl]
    unfold defaultSaid
    rw [hd, hd2]
    rfl

theorem childNames_length : ∀ {ks : List Node}, noSpecialsAll ks = true → (childNames ks).length = (ks.filter (fun k => !k.isText)).length
  | [], _ => rfl
  | k :: ks, hs => by
    rw [noSpecialsAll, Bool.and_eq_true] at hs
    have ih := childNames_length hs.2
    cases k with
    | text s => exact ih
    | comment s => simp [noSpecials] at hs
    | pi a b => simp [noSpecials] at hs
    | elem i cs =>
      simp only [childNames, List.length_cons, ih, List.filter_cons, Node.isText, Bool.not_false, if_true]

theorem refs_first {v : Node} (h : PSeen X K p (.enumRefs true) v) (hn : Named c!"VALUES" v) :
    (v.find c!"ENUM-VALUE-REF" = none ∧ childNames v.kids = []) ∨ ∃ r, v.find c!"ENUM-VALUE-REF" = some r ∧ childNames v.kids ≠ [] ∧
      said (written (.enumRefs true) v) = listOf c!"VALUES" [textSaid c!"ENUM-VALUE-REF" r.text?] ∧ PlainElem r.text? := by
  have hall : ∀ c ∈ v.children, PSeen X K p (.text .localRef) c ∧ Named c!"ENUM-VALUE-REF" c := by
    intro c hc
    obtain ⟨nm, t', g1, g2, g3⟩ := h.child rfl hc
    have := typeOf_choice g2
    simp only [List.mem_singleton, Prod.mk.injEq] at this
    rw [this.1] at g1
    rw [this.2] at g3
    exact ⟨g3, g1⟩
  have hlen : (childNames v.kids).length = v.children.length := childNames_length h.seen.kidsPlain
  have hkid : ∀ c ∈ v.children, kidOut (.enumRefs true) c = some (written (.text .localRef) c) := fun c hc =>
    kidOut_some (hall c hc).2 rfl rfl
  have hsay := h.saysFirst hn (by decide) rfl rfl rfl (fun c hc => ⟨_, hkid c hc⟩)
  cases hc : v.children with
  | nil =>
    refine .inl ⟨?_, ?_⟩
    · cases hf : v.find c!"ENUM-VALUE-REF" with
      | none => rfl
      | some r =>
        have := (find_children hf).1
        rw [hc] at this
        cases this
    · rw [hc] at hlen
      exact List.eq_nil_of_length_eq_zero hlen
  | cons r rs =>
    have hr : r ∈ v.children := by rw [hc]; simp
    refine .inr ⟨r, find_head (fun c hc => (hall c hc).2.tag) (by unfold firstChild; rw [hc]), ?_, ?_, (hall r hr).1.ref (hall r hr).2 (by decide)⟩
    · intro e
      rw [e, hc] at hlen
      cases hlen
    · rw [hsay, hc, List.take_succ_cons, List.take_zero, List.filterMap_cons, hkid r hr]
      show listOf _ [said (written (.text .localRef) r)] = _
      rw [(hall r hr).1.saysText (hall r hr).2 (by decide)]

/-- A default of an enumeration is one value, or none. -/
theorem enum_default {v : Node} (h : PSeen X K p (.value true .enumeration) v) :
    (namesValue v = false ∧ ∀ vs, v.find c!"VALUES" = some vs → vs.find c!"ENUM-VALUE-REF" = none) ∨
    (namesValue v = true ∧ ∃ vs r, v.find c!"VALUES" = some vs ∧ vs.find c!"ENUM-VALUE-REF" = some r ∧
      outs (.value true .enumeration) v c!"VALUES" = [listOf c!"VALUES" [textSaid c!"ENUM-VALUE-REF" r.text?]] ∧ PlainElem r.text?) := by
  have hv : namesValue v = ((v.find c!"VALUES").map (fun c => match c with
      | .elem i rs => i.name == c!"VALUES" && !(childNames rs).isEmpty
      | _ => false)).getD false := by
    rw [← h.anyFound rfl]
    · obtain ⟨i, cs, rfl⟩ := h.seen.isElem
      rfl
    · intro i cs hf _
      rw [Bool.and_eq_true, beq_iff_eq] at hf
      exact hf.1
    · intro k hk
      cases k <;> first | rfl | cases hk
  rcases h.opt (nm := c!"VALUES") (t' := .enumRefs true) rfl rfl with hm | ⟨vs, hvs, hvs1, hvs2⟩
  · rw [hm] at hv
    exact .inl ⟨hv, by intro vs hvs; rw [hm] at hvs; cases hvs⟩
  · rw [hvs] at hv
    have hv' : namesValue v = !(childNames vs.kids).isEmpty := by
      rw [hv]
      obtain ⟨i, cs, rfl, -, e⟩ := hvs2
      show (i.name == c!"VALUES" && !(childNames cs).isEmpty) = _
      rw [e]
      rfl
    rcases refs_first hvs1 hvs2 with ⟨h1, h2⟩ | ⟨r, h1, h2, h3, h4⟩
    · rw [h2] at hv'
      refine .inl ⟨hv', ?_⟩
      intro vs' hvs'
      rw [hvs] at hvs'
      cases hvs'
      exact h1
    · refine .inr ⟨?_, vs, r, hvs, h1, ?_, h4⟩
      · rw [hv']
        cases hc : childNames vs.kids with
        | nil => exact absurd hc h2
        | cons a as => rfl
      · rw [h.out hvs hvs2 rfl rfl, h3]

theorem defaultEnumeration_said {s : SpecKind} (h : PSeen X K p (.definition s .enumeration) x) {q : DefaultPart}
    (hq : parseDefaultEnumeration x = .ok q) : DefaultKept p (.definition s .enumeration) x .enumeration q := by
  intro e he
  unfold parseDefaultEnumeration at hq
  rw [he] at hq
  dsimp only at hq
  rcases kept_default h he with ⟨h1, -, h2⟩ | ⟨h1, v, hv, hv1, hv2, h3, h2⟩
  · rw [h1, if_pos rfl] at hq
    cases hq
    exact fun a _ _ => h2
  · have hv' : e.find c!"ATTRIBUTE-VALUE-ENUMERATION" = some v := hv
    obtain ⟨f, r, hf, hr, -, hr1⟩ := value_ref hv1 rfl
    have hr' : f.find c!"ATTRIBUTE-DEFINITION-ENUMERATION-REF" = some r := hr
    rw [h1, if_neg (by decide), hv'] at hq
    dsimp only at hq
    rw [hf] at hq
    dsimp only at hq
    rw [findReq_some hr', py_bind_ok, py_pure, py_bind_ok, py_pure] at hq
    rw [h3 rfl] at h2
    rcases enum_default hv1 with ⟨h4, h5⟩ | ⟨h4, vs, rr, hvs, hrr, h5, u, hu, -, -⟩
    · rw [if_pos ⟨rfl, h4⟩] at h2
      intro d hd hd2
      rw [h2]
      cases hvs : v.find c!"VALUES" with
      | none => rw [hvs] at hq; cases hq; rfl
      | some vs =>
        rw [hvs] at hq
        dsimp only at hq
        rw [h5 vs hvs] at hq
        cases hq
        rfl
    · rw [hvs] at hq
      dsimp only at hq
      rw [hrr] at hq
      dsimp only at hq
      rw [hu] at hq h5
      cases hq
      intro d hd hd2
      have hd2 : d.defaultValueDefinitionRef = r.text? := hd2
      rw [h2, if_neg (by simp [h4]), enum_kind_said hv1 hv2 hr1 h5 rfl rfl]
      unfold defaultSaid
      rw [hd, hd2]
      rfl

theorem type_said {s : SpecKind} {k : Kind} (h : PSeen X K p (.definition s k) x) {tag : Str}
    (ht : tag = c!"DATATYPE-DEFINITION-" ++ k.name ++ c!"-REF") {r : Option Str} (hr : parseDatatypeRef x tag = .ok r) :
    ∃ e, x.find c!"TYPE" = some e ∧ (kidOut (.definition s k) e).map said = some (refOf c!"TYPE" (c!"DATATYPE-DEFINITION-" ++ k.name ++ c!"-REF") r) := by
  obtain ⟨e, he, he1, he2⟩ := h.need (nm := c!"TYPE") (t' := .definitionType k) rfl rfl rfl
  obtain ⟨y, hy, -, hy1, -, -⟩ := ref_text he1 he2 rfl (by decide) (by cases k <;> decide) (fun _ => by cases k <;> rfl)
  unfold parseDatatypeRef at hr
  rw [findReq_some he, py_bind_ok, ht, findReq_some hy, py_bind_ok, py_pure] at hr
  cases hr
  exact ⟨e, he, by rw [kidOut_some he2 rfl (by cases k <;> rfl), Option.map_some, hy1]⟩

/-- The type of an attribute definition. -/
def Kind.attrType : Kind → AttrType
  | .string => .string
  | .integer => .integer
  | .real => .real
  | .boolean => .boolean
  | .xhtml => .xhtml
  | .enumeration => .enumeration
  | .date => .date

theorem multi_said {s : SpecKind} : (x.attr? c!"MULTI-VALUED").bind (writtenValue (.definition s .enumeration) c!"MULTI-VALUED") =
    (parseMultiValued x).map boolOut := by
  unfold parseMultiValued
  cases hv : x.attr? c!"MULTI-VALUED" with
  | none => rfl
  | some v =>
    show (unlessEmpty v).map flagOut = _
    unfold unlessEmpty
    dsimp only
    cases v.isEmpty with
    | true => rfl
    | false =>
      simp only [Bool.false_eq_true, if_false, Option.map_some]
      unfold flagOut
      by_cases hv : v = c!"true"
      · subst hv; rfl
      · rw [if_neg hv, beq_eq_false_iff_ne.2 hv]
        rfl

theorem body_said {s : SpecKind} {k : Kind} (hE : Env K p) (h : PSeen X K p (.definition s k) x)
    (hn : Named (c!"ATTRIBUTE-DEFINITION-" ++ k.name) x) {t : AttrType} {r : Option Str} {q : DefaultPart} {m : Option Bool}
    (hb : parseDefinitionBody x = .ok (t, r, q, m)) : t = k.attrType ∧
      (∃ e, x.find c!"TYPE" = some e ∧ (kidOut (.definition s k) e).map said = some (refOf c!"TYPE" (c!"DATATYPE-DEFINITION-" ++ k.name ++ c!"-REF") r)) ∧ DefaultKept p (.definition s k) x t q ∧
      (k = .enumeration → (x.attr? c!"MULTI-VALUED").bind (writtenValue (.definition s k) c!"MULTI-VALUED") = m.map boolOut) ∧ (k ≠ .enumeration → m = none) := by
  unfold parseDefinitionBody at hb
  rw [hn.tag] at hb
  cases k with
  | string =>
    rw [if_pos (by decide)] at hb
    obtain ⟨r', hr, hb⟩ := py_bind_inv hb
    obtain ⟨q', hq, hb⟩ := py_bind_inv hb
    cases hb
    exact ⟨rfl, type_said h rfl hr, defaultString_said h hq, by simp, fun _ => rfl⟩
  | integer =>
    rw [if_neg (by decide), if_pos (by decide)] at hb
    obtain ⟨r', hr, hb⟩ := py_bind_inv hb
    obtain ⟨q', hq, hb⟩ := py_bind_inv hb
    cases hb
    exact ⟨rfl, type_said h rfl hr, defaultSimple_said h rfl (by simp) hq, by simp, fun _ => rfl⟩
  | real =>
    rw [if_neg (by decide), if_neg (by decide), if_pos (by decide)] at hb
    obtain ⟨r', hr, hb⟩ := py_bind_inv hb
    obtain ⟨q', hq, hb⟩ := py_bind_inv hb
    cases hb
    exact ⟨rfl, type_said h rfl hr, defaultSimple_said h rfl (by simp) hq, by simp, fun _ => rfl⟩
  | boolean =>
    rw [if_neg (by decide), if_neg (by decide), if_neg (by decide), if_pos (by decide)] at hb
    obtain ⟨r', hr, hb⟩ := py_bind_inv hb
    obtain ⟨q', hq, hb⟩ := py_bind_inv hb
    cases hb
    exact ⟨rfl, type_said h rfl hr, defaultBoolean_said h hq, by simp, fun _ => rfl⟩
  | xhtml =>
    rw [if_neg (by decide), if_neg (by decide), if_neg (by decide), if_neg (by decide), if_pos (by decide)] at hb
    obtain ⟨r', hr, hb⟩ := py_bind_inv hb
    obtain ⟨q', hq, hb⟩ := py_bind_inv hb
    cases hb
    exact ⟨rfl, type_said h rfl hr, defaultXhtml_said hE h hq, by simp, fun _ => rfl⟩
  | enumeration =>
    rw [if_neg (by decide), if_neg (by decide), if_neg (by decide), if_neg (by decide), if_neg (by decide), if_pos (by decide)] at hb
    obtain ⟨r', hr, hb⟩ := py_bind_inv hb
    obtain ⟨q', hq, hb⟩ := py_bind_inv hb
    cases hb
    exact ⟨rfl, type_said h rfl hr, defaultEnumeration_said h hq, fun _ => multi_said, by simp⟩
  | date =>
    rw [if_neg (by decide), if_neg (by decide), if_neg (by decide), if_neg (by decide), if_neg (by decide), if_neg (by decide),
      if_pos (by decide)] at hb
    obtain ⟨r', hr, hb⟩ := py_bind_inv hb
    obtain ⟨q', hq, hb⟩ := py_bind_inv hb
    cases hb
    exact ⟨rfl, type_said h rfl hr, defaultSimple_said h rfl (by simp) hq, by simp, fun _ => rfl⟩

theorem definition_said {s : SpecKind} {k : Kind} (hE : Env K p) (h : PSeen X K p (.definition s k) x)
    (hn : Named (c!"ATTRIBUTE-DEFINITION-" ++ k.name) x) {a : SpecAttributeDefinition} (ha : parseAttributeDefinition x = .ok a) :
    said (written (.definition s k) x) = definitionSaid p a := by
  obtain ⟨i, hi⟩ := h.seen.attr (name := c!"IDENTIFIER") rfl
  unfold parseAttributeDefinition at ha
  rw [attrReq_some hi, py_bind_ok] at ha
  obtain ⟨⟨t, r, ⟨pr, pv⟩, m⟩, hb, ha⟩ := py_bind_inv ha
  obtain ⟨s1, ⟨ty, hty, s2⟩, s3, s4, s5⟩ := body_said hE h hn hb
  dsimp only at ha
  cases ha
  have hl := truthy_written (o := x.attr? c!"LAST-CHANGE") (f := writtenValue (.definition s k) c!"LAST-CHANGE") (fun _ => rfl)
  have hf := flag_written (o := x.attr? c!"IS-EDITABLE") (f := writtenValue (.definition s k) c!"IS-EDITABLE") (fun _ => rfl)
  have w1 : writtenValue (.definition s k) c!"DESC" = some := rfl
  have w2 : writtenValue (.definition s k) c!"IDENTIFIER" = some := rfl
  have w3 : writtenValue (.definition s k) c!"LONG-NAME" = some := rfl
  have hattr : (written (.definition s k) x).attr? = look (optA c!"DESC" id (x.attr? c!"DESC") ++ [(c!"IDENTIFIER", i)] ++
      boolA c!"IS-EDITABLE" (editableOf (x.attr? c!"IS-EDITABLE")) ++ truthyA c!"LAST-CHANGE" id (x.attr? c!"LAST-CHANGE") ++
      optA c!"LONG-NAME" id (x.attr? c!"LONG-NAME") ++ boolA c!"MULTI-VALUED" m) := by
    by_cases hk : k = .enumeration
    · subst hk
      have s4' := s4 rfl
      refine h.looks (names := [c!"DESC", c!"IDENTIFIER", c!"IS-EDITABLE", c!"LAST-CHANGE", c!"LONG-NAME", c!"MULTI-VALUED"]) rfl ?_ (by no_other)
      simp only [List.mem_cons, List.not_mem_nil, or_false, forall_eq_or_imp, forall_eq]
      refine ⟨?_, ?_, ?_, ?_, ?_, ?_⟩
      · simp [look_append, look_opt, look_one, look_cons, look_truthy, look_bool, w1, w2, w3]
      · simp [look_append, look_opt, look_one, look_cons, look_truthy, look_bool, w1, w2, w3, hi]
      · simp [look_append, look_opt, look_one, look_cons, look_truthy, look_bool, w1, w2, w3]
        exact hf
      · simp [look_append, look_opt, look_one, look_cons, look_truthy, look_bool, w1, w2, w3, hl]
      · simp [look_append, look_opt, look_one, look_cons, look_truthy, look_bool, w1, w2, w3]
      · simp [look_append, look_opt, look_one, look_cons, look_truthy, look_bool, w1, w2, w3]
        exact s4'
    · have s5 := s5 hk
      subst s5
      refine h.looks (names := [c!"DESC", c!"IDENTIFIER", c!"IS-EDITABLE", c!"LAST-CHANGE", c!"LONG-NAME"])
        (by cases k <;> first | rfl | exact absurd rfl hk) ?_ (by no_other)
      simp only [List.mem_cons, List.not_mem_nil, or_false, forall_eq_or_imp, forall_eq]
      refine ⟨?_, ?_, ?_, ?_, ?_⟩
      · simp [look_append, look_opt, look_one, look_cons, look_truthy, look_bool, w1, w2, w3]
      · simp [look_append, look_opt, look_one, look_cons, look_truthy, look_bool, w1, w2, w3, hi]
      · simp [look_append, look_opt, look_one, look_cons, look_truthy, look_bool, w1, w2, w3]
        exact hf
      · simp [look_append, look_opt, look_one, look_cons, look_truthy, look_bool, w1, w2, w3, hl]
      · simp [look_append, look_opt, look_one, look_cons, look_truthy, look_bool, w1, w2, w3]
  unfold definitionSaid
  dsimp only
  have htag : t.specTypeTag = c!"ATTRIBUTE-DEFINITION-" ++ k.name := by rw [s1]; cases k <;> rfl
  have hdef : t.definitionTag = c!"DATATYPE-DEFINITION-" ++ k.name ++ c!"-REF" := by rw [s1]; cases k <;> rfl
  rw [htag]
  unfold sourceOrder
  dsimp only
  refine h.saysInOrder hn (by cases k <;> decide) rfl hattr ?_
  intro nm c hc
  by_cases h1 : nm = c!"TYPE"
  · subst h1
    rw [hty] at hc
    cases hc
    rw [if_pos rfl, hdef, s2]
  · rw [if_neg (by simpa using h1)]
    by_cases h2 : nm = c!"DEFAULT-VALUE"
    · subst h2
      rw [if_pos rfl]
      exact (s3 c hc _ rfl rfl).symm
    · exfalso
      have := h.undeclared (nm := nm) rfl (by
        show nm ∉ [c!"DEFAULT-VALUE", c!"TYPE"]
        simp [h1, h2])
      rw [this] at hc
      cases hc

/-! ## Spec types -/

theorem definitions_said {s : SpecKind} (hE : Env K p) (h : PSeen X K p (.specType s) x)
    {ds : Option (List SpecAttributeDefinition)} (hd : parseAttributeDefinitions x = .ok ds) :
    outs (.specType s) x c!"SPEC-ATTRIBUTES" = containerSaid c!"SPEC-ATTRIBUTES" (definitionSaid p) ds ∧
      (isSelfClosedTag x = true → ds = none) := by
  unfold parseAttributeDefinitions at hd
  rcases h.opt (nm := c!"SPEC-ATTRIBUTES") (t' := .specAttributes s) rfl rfl with hn | ⟨sa, hs, hs1, hs2⟩
  · rw [hn] at hd; cases hd; exact ⟨outs_missing hn, fun _ => rfl⟩
  · rw [hs] at hd
    dsimp only at hd
    obtain ⟨l, hl, hd⟩ := py_bind_inv hd
    cases hd
    refine ⟨?_, ?_⟩
    · rw [h.out hs hs2 rfl rfl, hs1.saysList hs2 (by decide) rfl rfl, mapPy_said hl (F := definitionSaid p)]
      · rfl
      · intro c hc w hw
        obtain ⟨nm, t', h1, h2, h3⟩ := hs1.child rfl hc
        obtain ⟨k, -, hk⟩ := kind_choice h2
        cases hk
        rw [kidOut_some h1 h2 rfl, Option.map_some, definition_said hE h3 h1 hw]
    · intro e
      exfalso
      rw [selfClosed_ne h.seen.isElem] at e
      · cases e
      · intro e
        unfold Node.find at hs
        rw [e] at hs
        cases hs

theorem typeSaid_of {s : SpecKind} (hE : Env K p) (h : PSeen X K p (.specType s) x) (hn : Named (specTag s) x) {i : Str}
    (hi : x.attr? c!"IDENTIFIER" = some i) {ds : Option (List SpecAttributeDefinition)} (hd : parseAttributeDefinitions x = .ok ds)
    {sc : Bool} (hsc : sc = false ∨ sc = isSelfClosedTag x) : said (written (.specType s) x) = typeSaid p (specTag s)
      (typeAttrs i (x.attr? c!"DESC") (x.attr? c!"LAST-CHANGE") (x.attr? c!"LONG-NAME")) sc ds := by
  obtain ⟨h1, h2⟩ := definitions_said hE h hd
  unfold typeSaid
  have e : (if sc && !someDefinition ds then none else ds) = ds := by
    cases hb : sc with
    | false => rfl
    | true =>
      rw [hb] at hsc
      rcases hsc with hsc | hsc
      · cases hsc
      · rw [h2 hsc.symm]
        rfl
  rw [e]
  refine h.says hn (by cases s <;> decide) rfl (names := [c!"DESC", c!"IDENTIFIER", c!"LAST-CHANGE", c!"LONG-NAME"])
    (cnames := [c!"ALTERNATIVE-ID", c!"SPEC-ATTRIBUTES"]) rfl rfl ?_ (by unfold typeAttrs; no_other) ?_ ?_
  · unfold typeAttrs
    have w1 : ∀ k, writtenValue (.specType s) k = some := fun _ => rfl
    simp [look_append, look_opt, look_one, look_cons, hi, w1]
  · intro k hk
    simp only [List.mem_cons, List.not_mem_nil, or_false] at hk
    rcases hk with rfl | rfl
    · rw [h.gone (nm := c!"ALTERNATIVE-ID") (t' := .alternativeIds) rfl rfl rfl]
      unfold containerSaid
      cases ds <;> simp [byName, listOf, Said.name]
    · rw [h1]
      unfold containerSaid
      cases ds <;> simp [byName, listOf, Said.name]
  · intro k hk
    simp only [List.mem_cons, List.not_mem_nil, or_false, forall_eq_or_imp, forall_eq] at hk
    unfold containerSaid
    cases ds <;> simp [byName, listOf, Said.name, hk]

theorem specType_said {s : SpecKind} (hE : Env K p) (h : PSeen X K p (.specType s) x) (hn : Named (specTag s) x)
    {o : Option SpecType} (hv : parseSpecType x = .ok o) : ∃ t, o = some t ∧ said (written (.specType s) x) = specTypeSaid p t := by
  obtain ⟨i, hi⟩ := h.seen.attr (name := c!"IDENTIFIER") rfl
  have ht := hn.tag
  unfold parseSpecType at hv
  cases s with
  | object =>
    have ht' : x.tag = .name c!"SPEC-OBJECT-TYPE" := ht
    rw [if_pos ht'] at hv
    unfold parseSpecObjectType at hv
    rw [ht', beq_self_eq_true, assertTrue, py_bind_ok, attrReqNI_some hi, py_bind_ok] at hv
    obtain ⟨y, hy, hv⟩ := py_bind_inv hv
    obtain ⟨ds, hds, hy⟩ := py_bind_inv hy
    cases hy
    cases hv
    exact ⟨_, rfl, typeSaid_of hE h hn hi hds (.inl rfl)⟩
  | relation =>
    have ht' : x.tag = .name c!"SPEC-RELATION-TYPE" := ht
    obtain ⟨l, hl⟩ := h.seen.attr (name := c!"LONG-NAME") rfl
    rw [ht', if_neg (by decide), if_pos rfl] at hv
    unfold parseSpecRelationType at hv
    rw [ht', beq_self_eq_true, assertTrue, py_bind_ok, attrReqNI_some hi, py_bind_ok, attrReqNI_some hl, py_bind_ok] at hv
    obtain ⟨y, hy, hv⟩ := py_bind_inv hv
    obtain ⟨ds, hds, hy⟩ := py_bind_inv hy
    cases hy
    cases hv
    refine ⟨_, rfl, ?_⟩
    have := typeSaid_of hE h hn hi hds (.inr rfl)
    rw [hl] at this
    exact this
  | specification =>
    have ht' : x.tag = .name c!"SPECIFICATION-TYPE" := ht
    obtain ⟨l, hl⟩ := h.seen.attr (name := c!"LAST-CHANGE") rfl
    rw [ht', if_neg (by decide), if_neg (by decide), if_pos rfl] at hv
    unfold parseSpecificationType at hv
    rw [ht', beq_self_eq_true, assertTrue, py_bind_ok, attrReqNI_some hi, py_bind_ok, attrReqNI_some hl, py_bind_ok] at hv
    obtain ⟨y, hy, hv⟩ := py_bind_inv hv
    obtain ⟨ds, hds, hy⟩ := py_bind_inv hy
    obtain ⟨m, hm, hy⟩ := py_bind_inv hy
    cases hy
    cases hv
    refine ⟨_, rfl, ?_⟩
    have := typeSaid_of hE h hn hi hds (.inr rfl)
    rw [hl] at this
    exact this
  | group =>
    have ht' : x.tag = .name c!"RELATION-GROUP-TYPE" := ht
    rw [ht', if_neg (by decide), if_neg (by decide), if_neg (by decide), if_pos rfl] at hv
    unfold parseRelationGroupType at hv
    rw [ht', beq_self_eq_true, assertTrue, py_bind_ok, attrReqNI_some hi, py_bind_ok] at hv
    obtain ⟨y, hy, hv⟩ := py_bind_inv hv
    obtain ⟨ds, hds, hy⟩ := py_bind_inv hy
    cases hy
    cases hv
    exact ⟨_, rfl, typeSaid_of hE h hn hi hds (.inr rfl)⟩

/-! ## Spec objects, relations, groups -/

theorem specObject_said (hE : Env K p) (h : PSeen X K p .specObject x) (hn : Named c!"SPEC-OBJECT" x) {o : SpecObject}
    (hv : parseSpecObject x = .ok o) : said (written .specObject x) = objectSaid p o := by
  obtain ⟨i, hi⟩ := h.seen.attr (name := c!"IDENTIFIER") rfl
  obtain ⟨t, hty, ht1, ht2⟩ := h.need (nm := c!"TYPE") (t' := .objectType) rfl rfl rfl
  obtain ⟨r, hr, -, hr1, -, -⟩ := ref_text ht1 ht2 rfl (by decide) (by decide) (fun _ => rfl)
  obtain ⟨w, hw, hw1, hw2⟩ := h.need (nm := c!"VALUES") (t' := .values) rfl rfl rfl
  have hl := truthy_written (o := x.attr? c!"LAST-CHANGE") (f := writtenValue .specObject c!"LAST-CHANGE") (fun _ => rfl)
  have w1 : writtenValue .specObject c!"DESC" = some := rfl
  have w2 : writtenValue .specObject c!"IDENTIFIER" = some := rfl
  have w3 : writtenValue .specObject c!"LONG-NAME" = some := rfl
  unfold parseSpecObject at hv
  obtain ⟨b, -, hv⟩ := py_bind_inv hv
  obtain ⟨b', -, hv⟩ := py_bind_inv hv
  rw [attrReqNI_some hi, py_bind_ok, findReq_some hty, py_bind_ok, findReq_some hr, py_bind_ok, hw] at hv
  obtain ⟨vs, hvs, hv⟩ := py_bind_inv hv
  obtain ⟨l, rfl, hs⟩ := values_said hE hw1 hw2 hvs
  cases hv
  unfold objectSaid sourceOrder
  dsimp only
  refine h.saysInOrder hn (by decide) rfl (h.looks (names := [c!"DESC", c!"IDENTIFIER", c!"LAST-CHANGE", c!"LONG-NAME"]) rfl ?_ (by no_other)) ?_
  · simp [look_append, look_opt, look_one, look_cons, look_truthy, hi, hl, w1, w2, w3]
  · intro nm c hc
    by_cases h1 : nm = c!"VALUES"
    · subst h1
      rw [if_pos rfl]
      rw [hw] at hc
      cases hc
      rw [kidOut_some hw2 rfl rfl, Option.map_some, hs]
      rfl
    · rw [if_neg (by simpa using h1)]
      by_cases h2 : nm = c!"TYPE"
      · subst h2
        rw [if_pos rfl]
        rw [hty] at hc
        cases hc
        rw [kidOut_some ht2 rfl rfl, Option.map_some, hr1]
      · by_cases h3 : nm = c!"ALTERNATIVE-ID"
        · subst h3
          rw [kidOut_none (h.find (t' := .alternativeIds) rfl rfl hc).2 rfl rfl]
          rfl
        · exfalso
          rw [h.undeclared (nm := nm) rfl (by
            show nm ∉ [c!"ALTERNATIVE-ID", c!"VALUES", c!"TYPE"]
            simp [h1, h2, h3])] at hc
          cases hc

theorem relationValues_said (hE : Env K p) {n : Node} (h : PSeen X K p .relationValues n) (hn : Named c!"VALUES" n)
    {v : Option SpecObjectAttribute} (hv : parseRelationValues (some n) = .ok v) : 
    (childNames n.kids = [] ∧ v = none) ∨ ∃ a, v = some a ∧ childNames n.kids ≠ [] ∧ said (written .relationValues n) = valuesSaid p [a] := by
  have hlen : (childNames n.kids).length = n.children.length := childNames_length h.seen.kidsPlain
  unfold parseRelationValues at hv
  dsimp only at hv
  cases hc : n.children with
  | nil =>
    rw [hc] at hv hlen
    cases hv
    exact .inl ⟨List.eq_nil_of_length_eq_zero hlen, rfl⟩
  | cons c cs =>
  rw [hc] at hv
  dsimp only at hv
  refine .inr ?_
  obtain ⟨nm, t', h1, h2, h3⟩ := h.child rfl (c := c) (by rw [hc]; simp)
  have e : (schema .lenient .relationValues).model = .choice 0 none (([.integer, .string, .xhtml] : List Kind).map fun k =>
      (c!"ATTRIBUTE-VALUE-" ++ k.name, .value false k)) := rfl
  have h2' := h2
  rw [e] at h2
  obtain ⟨k, hk, hk1⟩ := kind_choice h2
  cases hk1
  rw [h1.tag] at hv
  have fin : ∃ a, v = some a ∧ (kidOut .relationValues c).map said = some (valueSaid p a) := by
    simp only [List.mem_cons, List.not_mem_nil, or_false] at hk
    rcases hk with rfl | rfl | rfl
    · obtain ⟨w, hw⟩ := h3.seen.attr (name := c!"THE-VALUE") rfl
      obtain ⟨e, r, he0, he, hr, hr1⟩ := value_first h3 rfl
      rw [if_neg (by decide), if_neg (by decide), if_pos (by decide), attrReq_some hw, py_bind_ok, he, py_bind_ok, hr, py_bind_ok,
        py_pure] at hv
      cases hv
      refine ⟨_, rfl, ?_⟩
      rw [kidOut_some h1 h2' rfl, Option.map_some, simple_kind_said h3 h1 (by decide) hw hr1
        (by intro s hs; rw [List.mem_singleton] at hs; rw [hs]; rfl)]
      rfl
    · obtain ⟨w, hw⟩ := h3.seen.attr (name := c!"THE-VALUE") rfl
      obtain ⟨e, r, he0, he, hr, hr1⟩ := value_first h3 rfl
      rw [if_pos (by decide), attrReq_some hw, py_bind_ok, he, py_bind_ok, hr, py_bind_ok, py_pure] at hv
      cases hv
      refine ⟨_, rfl, ?_⟩
      rw [kidOut_some h1 h2' rfl, Option.map_some, simple_kind_said h3 h1 (by decide) hw hr1
        (by intro s hs; rw [List.mem_singleton] at hs; rw [hs]; rfl)]
      rfl
    · rw [if_neg (by decide), if_pos (by decide)] at hv
      obtain ⟨y, hy, hv⟩ := py_bind_inv hv
      cases hv
      exact ⟨_, rfl, by rw [kidOut_some h1 h2' rfl, Option.map_some, (xhtmlValue_said hE h3 h1 hy).2]⟩
  obtain ⟨a, ha, hs⟩ := fin
  refine ⟨a, ha, ?_, ?_⟩
  · intro e0
    rw [e0, hc] at hlen
    cases hlen
  · rw [h.saysFirst hn (by decide) rfl rfl rfl ?_, hc, List.take_succ_cons, List.take_zero]
    · unfold valuesSaid
      rw [Option.map_eq_some_iff] at hs
      obtain ⟨o, ho, hs⟩ := hs
      rw [List.filterMap_cons, ho]
      show listOf _ [said o] = _
      rw [hs]
      rfl
    · intro c hc
      obtain ⟨nm, t', g1, g2, g3⟩ := h.child rfl hc
      have g2' := g2
      rw [e] at g2
      obtain ⟨k, -, hk1⟩ := kind_choice g2
      cases hk1
      exact ⟨_, kidOut_some g1 g2' (by cases k <;> rfl)⟩

theorem specRelation_said (hE : Env K p) (h : PSeen X K p .specRelation x) (hn : Named c!"SPEC-RELATION" x)
    {o : Except MissingTag SpecRelation} (hv : parseSpecRelation x = .ok o) : ∃ r, o = .ok r ∧ said (written .specRelation x) = relationSaid p r := by
  have htag := hn.tag
  obtain ⟨i, hi⟩ := h.seen.attr (name := c!"IDENTIFIER") rfl
  obtain ⟨t, hty, ht1, ht2⟩ := h.need (nm := c!"TYPE") (t' := .relationType) rfl rfl rfl
  obtain ⟨tr, htr, -, htr1, -, -⟩ := ref_text ht1 ht2 rfl (by decide) (by decide) (fun _ => rfl)
  obtain ⟨s, hs, hs1, hs2⟩ := h.need (nm := c!"SOURCE") (t' := .relationEnd) rfl rfl rfl
  obtain ⟨sr, hsr, -, hsr1, -, -⟩ := ref_text hs1 hs2 rfl (by decide) (by decide) (fun _ => rfl)
  obtain ⟨g, hg, hg1, hg2⟩ := h.need (nm := c!"TARGET") (t' := .relationEnd) rfl rfl rfl
  obtain ⟨gr, hgr, -, hgr1, -, -⟩ := ref_text hg1 hg2 rfl (by decide) (by decide) (fun _ => rfl)
  unfold parseSpecRelation at hv
  rw [htag, beq_self_eq_true, assertTrue, py_bind_ok, find_childTags hty, assertTrue, py_bind_ok, find_childTags hs, find_childTags hg,
      if_neg (by decide), if_neg (by decide), hi, attrReq_some hi] at hv
  dsimp only [Option.isSome_some] at hv
  rw [assertTrue, py_bind_ok, py_bind_ok, findReq_some hty, py_bind_ok, findReq_some htr, py_bind_ok, findReq_some hs, py_bind_ok,
      findReq_some hsr, py_bind_ok, findReq_some hg, py_bind_ok, findReq_some hgr, py_bind_ok] at hv
  obtain ⟨v, hval, hv⟩ := py_bind_inv hv
  cases hv
  refine ⟨_, rfl, ?_⟩
  unfold relationSaid sourceOrder
  dsimp only
  refine h.saysInOrder hn (by decide) rfl (h.looks (names := [c!"DESC", c!"IDENTIFIER", c!"LAST-CHANGE", c!"LONG-NAME"]) rfl ?_ (by no_other)) ?_
  · have w : ∀ k, writtenValue .specRelation k = some := fun _ => rfl
    simp [look_append, look_opt, look_one, look_cons, look_truthy, hi, w]
  · intro nm c hc
    by_cases h1 : nm = c!"TYPE"
    · subst h1
      rw [if_pos rfl]
      rw [hty] at hc
      cases hc
      rw [kidOut_some ht2 rfl rfl, Option.map_some, htr1]
    rw [if_neg (by simpa using h1)]
    by_cases h2 : nm = c!"SOURCE"
    · subst h2
      rw [if_pos rfl]
      rw [hs] at hc
      cases hc
      rw [kidOut_some hs2 rfl rfl, Option.map_some, hsr1]
    rw [if_neg (by simpa using h2)]
    by_cases h3 : nm = c!"TARGET"
    · subst h3
      rw [if_pos rfl]
      rw [hg] at hc
      cases hc
      rw [kidOut_some hg2 rfl rfl, Option.map_some, hgr1]
    rw [if_neg (by simpa using h3)]
    by_cases h4 : nm = c!"VALUES"
    · subst h4
      rw [if_pos rfl]
      obtain ⟨w1, w2⟩ := h.find (t' := .relationValues) rfl rfl hc
      rw [hc] at hval
      have hw : writesChild .specRelation c!"VALUES" c.kids = !(childNames c.kids).isEmpty := rfl
      rcases relationValues_said hE w1 w2 hval with ⟨e, rfl⟩ | ⟨a, rfl, e, e2⟩
      · rw [kidOut_none w2 rfl (by rw [hw, e]; rfl)]
        rfl
      · rw [kidOut_some (t' := .relationValues) w2 rfl (by rw [hw]; simpa using e)]
        exact congrArg some e2.symm
    exfalso
    rw [h.undeclared (nm := nm) rfl (by
      show nm ∉ [c!"VALUES", c!"SOURCE", c!"TARGET", c!"TYPE"]
      simp [h1, h2, h3, h4])] at hc
    cases hc

/-- A container with a reference that may be missing. -/
theorem optRef_said {outer inner : Str} {t t' : TypeName} {s : Simple} (h : PSeen X K p t x) (ho : (schema .lenient t).model.isOpen = false)
    (h1 : (schema .lenient t).model.typeOf outer = some t') (hm : schema .lenient t' = ⟨[], one inner (.text s)⟩)
    (h2 : isRecordName outer = true) (h3 : isTextName inner = true) (hwi : ∀ ks, writesChild t' inner ks = true)
    (hne : ∀ c r, PSeen X K p t' c → c.find inner = some r → PSeen X K p (.text s) r → Named inner r → writesChild t outer c.kids = r.text?.isSome) :
    outs t x outer = optRefSaid outer inner (optRef x outer inner) := by
  unfold optRef
  rcases h.opt ho h1 with hf | ⟨c, hf, hc, hc2⟩
  · rw [outs_missing hf, hf]; rfl
  · obtain ⟨r, hr, -, hr1, hr2, hr3⟩ := ref_text hc hc2 hm h2 h3 hwi
    have hv := hne c r hc hr hr2 hr3
    cases hx : r.text? with
    | none =>
      rw [outs_none hf hc2 h1 (by rw [hv, hx]; rfl), hf]
      dsimp only
      rw [hr]
      dsimp only
      rw [hx]
      rfl
    | some v =>
      rw [outs_some hf hc2 h1 (by rw [hv, hx]; rfl), hr1, hf]
      dsimp only
      rw [hr]
      dsimp only
      rw [hx]
      rfl

theorem localRef_some {r : Node} {nm : Str} (h : PSeen X K p (.text .localRef) r) (hn : Named nm r) (ht : nm ≠ c!"TITLE") :
    r.text?.isSome = true := by
  obtain ⟨v, hv, -⟩ := h.ref hn ht
  rw [hv]
  rfl

/-- The text of an element that is not empty. -/
theorem text_isSome {s : Simple} {r : Node} {nm : Str} (h : PSeen X K p (.text s) r) (hn : Named nm r) : r.text?.isSome = !r.kids.isEmpty := by
  rcases h.text hn with ⟨e1, e, -⟩ | ⟨v, hv, hv1, -⟩
  · rw [e1, e]; rfl
  · rw [hv]
    cases hk : r.kids with
    | nil =>
      obtain ⟨i, cs, rfl, -⟩ := hn
      have hk : cs = [] := hk
      subst hk
      cases hv
    | cons a as => rfl

theorem someFull_ref {c r : Node} (h : PSeen X K p .groupSpecification c) (hr : c.find c!"SPECIFICATION-REF" = some r)
    (h2 : PSeen X K p (.text .string) r) (hn : Named c!"SPECIFICATION-REF" r) : someFull c.kids = r.text?.isSome := by
  unfold someFull
  rw [h.anyFound rfl (nm := c!"SPECIFICATION-REF") ?_ ?_, hr, text_isSome h2 hn]
  · obtain ⟨i, cs, rfl, -⟩ := hn
    rfl
  · intro i cs _ hc
    obtain ⟨nm', t', ⟨j, ds, e3, -, rfl⟩, e2, -⟩ := h.child rfl hc
    cases e3
    have := typeOf_choice (a := 1) (b := some 1) e2
    simp only [List.mem_singleton, Prod.mk.injEq] at this
    exact this.1
  · intro k hk
    cases k <;> first | rfl | cases hk

theorem relationGroup_said (h : PSeen X K p .relationGroup x) (hn : Named c!"RELATION-GROUP" x) {g : RelationGroup}
    (hv : parseRelationGroup x = .ok g) : said (written .relationGroup x) = groupSaid g := by
  obtain ⟨i, hi⟩ := h.seen.attr (name := c!"IDENTIFIER") rfl
  have hl := truthy_written (o := x.attr? c!"LONG-NAME") (f := writtenValue .relationGroup c!"LONG-NAME") (fun _ => rfl)
  have e1 := optRef_said h (outer := c!"TYPE") (inner := c!"RELATION-GROUP-TYPE-REF") (t' := .groupType) rfl rfl rfl (by decide) (by decide) (fun _ => rfl)
    (fun c r _ _ hr hr2 => (localRef_some hr hr2 (by decide)).symm)
  have e2 := optRef_said h (outer := c!"SOURCE-SPECIFICATION") (inner := c!"SPECIFICATION-REF") (t' := .groupSpecification) rfl rfl rfl (by decide) (by decide) (fun _ => rfl)
    (fun c r hc hf hr hr2 => by
      rw [← someFull_ref hc hf hr hr2]
      rfl)
  have e3 := optRef_said h (outer := c!"TARGET-SPECIFICATION") (inner := c!"SPECIFICATION-REF") (t' := .groupSpecification) rfl rfl rfl (by decide) (by decide) (fun _ => rfl)
    (fun c r hc hf hr hr2 => by
      rw [← someFull_ref hc hf hr hr2]
      rfl)
  have e4 : outs .relationGroup x c!"SPEC-RELATIONS" = (((x.find c!"SPEC-RELATIONS").map (fun s => s.children.map Node.text?)).map
      (fun rs => listOf c!"SPEC-RELATIONS" (rs.map (textSaid c!"SPEC-RELATION-REF")))).toList := by
    rcases h.opt (nm := c!"SPEC-RELATIONS") (t' := .groupRelations) rfl rfl with hf | ⟨c, hf, hc, hc2⟩
    · rw [outs_missing hf, hf]; rfl
    · rw [h.out hf hc2 rfl rfl, hf, Option.map_some, Option.map_some, refs_said hc hc2 rfl (by decide) (by decide) rfl (fun _ => rfl)]
      rfl
  have w1 : writtenValue .relationGroup c!"DESC" = some := rfl
  have w2 : writtenValue .relationGroup c!"IDENTIFIER" = some := rfl
  have w3 : writtenValue .relationGroup c!"LAST-CHANGE" = some := rfl
  unfold parseRelationGroup at hv
  obtain ⟨b, -, hv⟩ := py_bind_inv hv
  obtain ⟨b', -, hv⟩ := py_bind_inv hv
  rw [attrReqNI_some hi, py_bind_ok, py_pure] at hv
  cases hv
  unfold groupSaid
  dsimp only
  have n1 : ∀ {outer inner : Str} {o : Option Str} {k : Str}, byName (optRefSaid outer inner o) k = if outer = k then optRefSaid outer inner o else [] := by
    intro outer inner o k
    unfold optRefSaid
    cases o with
    | none => simp [byName]
    | some v => by_cases hh : outer = k <;> simp [byName, refOf, recordOf, Said.name, hh]
  have n2 : ∀ {f : List (Option Str) → List Said} {o : Option (List (Option Str))} {k : Str},
      byName (o.map (fun rs => listOf c!"SPEC-RELATIONS" (f rs))).toList k =
        if c!"SPEC-RELATIONS" = k then (o.map (fun rs => listOf c!"SPEC-RELATIONS" (f rs))).toList else [] := by
    intro f o k
    cases o with
    | none => simp [byName]
    | some v => by_cases hh : c!"SPEC-RELATIONS" = k <;> simp [byName, listOf, Said.name, hh]
  refine h.says hn (by decide) rfl (names := [c!"DESC", c!"IDENTIFIER", c!"LAST-CHANGE", c!"LONG-NAME"])
    (cnames := [c!"ALTERNATIVE-ID", c!"SOURCE-SPECIFICATION", c!"SPEC-RELATIONS", c!"TARGET-SPECIFICATION", c!"TYPE"]) rfl rfl ?_ (by no_other) ?_ ?_
  · simp [look_append, look_opt, look_one, look_cons, look_truthy, hi, hl, w1, w2, w3]
  · intro k hk
    rw [byName_append, byName_append, byName_append, n1, n1, n1, n2]
    simp only [List.mem_cons, List.not_mem_nil, or_false] at hk
    rcases hk with rfl | rfl | rfl | rfl | rfl
    · rw [h.gone (nm := c!"ALTERNATIVE-ID") (t' := .alternativeIds) rfl rfl rfl]; simp
    · rw [e2]; simp
    · rw [e4]; simp
    · rw [e3]; simp
    · rw [e1]; simp
  · intro k hk
    rw [byName_append, byName_append, byName_append, n1, n1, n1, n2]
    simp only [List.mem_cons, List.not_mem_nil, or_false, forall_eq_or_imp, forall_eq] at hk
    simp [hk]

/-! ## The header -/

theorem field_said {tag : Str} {s : Simple} (h : PSeen X K p .header x) (ht : (schema .lenient .header).model.typeOf tag = some (.text s))
    (hw : ∀ ks, writesChild .header tag ks = !ks.isEmpty) (h2 : isTextName tag = true) : outs .header x tag = fieldSaid tag (optText x tag) := by
  unfold optText
  rcases h.opt rfl ht with hf | ⟨c, hf, hc, hc2⟩
  · rw [outs_missing hf, hf]; rfl
  · have hs := text_isSome hc hc2
    rw [← hw] at hs
    rcases hc.text hc2 with ⟨e1, e2, -⟩ | ⟨v, hv, hv1, -⟩
    · rw [outs_none hf hc2 ht (by rw [← hs, e1]; rfl), hf]
      dsimp only
      rw [e1]
      rfl
    · rw [outs_some hf hc2 ht (by rw [← hs, hv]; rfl), hf]
      dsimp only
      rw [hc.saysText hc2 h2, hv]
      unfold fieldSaid dropEmpty
      cases v with
      | nil => exact absurd rfl hv1
      | cons a v => rfl

theorem header_said (h : PSeen X K p .theHeader x) (hn : Named c!"THE-HEADER" x) {v : Header} (hv : parseHeader x = .ok v) :
    said (written .theHeader x) = headerSaid v := by
  obtain ⟨e, he, he1, he2⟩ := h.need (nm := c!"REQ-IF-HEADER") (t' := .header) rfl rfl rfl
  obtain ⟨i, hi⟩ := he1.seen.attr (name := c!"IDENTIFIER") rfl
  unfold parseHeader at hv
  obtain ⟨b, -, hv⟩ := py_bind_inv hv
  rw [he] at hv
  dsimp only at hv
  rw [attrReqNI_some hi, py_bind_ok, py_pure] at hv
  cases hv
  have t1 := field_said he1 (tag := c!"COMMENT") rfl (fun _ => rfl) (by decide)
  have t2 := field_said he1 (tag := c!"CREATION-TIME") rfl (fun _ => rfl) (by decide)
  have t3 := field_said he1 (tag := c!"REQ-IF-TOOL-ID") rfl (fun _ => rfl) (by decide)
  have t4 := field_said he1 (tag := c!"REQ-IF-VERSION") rfl (fun _ => rfl) (by decide)
  have t5 := field_said he1 (tag := c!"SOURCE-TOOL-ID") rfl (fun _ => rfl) (by decide)
  have t6 := field_said he1 (tag := c!"TITLE") rfl (fun _ => rfl) (by decide)
  generalize hrep : (match e.find c!"REPOSITORY-ID" with
      | none => RepositoryId.none
      | some r => match r.text? with
        | some s => .text s
        | none => .emptyTag) = rep
  have t7 : outs .header e c!"REPOSITORY-ID" = repositorySaid rep := by
    rcases he1.opt (nm := c!"REPOSITORY-ID") (t' := .text .string) rfl rfl with hf | ⟨c, hf, hc, hc2⟩
    · rw [hf] at hrep
      cases hrep
      exact outs_missing hf
    · rw [hf] at hrep
      dsimp only at hrep
      rw [he1.out hf hc2 rfl rfl, hc.saysText hc2 (by decide)]
      rcases hc.text hc2 with ⟨e1, -, -⟩ | ⟨v, e1, e2, -⟩
      · rw [e1] at hrep ⊢
        cases hrep
        rfl
      · rw [e1] at hrep ⊢
        cases hrep
        cases v with
        | nil => exact absurd rfl e2
        | cons a v => rfl
  have n1 : ∀ {tag : Str} {o : Option Str} {k : Str}, byName (fieldSaid tag o) k = if tag = k then fieldSaid tag o else [] := by
    intro tag o k
    unfold fieldSaid
    cases dropEmpty o with
    | none => simp [byName]
    | some v => by_cases hh : tag = k <;> simp [byName, textSaid, Said.name, hh]
  have n2 : ∀ {k : Str}, byName (repositorySaid rep) k = if c!"REPOSITORY-ID" = k then repositorySaid rep else [] := by
    intro k
    cases rep with
    | none => simp [byName, repositorySaid]
    | text s => by_cases hh : c!"REPOSITORY-ID" = k <;> simp [byName, repositorySaid, textSaid, Said.name, hh]
    | emptyTag => by_cases hh : c!"REPOSITORY-ID" = k <;> simp [byName, repositorySaid, textSaid, Said.name, hh]
  have e1 : said (written .header e) = recordOf c!"REQ-IF-HEADER" [(c!"IDENTIFIER", i)]
      (fieldSaid c!"COMMENT" (optText e c!"COMMENT") ++ fieldSaid c!"CREATION-TIME" (optText e c!"CREATION-TIME") ++ repositorySaid rep ++
      fieldSaid c!"REQ-IF-TOOL-ID" (optText e c!"REQ-IF-TOOL-ID") ++ fieldSaid c!"REQ-IF-VERSION" (optText e c!"REQ-IF-VERSION") ++
      fieldSaid c!"SOURCE-TOOL-ID" (optText e c!"SOURCE-TOOL-ID") ++ fieldSaid c!"TITLE" (optText e c!"TITLE")) := by
    refine he1.says he2 (by decide) rfl (names := [c!"IDENTIFIER"])
      (cnames := [c!"COMMENT", c!"CREATION-TIME", c!"REPOSITORY-ID", c!"REQ-IF-TOOL-ID", c!"REQ-IF-VERSION", c!"SOURCE-TOOL-ID", c!"TITLE"])
      rfl rfl ?_ (by no_other) ?_ ?_
    · have w : ∀ k, writtenValue .header k = some := fun _ => rfl
      simp [look_cons, hi, w]
    · intro k hk
      rw [byName_append, byName_append, byName_append, byName_append, byName_append, byName_append, n1, n1, n1, n1, n1, n1, n2]
      simp only [List.mem_cons, List.not_mem_nil, or_false] at hk
      rcases hk with rfl | rfl | rfl | rfl | rfl | rfl | rfl
      · rw [t1]; simp
      · rw [t2]; simp
      · rw [t7]; simp
      · rw [t3]; simp
      · rw [t4]; simp
      · rw [t5]; simp
      · rw [t6]; simp
    · intro k hk
      rw [byName_append, byName_append, byName_append, byName_append, byName_append, byName_append, n1, n1, n1, n1, n1, n1, n2]
      simp only [List.mem_cons, List.not_mem_nil, or_false, forall_eq_or_imp, forall_eq] at hk
      simp [hk]
  suffices hsuf : said (written .theHeader x) = recordOf c!"THE-HEADER" [] [said (written .header e)] by
    rw [hsuf, e1]
    subst hrep
    rfl
  have hname : (said (written .header e)).name = c!"REQ-IF-HEADER" := by rw [e1]; rfl
  refine h.says hn (by decide) rfl (names := []) (cnames := [c!"REQ-IF-HEADER"]) rfl rfl (by simp) (fun _ _ => rfl) ?_ ?_
  · intro k hk
    rw [List.mem_singleton] at hk
    rw [hk, h.out he he2 rfl rfl, byName_cons, hname, if_pos rfl]
    rfl
  · intro k hk
    rw [byName_cons, hname, if_neg (hk _ (by simp))]
    rfl

/-! ## Specifications -/

mutual
theorem hierarchy_said : ∀ (x : Node) (level : Nat), PSeen X K p .hierarchy x → Named c!"SPEC-HIERARCHY" x → ∀ {h : Hierarchy},
    parseHierarchy level x = .ok h → said (written .hierarchy x) = hierarchySaid h
  | .text _, _, h, _, _, _ => by obtain ⟨i, ks, e⟩ := h.seen.isElem; cases e
  | .comment _, _, h, _, _, _ => by obtain ⟨i, ks, e⟩ := h.seen.isElem; cases e
  | .pi _ _, _, h, _, _, _ => by obtain ⟨i, ks, e⟩ := h.seen.isElem; cases e
  | .elem i ks, level, h, hn, hh, hv => by
    obtain ⟨id, hid⟩ := h.seen.attr (name := c!"IDENTIFIER") rfl
    obtain ⟨o, ho, ho1, ho2⟩ := h.need (nm := c!"OBJECT") (t' := .hierarchyObject) rfl rfl rfl
    obtain ⟨r, hr, -, hr1, -, -⟩ := ref_text ho1 ho2 rfl (by decide) (by decide) (fun _ => rfl)
    have hk := firstChildren_said ks (level + 1) (by
      intro c hc htx htag
      have hc' : c ∈ (Node.elem i ks).children := List.mem_filter.2 ⟨hc, by rw [htx]; rfl⟩
      obtain ⟨nm, t', h1, h2, h3⟩ := h.child rfl hc'
      have h1' := h1.tag
      rw [htag] at h1'
      have e : nm = c!"CHILDREN" := by injection h1' with h1'; exact h1'.symm
      rw [e] at h2 h1
      have e2 : (schema .lenient .hierarchy).model.typeOf c!"CHILDREN" = some .children := rfl
      rw [e2] at h2
      cases h2
      exact ⟨h3, h1⟩)
    have hl := truthy_written (o := (Node.elem i ks).attr? c!"LAST-CHANGE") (f := writtenValue .hierarchy c!"LAST-CHANGE") (fun _ => rfl)
    have hl2 := truthy_written (o := (Node.elem i ks).attr? c!"LONG-NAME") (f := writtenValue .hierarchy c!"LONG-NAME") (fun _ => rfl)
    have hf := flag_written (o := (Node.elem i ks).attr? c!"IS-EDITABLE") (f := writtenValue .hierarchy c!"IS-EDITABLE") (fun _ => rfl)
    have hf2 := flag_written (o := (Node.elem i ks).attr? c!"IS-TABLE-INTERNAL") (f := writtenValue .hierarchy c!"IS-TABLE-INTERNAL") (fun _ => rfl)
    have hd : ∀ v, writtenValue .hierarchy c!"DESC" v = none := fun _ => rfl
    have w2 : writtenValue .hierarchy c!"IDENTIFIER" = some := rfl
    have key : ∀ (inf : HInfo) (ks' : List Said), inf.identifier = id → inf.longName = (Node.elem i ks).attr? c!"LONG-NAME" →
        inf.lastChange = (Node.elem i ks).attr? c!"LAST-CHANGE" → inf.editable = boolAttr (.elem i ks) c!"IS-EDITABLE" →
        inf.isTableInternal = boolAttr (.elem i ks) c!"IS-TABLE-INTERNAL" → inf.specObject = r.text? →
        outs .hierarchy (Node.elem i ks) c!"CHILDREN" = ks' → (∀ s ∈ ks', s.name = c!"CHILDREN") →
        said (written .hierarchy (.elem i ks)) = recordOf c!"SPEC-HIERARCHY" (hierarchyAttrs inf) (refOf c!"OBJECT" c!"SPEC-OBJECT-REF" inf.specObject :: ks') := by
      intro inf ks' i1 i2 i3 i4 i5 i6 hks hks2
      have hby : ∀ k, byName ks' k = if c!"CHILDREN" = k then ks' else [] := by
        intro k
        unfold byName
        by_cases hh : c!"CHILDREN" = k
        · rw [if_pos hh, List.filter_eq_self]
          intro s hs
          rw [hks2 s hs, beq_iff_eq]
          exact hh
        · rw [if_neg hh, List.filter_eq_nil_iff]
          intro s hs
          rw [hks2 s hs, beq_iff_eq]
          exact hh
      refine h.says hn (by decide) rfl (names := [c!"DESC", c!"IDENTIFIER", c!"IS-EDITABLE", c!"IS-TABLE-INTERNAL", c!"LAST-CHANGE", c!"LONG-NAME"])
        (cnames := [c!"ALTERNATIVE-ID", c!"CHILDREN", c!"EDITABLE-ATTS", c!"OBJECT"]) rfl rfl ?_ (by unfold hierarchyAttrs; no_other) ?_ ?_
      · unfold hierarchyAttrs
        rw [i1, i2, i3, i4, i5]
        simp only [List.mem_cons, List.not_mem_nil, or_false, forall_eq_or_imp, forall_eq]
        refine ⟨?_, ?_, ?_, ?_, ?_, ?_⟩
        · simp [look_append, look_opt, look_one, look_cons, look_truthy, look_bool, hd]
        · simp [look_append, look_opt, look_one, look_cons, look_truthy, look_bool, hid, w2]
        · simp [look_append, look_opt, look_one, look_cons, look_truthy, look_bool]
          exact hf
        · simp [look_append, look_opt, look_one, look_cons, look_truthy, look_bool]
          exact hf2
        · simp [look_append, look_opt, look_one, look_cons, look_truthy, look_bool, hl]
        · simp [look_append, look_opt, look_one, look_cons, look_truthy, look_bool, hl2]
      · intro k hk
        rw [byName_cons, refOf_name, hby]
        simp only [List.mem_cons, List.not_mem_nil, or_false] at hk
        rcases hk with rfl | rfl | rfl | rfl
        · rw [h.gone (nm := c!"ALTERNATIVE-ID") (t' := .alternativeIds) rfl rfl rfl]; simp
        · rw [hks]; simp
        · rw [h.gone (nm := c!"EDITABLE-ATTS") (t' := .editableAtts) rfl rfl rfl]; simp
        · rw [h.out ho ho2 rfl rfl, i6, hr1]; simp
      · intro k hk
        rw [byName_cons, refOf_name, hby]
        simp only [List.mem_cons, List.not_mem_nil, or_false, forall_eq_or_imp, forall_eq] at hk
        simp [hk]
    rw [parseHierarchy] at hv
    dsimp only at hv
    split at hv
    · rw [attrReqNI_some hid] at hv
      dsimp only at hv
      rw [ho] at hv
      dsimp only at hv
      rw [hr] at hv
      dsimp only at hv
      cases hp : parseFirstChildren (level + 1) ks with
      | none =>
        rw [hp] at hv
        cases hv
        rw [hierarchySaid]
        exact key _ [] rfl rfl rfl rfl rfl rfl (outs_missing (hk.1 hp)) (by simp)
      | some z =>
        rw [hp] at hv
        cases z with
        | error e => cases hv
        | ok z =>
          obtain ⟨sc, cs⟩ := z
          cases hv
          rw [hierarchySaid]
          obtain ⟨c, hc, hc2, hs⟩ := hk.2 hp
          refine key _ [listOf c!"CHILDREN" (hierarchiesSaid cs)] rfl rfl rfl rfl rfl rfl ?_ (by
            intro s hs
            rw [List.mem_singleton] at hs
            rw [hs]
            rfl)
          rw [h.out (c := c) hc hc2 rfl rfl, hs]
    · cases hv

theorem firstChildren_said : ∀ (ks : List Node) (level : Nat),
    (∀ c ∈ ks, c.isText = false → c.tag = .name c!"CHILDREN" → PSeen X K p .children c ∧ Named c!"CHILDREN" c) →
    (parseFirstChildren level ks = none → ks.find? (fun k => !k.isText && k.tag == .name c!"CHILDREN") = none) ∧
    ∀ {sc : Bool} {cs : List Hierarchy}, parseFirstChildren level ks = some (.ok (sc, cs)) →
      ∃ c, ks.find? (fun k => !k.isText && k.tag == .name c!"CHILDREN") = some c ∧ Named c!"CHILDREN" c ∧
        said (written .children c) = listOf c!"CHILDREN" (hierarchiesSaid cs)
  | [], _, _ => by
    refine ⟨fun _ => rfl, ?_⟩
    intro sc cs hp
    rw [parseFirstChildren] at hp; cases hp
  | .text s :: ks, level, h => by
    rw [parseFirstChildren, List.find?_cons]
    exact firstChildren_said ks level (fun c hc => h c (by simp [hc]))
  | .comment s :: ks, level, h => by
    rw [parseFirstChildren, List.find?_cons]
    exact firstChildren_said ks level (fun c hc => h c (by simp [hc]))
  | .pi _ _ :: ks, level, h => by
    rw [parseFirstChildren, List.find?_cons]
    exact firstChildren_said ks level (fun c hc => h c (by simp [hc]))
  | .elem i cs' :: ks, level, h => by
    rw [parseFirstChildren, List.find?_cons]
    by_cases ht : (Node.elem i cs').tag = .name c!"CHILDREN"
    · rw [if_pos ht, ht]
      obtain ⟨hs, hs2⟩ := h _ (by simp) rfl ht
      have hh := fun {l : List Hierarchy} => hierarchies_said cs' level (by
        intro c hc htx
        have hc' : c ∈ (Node.elem i cs').children := List.mem_filter.2 ⟨hc, by rw [htx]; rfl⟩
        obtain ⟨nm, t', h1, h2, h3⟩ := hs.child rfl hc'
        have := typeOf_choice h2
        simp only [List.mem_singleton, Prod.mk.injEq] at this
        rw [this.1] at h1
        rw [this.2] at h3
        exact ⟨h3, h1⟩) (hs := l)
      have he : (!(Node.elem i cs').isText && (Tag.name c!"CHILDREN" == Tag.name c!"CHILDREN")) = true := by
        rw [beq_self_eq_true]
        rfl
      rw [he]
      cases hph : parseHierarchies level cs' with
      | error e => exact ⟨fun hp => (by cases hp), fun hp => (by cases hp)⟩
      | ok l =>
        refine ⟨fun hp => (by cases hp), ?_⟩
        intro sc cs hp
        cases hp
        refine ⟨_, rfl, hs2, ?_⟩
        rw [hs.saysList hs2 (by decide) rfl rfl]
        exact congrArg (listOf c!"CHILDREN") (hh hph)
    · rw [if_neg ht]
      have he : (!(Node.elem i cs').isText && ((Node.elem i cs').tag == Tag.name c!"CHILDREN")) = false := by
        have : ((Node.elem i cs').tag == Tag.name c!"CHILDREN") = false := by simpa using ht
        rw [this, Bool.and_false]
      rw [he]
      exact firstChildren_said ks level (fun c hc => h c (by simp [hc]))

theorem hierarchies_said : ∀ (ks : List Node) (level : Nat), (∀ c ∈ ks, c.isText = false → PSeen X K p .hierarchy c ∧ Named c!"SPEC-HIERARCHY" c) →
    ∀ {hs : List Hierarchy}, parseHierarchies level ks = .ok hs → ((ks.filter (fun k => !k.isText)).filterMap (kidOut .children)).map said = hierarchiesSaid hs
  | [], _, _, hs, hp => by rw [parseHierarchies] at hp; cases hp; rw [hierarchiesSaid]; rfl
  | .text _ :: ks, level, h, hs, hp => by
    rw [parseHierarchies] at hp; exact hierarchies_said ks level (fun c hc => h c (by simp [hc])) hp
  | .comment _ :: ks, level, h, hs, hp => by
    obtain ⟨i, ks, e⟩ := (h _ (List.mem_cons_self ..) rfl).1.seen.isElem; cases e
  | .pi _ _ :: ks, level, h, hs, hp => by
    obtain ⟨i, ks, e⟩ := (h _ (List.mem_cons_self ..) rfl).1.seen.isElem; cases e
  | .elem i cs :: ks, level, h, hs, hp => by
    have h1 := h _ (List.mem_cons_self ..) rfl
    rw [parseHierarchies] at hp
    · cases ha : parseHierarchy level (.elem i cs) with
      | error e => rw [ha] at hp; cases hp
      | ok a =>
        rw [ha] at hp
        dsimp only at hp
        cases hb : parseHierarchies level ks with
        | error e => rw [hb] at hp; cases hp
        | ok b =>
          rw [hb] at hp
          cases hp
          rw [hierarchiesSaid, ← hierarchy_said (.elem i cs) level h1.1 h1.2 ha, ← hierarchies_said ks level (fun c hc => h c (by simp [hc])) hb]
          rw [List.filter_cons, if_pos (show (!(Node.elem i cs).isText) = true from rfl), List.filterMap_cons,
            kidOut_some (t := .children) h1.2 (t' := .hierarchy) rfl rfl]
          rfl
    · simp
end

theorem hierarchiesSaid_map : ∀ hs : List Hierarchy, hierarchiesSaid hs = hs.map hierarchySaid
  | [] => by rw [hierarchiesSaid]; rfl
  | h :: hs => by rw [hierarchiesSaid, hierarchiesSaid_map hs]; rfl

theorem specification_said (hE : Env K p) (h : PSeen X K p .specification x) (hn : Named c!"SPECIFICATION" x) {s : Specification}
    (hv : parseSpecification x = .ok s) : said (written .specification x) = specificationSaid p s := by
  obtain ⟨i, hi⟩ := h.seen.attr (name := c!"IDENTIFIER") rfl
  unfold parseSpecification at hv
  obtain ⟨b, -, hv⟩ := py_bind_inv hv
  obtain ⟨b', -, hv⟩ := py_bind_inv hv
  rw [attrReqNI_some hi, py_bind_ok] at hv
  obtain ⟨cs, hcs, hv⟩ := py_bind_inv hv
  obtain ⟨vs, hvs, hv⟩ := py_bind_inv hv
  cases hv
  unfold specificationSaid sourceOrder
  dsimp only
  refine h.saysInOrder hn (by decide) rfl (h.looks (names := [c!"DESC", c!"IDENTIFIER", c!"LAST-CHANGE", c!"LONG-NAME"]) rfl ?_ (by no_other)) ?_
  · have w : ∀ k, writtenValue .specification k = some := fun _ => rfl
    simp [look_append, look_opt, look_one, look_cons, look_truthy, hi, w]
  · intro nm c hc
    by_cases h1 : nm = c!"TYPE"
    · subst h1
      rw [if_pos rfl]
      obtain ⟨t1, t2⟩ := h.find (t' := .specificationType) rfl rfl hc
      obtain ⟨r, hr, -, hr1, hr2, hr3⟩ := ref_text t1 t2 rfl (by decide) (by decide) (fun _ => rfl)
      obtain ⟨v, hv, hv1, -⟩ := hr2.ref hr3 (by decide)
      unfold optRef
      rw [hc]
      dsimp only
      rw [hr]
      dsimp only
      rw [kidOut_some t2 rfl rfl, Option.map_some, hr1, hv]
      unfold dropEmpty
      cases v with
      | nil => exact absurd rfl hv1
      | cons a v => rfl
    rw [if_neg (by simpa using h1)]
    by_cases h2 : nm = c!"CHILDREN"
    · subst h2
      rw [if_pos rfl]
      obtain ⟨c1, c2⟩ := h.find (t' := .children) rfl rfl hc
      have hlast : ∃ d, findLast x c!"CHILDREN" = some d ∧ d ∈ x.children ∧ d.tag = .name c!"CHILDREN" := by
        cases hd : findLast x c!"CHILDREN" with
        | none =>
          exfalso
          unfold findLast at hd
          rw [List.getLast?_eq_none_iff, List.filter_eq_nil_iff] at hd
          obtain ⟨e1, e2⟩ := find_children hc
          exact hd c e1 (by rw [e2, beq_self_eq_true])
        | some d =>
          unfold findLast at hd
          have h1 := List.mem_of_getLast? hd
          rw [List.mem_filter, beq_iff_eq] at h1
          exact ⟨d, rfl, h1⟩
      obtain ⟨d, hd, hd1, hd2⟩ := hlast
      obtain ⟨nm, t', e1, e2, e3⟩ := h.child rfl hd1
      have e4 := e1.tag
      rw [hd2] at e4
      have e5 : nm = c!"CHILDREN" := by injection e4 with h1; exact h1.symm
      rw [e5] at e2 e1
      have e6 : (schema .lenient .specification).model.typeOf c!"CHILDREN" = some .children := rfl
      rw [e6] at e2
      cases e2
      have hc' := h.found rfl hd1 e1
      rw [hc] at hc'
      cases hc'
      rw [hd] at hcs
      dsimp only at hcs
      obtain ⟨l, hl, hcs⟩ := py_bind_inv hcs
      cases hcs
      rw [Option.map_some, kidOut_some c2 rfl rfl, Option.map_some, e3.saysList e1 (by decide) rfl rfl, hierarchiesSaid_map, mapPy_said hl]
      intro k hk w hw
      obtain ⟨nm, t', g1, g2, g3⟩ := e3.child rfl hk
      have := typeOf_choice g2
      simp only [List.mem_singleton, Prod.mk.injEq] at this
      rw [this.1] at g1
      rw [this.2] at g3
      rw [kidOut_some (t' := .hierarchy) g1 rfl rfl, Option.map_some, hierarchy_said k 1 g3 g1 hw]
    rw [if_neg (by simpa using h2)]
    by_cases h3 : nm = c!"VALUES"
    · subst h3
      rw [if_pos rfl]
      obtain ⟨w1, w2⟩ := h.find (t' := .values) rfl rfl hc
      rw [hc] at hvs
      obtain ⟨l, rfl, hs⟩ := values_said hE w1 w2 hvs
      rw [kidOut_some (t' := .values) w2 rfl rfl]
      exact congrArg some hs.symm
    by_cases h4 : nm = c!"ALTERNATIVE-ID"
    · subst h4
      rw [kidOut_none (h.find (t' := .alternativeIds) rfl rfl hc).2 rfl rfl]
      rfl
    · exfalso
      rw [h.undeclared (nm := nm) rfl (by
        show nm ∉ [c!"ALTERNATIVE-ID", c!"VALUES", c!"CHILDREN", c!"TYPE"]
        simp [h1, h2, h3, h4])] at hc
      cases hc

end ReqIF.Xsd
