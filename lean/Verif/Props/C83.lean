import Verif.Spec.Number
import Verif.Spec.Lookup
import Verif.Proofs.Indent
import Verif.Proofs.ItemTools
import Verif.Proofs.ParseInv
import Verif.Props.C01_06
/-!
# C83: the accuracy of real data types
-/
namespace ReqIF
open Spec

/-! ## Numbers -/

/-- What may follow a digit, and the value of it all. -/
inductive DigitTail : Nat → Str → Nat → Prop
  | done {acc : Nat} : DigitTail acc [] acc
  | digit {acc n : Nat} {c : Char} {s : Str} : c.isDigit = true → DigitTail (10 * acc + (c.toNat - 48)) s n → DigitTail acc (c :: s) n
  | underscore {acc n : Nat} {c : Char} {s : Str} : c.isDigit = true → DigitTail (10 * acc + (c.toNat - 48)) s n → DigitTail acc ('_' :: c :: s) n

theorem digit_iff (c : Char) : ('0' ≤ c && c ≤ '9') = true ↔ c.isDigit = true := by
  unfold Char.isDigit
  simp only [Bool.and_eq_true, decide_eq_true_eq]
  exact Iff.rfl

theorem digitsGo_tail : ∀ (s : Str) (acc n : Nat),
    (digitsGo acc true s = some n ↔ DigitTail acc s n) ∧
    (digitsGo acc false s = some n ↔ ∃ c s', s = c :: s' ∧ c.isDigit = true ∧ DigitTail (10 * acc + (c.toNat - 48)) s' n)
  | [], acc, n => by
    refine ⟨⟨?_, ?_⟩, ⟨?_, ?_⟩⟩
    · intro h; rw [digitsGo] at h; cases h; exact .done
    · intro h; cases h; rfl
    · intro h; rw [digitsGo] at h; cases h
    · rintro ⟨c, s', h, -⟩; cases h
  | c :: s, acc, n => by
    by_cases hc : c.isDigit = true
    · have hd := (digit_iff c).2 hc
      have ih := (digitsGo_tail s (10 * acc + (c.toNat - 48)) n).1
      have hu : c ≠ '_' := by rintro rfl; revert hc; decide
      refine ⟨?_, ?_⟩
      · rw [digitsGo, if_pos hd, ih]
        constructor
        · exact .digit hc
        · intro h
          cases h with
          | digit _ h => exact h
          | underscore => exact absurd rfl hu
      · rw [digitsGo, if_pos hd, ih]
        constructor
        · intro h; exact ⟨c, s, rfl, hc, h⟩
        · rintro ⟨c', s', h, -, h2⟩; cases h; exact h2
    · have hd : ¬ ('0' ≤ c && c ≤ '9') = true := fun h => hc ((digit_iff c).1 h)
      have ih := (digitsGo_tail s acc n).2
      refine ⟨?_, ?_⟩
      · rw [digitsGo, if_neg hd]
        by_cases hu : c = '_'
        · subst hu
          rw [if_pos (by rfl), ih]
          constructor
          · rintro ⟨c', s', rfl, h1, h2⟩; exact .underscore h1 h2
          · intro h
            cases h with
            | digit h => exact absurd h hc
            | underscore h1 h2 => exact ⟨_, _, rfl, h1, h2⟩
        · rw [if_neg (by simp [hu])]
          constructor
          · intro h; cases h
          · intro h
            cases h with
            | digit h => exact absurd h hc
            | underscore => exact absurd rfl hu
      · rw [digitsGo, if_neg hd, if_neg (by simp)]
        constructor
        · intro h; cases h
        · rintro ⟨c', s', h, h1, -⟩; cases h; exact absurd h1 hc

theorem DigitTail.next {acc n : Nat} {s : Str} (h : DigitTail acc s n) {c : Char} (hc : c.isDigit = true) :
    DigitTail acc (s ++ [c]) (10 * n + (c.toNat - 48)) ∧ DigitTail acc (s ++ ['_', c]) (10 * n + (c.toNat - 48)) := by
  induction h with
  | done => exact ⟨.digit hc .done, .underscore hc .done⟩
  | digit h1 _ ih => exact ⟨.digit h1 ih.1, .digit h1 ih.2⟩
  | underscore h1 _ ih => exact ⟨.underscore h1 ih.1, .underscore h1 ih.2⟩

theorem DigitTail.digits {acc n : Nat} {s : Str} (h : DigitTail acc s n) : ∀ {p : Str}, Digits p acc → Digits (p ++ s) n := by
  induction h with
  | done => intro p hp; rw [List.append_nil]; exact hp
  | @digit acc n c s h1 _ ih =>
    intro p hp
    have := ih (.next hp h1)
    rwa [List.append_assoc] at this
  | @underscore acc n c s h1 _ ih =>
    intro p hp
    have := ih (.underscore hp h1)
    rwa [List.append_assoc] at this

theorem digits_iff (s : Str) (n : Nat) : digitsGo 0 false s = some n ↔ Digits s n := by
  rw [(digitsGo_tail s 0 n).2]
  constructor
  · rintro ⟨c, s', rfl, hc, h⟩
    rw [show 10 * 0 + (c.toNat - 48) = c.toNat - 48 from by omega] at h
    exact h.digits (.digit hc)
  · intro h
    induction h with
    | @digit c hc =>
      refine ⟨c, [], rfl, hc, ?_⟩
      rw [show 10 * 0 + (c.toNat - 48) = c.toNat - 48 from by omega]
      exact .done
    | next _ hc ih =>
      obtain ⟨c', s', rfl, h1, h2⟩ := ih
      exact ⟨c', s' ++ [_], rfl, h1, (h2.next hc).1⟩
    | underscore _ hc ih =>
      obtain ⟨c', s', rfl, h1, h2⟩ := ih
      exact ⟨c', s' ++ ['_', _], rfl, h1, (h2.next hc).2⟩

theorem digits_head {s : Str} {n : Nat} (h : Digits s n) : ∃ c t, s = c :: t ∧ c.isDigit = true := by
  obtain ⟨c, t, e, hc, -⟩ := (digitsGo_tail s 0 n).2.1 ((digits_iff s n).2 h)
  exact ⟨c, t, e, hc⟩

/-- The numbers that are read are the ones denoted. -/
theorem C83_number (s : Str) (n : Int) : pyInt s = some n ↔ Denotes s n := by
  have hst : Denotes s n ↔ Numeral (strip s) n := by
    constructor
    · rintro ⟨t, h1, h2⟩; rw [strip_of_stripped h1]; exact h2
    · intro h; exact ⟨_, stripped_strip s, h⟩
  rw [hst]
  unfold pyInt
  generalize strip s = t
  split
  · rename_i d
    constructor
    · intro h
      cases hd : digitsGo 0 false d with
      | none => rw [hd] at h; cases h
      | some m => rw [hd] at h; cases h; exact .minus ((digits_iff d m).1 hd)
    · intro h
      cases h with
      | bare h => obtain ⟨c, t, e, hc⟩ := digits_head h; cases e; exact absurd hc (by decide)
      | minus h => rw [(digits_iff _ _).2 h]; rfl
  · rename_i d
    constructor
    · intro h
      cases hd : digitsGo 0 false d with
      | none => rw [hd] at h; cases h
      | some m => rw [hd] at h; cases h; exact .plus ((digits_iff d m).1 hd)
    · intro h
      cases h with
      | bare h => obtain ⟨c, t, e, hc⟩ := digits_head h; cases e; exact absurd hc (by decide)
      | plus h => rw [(digits_iff _ _).2 h]; rfl
  · rename_i h1 h2
    constructor
    · intro h
      cases hd : digitsGo 0 false t with
      | none => rw [hd] at h; cases h
      | some m => rw [hd] at h; cases h; exact .bare ((digits_iff t m).1 hd)
    · intro h
      cases h with
      | bare h => rw [(digits_iff _ _).2 h]; rfl
      | plus h => exact absurd rfl (h2 _)
      | minus h => exact absurd rfl (h1 _)

/-! ## Documents -/

theorem mapPy_each {α β : Type} {f : α → Py β} : ∀ {xs : List α} {ys : List β}, mapPy f xs = .ok ys → ∀ x ∈ xs, ∃ y ∈ ys, f x = .ok y
  | [], ys, _, x, hx => by cases hx
  | a :: xs, ys, h, x, hx => by
    rw [mapPy] at h
    split at h
    · cases h
    · rename_i y hy
      split at h
      · cases h
      · rename_i ys' hys
        cases h
        rcases List.mem_cons.1 hx with rfl | hx'
        · exact ⟨y, by simp, hy⟩
        · obtain ⟨z, hz, e⟩ := mapPy_each hys x hx'
          exact ⟨z, by simp [hz], e⟩

/-- One real data type. -/
theorem real_accuracy {k : Node} {d : DataType} (ht : k.tag = .name c!"DATATYPE-DEFINITION-REAL") (h : parseDataType k = .ok d) :
    k.attr? c!"IDENTIFIER" = some d.identifier ∧ ∃ acc, d.kind = .real acc (k.attr? c!"MAX") (k.attr? c!"MIN") ∧
      (k.attr? c!"ACCURACY" = none ∧ acc = none ∨ ∃ a n, k.attr? c!"ACCURACY" = some a ∧ Denotes a n ∧ acc = some n) := by
  unfold parseDataType at h
  obtain ⟨_, -, h⟩ := py_bind_inv h
  obtain ⟨_, -, h⟩ := py_bind_inv h
  obtain ⟨i, hi, h⟩ := py_bind_inv h
  have hid : k.attr? c!"IDENTIFIER" = some i := by
    unfold attrReq at hi
    cases ha : k.attr? c!"IDENTIFIER" with
    | none => rw [ha] at hi; cases hi
    | some j => rw [ha] at hi; cases hi; rfl
  rw [if_neg (by rw [ht]; decide), if_neg (by rw [ht]; decide), if_neg (by rw [ht]; decide), if_pos ht] at h
  split at h
  · rename_i ha
    cases h
    exact ⟨hid, none, rfl, .inl ⟨ha, rfl⟩⟩
  · rename_i a ha
    split at h
    · cases h
    · rename_i n hn
      cases h
      exact ⟨hid, some n, rfl, .inr ⟨a, n, ha, (C83_number a n).1 hn, rfl⟩⟩

/-- **C83**: in every document that can be parsed, the accuracy of each real data type is the
number its `ACCURACY` denotes, and none if there is no `ACCURACY`. -/
theorem C83_document {text : Str} {b : Bundle} {d : Doc} {r x k : Node} (hd : readDoc text = some d) (hr : strippedRoot d.root = .ok r)
    (hx : contentOf r = some x) (h : parseString text = .ok b) (hk : k ∈ itemsOf x c!"DATATYPES")
    (ht : k.tag = .name c!"DATATYPE-DEFINITION-REAL") :
    ∃ t ∈ dataTypesOf b, k.attr? c!"IDENTIFIER" = some t.identifier ∧ ∃ acc, t.kind = .real acc (k.attr? c!"MAX") (k.attr? c!"MIN") ∧
      (k.attr? c!"ACCURACY" = none ∧ acc = none ∨ ∃ a n, k.attr? c!"ACCURACY" = some a ∧ Denotes a n ∧ acc = some n) := by
  have hc : contentNode text = some x := by unfold contentNode; rw [hd]; dsimp only; rw [hr]; exact hx
  rcases parseString_inv h with ⟨h1, -⟩ | ⟨y, c, h1, h2, h3⟩
  · rw [hc] at h1; cases h1
  · rw [hc] at h1
    cases h1
    obtain ⟨-, hdt, -⟩ := parseContent_inv h3
    unfold itemsOf at hk
    unfold parsedItems at hdt
    split at hk
    · cases hk
    · rename_i z hz
      rw [hz] at hdt
      dsimp only at hdt
      split at hdt
      · cases hdt
      · rename_i l hl
        obtain ⟨t, hm, e⟩ := mapPy_each hl k hk
        refine ⟨t, ?_, real_accuracy ht e⟩
        unfold dataTypesOf
        rw [h2]
        have e2 : c.dataTypes = some l := by cases hdt' : c.dataTypes <;> rw [hdt'] at hdt <;> cases hdt; rfl
        simp [e2, hm]

/-- **C83**: a document with a real data type whose `ACCURACY` denotes no number is refused. -/
theorem C83_refused {text : Str} {d : Doc} {r x k : Node} {a : Str} (hd : readDoc text = some d) (hr : strippedRoot d.root = .ok r)
    (hx : contentOf r = some x) (hk : k ∈ itemsOf x c!"DATATYPES") (ht : k.tag = .name c!"DATATYPE-DEFINITION-REAL")
    (ha : k.attr? c!"ACCURACY" = some a) (hn : ∀ n, ¬ Denotes a n) (b : Bundle) : parseString text ≠ .ok b := by
  intro h
  obtain ⟨t, -, -, acc, -, h3⟩ := C83_document hd hr hx h hk ht
  rcases h3 with ⟨h3, -⟩ | ⟨a', n, h3, h4, -⟩
  · rw [ha] at h3; cases h3
  · rw [ha] at h3; cases h3; exact hn n h4

/-- **C83**: what is printed denotes the number, without white space, sign `+` or underscores. -/
theorem C83_printed (n : Int) : Denotes (fmtInt n) n ∧ ∀ c ∈ fmtInt n, c = '-' ∨ c.isDigit = true := by
  refine ⟨(C83_number _ _).1 (pyInt_fmtInt n), ?_⟩
  intro c hc
  cases n with
  | ofNat m => exact .inr (toDigits_digit hc)
  | negSucc m =>
    rw [fmtInt] at hc
    rcases List.mem_cons.1 hc with rfl | hc'
    · exact .inl rfl
    · exact .inr (toDigits_digit hc')

/-! ## Non-vacuity and witnesses -/

set_option maxRecDepth 20000 in
/-- A document with one real data type. -/
def realDoc (accuracy : Str) : Str :=
  c!"<REQ-IF><CORE-CONTENT><REQ-IF-CONTENT><DATATYPES><DATATYPE-DEFINITION-REAL IDENTIFIER=\"r\" ACCURACY=\"" ++ accuracy ++
  c!"\" MAX=\"9\"/></DATATYPES></REQ-IF-CONTENT></CORE-CONTENT></REQ-IF>"

/-- The `ACCURACY` attributes of the real data types of a document, and what the bundle has. -/
def accuracies (text : Str) : Option (List (Option Str) × Option (List DataType)) :=
  match readDoc text with
  | none => none
  | some d =>
    match strippedRoot d.root with
    | .error _ => none
    | .ok r => (contentOf r).map (fun x =>
        (((itemsOf x c!"DATATYPES").filter (fun k => k.tag == .name c!"DATATYPE-DEFINITION-REAL")).map (fun k => k.attr? c!"ACCURACY"),
         match parseString text with
         | .ok b => some (dataTypesOf b)
         | .error _ => none))

/-- What is printed of the data types. -/
def printedTypes (text : Str) : Option Str :=
  match parseString text with
  | .ok b => some ((dataTypesOf b).flatMap unparseDataType)
  | .error _ => none

set_option maxRecDepth 20000 in
/-- **C83**: a sign, white space and underscores are accepted and not kept. -/
theorem C83_rewritten : accuracies (realDoc c!" +1_0 ") =
      some ([some c!" +1_0 "], some [⟨⟨c!"r", none, none, none, true⟩, .real (some 10) (some c!"9") none⟩]) ∧
    printedTypes (realDoc c!" +1_0 ") = some c!"        <DATATYPE-DEFINITION-REAL ACCURACY=\"10\" IDENTIFIER=\"r\" MAX=\"9\"/>\n" := by
  decide +kernel

set_option maxRecDepth 20000 in
example : accuracies (realDoc c!"1__0") = some ([some c!"1__0"], none) := by decide +kernel

set_option maxRecDepth 20000 in
example : accuracies (realDoc []) = some ([some []], none) := by decide +kernel

set_option maxRecDepth 20000 in
example : accuracies (realDoc c!"-7") = some ([some c!"-7"], some [⟨⟨c!"r", none, none, none, true⟩, .real (some (-7)) (some c!"9") none⟩]) := by
  decide +kernel

example : ∀ n, ¬ Denotes c!"1__0" n := by
  intro n h
  rw [← C83_number] at h
  cases h

end ReqIF
