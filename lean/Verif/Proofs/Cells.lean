import Verif.Spec.Cells
import Verif.Proofs.Lookup
/-!
# Spec objects as mutable objects: proofs
-/
namespace ReqIF.Cells

/-! ## The last item with a key -/

theorem lastAt_lt {α : Type} {p : α → Bool} : ∀ {l : List α} {i : Nat}, lastAt p l = some i → i < l.length
  | [], i, h => by cases h
  | x :: l, i, h => by
    simp only [lastAt] at h
    cases hl : lastAt p l with
    | some k =>
      rw [hl] at h
      cases h
      have := lastAt_lt hl
      simp only [List.length_cons]; omega
    | none =>
      rw [hl] at h
      dsimp only at h
      split at h
      · cases h; simp
      · cases h

theorem lastAt_snoc {α : Type} (p : α → Bool) (l : List α) (x : α) :
    lastAt p (l ++ [x]) = if p x then some l.length else lastAt p l := by
  induction l with
  | nil => simp [lastAt]
  | cons y l ih =>
    simp only [List.cons_append, lastAt, ih]
    by_cases h : p x = true
    · simp [h]
    · simp [h]

theorem lastAt_map {α β : Type} (q : β → Bool) (f : α → β) (l : List α) : lastAt (fun a => q (f a)) l = lastAt q (l.map f) := by
  induction l with
  | nil => rfl
  | cons x l ih => simp only [lastAt, List.map_cons, ih]

theorem lastAt_same {α β : Type} (q : β → Bool) (f : α → β) {l m : List α} (h : l.map f = m.map f) :
    lastAt (fun a => q (f a)) l = lastAt (fun a => q (f a)) m := by
  rw [lastAt_map q f l, lastAt_map q f m, h]

theorem range'_get (s n j : Nat) : (List.range' s n)[j]? = if j < n then some (s + j) else none := by
  by_cases h : j < n
  · rw [if_pos h, List.getElem?_range' h, Nat.one_mul]
  · rw [if_neg h, List.getElem?_eq_none (by rw [List.length_range']; omega)]

theorem modify_map {α β : Type} (g : α → α) (f : α → β) (hf : ∀ x, f (g x) = f x) (l : List α) (i : Nat) :
    (l.modify i g).map f = l.map f := by
  apply List.ext_getElem?
  intro k
  simp only [List.getElem?_map, List.getElem?_modify]
  cases l[k]? with
  | none => rfl
  | some x => by_cases h : i = k <;> simp [h, hf]

theorem map_entries (k : Option Str) : ∀ (as : List SpecObjectAttribute) (s : Nat) (m : Dict (Option Str) Nat),
    (((List.range' s as.length).zip as).foldl (fun m e => m.set e.2.definitionRef e.1) m).get? k =
      match lastAt (fun a => a.definitionRef == k) as with
      | some i => some (s + i)
      | none => m.get? k
  | [], s, m => rfl
  | a :: as, s, m => by
    simp only [List.length_cons, List.range'_succ, List.zip_cons_cons, List.foldl_cons, lastAt]
    rw [map_entries k as (s + 1)]
    cases lastAt (fun a => a.definitionRef == k) as with
    | some i => dsimp only; congr 1; omega
    | none =>
      dsimp only
      rw [Dict.get?_set]
      by_cases h : a.definitionRef = k
      · simp [h]
      · simp [h]

/-! ## Cells and lists -/

/-- A cell holds an object, created with so many attributes. -/
structure CellIs (attrs : List SpecObjectAttribute) (c : ObjectCell) (o : SpecObject) (n : Nat) : Prop where
  base : c.base = { o with attributes := [] }
  vals : ∀ j : Nat, o.attributes[j]? = (c.attributes[j]?).bind fun x : Nat => attrs[x]?
  there : ∀ (j x : Nat), c.attributes[j]? = some x → x < attrs.length
  map : ∀ k, c.map.get? k = (lastAt (fun a => a.definitionRef == k) (o.attributes.take n)).bind fun j : Nat => c.attributes[j]?
  le : n ≤ o.attributes.length

/-- The cells hold the lists. -/
structure Agrees (h : Heap) (s : Lists) : Prop where
  listed : h.listed = List.range h.objects.length
  len : h.objects.length = s.objects.length
  cells : ∀ (i : Nat) (c : ObjectCell), h.objects[i]? = some c → ∃ o n, s.objects[i]? = some (o, n) ∧ CellIs h.attrs c o n
  apart : ∀ (i i' : Nat) (c c' : ObjectCell) (j j' x : Nat), h.objects[i]? = some c → h.objects[i']? = some c' →
    c.attributes[j]? = some x → c'.attributes[j']? = some x → i = i' ∧ j = j'
  lookup : ∀ ref, h.lookup.get? ref = s.find ref
  parsed : s.parsed ≤ s.objects.length

theorem CellIs.length {attrs : List SpecObjectAttribute} {c : ObjectCell} {o : SpecObject} {n : Nat} (h : CellIs attrs c o n) :
    o.attributes.length = c.attributes.length := by
  apply Nat.le_antisymm
  · refine Nat.not_lt.1 fun hlt => ?_
    have := h.vals c.attributes.length
    rw [List.getElem?_eq_getElem hlt, List.getElem?_eq_none (Nat.le_refl _)] at this
    cases this
  · refine Nat.not_lt.1 fun hlt => ?_
    have := h.vals o.attributes.length
    rw [List.getElem?_eq_none (Nat.le_refl _), List.getElem?_eq_getElem hlt] at this
    have hx := h.there o.attributes.length _ (List.getElem?_eq_getElem hlt)
    rw [Option.bind_some, List.getElem?_eq_getElem hx] at this
    cases this

theorem values_of {attrs : List SpecObjectAttribute} : ∀ {xs : List Nat} {as : List SpecObjectAttribute},
    (∀ j : Nat, as[j]? = (xs[j]?).bind fun x : Nat => attrs[x]?) → (∀ (j x : Nat), xs[j]? = some x → x < attrs.length) →
    xs.filterMap (fun x => attrs[x]?) = as
  | [], as, h, _ => by
    cases as with
    | nil => rfl
    | cons a as => have := h 0; simp at this
  | x :: xs, as, h, ht => by
    have hx := ht 0 x rfl
    have h0 := h 0
    rw [List.getElem?_cons_zero, Option.bind_some, List.getElem?_eq_getElem hx] at h0
    cases as with
    | nil => cases h0
    | cons a as =>
      cases h0
      rw [List.filterMap_cons, List.getElem?_eq_getElem hx]
      dsimp only
      rw [values_of (xs := xs) (as := as) (fun j => h (j + 1)) (fun j y hy => ht (j + 1) y hy)]

theorem CellIs.object {h : Heap} {c : ObjectCell} {o : SpecObject} {n : Nat} (hc : CellIs h.attrs c o n) :
    { c.base with attributes := c.attributes.filterMap fun x => h.attrs[x]? } = o := by
  rw [values_of hc.vals hc.there, hc.base]

/-- What the unparser finds. -/
theorem Agrees.view_ {h : Heap} {s : Lists} (a : Agrees h s) : h.view = s.objects.map (·.1) := by
  have key : ∀ i : Nat, h.object i = (s.objects[i]?).map (·.1) := by
    intro i
    unfold Heap.object
    cases hc : h.objects[i]? with
    | none =>
      have := List.getElem?_eq_none_iff.1 hc
      rw [List.getElem?_eq_none (by rw [← a.len]; exact this)]; rfl
    | some c =>
      obtain ⟨o, n, h1, h2⟩ := a.cells i c hc
      rw [h1]
      exact congrArg some h2.object
  unfold Heap.view
  rw [a.listed, a.len]
  have e : (fun i => h.object i) = fun i : Nat => (s.objects[i]?).map (·.1) := funext key
  rw [show h.object = fun i => h.object i from rfl, e]
  generalize s.objects = l
  have gen : ∀ (l : List (SpecObject × Nat)) (pre : List (SpecObject × Nat)),
      (List.range' pre.length l.length).filterMap (fun i : Nat => ((pre ++ l)[i]?).map (·.1)) = l.map (·.1) := by
    intro l
    induction l with
    | nil => intro pre; rfl
    | cons e l ih =>
      intro pre
      have := ih (pre ++ [e])
      rw [List.length_append, List.length_singleton, List.append_assoc, List.singleton_append] at this
      rw [List.length_cons, List.range'_succ, List.filterMap_cons]
      simp only [List.getElem?_append_right (Nat.le_refl _), Nat.sub_self, List.getElem?_cons_zero, Option.map_some, List.map_cons]
      rw [this]
  have := gen l []
  rw [List.length_nil, List.nil_append, ← List.range_eq_range'] at this
  exact this

/-! ## Calls -/

theorem find_change {s : Lists} {i : Nat} {f : SpecObject → SpecObject} (hf : ∀ o, (f o).identifier = o.identifier) (ref : Str) :
    (s.change i f).find ref = s.find ref := by
  unfold Lists.find Lists.change
  apply lastAt_same (fun x => x == ref) (fun e : SpecObject × Nat => e.1.identifier)
  dsimp only
  rw [List.map_take, List.map_take, modify_map _ _ (fun e => hf e.1)]

theorem change_get {s : Lists} {i k : Nat} {f : SpecObject → SpecObject} :
    (s.change i f).objects[k]? = if i = k then (s.objects[k]?).map (fun e => (f e.1, e.2)) else s.objects[k]? := by
  unfold Lists.change
  dsimp only
  rw [List.getElem?_modify]
  by_cases h : i = k
  · simp [h]
  · simp [h]

theorem Agrees.assign_ {h : Heap} {s : Lists} (a : Agrees h s) {i j x : Nat} {c : ObjectCell} (hc : h.objects[i]? = some c)
    (hx : c.attributes[j]? = some x) (v : AttrValue) : Agrees (h.assign x v) (s.change i (withValue · j v)) where
  listed := a.listed
  len := by rw [show (h.assign x v).objects = h.objects from rfl, a.len]; simp [Lists.change]
  cells := by
    intro i' c' hc'
    have hc' : h.objects[i']? = some c' := hc'
    obtain ⟨o, n, h1, h2⟩ := a.cells i' c' hc'
    rw [change_get, h1]
    have hv : ∀ y : Nat, (h.assign x v).attrs[y]? = if x = y then (h.attrs[y]?).map (fun t => { t with value := v }) else h.attrs[y]? := by
      intro y
      unfold Heap.assign
      dsimp only
      rw [List.getElem?_modify]
      by_cases e : x = y <;> simp [e]
    have hlen : (h.assign x v).attrs.length = h.attrs.length := by simp [Heap.assign]
    by_cases e : i = i'
    · subst e
      rw [if_pos rfl]
      rw [hc] at hc'; cases hc'
      refine ⟨_, _, rfl, ⟨h2.base, ?_, ?_, ?_, ?_⟩⟩
      · intro k
        unfold withValue
        dsimp only
        rw [List.getElem?_modify, h2.vals k]
        cases hk : c.attributes[k]? with
        | none => by_cases e : j = k <;> simp [e]
        | some y =>
          simp only [Option.bind_some, hv]
          by_cases e : j = k
          · subst e
            rw [hx] at hk; cases hk
            simp
          · have : x ≠ y := by
              rintro rfl
              exact e (a.apart i i c c j k x hc hc hx hk).2
            simp [e, this]
      · intro k y hy; rw [hlen]; exact h2.there k y hy
      · intro k
        rw [h2.map k]
        congr 1
        unfold withValue
        apply lastAt_same (fun z => z == k) SpecObjectAttribute.definitionRef
        dsimp only
        rw [List.map_take, List.map_take, modify_map (fun a : SpecObjectAttribute => { a with value := v }) _ (fun _ => rfl)]
      · simp only [withValue, List.length_modify]; exact h2.le
    · rw [if_neg e]
      refine ⟨_, _, rfl, ⟨h2.base, ?_, ?_, h2.map, h2.le⟩⟩
      · intro k
        rw [h2.vals k]
        cases hk : c'.attributes[k]? with
        | none => rfl
        | some y =>
          simp only [Option.bind_some, hv]
          rw [if_neg]
          rintro rfl
          exact e (a.apart i i' c c' j k x hc hc' hx hk).1
      · intro k y hy; rw [hlen]; exact h2.there k y hy
  apart := a.apart
  lookup := fun ref => by rw [find_change (f := (withValue · j v)) (fun _ => rfl)]; exact a.lookup ref
  parsed := by have := a.parsed; simpa [Lists.change] using this

theorem Agrees.create_ {h : Heap} {s : Lists} (a : Agrees h s) (o : SpecObject) (lookup : Dict Str Nat) (parsed : Nat)
    (hl : ∀ ref, lookup.get? ref = Lists.find ⟨s.objects ++ [(o, o.attributes.length)], parsed⟩ ref) (hp : parsed ≤ s.objects.length + 1) :
    Agrees { (h.create o).2 with listed := h.listed ++ [(h.create o).1], lookup := lookup }
      ⟨s.objects ++ [(o, o.attributes.length)], parsed⟩ where
  listed := by
    simp only [Heap.create, List.length_append, List.length_singleton, List.range_succ, a.listed]
  len := by simp [Heap.create, a.len]
  cells := by
    intro i c hc
    simp only [Heap.create] at hc ⊢
    rw [List.getElem?_append] at hc
    by_cases hi : i < h.objects.length
    · rw [if_pos hi] at hc
      obtain ⟨o', n, h1, h2⟩ := a.cells i c hc
      refine ⟨o', n, by rw [List.getElem?_append_left (by rw [← a.len]; exact hi)]; exact h1, ⟨h2.base, ?_, ?_, h2.map, h2.le⟩⟩
      · intro j
        rw [h2.vals j]
        cases hj : c.attributes[j]? with
        | none => rfl
        | some x => simp only [Option.bind_some]; rw [List.getElem?_append_left (h2.there j x hj)]
      · intro j x hx
        have := h2.there j x hx
        simp only [List.length_append]; omega
    · rw [if_neg hi] at hc
      have e : i - h.objects.length = 0 := by
        have := (List.getElem?_eq_some_iff.1 hc).1
        simp at this; omega
      rw [e, List.getElem?_cons_zero] at hc
      cases hc
      refine ⟨o, o.attributes.length, ?_, ⟨rfl, ?_, ?_, ?_, Nat.le_refl _⟩⟩
      · rw [List.getElem?_append_right (by rw [← a.len]; omega), show i - s.objects.length = 0 by rw [← a.len]; omega]; rfl
      · intro j
        dsimp only
        rw [range'_get]
        split
        · rename_i hj
          rw [Option.bind_some, List.getElem?_append_right (by omega)]
          congr 1; omega
        · rename_i hj
          rw [List.getElem?_eq_none (by omega)]; rfl
      · intro j x hx
        dsimp only at hx
        rw [range'_get] at hx
        split at hx
        · cases hx
          simp only [List.length_append]; omega
        · cases hx
      · intro k
        dsimp only
        rw [map_entries, List.take_of_length_le (Nat.le_refl _)]
        cases hk : lastAt (fun a => a.definitionRef == k) o.attributes with
        | none => rfl
        | some j =>
          have := lastAt_lt hk
          rw [Option.bind_some, range'_get, if_pos this]
  apart := by
    have old : ∀ (i : Nat) (c : ObjectCell) (j x : Nat), h.objects[i]? = some c → c.attributes[j]? = some x → x < h.attrs.length := by
      intro i c j x hc hx
      obtain ⟨o', n, h1, h2⟩ := a.cells i c hc
      exact h2.there j x hx
    have new : ∀ (i : Nat) (c : ObjectCell) (j x : Nat), (h.create o).2.objects[i]? = some c → c.attributes[j]? = some x →
        h.objects[i]? = some c ∨ i = h.objects.length ∧ x = h.attrs.length + j := by
      intro i c j x hc hx
      simp only [Heap.create] at hc
      rw [List.getElem?_append] at hc
      by_cases hi : i < h.objects.length
      · rw [if_pos hi] at hc; exact .inl hc
      · rw [if_neg hi] at hc
        have e : i - h.objects.length = 0 := by
          have := (List.getElem?_eq_some_iff.1 hc).1
          simp at this; omega
        rw [e, List.getElem?_cons_zero] at hc
        cases hc
        dsimp only at hx
        rw [range'_get] at hx
        split at hx
        · cases hx; exact .inr ⟨by omega, by omega⟩
        · cases hx
    intro i i' c c' j j' x hc hc' hx hx'
    rcases new i c j x hc hx with h1 | ⟨h1, h2⟩ <;> rcases new i' c' j' x hc' hx' with h3 | ⟨h3, h4⟩
    · exact a.apart i i' c c' j j' x h1 h3 hx hx'
    · have := old i c j x h1 hx; omega
    · have := old i' c' j' x h3 hx'; omega
    · exact ⟨by omega, by omega⟩
  lookup := hl
  parsed := by simpa using hp

theorem find_more {s : Lists} (hp : s.parsed ≤ s.objects.length) (e : SpecObject × Nat) (ref : Str) :
    Lists.find ⟨s.objects ++ [e], s.parsed⟩ ref = s.find ref := by
  unfold Lists.find
  dsimp only
  rw [List.take_append_of_le_length hp]

theorem Agrees.name_ {h : Heap} {s : Lists} (a : Agrees h s) (i : Nat) (name : Option Str) :
    Agrees { h with objects := h.objects.modify i fun c => { c with base := { c.base with longName := name } } }
      (s.change i fun o => { o with longName := name }) := by
  have get : ∀ (k : Nat) (c : ObjectCell), (h.objects.modify i fun c => { c with base := { c.base with longName := name } })[k]? = some c →
      ∃ c0, h.objects[k]? = some c0 ∧ c.attributes = c0.attributes ∧ c.map = c0.map ∧
        c.base = if i = k then { c0.base with longName := name } else c0.base := by
    intro k c hc
    rw [List.getElem?_modify] at hc
    cases hk : h.objects[k]? with
    | none => rw [hk] at hc; by_cases e : i = k <;> simp [e] at hc
    | some c0 =>
      rw [hk] at hc
      by_cases e : i = k
      · simp only [e, if_true] at hc
        cases hc
        exact ⟨c0, rfl, rfl, rfl, by rw [if_pos e]⟩
      · simp only [e, if_false] at hc
        cases hc
        exact ⟨c0, rfl, rfl, rfl, by rw [if_neg e]⟩
  refine ⟨by simp [a.listed], by simp [Lists.change, a.len], ?_, ?_, ?_, ?_⟩
  · intro k c hc
    obtain ⟨c0, h0, e1, e2, e3⟩ := get k c hc
    obtain ⟨o, n, h1, h2⟩ := a.cells k c0 h0
    rw [change_get, h1]
    by_cases e : i = k
    · rw [if_pos e] at e3 ⊢
      exact ⟨_, _, rfl, ⟨by rw [e3, h2.base], by rw [e1]; exact h2.vals, by rw [e1]; exact h2.there,
        by rw [e1, e2]; exact h2.map, h2.le⟩⟩
    · rw [if_neg e] at e3 ⊢
      exact ⟨_, _, rfl, ⟨by rw [e3, h2.base], by rw [e1]; exact h2.vals, by rw [e1]; exact h2.there,
        by rw [e1, e2]; exact h2.map, h2.le⟩⟩
  · intro k k' c c' j j' x hc hc' hx hx'
    obtain ⟨c0, h0, e1, -⟩ := get k c hc
    obtain ⟨c0', h0', e1', -⟩ := get k' c' hc'
    rw [e1] at hx; rw [e1'] at hx'
    exact a.apart k k' c0 c0' j j' x h0 h0' hx hx'
  · intro ref
    rw [find_change (f := fun o => { o with longName := name }) (fun _ => rfl)]
    exact a.lookup ref
  · have := a.parsed
    simpa [Lists.change] using this

theorem Agrees.append_ {h : Heap} {s : Lists} (a : Agrees h s) (i : Nat) (t : SpecObjectAttribute) :
    Agrees { h with attrs := h.attrs ++ [t], objects := h.objects.modify i fun c => { c with attributes := c.attributes ++ [h.attrs.length] } }
      (s.change i fun o => { o with attributes := o.attributes ++ [t] }) := by
  have get : ∀ (k : Nat) (c : ObjectCell), (h.objects.modify i fun c => { c with attributes := c.attributes ++ [h.attrs.length] })[k]? = some c →
      ∃ c0, h.objects[k]? = some c0 ∧ c.base = c0.base ∧ c.map = c0.map ∧
        c.attributes = if i = k then c0.attributes ++ [h.attrs.length] else c0.attributes := by
    intro k c hc
    rw [List.getElem?_modify] at hc
    cases hk : h.objects[k]? with
    | none => rw [hk] at hc; by_cases e : i = k <;> simp [e] at hc
    | some c0 =>
      rw [hk] at hc
      by_cases e : i = k
      · simp only [e, if_true] at hc
        cases hc
        exact ⟨c0, rfl, rfl, rfl, by rw [if_pos e]⟩
      · simp only [e, if_false] at hc
        cases hc
        exact ⟨c0, rfl, rfl, rfl, by rw [if_neg e]⟩
  have pos : ∀ (k : Nat) (c c0 : ObjectCell) (j x : Nat), h.objects[k]? = some c0 →
      c.attributes = (if i = k then c0.attributes ++ [h.attrs.length] else c0.attributes) → c.attributes[j]? = some x →
      (c0.attributes[j]? = some x ∧ x < h.attrs.length) ∨ (i = k ∧ j = c0.attributes.length ∧ x = h.attrs.length) := by
    intro k c c0 j x h0 e hx
    obtain ⟨o, n, h1, h2⟩ := a.cells k c0 h0
    by_cases ek : i = k
    · rw [e, if_pos ek, List.getElem?_append] at hx
      split at hx
      · exact .inl ⟨hx, h2.there j x hx⟩
      · rename_i hj
        have := (List.getElem?_eq_some_iff.1 hx).1
        simp only [List.length_singleton] at this
        rw [show j - c0.attributes.length = 0 by omega] at hx
        cases hx
        exact .inr ⟨ek, by omega, rfl⟩
    · rw [e, if_neg ek] at hx
      exact .inl ⟨hx, h2.there j x hx⟩
  refine ⟨by simp [a.listed], by simp [Lists.change, a.len], ?_, ?_, ?_, ?_⟩
  · intro k c hc
    obtain ⟨c0, h0, e1, e2, e3⟩ := get k c hc
    obtain ⟨o, n, h1, h2⟩ := a.cells k c0 h0
    have there : ∀ (j x : Nat), c.attributes[j]? = some x → x < (h.attrs ++ [t]).length := by
      intro j x hx
      rcases pos k c c0 j x h0 e3 hx with ⟨-, h⟩ | ⟨-, -, h⟩ <;> simp only [List.length_append, List.length_singleton] <;> omega
    have old : ∀ j : Nat, j < o.attributes.length → (c0.attributes[j]?).bind (fun x : Nat => (h.attrs ++ [t])[x]?) = o.attributes[j]? := by
      intro j hj
      rw [h2.vals j]
      cases hx : c0.attributes[j]? with
      | none => rfl
      | some x => rw [Option.bind_some, Option.bind_some, List.getElem?_append_left (h2.there j x hx)]
    rw [change_get, h1]
    by_cases e : i = k
    · rw [if_pos e] at e3 ⊢
      refine ⟨_, _, rfl, ⟨by rw [e1, h2.base], ?_, there, ?_, ?_⟩⟩
      · intro j
        dsimp only
        rw [e3, List.getElem?_append, List.getElem?_append, h2.length]
        by_cases hj : j < c0.attributes.length
        · rw [if_pos hj, if_pos hj, old j (by rw [h2.length]; exact hj)]
        · rw [if_neg hj, if_neg hj]
          cases hd : j - c0.attributes.length with
          | zero => simp
          | succ m => simp
      · intro key
        dsimp only
        rw [e2, h2.map key, List.take_append_of_le_length h2.le, e3]
        cases hk : lastAt (fun a => a.definitionRef == key) (o.attributes.take n) with
        | none => rfl
        | some j =>
          have := lastAt_lt hk
          rw [List.length_take] at this
          rw [Option.bind_some, Option.bind_some, List.getElem?_append_left (by rw [← h2.length]; omega)]
      · have := h2.le
        simp only [List.length_append, List.length_singleton]; omega
    · rw [if_neg e] at e3 ⊢
      refine ⟨_, _, rfl, ⟨by rw [e1, h2.base], ?_, there, ?_, h2.le⟩⟩
      · intro j
        rw [e3]
        by_cases hj : j < o.attributes.length
        · rw [old j hj]
        · rw [List.getElem?_eq_none (Nat.le_of_not_lt hj), List.getElem?_eq_none (by rw [← h2.length]; omega)]; rfl
      · intro key
        rw [e2, e3]; exact h2.map key
  · intro k k' c c' j j' x hc hc' hx hx'
    obtain ⟨c0, h0, -, -, e3⟩ := get k c hc
    obtain ⟨c0', h0', -, -, e3'⟩ := get k' c' hc'
    rcases pos k c c0 j x h0 e3 hx with ⟨g1, g2⟩ | ⟨g1, g2, g3⟩ <;> rcases pos k' c' c0' j' x h0' e3' hx' with ⟨g1', g2'⟩ | ⟨g1', g2', g3'⟩
    · exact a.apart k k' c0 c0' j j' x h0 h0' g1 g1'
    · omega
    · omega
    · have : k = k' := by omega
      subst this
      rw [h0] at h0'; cases h0'
      exact ⟨rfl, by omega⟩
  · intro ref
    rw [find_change (f := fun o => { o with attributes := o.attributes ++ [t] }) (fun _ => rfl)]
    exact a.lookup ref
  · have := a.parsed
    simpa [Lists.change] using this

/-- One call. -/
theorem Agrees.step_ {h : Heap} {s : Lists} (a : Agrees h s) (call : Call) :
    (h.step call).1 = (s.step call).1 ∧ Agrees (h.step call).2 (s.step call).2 := by
  have found : ∀ ref i, s.find ref = some i → ∃ c o n, h.objects[i]? = some c ∧ s.objects[i]? = some (o, n) ∧ CellIs h.attrs c o n := by
    intro ref i hi
    have := lastAt_lt hi
    rw [List.length_take] at this
    have hlt : i < h.objects.length := by rw [a.len]; omega
    obtain ⟨o, n, h1, h2⟩ := a.cells i _ (List.getElem?_eq_getElem hlt)
    exact ⟨_, o, n, List.getElem?_eq_getElem hlt, h1, h2⟩
  cases call with
  | setValue ref key value =>
    simp only [Heap.step, Lists.step, a.lookup]
    cases hi : s.find ref with
    | none => exact ⟨rfl, a⟩
    | some i =>
      obtain ⟨c, o, n, hc, ho, hcell⟩ := found ref i hi
      simp only [hc, ho, Option.bind_some, attributeAt, hcell.map key]
      cases hj : lastAt (fun a => a.definitionRef == key) (o.attributes.take n) with
      | none => exact ⟨rfl, a⟩
      | some j =>
        have := lastAt_lt hj
        rw [List.length_take, hcell.length] at this
        have hj' : j < c.attributes.length := by omega
        simp only [Option.bind_some, List.getElem?_eq_getElem hj']
        exact ⟨trivial, a.assign_ hc (List.getElem?_eq_getElem hj') value⟩
  | setValueAt i j value =>
    simp only [Heap.step, Lists.step]
    by_cases hi : i < h.objects.length
    · obtain ⟨o, n, ho, hcell⟩ := a.cells i _ (List.getElem?_eq_getElem hi)
      simp only [a.listed, List.getElem?_range hi, List.getElem?_eq_getElem hi, ho, Option.bind_some]
      by_cases hj : j < (h.objects[i]).attributes.length
      · rw [List.getElem?_eq_getElem hj, List.getElem?_eq_getElem (by rw [hcell.length]; exact hj)]
        exact ⟨rfl, a.assign_ (List.getElem?_eq_getElem hi) (List.getElem?_eq_getElem hj) value⟩
      · rw [List.getElem?_eq_none (Nat.le_of_not_lt hj), List.getElem?_eq_none (by rw [hcell.length]; exact Nat.le_of_not_lt hj)]
        exact ⟨rfl, a⟩
    · rw [List.getElem?_eq_none (by rw [a.listed, List.length_range]; omega), List.getElem?_eq_none (by rw [← a.len]; omega)]
      exact ⟨rfl, a⟩
  | setName ref name =>
    simp only [Heap.step, Lists.step, a.lookup]
    cases hi : s.find ref with
    | none => exact ⟨rfl, a⟩
    | some i => exact ⟨rfl, a.name_ i name⟩
  | append ref t =>
    simp only [Heap.step, Lists.step, a.lookup]
    cases hi : s.find ref with
    | none => exact ⟨rfl, a⟩
    | some i => exact ⟨rfl, a.append_ i t⟩
  | appendObject o =>
    refine ⟨rfl, ?_⟩
    have := a.create_ o h.lookup s.parsed (fun ref => by rw [find_more a.parsed]; exact a.lookup ref)
      (by have := a.parsed; omega)
    exact this

theorem Agrees.run_ {h : Heap} {s : Lists} (a : Agrees h s) (calls : List Call) :
    (h.run calls).1 = (s.run calls).1 ∧ Agrees (h.run calls).2 (s.run calls).2 := by
  induction calls generalizing h s with
  | nil => exact ⟨rfl, a⟩
  | cons c cs ih =>
    obtain ⟨h1, h2⟩ := a.step_ c
    obtain ⟨h3, h4⟩ := ih h2
    exact ⟨by simp only [Heap.run, Lists.run, h1, h3], h4⟩

/-- Parsing. -/
theorem load_agrees (os : List SpecObject) : Agrees (load os) (readLists os) := by
  have gen : ∀ (os pre : List SpecObject) (h : Heap), Agrees h (readLists pre) → Agrees (os.foldl Heap.parsed h) (readLists (pre ++ os)) := by
    intro os
    induction os with
    | nil => intro pre h a; rw [List.append_nil]; exact a
    | cons o os ih =>
      intro pre h a
      have key : Agrees (h.parsed o) (readLists (pre ++ [o])) := by
        have e : readLists (pre ++ [o]) = ⟨(readLists pre).objects ++ [(o, o.attributes.length)], pre.length + 1⟩ := by
          simp [readLists]
        rw [e]
        refine a.create_ o _ _ ?_ (by simp [readLists])
        intro ref
        rw [show (h.create o).2.lookup = h.lookup from rfl, Dict.get?_set, a.lookup]
        unfold Lists.find readLists
        dsimp only
        rw [List.take_of_length_le (by simp), List.take_of_length_le (by simp), lastAt_snoc]
        rw [show (h.create o).1 = h.objects.length from rfl, a.len]
        by_cases e : o.identifier = ref
        · simp [e, readLists]
        · simp [e]
      have := ih (pre ++ [o]) (h.parsed o) key
      rw [List.append_assoc, List.singleton_append] at this
      exact this
  have start : Agrees ⟨[], [], [], []⟩ (readLists []) :=
    ⟨rfl, rfl, by intro i c hc; simp at hc, by intro i i' c c' j j' x hc; simp at hc, fun ref => rfl, Nat.le_refl _⟩
  exact gen os [] _ start

end ReqIF.Cells
