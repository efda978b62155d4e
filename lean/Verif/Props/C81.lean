import Verif.Spec.Debug
import Verif.Proofs.ItemTools
import Verif.Proofs.Garble
/-!
# C81: the texts of objects (`str`, `repr`)
-/
set_option linter.unusedSimpArgs false
namespace ReqIF.Debug

/-- **C81**, every object: whatever refers to whatever, an object has a text. -/
theorem C81_any (h : Heap) {a : Addr} {cls : Str} {fields : List (Str × Value)} (ha : h a = .object cls fields) : ∃ t, autoStr h a = .ok t := by
  unfold autoStr
  rw [ha]
  exact ⟨_, rfl⟩

theorem valueStr_local {h h' : Heap} {v v' : Value} (e : seen h v = seen h' v') : valueStr h v = valueStr h' v' := by
  have key : ∀ (h : Heap) (v : Value), valueStr h v =
      match seen h v with
      | .list n => if n = 0 then c!"[]" else c!"[" ++ showNat n ++ c!" elements]"
      | .dict n => if n = 0 then c!"{}" else c!"{" ++ showNat n ++ c!" elements}"
      | .set n => c!"set(" ++ showNat n ++ c!" elements)"
      | .str s => c!"\"" ++ s ++ c!"\""
      | .bool b => if b then c!"True" else c!"False"
      | .int n => fmtInt n
      | .float s => s
      | .bytes bs => bytesRepr bs
      | .object cls => cls ++ c!"(...)" := by
    intro h v
    cases v with
    | ref a =>
      simp only [valueStr, seen]
      cases h a <;> rfl
    | _ => rfl
  rw [key, key, e]

/-- **C81**, locality: the text depends on the object's class, on the names of its attributes in order, and on what can be seen of
their values, and on nothing else: not on anything that these refer to. -/
theorem C81_local {h h' : Heap} {a a' : Addr} {cls : Str} {fields fields' : List (Str × Value)} (ha : h a = .object cls fields)
    (ha' : h' a' = .object cls fields') (e : fields.map (fun f => (f.1, seen h f.2)) = fields'.map (fun f => (f.1, seen h' f.2))) :
    autoStr h a = autoStr h' a' := by
  have key : ∀ {l l' : List (Str × Value)}, l.map (fun f => (f.1, seen h f.2)) = l'.map (fun f => (f.1, seen h' f.2)) →
      l.map (fun f => f.1 ++ c!" = " ++ valueStr h f.2) = l'.map (fun f => f.1 ++ c!" = " ++ valueStr h' f.2) := by
    intro l
    induction l with
    | nil => intro l' h; cases l' with
      | nil => rfl
      | cons _ _ => cases h
    | cons f l ih => intro l' h; cases l' with
      | nil => cases h
      | cons f' l' =>
        simp only [List.map_cons, List.cons.injEq, Prod.mk.injEq] at h ⊢
        refine ⟨?_, ih h.2⟩
        rw [h.1.1, valueStr_local h.1.2]
  unfold autoStr
  rw [ha, ha']
  dsimp only
  rw [key e]

/-! ## Reading the text -/

def showSeen : Seen → Str
  | .list n => if n = 0 then c!"[]" else c!"[" ++ showNat n ++ c!" elements]"
  | .dict n => if n = 0 then c!"{}" else c!"{" ++ showNat n ++ c!" elements}"
  | .set n => c!"set(" ++ showNat n ++ c!" elements)"
  | .str s => c!"\"" ++ s ++ c!"\""
  | .bool b => if b then c!"True" else c!"False"
  | .int n => fmtInt n
  | .float s => s
  | .bytes bs => bytesRepr bs
  | .object cls => cls ++ c!"(...)"

theorem valueStr_seen (h : Heap) (v : Value) : valueStr h v = showSeen (seen h v) := by
  cases v with
  | ref a =>
    simp only [valueStr, seen]
    cases h a <;> rfl
  | _ => rfl

/-- The first occurrence of a character. -/
theorem split_char {x : Char} : ∀ {a a' r r' : Str}, x ∉ a → x ∉ a' → a ++ x :: r = a' ++ x :: r' → a = a' ∧ r = r'
  | [], [], _, _, _, _, h => by simpa using h
  | [], c :: a', _, _, _, h2, h => by
    simp only [List.nil_append, List.cons_append, List.cons.injEq] at h
    exact absurd (by simp [h.1]) h2
  | c :: a, [], _, _, h1, _, h => by
    simp only [List.nil_append, List.cons_append, List.cons.injEq] at h
    exact absurd (by simp [h.1]) h1
  | c :: a, c' :: a', _, _, h1, h2, h => by
    simp only [List.cons_append, List.cons.injEq] at h
    obtain ⟨rfl, h⟩ := h
    obtain ⟨e1, e2⟩ := split_char (fun hm => h1 (by simp [hm])) (fun hm => h2 (by simp [hm])) h
    exact ⟨by rw [e1], e2⟩

theorem name_free {s : Str} (h : Name s) {x : Char} (h1 : x.isAlphanum = false) (h2 : x ≠ '_') (h3 : x.toNat < 128) : x ∉ s := by
  intro hm
  rcases h.2 x hm with h | h | h
  · rw [h1] at h; cases h
  · exact h2 h
  · omega

theorem showNat_free {n : Nat} {x : Char} (h : x.isDigit = false) : x ∉ showNat n := by
  intro hm
  rw [toDigits_digit hm] at h
  cases h

theorem fmtInt_free {n : Int} {x : Char} (h : x.isDigit = false) (h2 : x ≠ '-') : x ∉ fmtInt n := by
  cases n with
  | ofNat n => exact showNat_free (n := n) h
  | negSucc n =>
    intro hm
    rcases List.mem_cons.1 hm with rfl | hm
    · exact h2 rfl
    · exact showNat_free h hm

theorem showNat_inj {m n : Nat} (h : showNat m = showNat n) : m = n := by
  have h1 := digitsGo_toDigits m
  have h2 := digitsGo_toDigits n
  unfold showNat at h
  rw [h, h2] at h1
  cases h1
  rfl

theorem fmtInt_inj {m n : Int} (h : fmtInt m = fmtInt n) : m = n := by
  have h1 := pyInt_fmtInt m
  rw [h, pyInt_fmtInt] at h1
  cases h1
  rfl

/-- Kinds are told apart by characters that occur. -/
def kind (t : Str) : Nat :=
  if '[' ∈ t then 0 else if '{' ∈ t then 1 else if '.' ∈ t then 2 else if '(' ∈ t then 3 else if 'e' ∈ t then 4 else 5

def kindOf : Seen → Nat
  | .list _ => 0
  | .dict _ => 1
  | .object _ => 2
  | .set _ => 3
  | .bool _ => 4
  | _ => 5

def NotStr : Seen → Prop
  | .str _ => False
  | _ => True

theorem kind_showSeen {s : Seen} (h : Readable s) (hs : NotStr s) : kind (showSeen s) = kindOf s := by
  cases s with
  | list n =>
    unfold kind kindOf
    rw [if_pos]
    simp only [showSeen]
    split <;> simp
  | dict n =>
    have h1 : '[' ∉ showSeen (.dict n) := by
      have := showNat_free (n := n) (x := '[') (by decide)
      simp only [showSeen]
      split <;> simp [this]
    unfold kind kindOf
    rw [if_neg h1, if_pos]
    simp only [showSeen]
    split <;> simp
  | set n =>
    have f : ∀ x : Char, x.isDigit = false → x ∉ c!"set(" → x ∉ c!" elements)" → x ∉ showSeen (.set n) := by
      intro x h1 h2 h3
      have := showNat_free (n := n) h1
      simp only [showSeen, List.mem_append, not_or]
      exact ⟨⟨h2, this⟩, h3⟩
    unfold kind kindOf
    rw [if_neg (f _ (by decide) (by decide) (by decide)), if_neg (f _ (by decide) (by decide) (by decide)), if_neg (f _ (by decide) (by decide) (by decide)),
      if_pos (by simp [showSeen])]
  | str s => exact hs.elim
  | bool b => cases b <;> decide
  | int n =>
    have f : ∀ x : Char, x.isDigit = false → x ≠ '-' → x ∉ showSeen (.int n) := fun x h1 h2 => fmtInt_free h1 h2
    unfold kind kindOf
    rw [if_neg (f _ (by decide) (by decide)), if_neg (f _ (by decide) (by decide)), if_neg (f _ (by decide) (by decide)),
      if_neg (f _ (by decide) (by decide)), if_neg (f _ (by decide) (by decide))]
  | float s => exact h.elim
  | bytes s => exact h.elim
  | object cls =>
    have f : ∀ x : Char, x.isAlphanum = false → x ≠ '_' → x.toNat < 128 → x ∉ c!"(...)" → x ∉ showSeen (.object cls) := by
      intro x h1 h2 h3 h4
      simp only [showSeen, List.mem_append, not_or]
      exact ⟨name_free h h1 h2 h3, h4⟩
    unfold kind kindOf
    rw [if_neg (f _ (by decide) (by decide) (by decide) (by decide)), if_neg (f _ (by decide) (by decide) (by decide) (by decide)),
      if_pos (by simp [showSeen])]

theorem showSeen_inj {s s' : Seen} (h : Readable s) (h' : Readable s') (hs : NotStr s) (hs' : NotStr s') (e : showSeen s = showSeen s') : s = s' := by
  have hk : kindOf s = kindOf s' := by rw [← kind_showSeen h hs, ← kind_showSeen h' hs', e]
  cases s <;> cases s' <;> simp only [kindOf, reduceCtorEq] at hk <;> (try cases hk) <;> (try exact h.elim) <;> (try exact hs.elim) <;> (try exact h'.elim) <;> (try exact hs'.elim)
  · rename_i m n
    congr 1
    simp only [showSeen] at e
    split at e <;> split at e
    · omega
    · have := congrArg List.length e
      simp at this
    · have := congrArg List.length e
      simp at this
    · simp only [List.append_assoc] at e
      exact showNat_inj (List.append_cancel_right (List.append_cancel_left e))
  · rename_i m n
    congr 1
    simp only [showSeen] at e
    split at e <;> split at e
    · omega
    · have := congrArg List.length e
      simp at this
    · have := congrArg List.length e
      simp at this
    · simp only [List.append_assoc] at e
      exact showNat_inj (List.append_cancel_right (List.append_cancel_left e))
  · rename_i m n
    congr 1
    simp only [showSeen, List.append_assoc] at e
    exact showNat_inj (List.append_cancel_right (List.append_cancel_left e))
  · rename_i a b
    cases a <;> cases b <;> first | rfl | exact absurd e (by decide)
  · exact congrArg _ (fmtInt_inj e)
  · exact congrArg _ (List.append_cancel_right e)

theorem noComma {s : Seen} (h : Readable s) (hs : NotStr s) {x : Char} (hx : x = ',' ∨ x = '"') : x ∉ showSeen s := by
  have hx1 : x.isDigit = false ∧ x ≠ '-' ∧ x.isAlphanum = false ∧ x ≠ '_' ∧ x.toNat < 128 := by rcases hx with rfl | rfl <;> decide
  have hx2 : ∀ l ∈ [c!"[]", c!"[", c!" elements]", c!"{}", c!"{", c!" elements}", c!"set(", c!" elements)", c!"True", c!"False", c!"(...)"], x ∉ l := by
    rcases hx with rfl | rfl <;> decide
  cases s with
  | list n =>
    have := showNat_free (n := n) hx1.1
    simp only [showSeen]
    split
    · exact hx2 _ (by simp)
    · simp only [List.mem_append, not_or]; exact ⟨⟨hx2 _ (by simp), this⟩, hx2 _ (by simp)⟩
  | dict n =>
    have := showNat_free (n := n) hx1.1
    simp only [showSeen]
    split
    · exact hx2 _ (by simp)
    · simp only [List.mem_append, not_or]; exact ⟨⟨hx2 _ (by simp), this⟩, hx2 _ (by simp)⟩
  | set n =>
    have := showNat_free (n := n) hx1.1
    simp only [showSeen, List.mem_append, not_or]; exact ⟨⟨hx2 _ (by simp), this⟩, hx2 _ (by simp)⟩
  | str s => exact hs.elim
  | bool b =>
    cases b
    · exact hx2 c!"False" (by simp)
    · exact hx2 c!"True" (by simp)
  | int n => exact fmtInt_free hx1.1 hx1.2.1
  | float s => exact h.elim
  | bytes s => exact h.elim
  | object cls =>
    simp only [showSeen, List.mem_append, not_or]
    exact ⟨name_free h hx1.2.2.1 hx1.2.2.2.1 hx1.2.2.2.2, hx2 _ (by simp)⟩

theorem showSeen_ne {s : Seen} (h : Readable s) : showSeen s ≠ [] := by
  cases s with
  | list n => simp only [showSeen]; split <;> simp
  | dict n => simp only [showSeen]; split <;> simp
  | set n => simp [showSeen]
  | str s => simp [showSeen]
  | bool b => cases b <;> simp [showSeen]
  | int n =>
    cases n with
    | ofNat n => exact Nat.toDigits_ne_nil
    | negSucc n => simp [showSeen, fmtInt]
  | float s => exact h.elim
  | bytes s => exact h.elim
  | object cls => simp [showSeen]

/-- What may follow a value. -/
def Tail (r : Str) : Prop := r = c!")" ∨ ∃ x, r = ',' :: x

theorem tail_split {u u' r r' : Str} (hu : ',' ∉ u) (hu' : ',' ∉ u') (hr : Tail r) (hr' : Tail r') (e : u ++ r = u' ++ r') : u = u' ∧ r = r' := by
  rcases hr with rfl | ⟨x, rfl⟩ <;> rcases hr' with rfl | ⟨x', rfl⟩
  · exact ⟨List.append_cancel_right e, rfl⟩
  · have : ',' ∈ u ++ c!")" := by rw [e]; simp
    simp at this; exact absurd this hu
  · have : ',' ∈ u' ++ c!")" := by rw [← e]; simp
    simp at this; exact absurd this hu'
  · obtain ⟨rfl, h⟩ := split_char hu hu' e
    exact ⟨rfl, by rw [h]⟩

theorem quote_other {s : Seen} (h : Readable s) (hs : NotStr s) {t r r' : Str} (e : c!"\"" ++ t ++ r = showSeen s ++ r') : False := by
  cases hc : showSeen s with
  | nil => exact showSeen_ne h hc
  | cons x l =>
    rw [hc] at e
    simp only [List.cons_append, List.nil_append, List.cons.injEq] at e
    have := noComma h hs (x := '"') (.inr rfl)
    rw [hc] at this
    exact this (by rw [e.1]; exact List.mem_cons_self)

theorem value_split {s s' : Seen} {r r' : Str} (h : Readable s) (h' : Readable s') (hr : Tail r) (hr' : Tail r') (e : showSeen s ++ r = showSeen s' ++ r') :
    s = s' ∧ r = r' := by
  by_cases hs : NotStr s <;> by_cases hs' : NotStr s'
  · obtain ⟨h1, h2⟩ := tail_split (noComma h hs (.inl rfl)) (noComma h' hs' (.inl rfl)) hr hr' e
    exact ⟨showSeen_inj h h' hs hs' h1, h2⟩
  · cases s' with
    | str t =>
      have e' : c!"\"" ++ (t ++ c!"\"") ++ r' = showSeen s ++ r := by rw [e]; simp [showSeen]
      exact (quote_other h hs e').elim
    | _ => exact absurd trivial hs'
  · cases s with
    | str t =>
      have e' : c!"\"" ++ (t ++ c!"\"") ++ r = showSeen s' ++ r' := by rw [← e]; simp [showSeen]
      exact (quote_other h' hs' e').elim
    | _ => exact absurd trivial hs
  · cases s with
    | str t =>
      cases s' with
      | str t' =>
        have e' : t ++ '"' :: r = t' ++ '"' :: r' := by
          simp only [showSeen] at e
          simpa using e
        obtain ⟨rfl, h2⟩ := split_char h h' e'
        exact ⟨rfl, h2⟩
      | _ => exact absurd trivial hs'
    | _ => exact absurd trivial hs

theorem joinItems_cons (i j : Str) (l : List Str) : joinItems (i :: j :: l) = i ++ c!", " ++ joinItems (j :: l) := rfl

/-- The text of one attribute and what follows it. -/
theorem join_tail (i : Str) (l : List Str) : ∃ r, joinItems (i :: l) ++ c!")" = i ++ r ∧ Tail r ∧
    (l = [] ∧ r = c!")" ∨ ∃ j l', l = j :: l' ∧ r = c!", " ++ (joinItems (j :: l') ++ c!")")) := by
  cases l with
  | nil => exact ⟨c!")", rfl, .inl rfl, .inl ⟨rfl, rfl⟩⟩
  | cons j l =>
    refine ⟨c!", " ++ (joinItems (j :: l) ++ c!")"), ?_, .inr ⟨_, rfl⟩, .inr ⟨j, l, rfl, rfl⟩⟩
    rw [joinItems_cons]; simp

theorem fields_split : ∀ {l l' : List (Str × Seen)}, (∀ f ∈ l, Name f.1 ∧ Readable f.2) → (∀ f ∈ l', Name f.1 ∧ Readable f.2) →
    joinItems (l.map (fun f => f.1 ++ c!" = " ++ showSeen f.2)) ++ c!")" = joinItems (l'.map (fun f => f.1 ++ c!" = " ++ showSeen f.2)) ++ c!")" → l = l' := by
  have hne : ∀ (f : Str × Seen) (l : List (Str × Seen)), Name f.1 →
      joinItems ((f :: l).map (fun f => f.1 ++ c!" = " ++ showSeen f.2)) ++ c!")" ≠ c!")" := by
    intro f l hf e
    rw [List.map_cons] at e
    obtain ⟨r, h1, _⟩ := join_tail (f.1 ++ c!" = " ++ showSeen f.2) (l.map (fun f => f.1 ++ c!" = " ++ showSeen f.2))
    rw [h1] at e
    cases hn : f.1 with
    | nil => exact hf.1 hn
    | cons x n =>
      rw [hn] at e
      have := congrArg List.length e
      simp at this
  intro l
  induction l with
  | nil =>
    intro l' _ h' e
    cases l' with
    | nil => rfl
    | cons f l' => exact absurd e.symm (hne f l' (h' f (by simp)).1)
  | cons f l ih =>
    intro l' h h' e
    cases l' with
    | nil => exact absurd e (hne f l (h f (by simp)).1)
    | cons f' l' =>
      rw [List.map_cons, List.map_cons] at e
      obtain ⟨r, h1, h2, h3⟩ := join_tail (f.1 ++ c!" = " ++ showSeen f.2) (l.map (fun f => f.1 ++ c!" = " ++ showSeen f.2))
      obtain ⟨r', h1', h2', h3'⟩ := join_tail (f'.1 ++ c!" = " ++ showSeen f'.2) (l'.map (fun f => f.1 ++ c!" = " ++ showSeen f.2))
      rw [h1, h1'] at e
      have n1 := name_free (h f (by simp)).1 (x := ' ') (by decide) (by decide) (by decide)
      have n2 := name_free (h' f' (by simp)).1 (x := ' ') (by decide) (by decide) (by decide)
      have e2 : f.1 ++ ' ' :: (c!"= " ++ (showSeen f.2 ++ r)) = f'.1 ++ ' ' :: (c!"= " ++ (showSeen f'.2 ++ r')) := by
        simpa using e
      obtain ⟨e3, e4⟩ := split_char n1 n2 e2
      have e5 := List.append_cancel_left e4
      obtain ⟨e6, e7⟩ := value_split (h f (by simp)).2 (h' f' (by simp)).2 h2 h2' e5
      have ef : f = f' := Prod.ext e3 e6
      subst ef
      congr 1
      rcases h3 with ⟨hl, rfl⟩ | ⟨j, k, hl, rfl⟩ <;> rcases h3' with ⟨hl', rfl⟩ | ⟨j', k', hl', rfl⟩
      · rw [List.map_eq_nil_iff] at hl hl'; rw [hl, hl']
      · cases e7
      · cases e7
      · apply ih (fun g hg => h g (by simp [hg])) (fun g hg => h' g (by simp [hg]))
        rw [hl, hl']
        exact List.append_cancel_left e7

/-- **C81**, reading the text: if texts have no quotation marks, the text of an object says which class it has, which attributes in which
order, all strings, numbers and truth values, and sizes and classes of the others: objects with the same text agree in all of these. -/
theorem C81_read {h h' : Heap} {a a' : Addr} {cls cls' : Str} {fields fields' : List (Str × Value)} (ha : h a = .object cls fields)
    (ha' : h' a' = .object cls' fields') (hc : Name cls) (hc' : Name cls') (hf : ∀ f ∈ fields, Name f.1 ∧ Readable (seen h f.2))
    (hf' : ∀ f ∈ fields', Name f.1 ∧ Readable (seen h' f.2)) (e : autoStr h a = autoStr h' a') :
    cls = cls' ∧ fields.map (fun f => (f.1, seen h f.2)) = fields'.map (fun f => (f.1, seen h' f.2)) := by
  unfold autoStr at e
  rw [ha, ha'] at e
  simp only [Except.ok.injEq, valueStr_seen] at e
  have e2 : cls ++ '(' :: (joinItems (fields.map (fun f => f.1 ++ c!" = " ++ showSeen (seen h f.2))) ++ c!")") =
      cls' ++ '(' :: (joinItems (fields'.map (fun f => f.1 ++ c!" = " ++ showSeen (seen h' f.2))) ++ c!")") := by simpa using e
  obtain ⟨h1, h2⟩ := split_char (name_free hc (by decide) (by decide) (by decide)) (name_free hc' (by decide) (by decide) (by decide)) e2
  refine ⟨h1, ?_⟩
  apply fields_split
  · intro f hm
    obtain ⟨g, hg, rfl⟩ := List.mem_map.1 hm
    exact hf g hg
  · intro f hm
    obtain ⟨g, hg, rfl⟩ := List.mem_map.1 hm
    exact hf' g hg
  · simpa [List.map_map, Function.comp_def] using h2

/-! ## Objects of the package -/

/-- `models/reqif_spec_object.py` 38-49: the object at an address is this SPEC-OBJECT, with its attributes in the order of the
assignments.  How many entries the dictionary has is left open. -/
def IsSpecObject (h : Heap) (a : Addr) (o : SpecObject) : Prop :=
  ∃ l m items entries,
    h a = .object c!"ReqIFSpecObject"
      [(c!"identifier", .str o.identifier), (c!"attributes", .ref l), (c!"spec_object_type", opt o.specObjectType), (c!"description", opt o.description),
       (c!"last_change", opt o.lastChange), (c!"long_name", opt o.longName), (c!"xml_node", if o.xmlNode.isSome then .other c!"_Element" else .none),
       (c!"attribute_map", .ref m)] ∧
    h l = .list items ∧ items.length = o.attributes.length ∧ h m = .dict entries
where
  opt : Option Str → Value
    | some s => .str s
    | none => .none

/-- Strings of a SPEC-OBJECT have no quotation marks. -/
def NoQuotes (o : SpecObject) : Prop :=
  '"' ∉ o.identifier ∧ ∀ s, (o.specObjectType = some s ∨ o.description = some s ∨ o.lastChange = some s ∨ o.longName = some s) → '"' ∉ s

theorem opt_seen (h : Heap) (x : Option Str) (hx : ∀ s, x = some s → '"' ∉ s) : Readable (seen h (IsSpecObject.opt x)) := by
  cases x with
  | none => exact ⟨by decide, by decide⟩
  | some s => exact hx s rfl

theorem opt_inj {h h' : Heap} {x y : Option Str} (e : seen h (IsSpecObject.opt x) = seen h' (IsSpecObject.opt y)) : x = y := by
  cases x <;> cases y <;> simp [IsSpecObject.opt, seen] at e ⊢
  exact e

/-- **C81** for SPEC-OBJECTs: two with the same text have the same identifier, type, description, date and name, and as many values. -/
theorem C81_object {h h' : Heap} {a a' : Addr} {o o' : SpecObject} (ho : IsSpecObject h a o) (ho' : IsSpecObject h' a' o') (hq : NoQuotes o) (hq' : NoQuotes o')
    (e : autoStr h a = autoStr h' a') : o.identifier = o'.identifier ∧ o.specObjectType = o'.specObjectType ∧ o.description = o'.description ∧
      o.lastChange = o'.lastChange ∧ o.longName = o'.longName ∧ o.attributes.length = o'.attributes.length := by
  obtain ⟨l, m, items, entries, h1, h2, h3, h4⟩ := ho
  obtain ⟨l', m', items', entries', h1', h2', h3', h4'⟩ := ho'
  have hr : ∀ {h : Heap} {l m : Addr} {items : List Value} {entries : List (Value × Value)} {o : SpecObject}, h l = .list items → h m = .dict entries → NoQuotes o →
      ∀ f ∈ [(c!"identifier", Value.str o.identifier), (c!"attributes", .ref l), (c!"spec_object_type", IsSpecObject.opt o.specObjectType), (c!"description", IsSpecObject.opt o.description),
       (c!"last_change", IsSpecObject.opt o.lastChange), (c!"long_name", IsSpecObject.opt o.longName), (c!"xml_node", if o.xmlNode.isSome then .other c!"_Element" else .none),
       (c!"attribute_map", .ref m)], Name f.1 ∧ Readable (seen h f.2) := by
    intro h l m items entries o hl hm hq f hf
    simp only [List.mem_cons, List.not_mem_nil, or_false] at hf
    have nm : ∀ s : Str, s ≠ [] → (∀ c ∈ s, c.isAlphanum = true ∨ c = '_' ∨ 128 ≤ c.toNat) → Name s := fun s h1 h2 => ⟨h1, h2⟩
    rcases hf with rfl | rfl | rfl | rfl | rfl | rfl | rfl | rfl
    · exact ⟨nm c!"identifier" (by decide) (by decide), hq.1⟩
    · refine ⟨nm c!"attributes" (by decide) (by decide), ?_⟩
      simp only [seen, hl]; trivial
    · exact ⟨nm c!"spec_object_type" (by decide) (by decide), opt_seen h _ (fun s hs => hq.2 s (.inl hs))⟩
    · exact ⟨nm c!"description" (by decide) (by decide), opt_seen h _ (fun s hs => hq.2 s (.inr (.inl hs)))⟩
    · exact ⟨nm c!"last_change" (by decide) (by decide), opt_seen h _ (fun s hs => hq.2 s (.inr (.inr (.inl hs))))⟩
    · exact ⟨nm c!"long_name" (by decide) (by decide), opt_seen h _ (fun s hs => hq.2 s (.inr (.inr (.inr hs))))⟩
    · refine ⟨nm c!"xml_node" (by decide) (by decide), ?_⟩
      dsimp only
      split
      · exact nm c!"_Element" (by decide) (by decide)
      · exact nm c!"NoneType" (by decide) (by decide)
    · refine ⟨nm c!"attribute_map" (by decide) (by decide), ?_⟩
      simp only [seen, hm]; trivial
  have hcl : Name c!"ReqIFSpecObject" := ⟨by decide, by decide⟩
  obtain ⟨_, hs⟩ := C81_read h1 h1' hcl hcl (hr h2 h4 hq) (hr h2' h4' hq') e
  simp only [List.map_cons, List.map_nil, List.cons.injEq, Prod.mk.injEq, true_and, and_true] at hs
  obtain ⟨s1, s2, s3, s4, s5, s6, _, _⟩ := hs
  refine ⟨by simpa [seen] using s1, opt_inj s3, opt_inj s4, opt_inj s5, opt_inj s6, ?_⟩
  simp only [seen, h2, h2', Seen.list.injEq] at s2
  omega

/-! ## Cases -/

/-- Two objects that refer to each other: the case of the unit test. -/
def pair : Heap := fun a =>
  if a = 0 then .object c!"A" [(c!"prop1", .str c!"FOO"), (c!"prop2", .ref 1), (c!"prop3", .ref 2), (c!"prop4", .ref 3), (c!"prop5", .bytes [49, 50, 51])]
  else if a = 1 then .object c!"B" [(c!"B1", .str c!"FOO"), (c!"B2", .ref 0)]
  else if a = 2 then .list [.int 1, .int 2, .int 3]
  else .dict [(.str c!"a", .int 123)]

/-- The expected text of the unit test (`test_debug.py`). -/
example : autoStr pair 0 = .ok c!"A(prop1 = \"FOO\", prop2 = B(...), prop3 = [3 elements], prop4 = {1 elements}, prop5 = b'123')" := by rfl

/-- An object with two strings, at address 0. -/
def twoStrings (p q : Str) : Heap := fun _ => .object c!"A" [(c!"p", .str p), (c!"q", .str q)]

/-- **C81**, where the text is not enough: quotation marks are not escaped, so objects with different strings can have the same text. -/
theorem C81_quotes : autoStr (twoStrings c!"a\", q = \"b" c!"c") 0 = autoStr (fun _ => .object c!"A" [(c!"p", .str c!"a"), (c!"q", .str c!"b"), (c!"q", .str c!"c")]) 0 ∧
    autoStr (twoStrings c!"" c!"\", q = \"") 0 = autoStr (twoStrings c!"\", q = \"" c!"") 0 := by
  constructor <;> rfl

/-- Non-vacuity of `C81_read` and `C81_local`. -/
example : (∀ f ∈ [(c!"p", Value.str c!"a"), (c!"q", Value.str c!"b")], Name f.1 ∧ Readable (seen (twoStrings c!"a" c!"b") f.2)) ∧ Name c!"A" := by
  refine ⟨?_, ⟨by decide, by decide⟩⟩
  intro f hf
  simp only [List.mem_cons, List.not_mem_nil, or_false] at hf
  rcases hf with rfl | rfl
  · exact ⟨⟨by decide, by decide⟩, by show '"' ∉ c!"a"; decide⟩
  · exact ⟨⟨by decide, by decide⟩, by show '"' ∉ c!"b"; decide⟩

/-- Non-vacuity of `C81_object`: an object without values. -/
example : IsSpecObject (fun a => if a = 0 then .object c!"ReqIFSpecObject"
      [(c!"identifier", .str c!"R1"), (c!"attributes", .ref 1), (c!"spec_object_type", .str c!"T"), (c!"description", .none),
       (c!"last_change", .none), (c!"long_name", .str c!"n"), (c!"xml_node", .none), (c!"attribute_map", .ref 2)]
      else if a = 1 then .list [] else .dict []) 0 ⟨c!"R1", [], some c!"T", none, none, some c!"n", none⟩ ∧
    NoQuotes ⟨c!"R1", [], some c!"T", none, none, some c!"n", none⟩ := by
  refine ⟨⟨1, 2, [], [], rfl, rfl, rfl, rfl⟩, by decide, ?_⟩
  rintro s (h | h | h | h) <;> cases h <;> decide

end ReqIF.Debug
