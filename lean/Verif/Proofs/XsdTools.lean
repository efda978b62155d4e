import Verif.Proofs.XsdStrip
import Verif.Proofs.Xhtml
import Verif.Proofs.ItemTools
/-! What a valid element contains, in the form the parsers ask for it. -/
set_option linter.unusedSimpArgs false
namespace ReqIF.Xsd
open Spec

variable {d : Dialect} {t : TypeName} {n : Node}

theorem Seen.isElem (h : Seen d t n) : ∃ i ks, n = .elem i ks := by
  have := h.valid
  cases n with
  | elem i ks => exact ⟨i, ks, rfl⟩
  | _ => simp [validBy] at this

theorem Seen.attrsOk (h : Seen d t n) : attrsOk (schema d t).attrs n.attrs = true := by
  obtain ⟨i, ks, rfl⟩ := h.isElem
  have := h.valid
  rw [validBy, Bool.and_eq_true, Bool.and_eq_true] at this
  exact this.1.1

theorem Seen.countOk (h : Seen d t n) : (schema d t).model.countOk n.kids = true := by
  obtain ⟨i, ks, rfl⟩ := h.isElem
  have := h.valid
  rw [validBy, Bool.and_eq_true, Bool.and_eq_true] at this
  exact this.1.2

theorem Seen.kidsOk (h : Seen d t n) : kidsBy (schema d) none (schema d t).model n.kids = true := by
  obtain ⟨i, ks, rfl⟩ := h.isElem
  have := h.valid
  rw [validBy, Bool.and_eq_true, Bool.and_eq_true] at this
  exact this.2

theorem Seen.kidsPlain (h : Seen d t n) : noSpecialsAll n.kids = true := by
  obtain ⟨i, ks, rfl⟩ := h.isElem
  have := h.plain
  rw [noSpecials] at this
  exact this

/-! ## Attributes -/

/-- A required attribute is there. -/
theorem Seen.attr (h : Seen d t n) {name : Str}
    (hr : (schema d t).attrs.any (fun a => a.name == name && a.required) = true) : ∃ v, n.attr? name = some v := by
  have ha := h.attrsOk
  unfold Xsd.attrsOk at ha
  rw [Bool.and_eq_true] at ha
  obtain ⟨x, hx1, hx2⟩ := List.any_eq_true.1 hr
  have := List.all_eq_true.1 ha.2 x hx1
  simp only [Bool.and_eq_true, beq_iff_eq] at hx2
  rw [hx2.2] at this
  obtain ⟨a, ha1, ha2⟩ := List.any_eq_true.1 this
  simp only [Bool.and_eq_true, beq_iff_eq, Option.isNone_iff_eq_none] at ha2
  have hk : (a.key == name) = true := by
    unfold Attr.key clark
    rw [ha2.1, ha2.2, hx2.1]
    simp
  unfold Node.attr?
  cases hf : n.attrs.find? (fun a => a.key == name) with
  | some b => exact ⟨b.value, rfl⟩
  | none => exact absurd hk (List.find?_eq_none.1 hf a ha1)

/-- An attribute without namespace has its declared type. -/
theorem Seen.attrType (h : Seen d t n) {name v : Str} (hv : n.attr? name = some v) (hn : name.head? ≠ some '{') :
    (schema d t).attrs.any (fun a => a.name == name && a.type.ok v) = true := by
  have ha := h.attrsOk
  unfold Xsd.attrsOk at ha
  rw [Bool.and_eq_true] at ha
  unfold Node.attr? at hv
  rw [Option.map_eq_some_iff] at hv
  obtain ⟨a, hf, rfl⟩ := hv
  have h1 := List.mem_of_find?_eq_some hf
  have h2 := List.find?_some hf
  simp only [beq_iff_eq] at h2
  have := List.all_eq_true.1 ha.1 a h1
  cases hns : a.ns with
  | some u =>
    unfold Attr.key clark at h2
    rw [hns] at h2
    rw [← h2] at hn
    exact absurd rfl hn
  | none =>
    unfold Attr.key clark at h2
    rw [hns] at h2
    have h3 : a.name = name := h2
    rw [hns, h3] at this
    exact this

/-! ## Children -/

theorem kid_seen {m : Model} (ho : m.isOpen = false) : ∀ {ks : List Node}, kidsBy (schema d) none m ks = true →
    noSpecialsAll ks = true → nsKeptAll ks = true → ∀ c ∈ ks, c.isText = false →
    ∃ i cs t', c = .elem i cs ∧ i.ns = none ∧ m.typeOf i.name = some t' ∧ Seen d t' c
  | [], _, _, _ => by intro c hc; cases hc
  | k :: ks, h, hp, hk => by
    rw [noSpecialsAll, Bool.and_eq_true] at hp
    rw [nsKeptAll, Bool.and_eq_true] at hk
    intro c hc ht
    rcases List.mem_cons.1 hc with rfl | hc
    · cases c with
      | text s => cases ht
      | comment s => simp [noSpecials] at hp
      | pi a b => simp [noSpecials] at hp
      | elem i cs =>
        rw [kidsBy, Bool.and_eq_true, Bool.or_eq_true, Bool.and_eq_true, beq_iff_eq, ho] at h
        rcases h.1 with h1 | ⟨h1, h2⟩
        · cases h1
        · split at h2
          · rename_i t' ht'
            exact ⟨i, cs, t', rfl, h1, ht', ⟨h2, hp.1, hk.1⟩⟩
          · cases h2
    · refine kid_seen ho ?_ hp.2 hk.2 c hc ht
      cases k with
      | text s => rw [kidsBy, Bool.and_eq_true] at h; exact h.2
      | comment s => simp [noSpecials] at hp
      | pi a b => simp [noSpecials] at hp
      | elem i cs => rw [kidsBy, Bool.and_eq_true] at h; exact h.2

theorem Seen.keptKids (h : Seen d t n) : nsKeptAll n.kids = true := by
  obtain ⟨i, ks, rfl⟩ := h.isElem
  have := h.kept
  rw [nsKept, Bool.and_eq_true] at this
  exact this.2

theorem Seen.child (h : Seen d t n) (ho : (schema d t).model.isOpen = false) {c : Node} (hc : c ∈ n.children) :
    ∃ nm t', c.tag = .name nm ∧ (schema d t).model.typeOf nm = some t' ∧ Seen d t' c := by
  unfold Node.children at hc
  rw [List.mem_filter] at hc
  obtain ⟨i, cs, t', e, h1, h2, h3⟩ := kid_seen ho h.kidsOk h.kidsPlain h.keptKids c hc.1 (by simpa using hc.2)
  refine ⟨i.name, t', ?_, h2, h3⟩
  rw [e]
  simp only [Node.tag, Info.tag, h1]
  rfl

theorem Seen.find (h : Seen d t n) (ho : (schema d t).model.isOpen = false) {nm : Str} {c : Node} (hc : n.find nm = some c) :
    ∃ t', (schema d t).model.typeOf nm = some t' ∧ Seen d t' c ∧ c.tag = .name nm := by
  unfold Node.find at hc
  have h1 := List.mem_of_find?_eq_some hc
  have h2 := List.find?_some hc
  rw [Bool.and_eq_true, beq_iff_eq] at h2
  obtain ⟨nm', t', e1, e2, e3⟩ := h.child ho (c := c) (List.mem_filter.2 ⟨h1, h2.1⟩)
  rw [e1] at h2
  have e : nm' = nm := by injection h2.2
  rw [e] at e2 e1
  exact ⟨t', e2, e3, e1⟩

theorem childNames_find {m : Model} (ho : m.isOpen = false) : ∀ {ks : List Node}, kidsBy (schema d) none m ks = true → ∀ {nm : Str},
    nm ∈ childNames ks → (ks.find? (fun k => !k.isText && k.tag == .name nm)).isSome = true
  | [], _, nm, hn => by cases hn
  | k :: ks, h, nm, hn => by
    have rest : nm ∈ childNames ks → kidsBy (schema d) none m ks = true →
        ((k :: ks).find? (fun k => !k.isText && k.tag == .name nm)).isSome = true := by
      intro h1 h2
      rw [List.find?_cons]
      split
      · rfl
      · exact childNames_find ho h2 h1
    cases k with
    | text s => rw [kidsBy, Bool.and_eq_true] at h; exact rest hn h.2
    | comment s => rw [kidsBy] at h; exact rest hn h; all_goals simp
    | pi a b => rw [kidsBy] at h; exact rest hn h; all_goals simp
    | elem i cs =>
      rw [kidsBy, Bool.and_eq_true, Bool.or_eq_true, Bool.and_eq_true, beq_iff_eq, ho] at h
      simp only [childNames] at hn
      rcases List.mem_cons.1 hn with rfl | hn
      · rcases h.1 with h1 | ⟨h1, -⟩
        · cases h1
        · rw [List.find?_cons]
          have : (!(Node.elem i cs).isText && (Node.elem i cs).tag == .name i.name) = true := by
            simp only [Node.isText, Node.tag, Info.tag, h1]
            simp [clark]
          rw [this]
          rfl
      · exact rest hn h.2

/-- Must there be a child with this name? -/
def Model.needs : Model → Str → Bool
  | .all es, nm => es.any (fun p => p.name == nm && p.required)
  | .sequence _ es, nm => es.any (fun p => p.name == nm && p.required)
  | .choice min _ [e], nm => 1 ≤ min && e.1 == nm
  | _, _ => false

theorem seqOk_mem : ∀ {es : List Particle} {ns : List Str}, seqOk es ns = true → ∀ p ∈ es, p.required = true → p.name ∈ ns
  | [], ns, _ => by intro p hp; cases hp
  | e :: es, [], h => by
    rw [seqOk, Bool.and_eq_true] at h
    intro p hp hr
    rcases List.mem_cons.1 hp with rfl | hp
    · rw [hr] at h; exact absurd h.1 (by simp)
    · exact absurd (seqOk_mem h.2 p hp hr) (by simp)
  | e :: es, a :: ns, h => by
    rw [seqOk] at h
    intro p hp hr
    split at h
    · rename_i ea
      rcases List.mem_cons.1 hp with rfl | hp
      · rw [ea]; simp
      · exact List.mem_cons_of_mem _ (seqOk_mem h p hp hr)
    · rw [Bool.and_eq_true] at h
      rcases List.mem_cons.1 hp with rfl | hp
      · rw [hr] at h; exact absurd h.1 (by simp)
      · exact seqOk_mem h.2 p hp hr

theorem childNames_typeOf {m : Model} (ho : m.isOpen = false) : ∀ {ks : List Node}, kidsBy (schema d) none m ks = true →
    ∀ nm ∈ childNames ks, (m.typeOf nm).isSome = true
  | [], _ => by intro nm hn; cases hn
  | k :: ks, h => by
    intro nm hn
    cases k with
    | text s => rw [kidsBy, Bool.and_eq_true] at h; exact childNames_typeOf ho h.2 nm hn
    | comment s => rw [kidsBy] at h; exact childNames_typeOf ho h nm hn; all_goals simp
    | pi a b => rw [kidsBy] at h; exact childNames_typeOf ho h nm hn; all_goals simp
    | elem i cs =>
      rw [kidsBy, Bool.and_eq_true, Bool.or_eq_true, Bool.and_eq_true, beq_iff_eq, ho] at h
      simp only [childNames] at hn
      rcases List.mem_cons.1 hn with rfl | hn
      · rcases h.1 with h1 | ⟨-, h1⟩
        · cases h1
        · split at h1
          · rename_i e; rw [e]; rfl
          · cases h1
      · exact childNames_typeOf ho h.2 nm hn

theorem needs_mem {m : Model} (ho : m.isOpen = false) {ks : List Node} (hk : kidsBy (schema d) none m ks = true)
    (hc : m.countOk ks = true) {nm : Str} (hn : m.needs nm = true) : nm ∈ childNames ks := by
  cases m with
  | all es =>
    simp only [Model.needs] at hn
    obtain ⟨p, hp1, hp2⟩ := List.any_eq_true.1 hn
    rw [Bool.and_eq_true, beq_iff_eq] at hp2
    simp only [Model.countOk, Bool.and_eq_true] at hc
    have := List.all_eq_true.1 hc.2 p hp1
    rw [hp2.2, hp2.1] at this
    simpa using this
  | sequence b es =>
    simp only [Model.needs] at hn
    obtain ⟨p, hp1, hp2⟩ := List.any_eq_true.1 hn
    rw [Bool.and_eq_true, beq_iff_eq] at hp2
    cases b with
    | true =>
      simp only [Model.countOk] at hc
      rw [← hp2.1]
      exact seqOk_mem hc p hp1 hp2.2
    | false =>
      simp only [Model.countOk, Bool.and_eq_true] at hc
      have := List.all_eq_true.1 hc.2 p hp1
      rw [hp2.2, hp2.1] at this
      simpa using this
  | choice a b es =>
    cases es with
    | nil => simp [Model.needs] at hn
    | cons e es =>
      cases es with
      | cons _ _ => simp [Model.needs] at hn
      | nil =>
        simp only [Model.needs, Bool.and_eq_true, decide_eq_true_eq, beq_iff_eq] at hn
        simp only [Model.countOk, Bool.and_eq_true, decide_eq_true_eq] at hc
        have ht := childNames_typeOf ho hk
        cases hcn : childNames ks with
        | nil => rw [hcn] at hc; simp at hc; omega
        | cons x xs =>
          have := ht x (by rw [hcn]; simp)
          have e1 : e.1 = x := by
            cases hx : (e.1 == x) with
            | true => simpa using hx
            | false => simp [Model.typeOf, hx] at this
          rw [← hn.2, e1]
          simp
  | _ => simp [Model.needs] at hn

/-- A required child is there and valid. -/
theorem Seen.need (h : Seen d t n) {nm : Str} {t' : TypeName} (ho : (schema d t).model.isOpen = false)
    (hn : (schema d t).model.needs nm = true) (ht : (schema d t).model.typeOf nm = some t') :
    ∃ c, n.find nm = some c ∧ Seen d t' c ∧ c.tag = .name nm := by
  have h1 := childNames_find ho h.kidsOk (needs_mem ho h.kidsOk h.countOk hn)
  obtain ⟨c, hc⟩ := Option.isSome_iff_exists.1 h1
  have hf : n.find nm = some c := hc
  obtain ⟨t'', e1, e2, e3⟩ := h.find ho hf
  rw [ht] at e1
  cases e1
  exact ⟨c, hf, e2, e3⟩

/-- An optional child is absent, or there and valid. -/
theorem Seen.opt (h : Seen d t n) {nm : Str} {t' : TypeName} (ho : (schema d t).model.isOpen = false)
    (ht : (schema d t).model.typeOf nm = some t') :
    n.find nm = none ∨ ∃ c, n.find nm = some c ∧ Seen d t' c ∧ c.tag = .name nm := by
  cases hf : n.find nm with
  | none => exact .inl rfl
  | some c =>
    obtain ⟨t'', e1, e2, e3⟩ := h.find ho hf
    rw [ht] at e1
    cases e1
    exact .inr ⟨c, rfl, e2, e3⟩

theorem findReq_some {x c : Node} {nm : Str} (h : x.find nm = some c) : findReq x nm = .ok c := by
  unfold findReq; rw [h]; rfl
theorem attrReq_some {x : Node} {nm v : Str} (h : x.attr? nm = some v) : attrReq x nm = .ok v := by
  unfold attrReq; rw [h]; rfl
theorem attrReqNI_some {x : Node} {nm v : Str} (h : x.attr? nm = some v) : attrReqNI x nm = .ok v := by
  unfold attrReqNI; rw [attrReq_some h]; rfl

theorem find_children {x c : Node} {nm : Str} (h : x.find nm = some c) : c ∈ x.children ∧ c.tag = .name nm := by
  unfold Node.find at h
  have h1 := List.mem_of_find?_eq_some h
  have h2 := List.find?_some h
  rw [Bool.and_eq_true, beq_iff_eq] at h2
  exact ⟨List.mem_filter.2 ⟨h1, h2.1⟩, h2.2⟩

theorem find_childTags {x c : Node} {nm : Str} (h : x.find nm = some c) : (childTags x).contains (.name nm) = true := by
  obtain ⟨h1, h2⟩ := find_children h
  unfold childTags
  rw [List.contains_iff_mem]
  exact List.mem_map.2 ⟨c, h1, h2⟩

theorem find_firstChild {x c : Node} {nm : Str} (h : x.find nm = some c) : ∃ c', firstChild x = .ok c' ∧ c' ∈ x.children := by
  obtain ⟨h1, -⟩ := find_children h
  unfold firstChild
  cases hx : x.children with
  | nil => rw [hx] at h1; cases h1
  | cons a as => exact ⟨a, rfl, by simp⟩

/-! ## Alternatives -/

theorem typeOf_choice {a : Nat} {b : Option Nat} {es : List (Str × TypeName)} {nm : Str} {t' : TypeName}
    (h : (Model.choice a b es).typeOf nm = some t') : (nm, t') ∈ es := by
  simp only [Model.typeOf, Option.map_eq_some_iff] at h
  obtain ⟨p, hp, e⟩ := h
  have h1 := List.mem_of_find?_eq_some hp
  have h2 := List.find?_some hp
  simp only [beq_iff_eq] at h2
  rw [← h2, ← e]
  exact h1

/-! ## Loops -/

theorem mapPy_all {α β : Type} {f : α → Py β} {P : β → Prop} : ∀ {xs : List α}, (∀ x ∈ xs, ∃ y, f x = .ok y ∧ P y) →
    ∃ ys, mapPy f xs = .ok ys ∧ ∀ y ∈ ys, P y
  | [], _ => ⟨[], rfl, by simp⟩
  | x :: xs, h => by
    obtain ⟨y, h1, h2⟩ := h x (by simp)
    obtain ⟨ys, h3, h4⟩ := mapPy_all (fun x' hx => h x' (List.mem_cons_of_mem _ hx))
    refine ⟨y :: ys, by rw [mapPy, h1, h3], ?_⟩
    intro z hz
    rcases List.mem_cons.1 hz with rfl | hz
    · exact h2
    · exact h4 z hz

theorem concatPy_all {α : Type} {f : α → Py Str} : ∀ {xs : List α}, (∀ x ∈ xs, ∃ s, f x = .ok s) → ∃ s, concatPy f xs = .ok s
  | [], _ => ⟨[], rfl⟩
  | x :: xs, h => by
    obtain ⟨y, h1⟩ := h x (by simp)
    obtain ⟨ys, h3⟩ := concatPy_all (fun x' hx => h x' (List.mem_cons_of_mem _ hx))
    exact ⟨y ++ ys, by rw [concatPy, h1, h3]⟩

/-! ## Text -/

theorem trim_nil : trim [] = [] := rfl

theorem textOf_text {ks : List Node} (hp : noSpecialsAll ks = true) (hc : childNames ks = []) (ht : textOf ks ≠ []) :
    ∃ s ks', ks = .text s :: ks' := by
  cases ks with
  | nil => exact absurd rfl ht
  | cons k ks =>
    cases k with
    | text s => exact ⟨s, ks, rfl⟩
    | elem i cs => simp [childNames] at hc
    | comment s => simp [noSpecialsAll, noSpecials] at hp
    | pi a b => simp [noSpecialsAll, noSpecials] at hp

/-- A reference is not empty. -/
theorem Seen.refText (h : Seen d (.text .localRef) n) : ∃ s, n.text? = some s := by
  have h1 := h.countOk
  have h2 := h.kidsPlain
  obtain ⟨i, ks, rfl⟩ := h.isElem
  simp only [schema, Model.countOk, Node.kids, Bool.and_eq_true, List.isEmpty_iff] at h1 h2
  obtain ⟨s, ks', e⟩ := textOf_text h2 h1.1 (by
    intro e
    rw [e] at h1
    have h3 := h1.2
    cases d <;> cases h3)
  rw [e]
  exact ⟨s, rfl⟩

/-! ## XHTML -/

mutual
theorem plain_noPI : ∀ n : Node, noSpecials n = true → hasPI n = false
  | .text s, _ => rfl
  | .comment s, h => by simp [noSpecials] at h
  | .pi a b, h => by simp [noSpecials] at h
  | .elem i ks, h => by
    rw [noSpecials] at h
    rw [hasPI]
    exact plainAll_noPI ks h

theorem plainAll_noPI : ∀ ns : List Node, noSpecialsAll ns = true → hasPIs ns = false
  | [], _ => rfl
  | n :: ns, h => by
    rw [noSpecialsAll, Bool.and_eq_true] at h
    rw [hasPIs, plain_noPI n h.1, plainAll_noPI ns h.2]
    rfl
end

theorem stringifyNs_ok (h : noSpecials n = true) (hm : n.nsmap ≠ []) : ∃ s, stringifyNamespacedChildren n = .ok s := by
  unfold stringifyNamespacedChildren
  rw [if_neg (by simpa using hm)]
  refine ⟨_, stringifyNsKids_text _ (noSpecialsAll_infos _ ?_)⟩
  cases n with
  | elem i ks => rw [noSpecials] at h; exact h
  | _ => rfl

/-- XHTML default values have namespaces in force. -/
theorem Seen.outer (h : Seen d (.xhtmlContent true) n) (hd : d ≠ .xsd) : n.nsmap ≠ [] := by
  have h1 := h.countOk
  have h2 := h.kept
  obtain ⟨i, ks, rfl⟩ := h.isElem
  have hd' : (d != .xsd) = true := by cases d <;> first | rfl | exact absurd rfl hd
  simp only [schema, Model.countOk, Node.kids, hd', Bool.true_and, Bool.not_true, Bool.false_or, Bool.and_eq_true] at h1
  rw [nsKept, Bool.and_eq_true] at h2
  have h3 : ks.any outerXhtml = true := by
    obtain ⟨k, hk1, hk2⟩ := List.any_eq_true.1 h1.2
    refine List.any_eq_true.2 ⟨k, hk1, ?_⟩
    have hx : ∀ ks : List Node, areXhtml ks = true → ∀ k ∈ ks, isXhtml k = true := by
      intro ks
      induction ks with
      | nil => intro _ k hk; cases hk
      | cons a as ih =>
        intro hh k hk
        rw [areXhtml, Bool.and_eq_true] at hh
        rcases List.mem_cons.1 hk with rfl | hk
        · exact hh.1
        · exact ih hh.2 k hk
    have := hx ks h1.1 k hk1
    cases k with
    | elem j cs =>
      rw [isXhtml, Bool.and_eq_true] at this
      simp only [declaresNothing] at hk2
      simp only [outerXhtml, this.1, hk2, Bool.and_self]
    | _ => cases hk2
  rw [h3] at h2
  intro e
  have e' : i.nsmap = [] := e
  rw [e'] at h2
  exact absurd h2.1 (by simp)

/-! ## Numbers -/

theorem isWs_pySpace {c : Char} (h : isWs c = true) : isPySpace c = true := by
  unfold isWs at h
  simp only [Bool.or_eq_true, beq_iff_eq] at h
  rcases h with ((rfl | rfl) | rfl) | rfl <;> rfl

theorem dropWhile_split (p : Char → Bool) : ∀ s : Str, ∃ a, s = a ++ s.dropWhile p ∧ ∀ c ∈ a, p c = true
  | [] => ⟨[], rfl, by simp⟩
  | c :: s => by
    by_cases h : p c = true
    · obtain ⟨a, h1, h2⟩ := dropWhile_split p s
      refine ⟨c :: a, ?_, ?_⟩
      · rw [List.dropWhile_cons, if_pos h, List.cons_append, ← h1]
      · intro x hx
        rcases List.mem_cons.1 hx with rfl | hx
        · exact h
        · exact h2 x hx
    · exact ⟨[], by rw [List.dropWhile_cons, if_neg h]; rfl, by simp⟩

theorem trim_split (s : Str) : ∃ a b, s = a ++ trim s ++ b ∧ (∀ c ∈ a, isPySpace c = true) ∧ ∀ c ∈ b, isPySpace c = true := by
  obtain ⟨a, h1, h2⟩ := dropWhile_split isWs s
  obtain ⟨b, h3, h4⟩ := dropWhile_split isWs (s.dropWhile isWs).reverse
  refine ⟨a, b.reverse, ?_, fun c hc => isWs_pySpace (h2 c hc), fun c hc => isWs_pySpace (h4 c (List.mem_reverse.1 hc))⟩
  unfold trim
  rw [List.append_assoc, ← List.reverse_append, ← h3, List.reverse_reverse]
  exact h1

theorem dropWhile_stop {p : Char → Bool} {s t : Str} (hs : s ≠ []) (h : ∀ c ∈ s, p c = false) : (s ++ t).dropWhile p = s ++ t := by
  cases s with
  | nil => exact absurd rfl hs
  | cons c s => rw [List.cons_append, List.dropWhile_cons, if_neg (by simp [h c])]

/-- `strip` removes white space around a text without any. -/
theorem strip_around {a s b : Str} (ha : ∀ c ∈ a, isPySpace c = true) (hb : ∀ c ∈ b, isPySpace c = true) (hs : s ≠ [])
    (h : ∀ c ∈ s, isPySpace c = false) : strip (a ++ s ++ b) = s := by
  unfold strip rstrip lstrip
  rw [List.append_assoc, List.dropWhile_append_of_pos ha, dropWhile_stop hs h, List.reverse_append,
    List.dropWhile_append_of_pos (fun c hc => hb c (List.mem_reverse.1 hc)), ← List.append_nil s.reverse,
    dropWhile_stop (by simpa using hs) (fun c hc => h c (List.mem_reverse.1 hc)), List.append_nil, List.reverse_reverse]

theorem isDigit_facts' {c : Char} (h : isDigit c = true) : isPySpace c = false ∧ c ≠ '-' ∧ c ≠ '+' := by
  have : c.isDigit = true := by
    unfold isDigit at h
    unfold Char.isDigit
    simp only [Bool.and_eq_true, decide_eq_true_eq] at h ⊢
    exact h
  exact ⟨(isDigit_facts this).1, (isDigit_facts this).2.1, (isDigit_facts this).2.2.1⟩

theorem digitsGo_ok : ∀ {s : Str} (acc : Nat) (b : Bool), (b = true ∨ s ≠ []) → s.all isDigit = true → ∃ n, digitsGo acc b s = some n
  | [], acc, b, hb, _ => by
    rcases hb with rfl | h
    · exact ⟨acc, rfl⟩
    · exact absurd rfl h
  | c :: s, acc, b, _, h => by
    rw [List.all_cons, Bool.and_eq_true] at h
    have h1 : ('0' ≤ c && c ≤ '9') = true := h.1
    rw [digitsGo, if_pos h1]
    exact digitsGo_ok _ true (.inl rfl) h.2

/-- `int` accepts the integers of XML Schema. -/
theorem pyInt_ok {s : Str} (h : isInteger (trim s) = true) : ∃ n, pyInt s = some n := by
  obtain ⟨a, b, e, ha, hb⟩ := trim_split s
  generalize trim s = t at h e
  have hd : ∀ u : Str, u.all isDigit = true → ∀ c ∈ u, isPySpace c = false := fun u hu c hc =>
    (isDigit_facts' (List.all_eq_true.1 hu c hc)).1
  have ht : t ≠ [] ∧ ∀ c ∈ t, isPySpace c = false := by
    unfold isInteger at h
    split at h
    · rename_i u
      rw [Bool.and_eq_true] at h
      refine ⟨by simp, ?_⟩
      intro c hc
      rcases List.mem_cons.1 hc with rfl | hc
      · rfl
      · exact hd u h.2 c hc
    · rename_i u
      rw [Bool.and_eq_true] at h
      refine ⟨by simp, ?_⟩
      intro c hc
      rcases List.mem_cons.1 hc with rfl | hc
      · rfl
      · exact hd u h.2 c hc
    · rw [Bool.and_eq_true] at h
      exact ⟨by simpa using h.1, hd _ h.2⟩
  unfold pyInt
  rw [e, strip_around ha hb ht.1 ht.2]
  unfold isInteger at h
  split
  · rename_i u
    simp only [Bool.and_eq_true] at h
    obtain ⟨n, hn⟩ := digitsGo_ok 0 false (.inr (by simpa using h.1)) h.2
    exact ⟨_, by rw [hn]; rfl⟩
  · rename_i u
    simp only [Bool.and_eq_true] at h
    obtain ⟨n, hn⟩ := digitsGo_ok 0 false (.inr (by simpa using h.1)) h.2
    exact ⟨_, by rw [hn]; rfl⟩
  · rename_i u h1 h2
    split at h
    · rename_i v; exact absurd rfl (h1 v)
    · rename_i v; exact absurd rfl (h2 v)
    · simp only [Bool.and_eq_true] at h
      obtain ⟨n, hn⟩ := digitsGo_ok 0 false (.inr (by simpa using h.1)) h.2
      exact ⟨_, by rw [hn]; rfl⟩

end ReqIF.Xsd
