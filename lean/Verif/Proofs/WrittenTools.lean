import Verif.Proofs.WrittenSeen
import Verif.Proofs.PlainTools
import Verif.Proofs.SaidItems
/-! What is written for an element of a plain document. -/
set_option linter.unusedSimpArgs false
namespace ReqIF.Xsd
open Spec

variable {X : Prop} {K : NsMap} {p : Str} {t : TypeName} {n : Node}

theorem PSeen.undeclared (h : PSeen X K p t n) {nm : Str} (ho : (schema .lenient t).model.isOpen = false)
    (hg : nm ∉ modelNames (schema .lenient t).model) : n.find nm = none := by
  cases hf : n.find nm with
  | none => rfl
  | some c =>
    obtain ⟨h1, h2⟩ := find_children hf
    obtain ⟨nm', t'', e1, e2, -⟩ := h.child ho h1
    have e := e1.tag
    rw [h2] at e
    have e : nm = nm' := by injection e
    rw [← e] at e2
    exact absurd (typeOf_mem e2) hg

/-! ## Attributes -/

theorem PSeen.attrName (h : PSeen X K p t n) {name v : Str} (hv : n.attr? name = some v) :
    (schema .lenient t).attrs.any (fun d => d.name == name && d.type.ok v) = true := by
  have hn := h.neat
  have ha := h.seen.attrsOk
  obtain ⟨i, ks, rfl⟩ := h.seen.isElem
  rw [Neat] at hn
  unfold Xsd.attrsOk at ha
  rw [Bool.and_eq_true] at ha
  unfold Node.attr? at hv
  rw [Option.map_eq_some_iff] at hv
  obtain ⟨a, hf, rfl⟩ := hv
  have h1 : a ∈ i.attrs := List.mem_of_find?_eq_some hf
  have h2 := List.find?_some hf
  simp only [beq_iff_eq] at h2
  have h3 := (hn.1.attrs a h1).1
  have h4 : a.name = name := by
    unfold Attr.key clark at h2
    rw [h3] at h2
    exact h2
  have h6 := List.all_eq_true.1 ha.1 a h1
  rw [h3, h4] at h6
  exact h6

theorem writtenAttr_key {a b : Attr} (h : writtenAttr t a = some b) : b.key = a.key ∧ writtenValue t a.name a.value = some b.value := by
  unfold writtenAttr at h
  rw [Option.map_eq_some_iff] at h
  obtain ⟨v, h1, rfl⟩ := h
  exact ⟨rfl, h1⟩

theorem written_attrs (k : Str) : ∀ (as : List Attr), (∀ a ∈ as, a.ns = none) → (as.map (·.name)).Nodup →
    ((as.filterMap (writtenAttr t)).find? (fun a => a.key == k)).map (·.value) =
      ((as.find? (fun a => a.key == k)).map (·.value)).bind (writtenValue t k)
  | [], _, _ => rfl
  | a :: as, hn, hd => by
    have ih := written_attrs k as (fun b hb => hn b (by simp [hb])) (List.nodup_cons.1 hd).2
    have hkey : a.key = a.name := by
      unfold Attr.key clark
      rw [hn a (by simp)]
    rw [List.filterMap_cons, List.find?_cons]
    by_cases hk : a.name = k
    · have e : (a.key == k) = true := by rw [hkey]; simpa using hk
      rw [e]
      dsimp only
      rw [Option.map_some, Option.bind_some]
      cases hw : writtenAttr t a with
      | some b =>
        dsimp only
        obtain ⟨h1, h2⟩ := writtenAttr_key hw
        rw [List.find?_cons, h1, e]
        dsimp only
        rw [Option.map_some, ← h2, hk]
      | none =>
        dsimp only
        have hno : as.find? (fun a => a.key == k) = none := by
          rw [List.find?_eq_none]
          intro b hb hbk
          rw [beq_iff_eq] at hbk
          have : b.key = b.name := by
            unfold Attr.key clark
            rw [hn b (by simp [hb])]
          refine (List.nodup_cons.1 hd).1 ?_
          show a.name ∈ _
          rw [hk, ← hbk, this]
          exact List.mem_map.2 ⟨b, hb, rfl⟩
        rw [ih, hno]
        unfold writtenAttr at hw
        rw [Option.map_eq_none_iff, hk] at hw
        rw [hw]
        rfl
    · have e : (a.key == k) = false := by rw [hkey]; simpa using hk
      rw [e]
      dsimp only
      cases hw : writtenAttr t a with
      | some b =>
        dsimp only
        obtain ⟨h1, -⟩ := writtenAttr_key hw
        rw [List.find?_cons, h1, e]
        exact ih
      | none => exact ih

theorem PSeen.writtenAttr (h : PSeen X K p t n) (k : Str) : (written t n).attr? k = (n.attr? k).bind (writtenValue t k) := by
  have hn := h.neat
  obtain ⟨i, ks, rfl⟩ := h.seen.isElem
  rw [Neat] at hn
  rw [written]
  exact written_attrs k i.attrs (fun a ha => (hn.1.attrs a ha).1) hn.1.nodup

/-- An attribute that is left out when it is empty. -/
theorem truthy_written {o : Option Str} {f : Str → Option Str} (hk : ∀ v, f v = unlessEmpty v) :
    o.bind f = o.filter (fun v => !v.isEmpty) := by
  cases o with
  | none => rfl
  | some v =>
    rw [Option.bind_some, hk]
    unfold unlessEmpty
    cases v <;> rfl

/-- A flag. -/
theorem flag_written {o : Option Str} {f : Str → Option Str} (hk : ∀ v, f v = some (flagOut v)) :
    o.bind f = (o.map (· == c!"true")).map boolOut := by
  cases o with
  | none => rfl
  | some v =>
    rw [Option.bind_some, hk]
    unfold flagOut
    by_cases hv : v = c!"true"
    · subst hv; rfl
    · rw [if_neg hv]
      have : (v == c!"true") = false := by simpa using hv
      rw [Option.map_some, Option.map_some, this]
      rfl

theorem same_written {o : Option Str} {f : Str → Option Str} (hk : ∀ v, f v = some v) : o.bind f = o := by
  cases o with
  | none => rfl
  | some v => exact hk v

theorem dropped_written {o : Option Str} {f : Str → Option Str} (hk : ∀ v, f v = none) : o.bind f = none := by
  cases o with
  | none => rfl
  | some v => exact hk v

theorem PSeen.looks (h : PSeen X K p t n) {names : List Str} (hn : (schema .lenient t).attrs.map (·.name) = names) {vs : List (Str × Str)}
    (h1 : ∀ k ∈ names, (n.attr? k).bind (writtenValue t k) = look vs k) (h2 : ∀ k, (∀ a ∈ names, a ≠ k) → look vs k = none) :
    (written t n).attr? = look vs := by
  funext k
  rw [h.writtenAttr]
  by_cases hk : k ∈ names
  · exact h1 k hk
  · rw [h2 k (by rintro a ha rfl; exact hk ha)]
    cases hv : n.attr? k with
    | none => rfl
    | some v =>
      obtain ⟨d, hd, e⟩ := List.any_eq_true.1 (h.attrName hv)
      rw [Bool.and_eq_true, beq_iff_eq] at e
      rw [← hn] at hk
      exact absurd (List.mem_map.2 ⟨d, hd, e.1⟩) hk

/-! ## Children by name -/

theorem byName_nil (nm : Str) : byName [] nm = [] := rfl
theorem byName_cons (s : Said) (l : List Said) (nm : Str) : byName (s :: l) nm = if s.name = nm then s :: byName l nm else byName l nm := by
  unfold byName
  rw [List.filter_cons]
  by_cases h : s.name = nm <;> simp [h]
theorem byName_append (a b : List Said) (nm : Str) : byName (a ++ b) nm = byName a nm ++ byName b nm := by
  unfold byName
  rw [List.filter_append]

/-- What is written for a child element. -/
def kidOut (t : TypeName) : Node → Option Node
  | .elem i ks => match (schema .lenient t).model.typeOf i.name with
    | some t' => if writesChild t i.name ks then some (written t' (.elem i ks)) else none
    | none => some (.elem i ks)
  | n => some n

theorem kidOut_some {nm : Str} {c : Node} {t' : TypeName} (hn : Named nm c) (ht : (schema .lenient t).model.typeOf nm = some t')
    (hw : writesChild t nm c.kids = true) : kidOut t c = some (written t' c) := by
  obtain ⟨i, ks, rfl, -, rfl⟩ := hn
  unfold kidOut
  dsimp only
  rw [ht]
  exact if_pos hw

theorem kidOut_none {nm : Str} {c : Node} {t' : TypeName} (hn : Named nm c) (ht : (schema .lenient t).model.typeOf nm = some t')
    (hw : writesChild t nm c.kids = false) : kidOut t c = none := by
  obtain ⟨i, ks, rfl, -, rfl⟩ := hn
  unfold kidOut
  dsimp only
  rw [ht]
  exact if_neg (by rw [show writesChild t i.name ks = false from hw]; decide)

theorem kidOut_name {i : Info} {ks : List Node} {c : Node} (h : kidOut t (.elem i ks) = some c) : ∃ i' ks', c = .elem i' ks' ∧ i'.name = i.name := by
  unfold kidOut at h
  dsimp only at h
  cases ht : (schema .lenient t).model.typeOf i.name with
  | none => rw [ht] at h; cases h; exact ⟨i, ks, rfl, rfl⟩
  | some t' =>
    rw [ht] at h
    dsimp only at h
    split at h
    · cases h
      rw [written]
      exact ⟨_, _, rfl, rfl⟩
    · cases h

theorem writtenAll_children : ∀ ks : List Node, (writtenAll t ks).filter (fun k => !k.isText) =
    (ks.filter (fun k => !k.isText)).filterMap (kidOut t)
  | [] => by rw [writtenAll]; rfl
  | .elem i ks :: r => by
    rw [writtenAll, List.filter_append, writtenAll_children r, List.filter_cons]
    have e : (!(Node.elem i ks).isText) = true := rfl
    rw [if_pos e, List.filterMap_cons]
    cases hk : kidOut t (.elem i ks) with
    | some c =>
      obtain ⟨i', ks', rfl, -⟩ := kidOut_name hk
      unfold kidOut at hk
      dsimp only at hk
      cases ht : (schema .lenient t).model.typeOf i.name with
      | none => rw [ht] at hk; cases hk; rfl
      | some t' =>
        rw [ht] at hk
        dsimp only at hk ⊢
        split at hk
        · rename_i hw
          injection hk with hk
          rw [if_pos hw, hk]
          rfl
        · cases hk
    | none =>
      unfold kidOut at hk
      dsimp only at hk
      cases ht : (schema .lenient t).model.typeOf i.name with
      | none => rw [ht] at hk; cases hk
      | some t' =>
        rw [ht] at hk
        dsimp only at hk ⊢
        split at hk
        · cases hk
        · rename_i hw
          rw [if_neg hw]
          rfl
  | .text s :: r => by rw [writtenAll, List.filter_cons, List.filter_cons, writtenAll_children r]; rfl; all_goals simp
  | .comment s :: r => by rw [writtenAll, List.filter_cons, List.filter_cons, writtenAll_children r]; rfl; all_goals simp
  | .pi a b :: r => by rw [writtenAll, List.filter_cons, List.filter_cons, writtenAll_children r]; rfl; all_goals simp

theorem firstOnly_children : ∀ ks : List Node, (∀ k ∈ ks, k.isText = false → ∃ i cs, k = .elem i cs) →
    (firstOnly ks).filter (fun k => !k.isText) = (ks.filter (fun k => !k.isText)).take 1
  | [], _ => rfl
  | .elem i cs :: r, h => by
    rw [firstOnly, List.filter_cons, List.filter_cons]
    have e : (!(Node.elem i cs).isText) = true := rfl
    rw [if_pos e, if_pos e, List.take_succ_cons, List.take_zero, List.filter_filter]
    congr 1
    rw [List.filter_eq_nil_iff]
    intro a _
    cases a.isText <;> simp
  | .text s :: r, h => by
    rw [firstOnly, List.filter_cons, List.filter_cons]
    · exact firstOnly_children r (fun k hk => h k (by simp [hk]))
    all_goals simp
  | .comment s :: r, h => by obtain ⟨i, cs, e⟩ := h (.comment s) (by simp) rfl; cases e
  | .pi a b :: r, h => by obtain ⟨i, cs, e⟩ := h (.pi a b) (by simp) rfl; cases e

/-- The element written for one. -/
def writtenInfo (t : TypeName) (i : Info) : Info := { i with attrs := i.attrs.filterMap (writtenAttr t) }

theorem written_elem (i : Info) (ks : List Node) : written t (.elem i ks) =
    .elem (writtenInfo t i) (if onlyFirst t then firstOnly (writtenAll t ks) else writtenAll t ks) := by
  rw [written]
  rfl

theorem written_children {i : Info} {ks : List Node} (hf : onlyFirst t = false) :
    (written t (.elem i ks)).children = (Node.elem i ks).children.filterMap (kidOut t) := by
  rw [written, hf]
  exact writtenAll_children ks

/-- What is written for the child with a name. -/
def outs (t : TypeName) (n : Node) (nm : Str) : List Said := (((n.find nm).bind (kidOut t)).map said).toList

theorem outs_missing {nm : Str} (hf : n.find nm = none) : outs t n nm = [] := by
  unfold outs
  rw [hf]
  rfl

theorem outs_some {nm : Str} {c : Node} {t' : TypeName} (hf : n.find nm = some c) (hn : Named nm c)
    (ht : (schema .lenient t).model.typeOf nm = some t') (hw : writesChild t nm c.kids = true) : outs t n nm = [said (written t' c)] := by
  unfold outs
  rw [hf, Option.bind_some, kidOut_some hn ht hw]
  rfl

theorem outs_none {nm : Str} {c : Node} {t' : TypeName} (hf : n.find nm = some c) (hn : Named nm c)
    (ht : (schema .lenient t).model.typeOf nm = some t') (hw : writesChild t nm c.kids = false) : outs t n nm = [] := by
  unfold outs
  rw [hf, Option.bind_some, kidOut_none hn ht hw]
  rfl

/-- Children that are never written. -/
theorem PSeen.gone (h : PSeen X K p t n) {nm : Str} {t' : TypeName} (ho : (schema .lenient t).model.isOpen = false)
    (ht : (schema .lenient t).model.typeOf nm = some t') (hg : keepsChild t nm = false) : outs t n nm = [] := by
  cases hf : n.find nm with
  | none => exact outs_missing hf
  | some c =>
    refine outs_none hf (h.find ho ht hf).2 ht ?_
    unfold writesChild
    rw [hg]
    rfl

theorem kids_absent : ∀ {ks : List Node}, noSpecialsAll ks = true → ∀ {nm : Str}, nm ∉ childNames ks →
    byName (((ks.filter (fun k => !k.isText)).filterMap (kidOut t)).map said) nm = []
  | [], _, nm, _ => rfl
  | k :: ks, hs, nm, hn => by
    rw [noSpecialsAll, Bool.and_eq_true] at hs
    cases k with
    | text s => exact kids_absent hs.2 hn
    | comment s => simp [noSpecials] at hs
    | pi a b => simp [noSpecials] at hs
    | elem i cs =>
      simp only [childNames, List.mem_cons, not_or] at hn
      have ih := kids_absent hs.2 hn.2
      rw [List.filter_cons, if_pos (show (!(Node.elem i cs).isText) = true from rfl), List.filterMap_cons]
      cases hk : kidOut t (.elem i cs) with
      | none => exact ih
      | some c =>
        obtain ⟨i', ks', rfl, e⟩ := kidOut_name hk
        dsimp only
        rw [List.map_cons, byName_cons, said_name, e, if_neg (Ne.symm hn.1), ih]

theorem kids_single : ∀ {ks : List Node}, noSpecialsAll ks = true → (∀ c ∈ ks, c.isText = false → ∃ nm, Named nm c) →
    noDup (childNames ks) = true → ∀ (nm : Str), byName (((ks.filter (fun k => !k.isText)).filterMap (kidOut t)).map said) nm =
      (((ks.find? (fun k => !k.isText && k.tag == .name nm)).bind (kidOut t)).map said).toList
  | [], _, _, _, nm => rfl
  | k :: ks, hs, hk, hd, nm => by
    rw [noSpecialsAll, Bool.and_eq_true] at hs
    have hk' : ∀ c ∈ ks, c.isText = false → ∃ nm, Named nm c := fun c hc => hk c (by simp [hc])
    cases k with
    | text s =>
      rw [List.filter_cons, List.find?_cons]
      simp only [Node.isText, Bool.not_true, Bool.false_and]
      exact kids_single hs.2 hk' hd nm
    | comment s => simp [noSpecials] at hs
    | pi a b => simp [noSpecials] at hs
    | elem i cs =>
      obtain ⟨nm', hn⟩ := hk (.elem i cs) (by simp) rfl
      have htag := hn.tag
      obtain ⟨j, ls, e, -, rfl⟩ := hn
      cases e
      simp only [childNames, noDup, Bool.and_eq_true, Bool.not_eq_true', List.contains_eq_mem, decide_eq_false_iff_not] at hd
      rw [List.filter_cons, if_pos (show (!(Node.elem i cs).isText) = true from rfl), List.filterMap_cons, List.find?_cons, htag]
      have ih := kids_single hs.2 hk' hd.2 nm
      by_cases he : i.name = nm
      · subst he
        have habs := kids_absent (t := t) hs.2 hd.1
        rw [beq_self_eq_true]
        show _ = (((some (Node.elem i cs)).bind (kidOut t)).map said).toList
        rw [Option.bind_some]
        cases hko : kidOut t (.elem i cs) with
        | none => exact habs
        | some c =>
          obtain ⟨i', ks', rfl, e⟩ := kidOut_name hko
          dsimp only
          rw [List.map_cons, byName_cons, said_name, if_pos e, habs]
          rfl
      · have : (Tag.name i.name == Tag.name nm) = false := by simpa using he
        rw [this, Bool.and_false]
        cases hko : kidOut t (.elem i cs) with
        | none => exact ih
        | some c =>
          obtain ⟨i', ks', rfl, e⟩ := kidOut_name hko
          dsimp only
          rw [List.map_cons, byName_cons, said_name, e, if_neg he]
          exact ih

/-- Is each child element there once at most? -/
def Model.single : Model → Bool
  | .all _ => true
  | .sequence false _ => true
  | .choice _ (some m) _ => m ≤ 1
  | .emptyOrOne _ => true
  | _ => false

theorem noDup_short {l : List Str} (h : l.length ≤ 1) : noDup l = true := by
  match l, h with
  | [], _ => rfl
  | [a], _ => rfl
  | a :: b :: l, h => simp at h

theorem Seen.nodup (h : Seen .lenient t n) (hm : (schema .lenient t).model.single = true) : noDup (childNames n.kids) = true := by
  have hc := h.countOk
  generalize (schema .lenient t).model = m at hm hc
  cases m with
  | all es => simp only [Model.countOk, Bool.and_eq_true] at hc; exact hc.1
  | sequence b es =>
    cases b with
    | true => cases hm
    | false => simp only [Model.countOk, Bool.and_eq_true] at hc; exact hc.1
  | choice a b es =>
    cases b with
    | none => cases hm
    | some m =>
      simp only [Model.single, decide_eq_true_eq] at hm
      simp only [Model.countOk, Bool.and_eq_true, Option.all_some, decide_eq_true_eq] at hc
      exact noDup_short (by omega)
  | emptyOrOne es =>
    simp only [Model.countOk, Bool.or_eq_true, List.isEmpty_iff, beq_iff_eq] at hc
    rcases hc with hc | hc
    · rw [hc]; rfl
    · exact noDup_short (by omega)
  | _ => cases hm

theorem single_closed {m : Model} (h : m.single = true) : m.isOpen = false := by
  cases m <;> first | rfl | cases h

theorem single_all (h : (schema .lenient t).model.single = true) : onlyFirst t = false := by
  cases t with
  | relationValues => cases h
  | enumRefs b => cases h
  | _ => rfl

theorem PSeen.named (h : PSeen X K p t n) (ho : (schema .lenient t).model.isOpen = false) : ∀ c ∈ n.kids, c.isText = false → ∃ nm, Named nm c := by
  intro c hc ht
  obtain ⟨nm, -, h1, -⟩ := h.child ho (c := c) (List.mem_filter.2 ⟨hc, by rw [ht]; rfl⟩)
  exact ⟨nm, h1⟩

theorem PSeen.byName (h : PSeen X K p t n) (hm : (schema .lenient t).model.single = true) (nm : Str) :
    Xsd.byName ((n.children.filterMap (kidOut t)).map said) nm = outs t n nm :=
  kids_single h.seen.kidsPlain (h.named (single_closed hm)) (h.seen.nodup hm) nm

theorem mem_childNames {i : Info} {cs : List Node} : ∀ {ks : List Node}, .elem i cs ∈ ks → i.name ∈ childNames ks
  | [], hc => by cases hc
  | a :: ks, hc => by
    rcases List.mem_cons.1 hc with rfl | hc
    · simp [childNames]
    · have := mem_childNames hc
      cases a <;> simp [childNames, this]

theorem find_same : ∀ {ks : List Node}, noSpecialsAll ks = true → (∀ c ∈ ks, c.isText = false → ∃ nm, Named nm c) →
    noDup (childNames ks) = true → ∀ {c : Node} {nm : Str}, c ∈ ks → Named nm c → ks.find? (fun k => !k.isText && k.tag == .name nm) = some c
  | [], _, _, _, c, nm, hc, _ => by cases hc
  | k :: ks, hs, hk, hd, c, nm, hc, hn => by
    rw [noSpecialsAll, Bool.and_eq_true] at hs
    have hk' : ∀ c ∈ ks, c.isText = false → ∃ nm, Named nm c := fun c hc => hk c (by simp [hc])
    rw [List.find?_cons]
    rcases List.mem_cons.1 hc with rfl | hm
    · have htag := hn.tag
      obtain ⟨i, cs, rfl, -, rfl⟩ := hn
      rw [htag, beq_self_eq_true]
      rfl
    · cases k with
      | text s => exact find_same hs.2 hk' hd hm hn
      | comment s => simp [noSpecials] at hs
      | pi a b => simp [noSpecials] at hs
      | elem i cs =>
        obtain ⟨nm', hn'⟩ := hk (.elem i cs) (by simp) rfl
        have htag := hn'.tag
        obtain ⟨j, ls, e, -, rfl⟩ := hn'
        cases e
        simp only [childNames, noDup, Bool.and_eq_true, Bool.not_eq_true', List.contains_eq_mem, decide_eq_false_iff_not] at hd
        have hne : i.name ≠ nm := by
          rintro rfl
          refine hd.1 ?_
          obtain ⟨i', cs', rfl, -, e⟩ := hn
          rw [← e]
          exact mem_childNames hm
        have : (Tag.name i.name == Tag.name nm) = false := by simpa using hne
        rw [htag, this, Bool.and_false]
        exact find_same hs.2 hk' hd.2 hm hn

/-- A child is the one found by its name. -/
theorem PSeen.found (h : PSeen X K p t n) (hm : (schema .lenient t).model.single = true) {c : Node} (hc : c ∈ n.children) {nm : Str}
    (hn : Named nm c) : n.find nm = some c :=
  find_same h.seen.kidsPlain (h.named (single_closed hm)) (h.seen.nodup hm) (List.mem_filter.1 hc).1 hn

/-! ## What elements say -/

/-- An element with its children by name. -/
theorem PSeen.says (h : PSeen X K p t n) {tag : Str} (hn : Named tag n) (ht : isRecordName tag = true)
    (hm : (schema .lenient t).model.single = true) {names cnames : List Str} (ha : (schema .lenient t).attrs.map (·.name) = names)
    (hc : modelNames (schema .lenient t).model = cnames) {vs : List (Str × Str)} {ks : List Said}
    (a1 : ∀ k ∈ names, (n.attr? k).bind (writtenValue t k) = look vs k) (a2 : ∀ k, (∀ a ∈ names, a ≠ k) → look vs k = none)
    (k1 : ∀ k ∈ cnames, outs t n k = Xsd.byName ks k) (k2 : ∀ k, (∀ a ∈ cnames, a ≠ k) → Xsd.byName ks k = []) :
    said (written t n) = recordOf tag vs ks := by
  have e1 := h.looks ha a1 a2
  have e2 : Xsd.byName ((n.children.filterMap (kidOut t)).map said) = Xsd.byName ks := by
    funext k
    rw [h.byName hm k]
    by_cases hk : k ∈ cnames
    · exact k1 k hk
    · rw [k2 k (by rintro a ha rfl; exact hk ha), outs_missing (h.undeclared (single_closed hm) (by rw [hc]; exact hk))]
  obtain ⟨i, cs, rfl, -, rfl⟩ := hn
  have e3 := written_children (t := t) (i := i) (ks := cs) (single_all hm)
  rw [written_elem] at e1 e3 ⊢
  rw [said_record (i := writtenInfo t i) ht, e1, e3, e2]
  rfl

/-- An element with its children in the order of the source. -/
theorem PSeen.saysInOrder (h : PSeen X K p t n) {tag : Str} (hn : Named tag n) (ht : isRecordName tag = true)
    (hm : (schema .lenient t).model.single = true) {vs : List (Str × Str)} {F : Tag → Option Said} (e1 : (written t n).attr? = look vs)
    (k1 : ∀ k c, n.find k = some c → F (.name k) = (kidOut t c).map said) :
    said (written t n) = recordOf tag vs ((childTags n).filterMap F) := by
  have key : ∀ cs : List Node, (∀ c ∈ cs, c ∈ n.children) → (cs.filterMap (kidOut t)).map said = (cs.map Node.tag).filterMap F := by
    intro cs
    induction cs with
    | nil => intro _; rfl
    | cons c cs ih =>
      intro hcs
      obtain ⟨nm, -, h1, -⟩ := h.child (single_closed hm) (hcs c (by simp))
      rw [List.map_cons, List.filterMap_cons, List.filterMap_cons, h1.tag, k1 nm c (h.found hm (hcs c (by simp)) h1),
        ← ih (fun x hx => hcs x (by simp [hx]))]
      cases kidOut t c <;> rfl
  have e2 : (n.children.filterMap (kidOut t)).map said = (childTags n).filterMap F := key n.children (fun _ hc => hc)
  obtain ⟨i, cs, rfl, -, rfl⟩ := hn
  have e3 := written_children (t := t) (i := i) (ks := cs) (single_all hm)
  rw [written_elem] at e1 e3 ⊢
  rw [said_record (i := writtenInfo t i) ht, e1, e3, e2]
  rfl

/-- A list. -/
theorem PSeen.saysList (h : PSeen X K p t n) {tag : Str} (hn : Named tag n) (ht : isListName tag = true)
    (ha : (schema .lenient t).attrs = []) (hf : onlyFirst t = false) :
    said (written t n) = listOf tag ((n.children.filterMap (kidOut t)).map said) := by
  have e1 : (written t n).attr? = look [] := h.looks (names := []) (by rw [ha]; rfl) (by simp) (by intro k _; rfl)
  obtain ⟨i, cs, rfl, -, rfl⟩ := hn
  have e3 := written_children (t := t) (i := i) (ks := cs) hf
  rw [written_elem] at e1 e3 ⊢
  rw [said_list (i := writtenInfo t i) ht, e1, e3, look_none]
  rfl

/-- A list of which the first element is written. -/
theorem PSeen.saysFirst (h : PSeen X K p t n) {tag : Str} (hn : Named tag n) (ht : isListName tag = true)
    (ha : (schema .lenient t).attrs = []) (hf : onlyFirst t = true) (ho : (schema .lenient t).model.isOpen = false)
    (hw : ∀ c ∈ n.children, ∃ c', kidOut t c = some c') :
    said (written t n) = listOf tag (((n.children.take 1).filterMap (kidOut t)).map said) := by
  have e1 : (written t n).attr? = look [] := h.looks (names := []) (by rw [ha]; rfl) (by simp) (by intro k _; rfl)
  have hnam := h.named ho
  obtain ⟨i, cs, rfl, -, rfl⟩ := hn
  have e3 : (written t (.elem i cs)).children = ((Node.elem i cs).children.take 1).filterMap (kidOut t) := by
    rw [written, hf]
    show (firstOnly (writtenAll t cs)).filter (fun k => !k.isText) = _
    rw [firstOnly_children, writtenAll_children]
    · show (List.filterMap (kidOut t) (Node.elem i cs).children).take 1 = _
      cases hc : (Node.elem i cs).children with
      | nil => rfl
      | cons a as =>
        obtain ⟨a', ha'⟩ := hw a (by rw [hc]; simp)
        rw [List.filterMap_cons, ha', List.take_succ_cons, List.take_succ_cons, List.filterMap_cons, ha']
        rfl
    · intro k hk hkt
      have : k ∈ (writtenAll t cs).filter (fun k => !k.isText) := List.mem_filter.2 ⟨hk, by rw [hkt]; rfl⟩
      rw [writtenAll_children, List.mem_filterMap] at this
      obtain ⟨a, ha, hak⟩ := this
      rw [List.mem_filter, Bool.not_eq_true'] at ha
      obtain ⟨nm, j, ls, rfl, -⟩ := hnam a ha.1 ha.2
      obtain ⟨i', ks', e, -⟩ := kidOut_name hak
      exact ⟨i', ks', e⟩
  rw [written_elem] at e1 e3 ⊢
  rw [said_list (i := writtenInfo t i) ht, e1, e3, look_none]
  rfl

theorem writtenAll_open (ho : (schema .lenient t).model.isOpen = true ∨ ∃ s, t = .text s) : ∀ ks : List Node, writtenAll t ks = ks
  | [] => by rw [writtenAll]
  | .elem i cs :: r => by
    rw [writtenAll, writtenAll_open ho r]
    have : (schema .lenient t).model.typeOf i.name = none := by
      rcases ho with ho | ⟨s, rfl⟩
      · generalize (schema .lenient t).model = m at ho
        cases m <;> first | rfl | cases ho
      · rfl
    rw [this]
    rfl
  | .text s :: r => by rw [writtenAll, writtenAll_open ho r]; all_goals simp
  | .comment s :: r => by rw [writtenAll, writtenAll_open ho r]; all_goals simp
  | .pi a b :: r => by rw [writtenAll, writtenAll_open ho r]; all_goals simp

theorem PSeen.saysText {s : Simple} (h : PSeen X K p (.text s) n) {tag : Str} (hn : Named tag n) (ht : isTextName tag = true) :
    said (written (.text s) n) = textSaid tag n.text? := by
  have e1 : (written (.text s) n).attr? = look [] := h.looks (names := []) rfl (by simp) (by intro k _; rfl)
  obtain ⟨i, cs, rfl, -, rfl⟩ := hn
  rw [written_elem, writtenAll_open (.inr ⟨s, rfl⟩), if_neg (show ¬ onlyFirst (.text s) = true by simp [onlyFirst])] at e1 ⊢
  rw [said_text (i := writtenInfo (.text s) i) ht, e1, look_none]
  cases cs with
  | nil => rfl
  | cons a cs => cases a <;> rfl

/-- A reference in its container. -/
theorem PSeen.saysRef (h : PSeen X K p t n) {outer inner : Str} (hn : Named outer n) {s : Simple} {a : Nat}
    (hm : schema .lenient t = ⟨[], .choice a (some 1) [(inner, .text s)]⟩) (h1 : isRecordName outer = true) (h2 : isTextName inner = true)
    (hw : ∀ ks, writesChild t inner ks = true) {r : Node} (hr : n.find inner = some r) : said (written t n) = refOf outer inner r.text? := by
  have ht : (schema .lenient t).model.typeOf inner = some (.text s) := by rw [hm]; simp [Model.typeOf]
  obtain ⟨r1, r2⟩ := h.find (t' := .text s) (by rw [hm]; rfl) ht hr
  refine h.says hn h1 (by rw [hm]; rfl) (names := []) (cnames := [inner]) (by rw [hm]; rfl) (by rw [hm]; rfl) (by simp) (fun k _ => rfl) ?_ ?_
  · intro k hk
    rw [List.mem_singleton] at hk
    subst hk
    rw [outs_some hr r2 ht (hw _), byName_cons, if_pos (by rfl), byName_nil, r1.saysText r2 h2]
  · intro k hk
    have := hk inner (by simp)
    rw [byName_cons, if_neg (show (textSaid inner r.text?).name ≠ k from this)]
    rfl

theorem PSeen.saysXhtml {b : Bool} (hE : Env K p) (h : PSeen X K p (.xhtmlContent b) n) {tag : Str} (hn : Named tag n)
    (ht : xhtmlNames.contains tag = true) :
    ∃ s, said (written (.xhtmlContent b) n) = xhtmlSaid tag p s ∧ (n.nsmap ≠ [] → stringifyNamespacedChildren n = .ok s) ∧
      (n.nsmap = [] → stringifyChildren n = .ok s) := by
  obtain ⟨ts, e, t1, t2, t3, t4, -⟩ := h.content hE
  refine ⟨printAll p ts, ?_, t3, t4⟩
  have e1 : (written (.xhtmlContent b) n).attr? = look [] := h.looks (names := []) rfl (by simp) (by intro k _; rfl)
  obtain ⟨i, cs, rfl, -, rfl⟩ := hn
  rw [written_elem, writtenAll_open (.inl rfl)] at e1 ⊢
  rw [said_xhtml (i := writtenInfo (.xhtmlContent b) i) ht, e1, look_none]
  unfold xhtmlSaid
  rw [contentFor_eq hE.name t1 t2, e]
  rfl

/-! ## Lists -/

theorem mapPy_said {α : Type} {f : Node → Py α} {F : α → Said} : ∀ {cs : List Node} {xs : List α}, mapPy f cs = .ok xs →
    (∀ c ∈ cs, ∀ x, f c = .ok x → (kidOut t c).map said = some (F x)) → (cs.filterMap (kidOut t)).map said = xs.map F
  | [], xs, h, _ => by cases h; rfl
  | c :: cs, xs, h, hF => by
    rw [mapPy] at h
    cases hc : f c with
    | error e => rw [hc] at h; cases h
    | ok x =>
      rw [hc] at h
      dsimp only at h
      cases hcs : mapPy f cs with
      | error e => rw [hcs] at h; cases h
      | ok ys =>
        rw [hcs] at h
        cases h
        have h1 := hF c (by simp) x hc
        rw [Option.map_eq_some_iff] at h1
        obtain ⟨c', h2, h3⟩ := h1
        rw [List.filterMap_cons, h2]
        dsimp only
        rw [List.map_cons, List.map_cons, h3, mapPy_said hcs (fun a ha => hF a (by simp [ha]))]

theorem filterMapPy_said {α : Type} {f : Node → Py (Option α)} {F : α → Said} : ∀ {cs : List Node} {xs : List α}, filterMapPy f cs = .ok xs →
    (∀ c ∈ cs, ∀ o, f c = .ok o → ∃ x, o = some x ∧ (kidOut t c).map said = some (F x)) → (cs.filterMap (kidOut t)).map said = xs.map F
  | [], xs, h, _ => by cases h; rfl
  | c :: cs, xs, h, hF => by
    rw [filterMapPy] at h
    cases hc : f c with
    | error e => rw [hc] at h; cases h
    | ok o =>
      obtain ⟨x, rfl, hx⟩ := hF c (by simp) o hc
      rw [hc] at h
      dsimp only at h
      cases hcs : filterMapPy f cs with
      | error e => rw [hcs] at h; cases h
      | ok ys =>
        rw [hcs] at h
        cases h
        rw [Option.map_eq_some_iff] at hx
        obtain ⟨c', h2, h3⟩ := hx
        rw [List.filterMap_cons, h2]
        dsimp only
        rw [List.map_cons, h3, filterMapPy_said hcs (fun a ha => hF a (by simp [ha]))]
        rfl

end ReqIF.Xsd
