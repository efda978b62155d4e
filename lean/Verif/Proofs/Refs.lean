import Verif.Spec.Refs
import Verif.Proofs.OutputKept
/-!
# Identifiers and references of what is written
-/
namespace ReqIF.Xsd
open Spec

set_option linter.unusedSimpArgs false

/-! ## Two elements that say the same -/

/-- Two lists with the same elements for each key are permutations of each other. -/
theorem perm_of_filters {α κ : Type} [BEq κ] [LawfulBEq κ] (f : α → κ) : ∀ (l r : List α),
    (∀ k, l.filter (fun a => f a == k) = r.filter (fun a => f a == k)) → l.Perm r
  | [], r, h => by
    cases r with
    | nil => exact List.Perm.refl _
    | cons x r =>
      have := h (f x)
      rw [List.filter_nil, List.filter_cons_of_pos (by simp)] at this
      cases this
  | x :: l, r, h => by
    have hx := h (f x)
    rw [List.filter_cons_of_pos (by simp)] at hx
    obtain ⟨a, b, rfl, ha, -, hb⟩ := List.filter_eq_cons_iff.1 hx.symm
    refine List.Perm.trans (List.Perm.cons x (perm_of_filters f l (a ++ b) ?_)) List.perm_middle.symm
    intro k
    have hk := h k
    by_cases e : f x = k
    · rw [List.filter_cons_of_pos (by simpa using e), List.filter_append, List.filter_cons_of_pos (by simpa using e)] at hk
      have h0 : a.filter (fun y => f y == k) = [] := by
        rw [List.filter_eq_nil_iff]
        intro y hy
        rw [← e]
        exact ha y hy
      rw [h0, List.nil_append] at hk
      injection hk with _ hk
      rw [List.filter_append, h0, hk, List.nil_append]
    · rw [List.filter_cons_of_neg (by simpa using e), List.filter_append, List.filter_cons_of_neg (by simpa using e)] at hk
      rw [hk, List.filter_append]

theorem entriesAll_append (h : Str) (a b : List Node) : entriesAll h (a ++ b) = entriesAll h a ++ entriesAll h b := by
  induction a with
  | nil => rfl
  | cons n a ih => rw [List.cons_append, entriesAll, entriesAll, ih, List.append_assoc]

theorem entries_text (h s : Str) : entries h (.text s) = [] := by rw [entries]; simp

/-- The nodes that say something, in order. -/
theorem entriesAll_said {h : Str} : ∀ {ls : List Node} {s : Said} {a b : List Said}, saidAll ls = a ++ s :: b →
    ∃ l r n, said n = s ∧ saidAll (l ++ r) = a ++ b ∧ (entriesAll h ls).Perm (entries h n ++ entriesAll h (l ++ r)) ∧
      (∀ m ∈ l ++ r, m ∈ ls) ∧ n ∈ ls
  | [], s, a, b, e => by
    rw [saidAll] at e
    cases a <;> cases e
  | m :: ls, s, a, b, e => by
    rw [saidAll_cons] at e
    cases ht : m.isText with
    | true =>
      rw [ht, if_pos rfl] at e
      obtain ⟨l, r, n, h1, h2, h3, h4, h5⟩ := entriesAll_said (h := h) e
      cases m with
      | text t =>
        refine ⟨l, r, n, h1, h2, ?_, fun m hm => List.mem_cons_of_mem _ (h4 m hm), List.mem_cons_of_mem _ h5⟩
        rw [entriesAll, entries_text, List.nil_append]
        exact h3
      | _ => cases ht
    | false =>
      rw [ht, if_neg (by simp)] at e
      cases a with
      | nil =>
        rw [List.nil_append] at e
        injection e with e1 e2
        exact ⟨[], ls, m, e1, e2, by rw [entriesAll]; exact List.Perm.refl _, fun m hm => List.mem_cons_of_mem _ hm, List.mem_cons_self⟩
      | cons a0 a =>
        rw [List.cons_append] at e
        injection e with e1 e2
        obtain ⟨l, r, n, h1, h2, h3, h4, h5⟩ := entriesAll_said (h := h) e2
        refine ⟨m :: l, r, n, h1, ?_, ?_, ?_, List.mem_cons_of_mem _ h5⟩
        · rw [List.cons_append, saidAll_cons, ht, if_neg (by simp), h2, e1]; rfl
        · rw [entriesAll, List.cons_append, entriesAll]
          refine List.Perm.trans (List.Perm.append_left _ h3) ?_
          rw [← List.append_assoc, ← List.append_assoc]
          exact List.Perm.append_right _ List.perm_append_comm
        · intro k hk
          rw [List.cons_append] at hk
          rcases List.mem_cons.1 hk with rfl | hk
          · exact List.mem_cons_self
          · exact List.mem_cons_of_mem _ (h4 k hk)

theorem said_name_text {n : Node} (hn : ∀ i ks, n ≠ .elem i ks) : said n = .text [] (fun _ => none) none := by
  cases n with
  | elem i ks => exact absurd rfl (hn i ks)
  | _ => rw [said]; all_goals simp

/-- A name that is not of XHTML, and a text: a field of the header or a reference. -/
theorem entries_holdsText {nm : Str} (h1 : noEntries nm = false) : xhtmlNames.contains nm = false ∧ holdsText nm = isRefName nm := by
  unfold noEntries at h1
  simp only [Bool.or_eq_false_iff] at h1
  refine ⟨h1.1.1.1, ?_⟩
  unfold holdsText isRefName
  rw [h1.1.1.2, Bool.false_or]

theorem said_elem {i : Info} {ks : List Node} {m : Node} (e : said (.elem i ks) = said m) : ∃ j ls, m = .elem j ls := by
  have key : (∀ j ls, m ≠ .elem j ls) → False := by
    intro hm
    rw [said_name_text hm] at e
    have hn : i.name = [] := by
      have := congrArg Said.name e
      rw [said_name] at this
      exact this
    rw [said, hn] at e
    cases e
  cases m with
  | elem j ls => exact ⟨j, ls, rfl⟩
  | text s => exact (key (fun _ _ h => by cases h)).elim
  | comment s => exact (key (fun _ _ h => by cases h)).elim
  | pi s s' => exact (key (fun _ _ h => by cases h)).elim

theorem entries_other {h : Str} {n : Node} (hn : ∀ i ks, n ≠ .elem i ks) : entries h n = [] := by
  cases n with
  | elem i ks => exact absurd rfl (hn i ks)
  | _ => rw [entries]; all_goals simp

theorem entries_others {h : Str} {n m : Node} (hn : ∀ i ks, n ≠ .elem i ks) (e : said n = said m) : (entries h n).Perm (entries h m) := by
  rw [entries_other hn]
  cases m with
  | elem j ls =>
    obtain ⟨i, ks, rfl⟩ := said_elem e.symm
    exact absurd rfl (hn i ks)
  | _ => rw [entries]; all_goals simp

mutual
/-- Elements that say the same have the same entries. -/
theorem entries_same (h : Str) : ∀ (n : Node) {m : Node}, said n = said m → (entries h n).Perm (entries h m)
  | .elem i ks, m, e => by
    obtain ⟨j, ls, rfl⟩ := said_elem e
    obtain ⟨h1, h2, -, h4, h5⟩ := said_inj e
    have ih := fun h5 => entriesAll_same i.name ks (ls := ls) h5
    rw [entries, entries, ← h1, h2]
    cases hs : noEntries i.name with
    | true => exact List.Perm.refl _
    | false =>
      obtain ⟨hx, ht⟩ := entries_holdsText hs
      simp only [Bool.false_eq_true, if_false]
      cases hr : isRefName i.name with
      | true =>
        simp only [if_true]
        rw [h4 hx (by rw [ht, hr])]
      | false =>
        simp only [Bool.false_eq_true, if_false]
        have := h5 hx (by rw [ht, hr])
        exact List.Perm.append_left _ (ih (perm_of_filters Said.name _ _ (fun k => congrFun this k)))
  | .text s, m, e => entries_others (by intro _ _ h; cases h) e
  | .comment s, m, e => entries_others (by intro _ _ h; cases h) e
  | .pi s s', m, e => entries_others (by intro _ _ h; cases h) e

theorem entriesAll_same (h : Str) : ∀ (ks : List Node) {ls : List Node}, (saidAll ks).Perm (saidAll ls) → (entriesAll h ks).Perm (entriesAll h ls)
  | [], ls, e => by
    rw [saidAll] at e
    have e := List.Perm.nil_eq e
    have : ∀ ls : List Node, saidAll ls = [] → entriesAll h ls = [] := by
      intro ls
      induction ls with
      | nil => intro _; rfl
      | cons n ls ih =>
        intro he
        rw [saidAll_cons] at he
        cases ht : n.isText with
        | true =>
          rw [ht, if_pos rfl] at he
          cases n with
          | text s => rw [entriesAll, entries_text, ih he]; rfl
          | _ => cases ht
        | false => rw [ht, if_neg (by simp)] at he; cases he
    rw [this ls e.symm, entriesAll]
  | k :: ks, ls, e => by
    rw [saidAll_cons] at e
    cases ht : k.isText with
    | true =>
      rw [ht, if_pos rfl] at e
      have := entriesAll_same h ks e
      cases k with
      | text s => rw [entriesAll, entries_text]; exact this
      | _ => cases ht
    | false =>
      rw [ht, if_neg (by simp)] at e
      have hm : said k ∈ saidAll ls := e.subset List.mem_cons_self
      obtain ⟨a, b, hab⟩ := List.append_of_mem hm
      obtain ⟨l, r, n, h1, h2, h3, -, -⟩ := entriesAll_said (h := h) hab
      have he : (saidAll ks).Perm (saidAll (l ++ r)) := by
        rw [h2]
        rw [hab] at e
        exact List.Perm.cons_inv (e.trans List.perm_middle)
      rw [entriesAll]
      exact ((entries_same h k h1.symm).append (entriesAll_same h ks he)).trans h3.symm
end

/-! ## What is written of an element -/

theorem key_identifier {a : Attr} (h : (a.key == c!"IDENTIFIER") = true) : a.ns = none ∧ a.name = c!"IDENTIFIER" := by
  rw [beq_iff_eq] at h
  unfold Attr.key clark at h
  cases hn : a.ns with
  | none => rw [hn] at h; exact ⟨rfl, h⟩
  | some u => rw [hn] at h; simp at h

theorem writtenValue_identifier (t : TypeName) (v : Str) : writtenValue t c!"IDENTIFIER" v = some v := by
  cases t with
  | value b k => cases k <;> rfl
  | _ => rfl

theorem identifier_written (t : TypeName) : ∀ as : List Attr, (as.filterMap (writtenAttr t)).find? (fun a => a.key == c!"IDENTIFIER") =
    as.find? (fun a => a.key == c!"IDENTIFIER")
  | [] => rfl
  | a :: as => by
    have ih := identifier_written t as
    rw [List.filterMap_cons, List.find?_cons]
    cases hk : a.key == c!"IDENTIFIER" with
    | true =>
      obtain ⟨-, hn⟩ := key_identifier hk
      have : writtenAttr t a = some a := by
        unfold writtenAttr
        have hv : writtenValue t a.name a.value = some a.value := by rw [hn]; exact writtenValue_identifier t _
        rw [hv]
        rfl
      rw [this]
      dsimp only
      rw [List.find?_cons, hk]
    | false =>
      dsimp only
      cases hw : writtenAttr t a with
      | none => exact ih
      | some b =>
        dsimp only
        rw [List.find?_cons, (writtenAttr_key hw).1, hk]
        exact ih

/-- Types with references directly inside that may get lost. -/
def refParent : TypeName → Bool
  | .editableAtts | .valueDefinition _ | .groupSpecification | .enumRefs _ => true
  | _ => false

/-- An element with this name and type may get lost: it has no identifiers, and references only
where `losesReferences` says. -/
def losable (nm : Str) (t : TypeName) : Bool :=
  !isRefName nm && (match t with
    | .relationValues | .defaultValue _ | .value _ _ => true
    | t => refParent t && losesReferences nm)

theorem losable_parent {nm : Str} {t : TypeName} (h : losable nm t = true) (hp : refParent t = true) : losesReferences nm = true := by
  unfold losable at h
  rw [Bool.and_eq_true] at h
  cases t <;> first | (cases hp; done) | exact (Bool.and_eq_true _ _ ▸ h.2).2

theorem losable_kids {nm : Str} {t : TypeName} (h : losable nm t = true) {nm' : Str} {t' : TypeName} (ht : (schema .lenient t).model.typeOf nm' = some t') :
    (noEntries nm' || (isRefName nm' && refParent t) || losable nm' t') = true := by
  refine pairs_all (f := fun nm' t' => noEntries nm' || (isRefName nm' && refParent t) || losable nm' t') ?_ ht
  unfold losable at h
  rw [Bool.and_eq_true] at h
  have h := h.2
  cases t with
  | value b k => cases b <;> cases k <;> rfl
  | defaultValue k => cases k <;> rfl
  | valueDefinition k => cases k <;> rfl
  | enumRefs k => rfl
  | relationValues => rfl
  | groupSpecification => rfl
  | editableAtts => rfl
  | _ => cases h

theorem losable_attrs {nm : Str} {t : TypeName} (h : losable nm t = true) : (schema .lenient t).attrs.any (fun d => d.name == c!"IDENTIFIER") = false ∧
    (schema .lenient t).model.isOpen = false := by
  unfold losable at h
  rw [Bool.and_eq_true] at h
  have h := h.2
  cases t with
  | value b k => cases b <;> cases k <;> exact ⟨rfl, rfl⟩
  | defaultValue k => cases k <;> exact ⟨rfl, rfl⟩
  | valueDefinition k => cases k <;> exact ⟨rfl, rfl⟩
  | enumRefs k => exact ⟨rfl, rfl⟩
  | relationValues => exact ⟨rfl, rfl⟩
  | groupSpecification => exact ⟨rfl, rfl⟩
  | editableAtts => exact ⟨rfl, rfl⟩
  | _ => cases h

/-- Entries that never get lost. -/
def Entry.stays : Entry → Bool
  | .identifier _ _ => true
  | .reference holder _ _ => !losesReferences holder

theorem no_identifier {t : TypeName} {i : Info} {ks : List Node} (ha : attrsOk (schema .lenient t).attrs i.attrs = true)
    (hd : (schema .lenient t).attrs.any (fun d => d.name == c!"IDENTIFIER") = false) : (Node.elem i ks).attr? c!"IDENTIFIER" = none := by
  unfold attrsOk at ha
  rw [Bool.and_eq_true] at ha
  show ((i.attrs.find? _).map _) = none
  rw [Option.map_eq_none_iff, List.find?_eq_none]
  intro a hm hk
  obtain ⟨h1, h2⟩ := key_identifier hk
  have := List.all_eq_true.1 ha.1 a hm
  rw [h1, Option.isSome_none, Bool.false_or, List.any_eq_true] at this
  obtain ⟨d, hd1, hd2⟩ := this
  rw [Bool.and_eq_true, h2] at hd2
  have := List.any_eq_false.1 hd d hd1
  exact this hd2.1

mutual
theorem losable_entries (h : Str) : ∀ (n : Node) {i : Info} {ks : List Node} {t : TypeName}, n = .elem i ks → valid .lenient t n = true → losable i.name t = true →
    ∀ e ∈ entries h n, e.stays = false
  | .elem i ks, i', ks', t, hn, hv, hl => by
    cases hn
    intro e he
    unfold valid at hv
    rw [validBy, Bool.and_eq_true, Bool.and_eq_true] at hv
    obtain ⟨h1, h2⟩ := losable_attrs hl
    rw [entries, no_identifier hv.1.1 h1] at he
    have hr : isRefName i.name = false := by
      unfold losable at hl
      rw [Bool.and_eq_true, Bool.not_eq_true'] at hl
      exact hl.1
    rw [hr] at he
    split at he
    · cases he
    · simp only [Bool.false_eq_true, if_false, List.nil_append] at he
      exact losable_entriesAll ks hl hv.2 e he
  | .text _, _, _, _, hn, _, _ => by cases hn
  | .comment _, _, _, _, hn, _, _ => by cases hn
  | .pi _ _, _, _, _, hn, _, _ => by cases hn

theorem losable_entriesAll : ∀ (ks : List Node) {nm : Str} {t : TypeName}, losable nm t = true →
    kidsBy (schema .lenient) (some reqifNs) (schema .lenient t).model ks = true → ∀ e ∈ entriesAll nm ks, e.stays = false
  | [], nm, t, _, _ => by intro e he; rw [entriesAll] at he; cases he
  | .elem i cs :: r, nm, t, hl, hv => by
    rw [kidsBy, (losable_attrs hl).2, Bool.false_or, Bool.and_eq_true, Bool.and_eq_true] at hv
    intro e he
    rw [entriesAll, List.mem_append] at he
    rcases he with he | he
    · have h1 := hv.1.2
      split at h1
      · rename_i t' ht'
        have hk := losable_kids hl ht'
        rw [Bool.or_eq_true, Bool.or_eq_true, Bool.and_eq_true] at hk
        rcases hk with (hk | hk) | hk
        · rw [entries, hk, if_pos rfl] at he; cases he
        · rw [entries, hk.1] at he
          split at he
          · cases he
          · rw [if_pos rfl, List.mem_singleton] at he
            rw [he]
            show (!losesReferences nm) = false
            rw [losable_parent hl hk.2]
            rfl
        · exact losable_entries nm (.elem i cs) rfl h1 hk e he
      · cases h1
    · exact losable_entriesAll r hl hv.2 e he
  | .text s :: r, nm, t, hl, hv => by
    rw [kidsBy, Bool.and_eq_true] at hv
    rw [entriesAll, entries_text]
    exact losable_entriesAll r hl hv.2
  | .comment s :: r, nm, t, hl, hv => by
    rw [kidsBy] at hv
    · rw [entriesAll, entries_other (by intro _ _ h; cases h)]
      exact losable_entriesAll r hl hv
    all_goals simp
  | .pi s s' :: r, nm, t, hl, hv => by
    rw [kidsBy] at hv
    · rw [entriesAll, entries_other (by intro _ _ h; cases h)]
      exact losable_entriesAll r hl hv
    all_goals simp
end

/-- Is it the type of an element holding a text? -/
def isTextType : TypeName → Bool
  | .text _ => true
  | _ => false

/-- What is used of the names of the elements of a type. -/
def nameFits (nm : Str) (t : TypeName) : Bool :=
  noEntries nm || (if isRefName nm then isTextType t else t != .toolExtensions && (!onlyFirst t || losable nm t))

theorem nameFits_kids {t t' : TypeName} {nm : Str} (ht : (schema .lenient t).model.typeOf nm = some t') : nameFits nm t' = true := by
  refine pairs_all (f := nameFits) ?_ ht
  cases t with
  | value b k => cases b <;> cases k <;> rfl
  | definition s k => cases s <;> cases k <;> rfl
  | specType s => cases s <;> rfl
  | specAttributes s => cases s <;> rfl
  | defaultValue k => cases k <;> rfl
  | dataType k => cases k <;> rfl
  | definitionType k => cases k <;> rfl
  | valueDefinition k => cases k <;> rfl
  | _ => rfl

/-- Children that are written whatever is in them. -/
def alwaysWritten (t : TypeName) (name : Str) : Bool :=
  keepsChild t name && (match t with
    | .header => false
    | .relationGroup => !(name == c!"SOURCE-SPECIFICATION" || name == c!"TARGET-SPECIFICATION")
    | .specRelation => name != c!"VALUES"
    | .definition _ .enumeration => name != c!"DEFAULT-VALUE"
    | _ => true)

theorem always_written {t : TypeName} {nm : Str} (ks : List Node) (h : alwaysWritten t nm = true) : writesChild t nm ks = true := by
  unfold alwaysWritten at h
  unfold writesChild
  rw [Bool.and_eq_true] at h ⊢
  refine ⟨h.1, ?_⟩
  have h := h.2
  cases t with
  | header => cases h
  | relationGroup => dsimp only at h ⊢; rw [h]; rfl
  | specRelation => dsimp only at h ⊢; rw [h]; rfl
  | definition s k => cases k <;> first | rfl | (dsimp only at h ⊢; rw [h]; rfl)
  | _ => rfl

theorem not_written {t t' : TypeName} {nm : Str} (hne : t ≠ .toolExtensions) (ht : (schema .lenient t).model.typeOf nm = some t') {ks : List Node}
    (hw : writesChild t nm ks = false) : noEntries nm = true ∨ losable nm t' = true := by
  have key : (alwaysWritten t nm || noEntries nm || losable nm t') = true := by
    refine pairs_all (f := fun nm t' => alwaysWritten t nm || noEntries nm || losable nm t') ?_ ht
    cases t with
    | value b k => cases b <;> cases k <;> rfl
    | definition s k => cases s <;> cases k <;> rfl
    | specType s => cases s <;> rfl
    | specAttributes s => cases s <;> rfl
    | defaultValue k => cases k <;> rfl
    | dataType k => cases k <;> rfl
    | definitionType k => cases k <;> rfl
    | valueDefinition k => cases k <;> rfl
    | toolExtensions => exact absurd rfl hne
    | _ => rfl
  rw [Bool.or_eq_true, Bool.or_eq_true] at key
  rcases key with (h | h) | h
  · rw [always_written ks h] at hw; cases hw
  · exact .inl h
  · exact .inr h

theorem firstOnly_entries (h : Str) : ∀ ks : List Node, (entriesAll h (firstOnly ks)).Sublist (entriesAll h ks)
  | [] => by rw [firstOnly]; exact List.Sublist.refl _
  | .elem i cs :: r => by
    rw [firstOnly, entriesAll, entriesAll]
    refine List.Sublist.append_left ?_ _
    have : ∀ r : List Node, entriesAll h (r.filter Node.isText) = [] := by
      intro r
      induction r with
      | nil => rfl
      | cons n r ih =>
        cases n with
        | text s => rw [List.filter_cons_of_pos (by rfl), entriesAll, entries_text, ih]; rfl
        | _ => rw [List.filter_cons_of_neg (by simp [Node.isText])]; exact ih
    rw [this]
    exact List.nil_sublist _
  | .text s :: r => by
    rw [firstOnly, entriesAll, entriesAll]
    · exact List.Sublist.append_left (firstOnly_entries h r) _
    all_goals simp
  | .comment s :: r => by
    rw [firstOnly, entriesAll, entriesAll]
    · exact List.Sublist.append_left (firstOnly_entries h r) _
    all_goals simp
  | .pi s s' :: r => by
    rw [firstOnly, entriesAll, entriesAll]
    · exact List.Sublist.append_left (firstOnly_entries h r) _
    all_goals simp

theorem stays_none {es : List Entry} (h : ∀ e ∈ es, e.stays = false) : es.filter Entry.stays = [] := by
  rw [List.filter_eq_nil_iff]
  intro e he hs
  rw [h e he] at hs
  cases hs

mutual
/-- What is written of an element has no other entries than the element, and all that stay. -/
theorem entries_written (h : Str) : ∀ (n : Node) {i : Info} {ks : List Node} {t : TypeName}, n = .elem i ks → valid .lenient t n = true → nameFits i.name t = true →
    (entries h (written t n)).Sublist (entries h n) ∧ (entries h (written t n)).filter Entry.stays = (entries h n).filter Entry.stays
  | .elem i ks, i', ks', t, hn, hv, hf => by
    cases hn
    unfold valid at hv
    rw [validBy, Bool.and_eq_true, Bool.and_eq_true] at hv
    rw [written, entries, entries]
    dsimp only
    have ha : (Node.elem { i with attrs := i.attrs.filterMap (writtenAttr t) } (if onlyFirst t then firstOnly (writtenAll t ks) else writtenAll t ks)).attr? c!"IDENTIFIER" =
        (Node.elem i ks).attr? c!"IDENTIFIER" := by
      show ((i.attrs.filterMap (writtenAttr t)).find? _).map _ = (i.attrs.find? _).map _
      rw [identifier_written]
    rw [ha]
    unfold nameFits at hf
    cases hs : noEntries i.name with
    | true => exact ⟨List.Sublist.refl _, rfl⟩
    | false =>
      rw [hs, Bool.false_or] at hf
      simp only [Bool.false_eq_true, if_false]
      cases hr : isRefName i.name with
      | true =>
        rw [hr, if_pos rfl] at hf
        simp only [if_true]
        cases t with
        | text s =>
          rw [writtenAll_open (.inr ⟨s, rfl⟩), if_neg (show ¬ onlyFirst (.text s) = true by simp [onlyFirst])]
          have : (Node.elem { i with attrs := i.attrs.filterMap (writtenAttr (.text s)) } ks).text? = (Node.elem i ks).text? := by
            cases ks with
            | nil => rfl
            | cons a ks => cases a <;> rfl
          rw [this]
          exact ⟨List.Sublist.refl _, rfl⟩
        | _ => cases hf
      | false =>
        rw [hr, if_neg (by simp), Bool.and_eq_true] at hf
        simp only [Bool.false_eq_true, if_false]
        have ht : t ≠ .toolExtensions := by simpa using hf.1
        obtain ⟨ih1, ih2⟩ := entriesAll_written i.name ks ht hv.2
        cases ho : onlyFirst t with
        | false =>
          rw [if_neg (by simp), List.filter_append, List.filter_append, ih2]
          exact ⟨List.Sublist.append_left ih1 _, rfl⟩
        | true =>
          rw [if_pos rfl, List.filter_append, List.filter_append]
          rw [ho] at hf
          have hl : losable i.name t = true := hf.2
          have hsub : (entriesAll i.name (firstOnly (writtenAll t ks))).Sublist (entriesAll i.name ks) :=
            (firstOnly_entries i.name (writtenAll t ks)).trans ih1
          have hall := losable_entriesAll ks hl hv.2
          exact ⟨List.Sublist.append_left hsub _, by rw [stays_none hall, stays_none (fun e he => hall e (hsub.subset he))]⟩
  | .text _, _, _, _, hn, _, _ => by cases hn
  | .comment _, _, _, _, hn, _, _ => by cases hn
  | .pi _ _, _, _, _, hn, _, _ => by cases hn

theorem entriesAll_written (h : Str) : ∀ (ks : List Node) {t : TypeName}, t ≠ .toolExtensions →
    kidsBy (schema .lenient) (some reqifNs) (schema .lenient t).model ks = true →
    (entriesAll h (writtenAll t ks)).Sublist (entriesAll h ks) ∧ (entriesAll h (writtenAll t ks)).filter Entry.stays = (entriesAll h ks).filter Entry.stays
  | [], t, _, _ => by rw [writtenAll]; exact ⟨List.Sublist.refl _, rfl⟩
  | .elem i cs :: r, t, hne, hv => by
    rw [kidsBy, Bool.and_eq_true] at hv
    obtain ⟨ih1, ih2⟩ := entriesAll_written h r hne hv.2
    rw [writtenAll, entriesAll_append, entriesAll, List.filter_append, List.filter_append, ih2]
    cases ht : (schema .lenient t).model.typeOf i.name with
    | none =>
      dsimp only
      rw [entriesAll, entriesAll, List.append_nil]
      exact ⟨List.Sublist.append_left ih1 _, rfl⟩
    | some t' =>
      dsimp only
      have hv' : valid .lenient t' (.elem i cs) = true := by
        have h1 := hv.1
        rw [ht, Bool.or_eq_true, Bool.and_eq_true] at h1
        rcases h1 with h1 | h1
        · rw [open_noType h1] at ht; cases ht
        · exact h1.2
      cases hw : writesChild t i.name cs with
      | true =>
        rw [if_pos rfl, entriesAll, entriesAll, List.append_nil]
        obtain ⟨j1, j2⟩ := entries_written h (.elem i cs) rfl hv' (nameFits_kids ht)
        exact ⟨List.Sublist.append j1 ih1, by rw [j2]⟩
      | false =>
        rw [if_neg (by simp), entriesAll, List.nil_append]
        refine ⟨ih1.trans (List.sublist_append_right _ _), ?_⟩
        rcases not_written hne ht hw with hx | hx
        · have : entries h (.elem i cs) = [] := by rw [entries, hx, if_pos rfl]
          rw [this]
        · rw [stays_none (losable_entries h (.elem i cs) rfl hv' hx)]
          rfl
  | .text s :: r, t, hne, hv => by
    rw [kidsBy, Bool.and_eq_true] at hv
    rw [writtenAll, entriesAll, entriesAll, entries_text]
    · exact entriesAll_written h r hne hv.2
    all_goals simp
  | .comment s :: r, t, hne, hv => by
    rw [kidsBy] at hv
    · rw [writtenAll, entriesAll, entriesAll, entries_other (by intro _ _ h; cases h)]
      · exact entriesAll_written h r hne hv
      all_goals simp
    all_goals simp
  | .pi s s' :: r, t, hne, hv => by
    rw [kidsBy] at hv
    · rw [writtenAll, entriesAll, entriesAll, entries_other (by intro _ _ h; cases h)]
      · exact entriesAll_written h r hne hv
      all_goals simp
    all_goals simp
end

end ReqIF.Xsd
