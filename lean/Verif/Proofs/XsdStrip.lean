import Verif.Proofs.ParseInv
import Verif.Proofs.Stringify
import Verif.Spec.Xsd
/-! Removing the namespace of ReqIF keeps a document valid. -/
set_option linter.unusedSimpArgs false
namespace ReqIF.Xsd
open Spec

/-! ## Removing the namespace -/

/-- The table only declares names whose tag the parser strips. -/
def NamesStrip (decl : TypeName → Complex) : Prop :=
  ∀ t n t', (decl t).model.typeOf n = some t' → containsStr xhtmlNs (clark (some reqifNs) n) = false

/-- What the declared names of a model are. -/
def modelNames : Model → List Str
  | .all es => es.map (·.name)
  | .sequence _ es => es.map (·.name)
  | .choice _ _ es => es.map (·.1)
  | .emptyOrOne es => es.map (·.1)
  | _ => []

theorem typeOf_mem {m : Model} {n : Str} {t : TypeName} (h : m.typeOf n = some t) : n ∈ modelNames m := by
  cases m with
  | all es =>
    simp only [Model.typeOf, Option.map_eq_some_iff] at h
    obtain ⟨p, hp, -⟩ := h
    have h1 := List.mem_of_find?_eq_some hp
    have h2 := List.find?_some hp
    simp only [beq_iff_eq] at h2
    exact List.mem_map.2 ⟨p, h1, h2⟩
  | sequence b es =>
    simp only [Model.typeOf, Option.map_eq_some_iff] at h
    obtain ⟨p, hp, -⟩ := h
    have h1 := List.mem_of_find?_eq_some hp
    have h2 := List.find?_some hp
    simp only [beq_iff_eq] at h2
    exact List.mem_map.2 ⟨p, h1, h2⟩
  | choice a b es =>
    simp only [Model.typeOf, Option.map_eq_some_iff] at h
    obtain ⟨p, hp, -⟩ := h
    have h1 := List.mem_of_find?_eq_some hp
    have h2 := List.find?_some hp
    simp only [beq_iff_eq] at h2
    exact List.mem_map.2 ⟨p, h1, h2⟩
  | emptyOrOne es =>
    simp only [Model.typeOf, Option.map_eq_some_iff] at h
    obtain ⟨p, hp, -⟩ := h
    have h1 := List.mem_of_find?_eq_some hp
    have h2 := List.find?_some hp
    simp only [beq_iff_eq] at h2
    exact List.mem_map.2 ⟨p, h1, h2⟩
  | _ => simp [Model.typeOf] at h

theorem schema_names (d : Dialect) (t : TypeName) :
    (modelNames (schema d t).model).all (fun n => !containsStr xhtmlNs (clark (some reqifNs) n)) = true := by
  cases t with
  | dataType k => cases k <;> rfl
  | definition s k => cases d <;> rfl
  | definitionType k => cases k <;> rfl
  | defaultValue k => cases d <;> cases k <;> rfl
  | value b k => cases k <;> rfl
  | valueDefinition k => cases k <;> rfl
  | specRelation => cases d <;> rfl
  | relationValues => cases d <;> rfl
  | _ => rfl

theorem schema_strips (d : Dialect) : NamesStrip (schema d) := by
  intro t n t' h
  have := List.all_eq_true.1 (schema_names d t) n (typeOf_mem h)
  simpa using this

/-- An element's information without the namespace of ReqIF. -/
def stripInfo (i : Info) : Info := if containsStr xhtmlNs i.tag then i else { i with ns := none, pfx := none }

mutual
/-- `stripTags false` on trees without processing instructions. -/
def stripN : Node → Node
  | .elem i ks => .elem (stripInfo i) (stripNs ks)
  | n => n

def stripNs : List Node → List Node
  | [] => []
  | n :: ns => stripN n :: stripNs ns
end

mutual
theorem stripTags_plain : ∀ n : Node, noSpecials n = true → stripTags false n = .ok (stripN n)
  | .text s, _ => by rw [stripTags, stripN]; simp
  | .comment s, h => by simp [noSpecials] at h
  | .pi t d, h => by simp [noSpecials] at h
  | .elem i ks, h => by
    rw [noSpecials] at h
    rw [stripTags, stripTagsList_plain ks h, stripN]
    unfold stripInfo
    cases containsStr xhtmlNs i.tag <;> rfl

theorem stripTagsList_plain : ∀ ns : List Node, noSpecialsAll ns = true → stripTagsList false ns = .ok (stripNs ns)
  | [], _ => by rw [stripTagsList, stripNs]
  | n :: ns, h => by
    rw [noSpecialsAll, Bool.and_eq_true] at h
    rw [stripTagsList, stripTags_plain n h.1, stripTagsList_plain ns h.2, stripNs]
end

theorem stripInfo_name (i : Info) : (stripInfo i).name = i.name := by unfold stripInfo; split <;> rfl
theorem stripInfo_attrs (i : Info) : (stripInfo i).attrs = i.attrs := by unfold stripInfo; split <;> rfl
theorem stripInfo_nsdefs (i : Info) : (stripInfo i).nsdefs = i.nsdefs := by unfold stripInfo; split <;> rfl
theorem stripInfo_nsmap (i : Info) : (stripInfo i).nsmap = i.nsmap := by unfold stripInfo; split <;> rfl

theorem containsStr_append {sub : Str} (hs : sub ≠ []) : ∀ a b : Str, containsStr sub (a ++ sub ++ b) = true
  | [], b => by
    cases sub with
    | nil => exact absurd rfl hs
    | cons c s =>
      have e : (c :: s).isPrefixOf (c :: s ++ b) = true := List.isPrefixOf_iff_prefix.2 ⟨b, rfl⟩
      simp only [List.nil_append, List.cons_append, containsStr]
      rw [List.cons_append] at e
      rw [e]; rfl
  | c :: a, b => by
    have := containsStr_append hs a b
    simp only [List.cons_append, containsStr, this, Bool.or_true]

theorem stripInfo_xhtml {i : Info} (h : i.ns = some xhtmlUri) : stripInfo i = i := by
  unfold stripInfo
  rw [if_pos]
  unfold Info.tag
  rw [h]
  exact containsStr_append (sub := xhtmlNs) (by decide) c!"{" (c!"}" ++ i.name)

theorem stripInfo_reqif {i : Info} (h : i.ns = some reqifNs) (hn : containsStr xhtmlNs (clark (some reqifNs) i.name) = false) :
    (stripInfo i).ns = none := by
  unfold stripInfo Info.tag
  rw [h, hn]
  rfl

/-- The tree the parser looks at: stripped, and without unused declarations. -/
def seen (m : NsMap) (n : Node) : Node := cleanup m (stripN n)
def seenAll (m : NsMap) (ns : List Node) : List Node := cleanupList m (stripNs ns)

/-- The declarations of an element that are used. -/
def usedDefs (i : Info) (ks : List Node) : NsMap :=
  i.nsdefs.filter (fun d => Node.usesPfx d.1 false (.elem (stripInfo i) (stripNs ks)))

theorem seen_elem (m : NsMap) (i : Info) (ks : List Node) : seen m (.elem i ks) =
    .elem { stripInfo i with nsdefs := usedDefs i ks, nsmap := NsMap.push (usedDefs i ks) m }
      (seenAll (NsMap.push (usedDefs i ks) m) ks) := by
  unfold seen seenAll usedDefs
  rw [stripN, cleanup, stripInfo_nsdefs]

theorem seen_text (m : NsMap) (s : Str) : seen m (.text s) = .text s := by
  unfold seen
  rw [stripN, cleanup]
  all_goals simp

theorem seenAll_nil (m : NsMap) : seenAll m [] = [] := by unfold seenAll; rw [stripNs, cleanupList]
theorem seenAll_cons (m : NsMap) (n : Node) (ns : List Node) : seenAll m (n :: ns) = seen m n :: seenAll m ns := by
  unfold seenAll seen; rw [stripNs, cleanupList]

theorem seenAll_isEmpty (m : NsMap) (ns : List Node) : (seenAll m ns).isEmpty = ns.isEmpty := by
  cases ns with
  | nil => rw [seenAll_nil]
  | cons n ns => rw [seenAll_cons]; rfl

mutual
theorem seen_plain (m : NsMap) : ∀ n : Node, noSpecials n = true → noSpecials (seen m n) = true
  | .text s, h => by rw [seen_text]; exact h
  | .comment s, h => by simp [noSpecials] at h
  | .pi t d, h => by simp [noSpecials] at h
  | .elem i ks, h => by
    rw [noSpecials] at h
    rw [seen_elem, noSpecials]
    exact seenAll_plain _ ks h

theorem seenAll_plain (m : NsMap) : ∀ ns : List Node, noSpecialsAll ns = true → noSpecialsAll (seenAll m ns) = true
  | [], _ => by rw [seenAll_nil, noSpecialsAll]
  | n :: ns, h => by
    rw [noSpecialsAll, Bool.and_eq_true] at h
    rw [seenAll_cons, noSpecialsAll, seen_plain m n h.1, seenAll_plain m ns h.2]; rfl
end

theorem childNames_seen (m : NsMap) : ∀ ns : List Node, noSpecialsAll ns = true → childNames (seenAll m ns) = childNames ns
  | [], _ => by rw [seenAll_nil]
  | n :: ns, h => by
    rw [noSpecialsAll, Bool.and_eq_true] at h
    have ih := childNames_seen m ns h.2
    rw [seenAll_cons]
    cases n with
    | text s => rw [seen_text]; simp only [childNames]; exact ih
    | comment s => simp [noSpecials] at h
    | pi t d => simp [noSpecials] at h
    | elem i ks => rw [seen_elem]; simp only [childNames, stripInfo_name, ih]

theorem textOf_seen (m : NsMap) : ∀ ns : List Node, noSpecialsAll ns = true → textOf (seenAll m ns) = textOf ns
  | [], _ => by rw [seenAll_nil]
  | n :: ns, h => by
    rw [noSpecialsAll, Bool.and_eq_true] at h
    have ih := textOf_seen m ns h.2
    rw [seenAll_cons]
    cases n with
    | text s => rw [seen_text]; simp only [textOf, ih]
    | comment s => simp [noSpecials] at h
    | pi t d => simp [noSpecials] at h
    | elem i ks => rw [seen_elem]; simp only [textOf, ih]

mutual
theorem isXhtml_seen (m : NsMap) : ∀ n : Node, noSpecials n = true → isXhtml n = true → isXhtml (seen m n) = true
  | .text s, _, _ => by rw [seen_text]; rfl
  | .comment s, h, _ => by simp [noSpecials] at h
  | .pi t d, h, _ => by simp [noSpecials] at h
  | .elem i ks, h, hx => by
    rw [noSpecials] at h
    rw [isXhtml, Bool.and_eq_true, beq_iff_eq] at hx
    rw [seen_elem, isXhtml, stripInfo_xhtml hx.1, Bool.and_eq_true, beq_iff_eq]
    exact ⟨hx.1, areXhtml_seen _ ks h hx.2⟩

theorem areXhtml_seen (m : NsMap) : ∀ ns : List Node, noSpecialsAll ns = true → areXhtml ns = true → areXhtml (seenAll m ns) = true
  | [], _, _ => by rw [seenAll_nil]; rfl
  | n :: ns, h, hx => by
    rw [noSpecialsAll, Bool.and_eq_true] at h
    rw [areXhtml, Bool.and_eq_true] at hx
    rw [seenAll_cons, areXhtml, isXhtml_seen m n h.1 hx.1, areXhtml_seen m ns h.2 hx.2]; rfl
end

theorem declaresNothing_seen (m : NsMap) : ∀ ns : List Node, ns.any declaresNothing = true → (seenAll m ns).any declaresNothing = true
  | [], h => by simp at h
  | n :: ns, h => by
    rw [List.any_cons, Bool.or_eq_true] at h
    rw [seenAll_cons, List.any_cons, Bool.or_eq_true]
    rcases h with h | h
    · left
      cases n with
      | elem i ks =>
        rw [seen_elem]
        simp only [declaresNothing, List.isEmpty_iff] at h ⊢
        unfold usedDefs
        rw [h]; rfl
      | _ => simp [declaresNothing] at h
    · exact .inr (declaresNothing_seen m ns h)

theorem countOk_seen (m : NsMap) {md : Model} {ks : List Node} (hp : noSpecialsAll ks = true) (h : md.countOk ks = true) :
    md.countOk (seenAll m ks) = true := by
  cases md with
  | all es => simp only [Model.countOk, childNames_seen m ks hp] at h ⊢; exact h
  | sequence b es => cases b <;> simp only [Model.countOk, childNames_seen m ks hp] at h ⊢ <;> exact h
  | choice a b es => simp only [Model.countOk, childNames_seen m ks hp] at h ⊢; exact h
  | emptyOrOne es => simp only [Model.countOk, childNames_seen m ks hp, seenAll_isEmpty] at h ⊢; exact h
  | text s => simp only [Model.countOk, childNames_seen m ks hp, textOf_seen m ks hp] at h ⊢; exact h
  | xhtml outer =>
    simp only [Model.countOk, Bool.and_eq_true, Bool.or_eq_true] at h ⊢
    exact ⟨areXhtml_seen m ks hp h.1, h.2.imp id (declaresNothing_seen m ks)⟩
  | anything => rfl

mutual
theorem valid_seen {decl : TypeName → Complex} (hd : NamesStrip decl) (m : NsMap) (t : TypeName) : ∀ n : Node, noSpecials n = true →
    validBy decl (some reqifNs) t n = true → validBy decl none t (seen m n) = true
  | .text s, _, h => by simp [validBy] at h
  | .comment s, _, h => by simp [validBy] at h
  | .pi _ _, _, h => by simp [validBy] at h
  | .elem i ks, hp, h => by
    rw [noSpecials] at hp
    rw [validBy, Bool.and_eq_true, Bool.and_eq_true] at h
    obtain ⟨⟨h1, h2⟩, h3⟩ := h
    rw [seen_elem, validBy, stripInfo_attrs, h1, countOk_seen _ hp h2, kids_seen hd _ t ks hp h3]
    rfl

theorem kids_seen {decl : TypeName → Complex} (hd : NamesStrip decl) (m : NsMap) (t : TypeName) : ∀ ns : List Node, noSpecialsAll ns = true →
    kidsBy decl (some reqifNs) (decl t).model ns = true → kidsBy decl none (decl t).model (seenAll m ns) = true
  | [], _, _ => by rw [seenAll_nil, kidsBy]
  | .text s :: ns, hp, h => by
    rw [noSpecialsAll, Bool.and_eq_true] at hp
    rw [kidsBy, Bool.and_eq_true] at h
    rw [seenAll_cons, seen_text, kidsBy, h.1, kids_seen hd m t ns hp.2 h.2]; rfl
  | .comment s :: ns, hp, _ => by simp [noSpecialsAll, noSpecials] at hp
  | .pi _ _ :: ns, hp, _ => by simp [noSpecialsAll, noSpecials] at hp
  | .elem i ks :: ns, hp, h => by
    rw [noSpecialsAll, Bool.and_eq_true] at hp
    rw [kidsBy, Bool.and_eq_true, Bool.or_eq_true, Bool.and_eq_true, beq_iff_eq] at h
    obtain ⟨h1, h2⟩ := h
    have ih := kids_seen hd m t ns hp.2 h2
    rw [seenAll_cons]
    have e := seen_elem m i ks
    rcases h1 with h1 | ⟨h1, h3⟩
    · rw [e, kidsBy, h1, ih]; rfl
    · split at h3
      · rename_i t' ht
        have hv := valid_seen hd m t' (.elem i ks) hp.1 h3
        rw [e] at hv ⊢
        rw [kidsBy, ih]
        simp only [stripInfo_name, stripInfo_reqif h1 (hd t i.name t' ht)] at hv ⊢
        simp only [ht, hv, beq_self_eq_true, Bool.and_self, Bool.or_true]
      · cases h3
end

/-! ## Declarations around XHTML content -/

/-- An XHTML element that uses a declaration from outside. -/
def outerXhtml : Node → Bool
  | .elem i _ => i.ns == some xhtmlUri && i.nsdefs.isEmpty
  | _ => false

mutual
/-- Wherever an XHTML element uses a declaration from outside, there are namespaces in force. -/
def nsKept : Node → Bool
  | .elem i ks => (!ks.any outerXhtml || !i.nsmap.isEmpty) && nsKeptAll ks
  | _ => true

def nsKeptAll : List Node → Bool
  | [] => true
  | n :: ns => nsKept n && nsKeptAll ns
end

/-- Some declaration of a prefix. -/
def HasPfx (m : NsMap) (p : Option Str) : Prop := ∃ d ∈ m, d.1 = p

theorem hasPfx_push {own m : NsMap} {p : Option Str} : HasPfx (NsMap.push own m) p ↔ HasPfx own p ∨ HasPfx m p := by
  unfold HasPfx NsMap.push
  constructor
  · rintro ⟨d, hd, rfl⟩
    rcases List.mem_append.1 hd with h | h
    · exact .inl ⟨d, h, rfl⟩
    · exact .inr ⟨d, (List.mem_filter.1 h).1, rfl⟩
  · rintro (⟨d, hd, rfl⟩ | ⟨d, hd, rfl⟩)
    · exact ⟨d, List.mem_append.2 (.inl hd), rfl⟩
    · by_cases h : own.any (fun e => e.1 == d.1) = true
      · obtain ⟨e, he, h2⟩ := List.any_eq_true.1 h
        exact ⟨e, List.mem_append.2 (.inl he), by simpa using h2⟩
      · exact ⟨d, List.mem_append.2 (.inr (List.mem_filter.2 ⟨hd, by rw [Bool.eq_false_iff.2 h]; rfl⟩)), rfl⟩

theorem get_hasPfx {m : NsMap} {p : Option Str} {u : Str} (h : NsMap.get? m p = some u) : HasPfx m p :=
  ⟨(p, u), get_mem h, rfl⟩

theorem declares_iff {i : Info} {p : Option Str} : i.declares p = true ↔ HasPfx i.nsdefs p := by
  unfold Info.declares HasPfx
  simp

/-- Prefixes an element uses are in force, and `xml` is the one of XML. -/
structure Scoped (i : Info) : Prop where
  uses : ∀ p, i.usesPfx p = true → p = some c!"xml" ∨ HasPfx i.nsmap p
  xml : i.ns.isSome = true → i.pfx = some c!"xml" → i.ns = some xmlNs

theorem resolveAttrs_scoped {m : NsMap} : ∀ {as : List (Str × Str)} {bs : List Attr}, resolveAttrs m as = some bs →
    ∀ b ∈ bs, b.ns.isSome = true → b.pfx = some c!"xml" ∨ HasPfx m b.pfx
  | [], bs, h => by cases h; intro b hb; cases hb
  | a :: as, bs, h => by
    simp only [resolveAttrs] at h
    split at h
    · rename_i x xs hx hxs
      cases h
      intro b hb hs
      rcases List.mem_cons.1 hb with rfl | hb
      · unfold resolveAttr at hx
        split at hx
        · cases hx; cases hs
        · rename_i p l _
          split at hx
          · rename_i e; cases hx; left; rw [e]
          · split at hx
            · cases hx
            · rename_i u hu; cases hx; exact .inr (get_hasPfx hu)
      · exact resolveAttrs_scoped hxs b hb hs
    · cases h

theorem resolveInfo_scoped {m : NsMap} {q : Str} {as : List (Str × Str)} {i : Info} (h : resolveInfo m q as = some i) :
    Scoped i ∧ i.nsmap = NsMap.push i.nsdefs m := by
  unfold resolveInfo at h
  dsimp only at h
  split at h
  · split at h
    · rename_i ns pfx l bs hn hb
      split at h
      · cases h
        refine ⟨⟨?_, ?_⟩, rfl⟩
        · intro p hp
          dsimp only
          unfold Info.usesPfx at hp
          dsimp only at hp
          rw [Bool.or_eq_true, Bool.and_eq_true, beq_iff_eq] at hp
          rcases hp with ⟨h1, h2⟩ | hp
          · unfold resolveElemName at hn
            split at hn
            · split at hn
              · cases hn; cases h1
              · rename_i u hu
                split at hn
                · cases hn; cases h1
                · cases hn; rw [← h2]; exact .inr (get_hasPfx hu)
            · split at hn
              · rename_i e; cases hn; left; rw [← h2, e]
              · split at hn
                · cases hn
                · rename_i u hu; cases hn; rw [← h2]; exact .inr (get_hasPfx hu)
          · obtain ⟨b, hb1, hb2⟩ := List.any_eq_true.1 hp
            rw [Bool.and_eq_true, beq_iff_eq] at hb2
            rw [← hb2.2]
            exact resolveAttrs_scoped hb b hb1 hb2.1
        · dsimp only
          intro hs hp
          unfold resolveElemName at hn
          split at hn
          · split at hn
            · cases hn; cases hs
            · split at hn
              · cases hn; cases hs
              · cases hn; cases hp
          · split at hn
            · cases hn; rfl
            · rename_i e
              split at hn
              · cases hn
              · cases hn; exact absurd (Option.some.inj hp) e
      · cases h
    · cases h
  · cases h

mutual
/-- Every element of a tree in the scope `m` is scoped. -/
def ScopedIn (m : NsMap) : Node → Prop
  | .elem i ks => Scoped i ∧ i.nsmap = NsMap.push i.nsdefs m ∧ ScopedAll i.nsmap ks
  | _ => True

def ScopedAll (m : NsMap) : List Node → Prop
  | [] => True
  | n :: ns => ScopedIn m n ∧ ScopedAll m ns
end

mutual
theorem resolve_scoped : ∀ (m : NsMap) (x : Xml) (n : Node), resolve m x = some n → ScopedIn m n
  | m, .elem q as ks, n, h => by
    rw [resolve] at h
    split at h
    · cases h
    · rename_i i hi
      split at h
      · cases h
      · rename_i ks' hk
        cases h
        rw [ScopedIn]
        obtain ⟨h1, h2⟩ := resolveInfo_scoped hi
        exact ⟨h1, h2, resolveList_scoped _ ks ks' hk⟩
  | m, .text s, n, h => by rw [resolve] at h; cases h; rw [ScopedIn]; trivial; simp
  | m, .comment s, n, h => by rw [resolve] at h; cases h; rw [ScopedIn]; trivial; simp
  | m, .pi t d, n, h => by rw [resolve] at h; cases h; rw [ScopedIn]; trivial; simp

theorem resolveList_scoped : ∀ (m : NsMap) (xs : List Xml) (ns : List Node), resolveList m xs = some ns → ScopedAll m ns
  | m, [], ns, h => by rw [resolveList] at h; cases h; rw [ScopedAll]; trivial
  | m, x :: xs, ns, h => by
    rw [resolveList] at h
    split at h
    · rename_i n' ns' h1 h2
      cases h
      rw [ScopedAll]
      exact ⟨resolve_scoped m x n' h1, resolveList_scoped m xs ns' h2⟩
    · cases h
end

theorem stripInfo_uses {i : Info} {p : Option Str} (h : (stripInfo i).usesPfx p = true) : i.usesPfx p = true := by
  unfold stripInfo at h
  split at h
  · exact h
  · unfold Info.usesPfx at h ⊢
    simp only [Option.isSome_none, Bool.false_and, Bool.false_or] at h
    rw [h, Bool.or_true]

theorem stripInfo_declares (i : Info) (p : Option Str) : (stripInfo i).declares p = i.declares p := by
  unfold Info.declares; rw [stripInfo_nsdefs]

mutual
/-- What a stripped tree uses from outside was in force there. -/
theorem uses_scoped (p : Option Str) : ∀ (m : NsMap) (n : Node), ScopedIn m n → (stripN n).usesPfx p true = true →
    p = some c!"xml" ∨ HasPfx m p
  | m, .elem i ks, hs, h => by
    rw [ScopedIn] at hs
    obtain ⟨h1, h2, h3⟩ := hs
    rw [stripN, Node.usesPfx, Bool.and_eq_true, Bool.or_eq_true, Bool.not_eq_true', Bool.true_and, stripInfo_declares] at h
    obtain ⟨hd, hu⟩ := h
    have hd' : ¬ HasPfx i.nsdefs p := by
      intro hh
      rw [declares_iff.2 hh] at hd
      cases hd
    have : p = some c!"xml" ∨ HasPfx i.nsmap p := by
      rcases hu with hu | hu
      · exact h1.uses p (stripInfo_uses hu)
      · exact usesAll_scoped p _ ks h3 hu
    rw [h2, hasPfx_push] at this
    rcases this with h | h | h
    · exact .inl h
    · exact absurd h hd'
    · exact .inr h
  | m, .text s, _, h => by rw [stripN, Node.usesPfx] at h; cases h; all_goals simp
  | m, .comment s, _, h => by rw [stripN, Node.usesPfx] at h; cases h; all_goals simp
  | m, .pi t d, _, h => by rw [stripN, Node.usesPfx] at h; cases h; all_goals simp

theorem usesAll_scoped (p : Option Str) : ∀ (m : NsMap) (ns : List Node), ScopedAll m ns → usesPfxList p (stripNs ns) = true →
    p = some c!"xml" ∨ HasPfx m p
  | m, [], _, h => by rw [stripNs, usesPfxList] at h; cases h
  | m, n :: ns, hs, h => by
    rw [ScopedAll] at hs
    rw [stripNs, usesPfxList, Bool.or_eq_true] at h
    rcases h with h | h
    · exact uses_scoped p m n hs.1 h
    · exact usesAll_scoped p m ns hs.2 h
end

/-- An XHTML element without kept declarations uses one from outside. -/
theorem outer_uses {m M : NsMap} {n : Node} (hs : ScopedIn M n) (h : outerXhtml (seen m n) = true) :
    ∃ p, p ≠ some c!"xml" ∧ (stripN n).usesPfx p true = true := by
  cases n with
  | elem i ks =>
    rw [seen_elem] at h
    simp only [outerXhtml, Bool.and_eq_true, beq_iff_eq, List.isEmpty_iff] at h
    obtain ⟨h1, h2⟩ := h
    rw [ScopedIn] at hs
    have hi : stripInfo i = i := by
      unfold stripInfo at h1 ⊢
      split
      · rfl
      · rename_i hc; rw [if_neg hc] at h1; cases h1
    rw [hi] at h1
    have hu : i.usesPfx i.pfx = true := by unfold Info.usesPfx; rw [h1]; simp
    refine ⟨i.pfx, ?_, ?_⟩
    · intro hx
      have := hs.1.xml (by rw [h1]; rfl) hx
      rw [h1] at this
      exact absurd this (by decide)
    · rw [stripN, Node.usesPfx, hi, hu]
      simp only [Bool.true_and, Bool.true_or, Bool.and_true, Bool.not_eq_true']
      rw [Bool.eq_false_iff]
      intro hd
      obtain ⟨d, hd1, hd2⟩ := declares_iff.1 hd
      have : d ∈ usedDefs i ks := by
        unfold usedDefs
        refine List.mem_filter.2 ⟨hd1, ?_⟩
        rw [Node.usesPfx, hi, hd2, hu]
        rfl
      rw [h2] at this
      cases this
  | text s => rw [seen_text] at h; cases h
  | comment s => simp [seen, stripN, cleanup, outerXhtml] at h
  | pi t d => simp [seen, stripN, cleanup, outerXhtml] at h

theorem any_seenAll {f : Node → Bool} {m : NsMap} : ∀ {ns : List Node}, (seenAll m ns).any f = true → ∃ n ∈ ns, f (seen m n) = true
  | [], h => by rw [seenAll_nil] at h; cases h
  | n :: ns, h => by
    rw [seenAll_cons, List.any_cons, Bool.or_eq_true] at h
    rcases h with h | h
    · exact ⟨n, by simp, h⟩
    · obtain ⟨n', h1, h2⟩ := any_seenAll h
      exact ⟨n', by simp [h1], h2⟩

theorem scopedAll_mem {m : NsMap} : ∀ {ns : List Node}, ScopedAll m ns → ∀ n ∈ ns, ScopedIn m n
  | [], _ => by intro n hn; cases hn
  | n :: ns, h => by
    rw [ScopedAll] at h
    intro n' hn
    rcases List.mem_cons.1 hn with rfl | hn
    · exact h.1
    · exact scopedAll_mem h.2 n' hn

theorem usesList_mem {p : Option Str} : ∀ {ns : List Node} {n : Node}, n ∈ ns → (stripN n).usesPfx p true = true →
    usesPfxList p (stripNs ns) = true
  | n' :: ns, n, hn, h => by
    rw [stripNs, usesPfxList, Bool.or_eq_true]
    rcases List.mem_cons.1 hn with rfl | hn
    · exact .inl h
    · exact .inr (usesList_mem hn h)

mutual
/-- What the tree seen by the parser uses is declared; `m` is the scope after the clean-up. -/
theorem nsKept_seen : ∀ (M m : NsMap) (n : Node), ScopedIn M n →
    (∀ p, (stripN n).usesPfx p true = true → p = some c!"xml" ∨ HasPfx m p) → nsKept (seen m n) = true
  | M, m, .elem i ks, hs, h => by
    have hs' := hs
    rw [ScopedIn] at hs
    have key : ∀ p, usesPfxList p (stripNs ks) = true → p = some c!"xml" ∨ HasPfx (NsMap.push (usedDefs i ks) m) p := by
      intro p hp
      rw [hasPfx_push]
      by_cases hd : i.declares p = true
      · obtain ⟨d, hd1, hd2⟩ := declares_iff.1 hd
        refine .inr (.inl ⟨d, ?_, hd2⟩)
        unfold usedDefs
        refine List.mem_filter.2 ⟨hd1, ?_⟩
        rw [Node.usesPfx, hd2, hp]
        simp
      · have := h p (by
          rw [stripN, Node.usesPfx, hp, stripInfo_declares, Bool.eq_false_iff.2 hd]
          simp)
        exact this.imp id .inr
    rw [seen_elem, nsKept, nsKeptAll_seen _ _ ks hs.2.2 key, Bool.and_true, Bool.or_eq_true]
    by_cases hx : (seenAll (NsMap.push (usedDefs i ks) m) ks).any outerXhtml = true
    · right
      obtain ⟨n, hn1, hn2⟩ := any_seenAll hx
      obtain ⟨p, hp1, hp2⟩ := outer_uses (scopedAll_mem hs.2.2 n hn1) hn2
      rcases key p (usesList_mem hn1 hp2) with e | ⟨d, hd, -⟩
      · exact absurd e hp1
      · cases hm : NsMap.push (usedDefs i ks) m with
        | nil => rw [hm] at hd; cases hd
        | cons a b => rfl
    · left; rw [Bool.eq_false_iff.2 hx]; rfl
  | M, m, .text s, _, _ => by rw [seen_text]; rfl
  | M, m, .comment s, _, _ => by simp [seen, stripN, cleanup, nsKept]
  | M, m, .pi t d, _, _ => by simp [seen, stripN, cleanup, nsKept]

theorem nsKeptAll_seen : ∀ (M m : NsMap) (ns : List Node), ScopedAll M ns →
    (∀ p, usesPfxList p (stripNs ns) = true → p = some c!"xml" ∨ HasPfx m p) → nsKeptAll (seenAll m ns) = true
  | M, m, [], _, _ => by rw [seenAll_nil]; rfl
  | M, m, n :: ns, hs, h => by
    rw [ScopedAll] at hs
    rw [seenAll_cons, nsKeptAll, nsKept_seen M m n hs.1 (fun p hp => h p (by rw [stripNs, usesPfxList, hp]; rfl)),
      nsKeptAll_seen M m ns hs.2 (fun p hp => h p (by rw [stripNs, usesPfxList, hp, Bool.or_true]))]
    rfl
end

/-! ## The root -/

theorem firstElem_scoped {m : NsMap} : ∀ {ns : List Node} {r : Node}, ScopedAll m ns → firstElem ns = some r → ScopedIn m r
  | [], r, _, h => by cases h
  | n :: ns, r, hs, h => by
    rw [ScopedAll] at hs
    cases n with
    | elem i ks => simp only [firstElem] at h; cases h; exact hs.1
    | text s => exact firstElem_scoped hs.2 h
    | comment s => exact firstElem_scoped hs.2 h
    | pi t d => exact firstElem_scoped hs.2 h

theorem readDoc_scoped {text : Str} {d : Doc} (h : readDoc text = some d) : ScopedIn [] d.root := by
  unfold readDoc at h
  split at h
  · cases h
  · split at h
    · cases h
    · rename_i ns hns
      split at h
      · cases h
      · rename_i r hr
        cases h
        exact firstElem_scoped (resolveList_scoped _ _ _ hns) hr

/-- A node the parser looks at is valid, without comments and processing instructions, and
around XHTML there are namespaces in force. -/
structure Seen (d : Dialect) (t : TypeName) (n : Node) : Prop where
  valid : validBy (schema d) none t n = true
  plain : noSpecials n = true
  kept : nsKept n = true

theorem strippedRoot_seen {text : Str} {doc : Doc} {d : Dialect} (hr : readDoc text = some doc)
    (hn : (doc.root.nsmap.get? none).isSome = true) (hv : validRoot d doc.root = true) (hp : noSpecials doc.root = true) :
    ∃ r, strippedRoot doc.root = .ok r ∧ Seen d .reqIf r ∧ r.tag = .name c!"REQ-IF" ∧ r = seen [] doc.root := by
  refine ⟨seen [] doc.root, ?_, ⟨?_, seen_plain _ _ hp, ?_⟩, ?_, rfl⟩
  · unfold strippedRoot
    cases hg : doc.root.nsmap.get? none with
    | none => rw [hg] at hn; cases hn
    | some u =>
      dsimp only
      unfold stripNamespace
      rw [stripTags_plain _ hp]
      rfl
  · refine valid_seen (schema_strips d) [] .reqIf _ hp ?_
    cases hd : doc.root with
    | elem i ks =>
      rw [hd] at hv
      simp only [validRoot, Bool.and_eq_true] at hv
      exact hv.2
    | _ => rw [hd] at hv; cases hv
  · refine nsKept_seen [] [] _ (readDoc_scoped hr) (fun p hp => uses_scoped p [] _ (readDoc_scoped hr) hp)
  · cases hd : doc.root with
    | elem i ks =>
      rw [hd] at hv
      simp only [validRoot, Bool.and_eq_true, beq_iff_eq] at hv
      rw [seen_elem]
      simp only [Node.tag, Info.tag, stripInfo_name]
      rw [stripInfo_reqif hv.1.1 (by rw [hv.1.2]; rfl), hv.1.2]
      rfl
    | _ => rw [hd] at hv; cases hv

end ReqIF.Xsd
