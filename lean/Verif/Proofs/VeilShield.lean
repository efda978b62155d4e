import Verif.Proofs.VeilDoc
import Verif.Proofs.Rewritable
/-! What is read as XHTML values from an anonymized document. -/
set_option linter.unusedSimpArgs false
namespace ReqIF
open Spec
open Write (findReq_inv)

mutual
/-- The XHTML values are texts with property `P`. -/
def shielded (P : Str → Prop) (z : Zone) : Node → Prop
  | .elem _ ks => (z = .blob → ∃ s, ks = [.text s] ∧ P s) ∧ (z.isOpen = true → shieldedAll P z ks)
  | _ => True

def shieldedAll (P : Str → Prop) (z : Zone) : List Node → Prop
  | [] => True
  | n :: ns => shielded P (z.inner (localName n)) n ∧ shieldedAll P z ns
end

variable {P : Str → Prop} {z : Zone}

theorem shieldedAll_mem : ∀ {ns : List Node}, shieldedAll P z ns → ∀ n ∈ ns, shielded P (z.inner (localName n)) n
  | [], _, n, hn => by cases hn
  | m :: ns, h, n, hn => by
    rw [shieldedAll] at h
    rcases List.mem_cons.1 hn with rfl | hn
    · exact h.1
    · exact shieldedAll_mem h.2 n hn

theorem shielded_children (hz : z.isOpen = true) {n : Node} (h : shielded P z n) :
    ∀ k ∈ n.children, shielded P (z.inner (localName k)) k := by
  intro k hk
  cases n with
  | elem i ks => rw [shielded] at h; exact shieldedAll_mem (h.2 hz) k (List.mem_filter.1 hk).1
  | _ => cases hk

theorem shielded_find (hz : z.isOpen = true) {n c : Node} {t : Str} (ht : plainTag t = true) (h : shielded P z n)
    (hc : n.find t = some c) : shielded P (z.inner t) c := by
  rw [find_in_children] at hc
  have := shielded_children hz h c (List.mem_of_find?_eq_some hc)
  rwa [localName_of_plain (by simpa using List.find?_some hc) ht] at this

theorem shielded_findReq (hz : z.isOpen = true) {n c : Node} {t : Str} (ht : plainTag t = true) (h : shielded P z n)
    (hc : findReq n t = .ok c) : shielded P (z.inner t) c := shielded_find hz ht h (findReq_inv hc)

mutual
theorem shielded_cleanup (z : Zone) (m : NsMap) : ∀ n : Node, shielded P z n → shielded P z (cleanup m n)
  | .text _, _ => trivial
  | .comment _, _ => trivial
  | .pi _ _, _ => trivial
  | .elem i ks, h => by
    rw [shielded] at h
    rw [cleanup, shielded]
    refine ⟨fun hz => ?_, fun hz => shieldedAll_cleanup z _ ks (h.2 hz)⟩
    obtain ⟨s, rfl, hs⟩ := h.1 hz
    exact ⟨s, rfl, hs⟩

theorem shieldedAll_cleanup (z : Zone) (m : NsMap) : ∀ ns : List Node, shieldedAll P z ns → shieldedAll P z (cleanupList m ns)
  | [], _ => trivial
  | n :: ns, h => by
    rw [shieldedAll] at h
    rw [cleanupList, shieldedAll, localName_cleanup]
    exact ⟨shielded_cleanup _ m n h.1, shieldedAll_cleanup z m ns h.2⟩
end

theorem inner_blob {z : Zone} {n : Str} (h : z.inner n = .blob) : z = .xhtml ∧ n = c!"THE-VALUE" := by
  cases z
  case xhtml =>
    refine ⟨rfl, ?_⟩
    simp only [Zone.inner] at h
    split at h
    · assumption
    · split at h <;> cases h
  all_goals
    exfalso
    simp only [Zone.inner, valueZone] at h
    repeat' split at h
    all_goals cases h

/-- An element at the place of an XHTML value is one. -/
def Blobs (u : Str) (p : Option Info) (z : Zone) (i : Info) : Prop := z = .blob → xhtmlValue u p i = true ∨ i.ns ≠ some u

theorem blobs_kid {u : Str} {z : Zone} {i j : Info} (hn : i.ns = some u) (hf : z.fit i.name = true) :
    Blobs u (some i) (z.inner j.name) j := by
  intro h
  obtain ⟨rfl, hj⟩ := inner_blob h
  simp only [Zone.fit, Bool.and_eq_true, beq_iff_eq] at hf
  have hi : i.name = c!"ATTRIBUTE-VALUE-XHTML" := by simpa using hf.2
  by_cases hu : j.ns = some u
  · left
    simp [xhtmlValue, isA, hn, hi, hu, hj]
  · exact .inr hu

def Blobbing (u : Str) (p : Option Info) (z : Zone) : Node → Prop
  | .elem i _ => Blobs u p z i
  | _ => True

variable {f : Str → Str}

mutual
theorem shielded_disguised {u : Str} : ∀ (p : Option Info) (z : Zone) (n r : Node), Disguised u f p n r → befits u z n = true →
    Blobbing u p z n → Standing u p z n → shielded (fun s => ∃ t, s = f t) z (Xsd.stripN r)
  | _, _, _, _, .text _, _, _, _ => trivial
  | _, _, _, _, .comment _, _, _, _ => trivial
  | _, _, _, _, .pi _ _, _, _, _ => trivial
  | p, z, _, _, .value (i := i) ks s h ht, _, _, hs => by
    rcases Stands.value hs h with rfl | rfl
    · exact ⟨fun _ => ⟨s, rfl, ht⟩, fun h => by cases h⟩
    · exact ⟨(fun h => by cases h), (fun h => by cases h)⟩
  | p, z, _, _, .header (i := i) (ks := ks) (ls := ls) h hk, hf, _, hs => by
    rcases Stands.header hs h with rfl | rfl <;> exact ⟨(fun h => by cases h), (fun h => by cases h)⟩
  | p, z, _, _, .elem (i := i) (ks := ks) (ls := ls) hx hh hk, hf, hb, hs => by
    rw [Xsd.stripN, shielded]
    simp only [befits, Bool.or_eq_true, Bool.and_eq_true, beq_iff_eq, Bool.not_eq_true'] at hf
    refine ⟨fun hz => ?_, fun hz => ?_⟩
    · exfalso
      have hf := hf.resolve_left (by rw [hz]; decide)
      rcases hb hz with h | h
      · rw [hx] at h; cases h
      · exact h hf.1.1
    · have hf := hf.resolve_left (by intro e; rw [e] at hz; cases hz)
      exact shieldedAll_disguised (some i) z ks ls hk (hf.2.resolve_left (by rw [hz]; decide))
        (fun j => blobs_kid hf.1.1 hf.1.2) (fun j => stands_kid hz hf.1.1 hf.1.2)

theorem shieldedAll_disguised {u : Str} : ∀ (p : Option Info) (z : Zone) (ns rs : List Node), DisguisedAll u f p ns rs →
    befitsAll u z ns = true → (∀ j : Info, Blobs u p (z.inner j.name) j) → (∀ j : Info, Stands u p (z.inner j.name) j) →
    shieldedAll (fun s => ∃ t, s = f t) z (Xsd.stripNs rs)
  | _, _, _, _, .nil, _, _, _ => trivial
  | p, z, _, _, .cons (n := n) (r := r) (ns := ns) (rs := rs) hn hk, hf, hb, hs => by
    rw [befitsAll, Bool.and_eq_true] at hf
    rw [Xsd.stripNs, shieldedAll, localName_stripN, disguised_name hn]
    refine ⟨shielded_disguised p _ n r hn hf.1 ?_ ?_, shieldedAll_disguised p z ns rs hk hf.2 hb hs⟩
    · cases n with
      | elem i ks => exact hb i
      | _ => trivial
    · cases n with
      | elem i ks => exact hs i
      | _ => trivial
end

/-! ## Values -/

/-- The value is an XHTML value with the property, or none. -/
def ShieldedValue (P : Str → Prop) (a : SpecObjectAttribute) : Prop := a.type = .xhtml → ∃ s, a.value = .str s ∧ P s

/-- Texts that are printed as they are. -/
def Plainly (P : Str → Prop) : Prop := ∀ s, P s → lxmlEscapeForHtml s = s

theorem blob_strings_are (hP : Plainly P) {v : Node} (h : shielded P .blob v) {s : Str} :
    (stringifyNamespacedChildren v = .ok s → Format.isElem v = true → P s) ∧ (stringifyChildren v = .ok s → Format.isElem v = true → P s) := by
  cases v with
  | elem i ks =>
    rw [shielded] at h
    obtain ⟨t, rfl, ht⟩ := h.1 rfl
    constructor
    · intro e _
      unfold stringifyNamespacedChildren at e
      split at e
      · cases e
      · simp only [Node.kids, stringifyNsKids, stringifyNsNode, List.append_nil, hP t ht] at e
        cases e
        exact ht
    · intro e _
      simp only [stringifyChildren, Node.kids, stringifyChildrenGo, List.append_nil] at e
      cases e
      exact ht
  | text t => exact ⟨(fun _ e => by cases e), (fun _ e => by cases e)⟩
  | comment t => exact ⟨(fun _ e => by cases e), (fun _ e => by cases e)⟩
  | pi a b => exact ⟨(fun _ e => by cases e), (fun _ e => by cases e)⟩

theorem shielded_simple {x : Node} {t : AttrType} {ref : Str} {a : SpecObjectAttribute} (ht : t ≠ .xhtml)
    (h : parseSimpleValue x t ref = .ok a) : ShieldedValue P a := by
  unfold parseSimpleValue at h
  obtain ⟨v, -, h⟩ := py_bind_inv h
  obtain ⟨d, -, h⟩ := py_bind_inv h
  obtain ⟨r, -, h⟩ := py_bind_inv h
  cases h
  exact fun e => absurd e ht

theorem shielded_xhtml (hP : Plainly P) {x : Node} {a : SpecObjectAttribute} (hx : shielded P .xhtml x)
    (h : parseXhtmlAttributeValue x = .ok a) : ShieldedValue P a := by
  unfold parseXhtmlAttributeValue at h
  obtain ⟨v, hv, h⟩ := py_bind_inv h
  have hb : shielded P .blob v := shielded_findReq (t := c!"THE-VALUE") rfl (by decide) hx hv
  split at h
  · obtain ⟨w, hw, h⟩ := py_bind_inv h
    obtain ⟨_, -, h⟩ := py_bind_inv h
    obtain ⟨d, -, h⟩ := py_bind_inv h
    obtain ⟨r, -, h⟩ := py_bind_inv h
    cases h
    exact fun _ => ⟨w, rfl, (blob_strings_are hP hb).1 hw (find_isElem (findReq_inv hv))⟩
  · obtain ⟨w, hw, h⟩ := py_bind_inv h
    obtain ⟨d, -, h⟩ := py_bind_inv h
    obtain ⟨r, -, h⟩ := py_bind_inv h
    cases h
    exact fun _ => ⟨w, rfl, (blob_strings_are hP hb).2 hw (find_isElem (findReq_inv hv))⟩

theorem shielded_value (hP : Plainly P) {x : Node} {a : SpecObjectAttribute} (hx : shielded P (valueZone (localName x)) x)
    (h : parseAttributeValue x = .ok a) : ShieldedValue P a := by
  unfold parseAttributeValue at h
  split at h
  · obtain ⟨v, -, h⟩ := py_bind_inv h
    obtain ⟨d, -, h⟩ := py_bind_inv h
    obtain ⟨r, -, h⟩ := py_bind_inv h
    cases h
    exact fun e => by cases e
  split at h
  · obtain ⟨d, hd, h⟩ := py_bind_inv h
    obtain ⟨r, -, h⟩ := py_bind_inv h
    cases hv : x.find c!"VALUES" with
    | none => rw [hv] at h; cases h
    | some vs =>
      rw [hv] at h
      cases h
      exact fun e => by cases e
  split at h
  · exact shielded_simple (by decide) h
  split at h
  · exact shielded_simple (by decide) h
  split at h
  · exact shielded_simple (by decide) h
  split at h
  · exact shielded_simple (by decide) h
  split at h
  · rename_i ht
    rw [localName_of_plain ht (by decide)] at hx
    exact shielded_xhtml hP hx h
  · cases h

theorem shielded_values (hP : Plainly P) {z : Zone} (hz : z.isOpen = true) (hi : z.inner c!"VALUES" = .values) {x : Node}
    {vs : Option (List SpecObjectAttribute)} (hx : shielded P z x)
    (h : parseAttributeValues (x.find c!"VALUES") = .ok vs) : ∀ a ∈ vs.getD [], ShieldedValue P a := by
  cases hf : x.find c!"VALUES" with
  | none => rw [hf] at h; cases h; intro a ha; cases ha
  | some y =>
    have hy := shielded_find hz (by decide) hx hf
    rw [hi] at hy
    rw [hf] at h
    simp only [parseAttributeValues] at h
    obtain ⟨ws, hw, h⟩ := py_bind_inv h
    cases h
    intro a ha
    obtain ⟨k, hk, e⟩ := mapPy_mem hw ha
    exact shielded_value hP (shielded_children (z := .values) rfl hy k (List.mem_filter.1 hk).1) e

theorem shielded_relationValues (hP : Plainly P) {x : Node} {v : Option SpecObjectAttribute} (hx : shielded P .relation x)
    (h : parseRelationValues (x.find c!"VALUES") = .ok v) : ∀ a ∈ v.toList, ShieldedValue P a := by
  intro a ha
  cases hf : x.find c!"VALUES" with
  | none => rw [hf] at h; cases h; cases ha
  | some vs =>
    have hy := shielded_find (z := .relation) rfl (by decide) hx hf
    rw [hf] at h
    simp only [parseRelationValues] at h
    cases hk : vs.children with
    | nil => rw [hk] at h; cases h; cases ha
    | cons y ys =>
    rw [hk] at h
    dsimp only at h
    have hy3 := shielded_children (z := .values) rfl hy y (by rw [hk]; simp)
    split at h
    · obtain ⟨v, -, h⟩ := py_bind_inv h
      obtain ⟨d, -, h⟩ := py_bind_inv h
      obtain ⟨r, -, h⟩ := py_bind_inv h
      cases h
      simp only [Option.toList_some, List.mem_singleton] at ha
      subst ha
      exact fun e => by cases e
    split at h
    · rename_i hy2
      rw [localName_of_plain hy2 (by decide)] at hy3
      obtain ⟨v, hv, h⟩ := py_bind_inv h
      cases h
      simp only [Option.toList_some, List.mem_singleton] at ha
      subst ha
      exact shielded_xhtml hP hy3 hv
    split at h
    · obtain ⟨v, -, h⟩ := py_bind_inv h
      obtain ⟨d, -, h⟩ := py_bind_inv h
      obtain ⟨r, -, h⟩ := py_bind_inv h
      cases h
      simp only [Option.toList_some, List.mem_singleton] at ha
      subst ha
      exact fun e => by cases e
    · cases h

/-! ## Items -/

theorem shielded_object (hP : Plainly P) {x : Node} {o : SpecObject} (hx : shielded P .object x) (h : objectItem x = .ok (some o)) :
    ∀ a ∈ o.attributes, ShieldedValue P a := by
  unfold objectItem at h
  split at h
  · cases h
  · unfold someItem at h
    cases hp : parseSpecObject x with
    | error e => rw [hp] at h; cases h
    | ok o' =>
      rw [hp] at h; cases h
      unfold parseSpecObject at hp
      obtain ⟨_, -, hp⟩ := py_bind_inv hp
      obtain ⟨_, -, hp⟩ := py_bind_inv hp
      obtain ⟨_, -, hp⟩ := py_bind_inv hp
      obtain ⟨t, ht, hp⟩ := py_bind_inv hp
      obtain ⟨_, -, hp⟩ := py_bind_inv hp
      obtain ⟨vs, hv, hp⟩ := py_bind_inv hp
      cases hp
      exact shielded_values hP rfl rfl hx hv

theorem shielded_relation (hP : Plainly P) {x : Node} {o : SpecRelation} (hx : shielded P .relation x) (h : relationItem x = .ok (.ok o)) :
    ∀ a ∈ o.valuesAttribute.toList, ShieldedValue P a := by
  have h : parseSpecRelation x = .ok (.ok o) := by
    unfold relationItem at h
    split at h
    · cases h
    · rename_i r' hr; rw [hr]; exact h
    · rename_i m hm
      split at h <;> cases h
  unfold parseSpecRelation at h
  obtain ⟨_, -, h⟩ := py_bind_inv h
  obtain ⟨_, -, h⟩ := py_bind_inv h
  split at h
  · cases h
  · split at h
    · cases h
    · obtain ⟨_, -, h⟩ := py_bind_inv h
      obtain ⟨_, -, h⟩ := py_bind_inv h
      obtain ⟨_, -, h⟩ := py_bind_inv h
      obtain ⟨_, -, h⟩ := py_bind_inv h
      obtain ⟨_, -, h⟩ := py_bind_inv h
      obtain ⟨_, -, h⟩ := py_bind_inv h
      obtain ⟨_, -, h⟩ := py_bind_inv h
      obtain ⟨_, -, h⟩ := py_bind_inv h
      obtain ⟨v, hv, h⟩ := py_bind_inv h
      cases h
      exact shielded_relationValues hP hx hv

theorem shielded_specification (hP : Plainly P) {x : Node} {s : Specification} (hx : shielded P .specification x)
    (h : parseSpecification x = .ok s) : ∀ a ∈ s.values.getD [], ShieldedValue P a := by
  unfold parseSpecification at h
  obtain ⟨_, -, h⟩ := py_bind_inv h
  obtain ⟨_, -, h⟩ := py_bind_inv h
  obtain ⟨_, -, h⟩ := py_bind_inv h
  obtain ⟨cs, hc, h⟩ := py_bind_inv h
  obtain ⟨vs, hv, h⟩ := py_bind_inv h
  cases h
  exact shielded_values hP rfl rfl hx hv

/-- The default value of an XHTML definition has the property, if there is one. -/
def ShieldedDefault (P : Str → Prop) (a : SpecAttributeDefinition) : Prop :=
  a.type = .xhtml → ∀ s, a.defaultValue = some (.str s) → P s

theorem shielded_default (hP : Plainly P) {x : Node} {ref : Option Str} {val : Option DefaultValue} (hx : shielded P .definition x)
    (h : parseDefaultXhtml x = .ok (ref, val)) : ∀ s, val = some (.str s) → P s := by
  unfold parseDefaultXhtml at h
  cases hd : x.find c!"DEFAULT-VALUE" with
  | none => rw [hd] at h; cases h; intro s e; cases e
  | some d =>
    have h1 := shielded_find (z := .definition) rfl (by decide) hx hd
    rw [hd] at h
    dsimp only at h
    split at h
    · cases h
      intro s e; cases e
    · cases hv : d.find c!"ATTRIBUTE-VALUE-XHTML" with
      | none => rw [hv] at h; cases h
      | some v =>
        have h2 := shielded_find (z := .default) rfl (by decide) h1 hv
        rw [hv] at h
        dsimp only at h
        obtain ⟨r, hr, h⟩ := py_bind_inv h
        obtain ⟨tv, ht, h⟩ := py_bind_inv h
        obtain ⟨w, hw, h⟩ := py_bind_inv h
        cases h
        intro s e
        cases e
        exact (blob_strings_are hP (shielded_findReq (z := .xhtml) rfl (by decide) h2 ht)).1 hw (find_isElem (findReq_inv ht))

theorem shielded_definition (hP : Plainly P) {x : Node} {a : SpecAttributeDefinition} (hx : shielded P .definition x)
    (h : parseAttributeDefinition x = .ok a) : ShieldedDefault P a := by
  unfold parseAttributeDefinition at h
  obtain ⟨i, -, h⟩ := py_bind_inv h
  obtain ⟨⟨ty, dt, ⟨ref, val⟩, mv⟩, hb, h⟩ := py_bind_inv h
  cases h
  intro ht s hs
  dsimp only at ht hs
  subst ht
  unfold parseDefinitionBody at hb
  split at hb
  · obtain ⟨t, -, hb⟩ := py_bind_inv hb
    obtain ⟨p, -, hb⟩ := py_bind_inv hb
    cases hb
  split at hb
  · obtain ⟨t, -, hb⟩ := py_bind_inv hb
    obtain ⟨p, -, hb⟩ := py_bind_inv hb
    cases hb
  split at hb
  · obtain ⟨t, -, hb⟩ := py_bind_inv hb
    obtain ⟨p, -, hb⟩ := py_bind_inv hb
    cases hb
  split at hb
  · obtain ⟨t, -, hb⟩ := py_bind_inv hb
    obtain ⟨p, -, hb⟩ := py_bind_inv hb
    cases hb
  split at hb
  · obtain ⟨t, -, hb⟩ := py_bind_inv hb
    obtain ⟨p, hp, hb⟩ := py_bind_inv hb
    cases hb
    exact shielded_default hP hx hp s hs
  split at hb
  · obtain ⟨t, -, hb⟩ := py_bind_inv hb
    obtain ⟨p, hp, hb⟩ := py_bind_inv hb
    cases hb
  split at hb
  · obtain ⟨t, -, hb⟩ := py_bind_inv hb
    obtain ⟨p, -, hb⟩ := py_bind_inv hb
    cases hb
  · cases hb

theorem shielded_definitions (hP : Plainly P) {x : Node} {o : Option (List SpecAttributeDefinition)} (hx : shielded P .type x)
    (h : parseAttributeDefinitions x = .ok o) : ∀ a ∈ o.getD [], ShieldedDefault P a := by
  unfold parseAttributeDefinitions at h
  cases hs : x.find c!"SPEC-ATTRIBUTES" with
  | none => rw [hs] at h; cases h; intro a ha; cases ha
  | some sa =>
    have h1 := shielded_find (z := .type) rfl (by decide) hx hs
    rw [hs] at h
    obtain ⟨ds, hd, h⟩ := py_bind_inv h
    cases h
    intro a ha
    obtain ⟨k, hk, e⟩ := mapPy_mem hd ha
    exact shielded_definition hP (shielded_children (z := .definitions) rfl h1 k hk) e

theorem shielded_type (hP : Plainly P) {x : Node} {t : SpecType} (hx : shielded P .type x) (h : parseSpecType x = .ok (some t)) :
    ∀ a ∈ typeDefinitions t, ShieldedDefault P a := by
  unfold parseSpecType at h
  split at h
  · obtain ⟨t, ht, h⟩ := py_bind_inv h
    cases h
    unfold parseSpecObjectType at ht
    obtain ⟨_, -, ht⟩ := py_bind_inv ht
    obtain ⟨_, -, ht⟩ := py_bind_inv ht
    obtain ⟨ds, hd, ht⟩ := py_bind_inv ht
    cases ht
    exact shielded_definitions hP hx hd
  split at h
  · obtain ⟨t, ht, h⟩ := py_bind_inv h
    cases h
    unfold parseSpecRelationType at ht
    obtain ⟨_, -, ht⟩ := py_bind_inv ht
    obtain ⟨_, -, ht⟩ := py_bind_inv ht
    obtain ⟨_, -, ht⟩ := py_bind_inv ht
    obtain ⟨ds, hd, ht⟩ := py_bind_inv ht
    cases ht
    exact shielded_definitions hP hx hd
  split at h
  · obtain ⟨t, ht, h⟩ := py_bind_inv h
    cases h
    unfold parseSpecificationType at ht
    obtain ⟨_, -, ht⟩ := py_bind_inv ht
    obtain ⟨_, -, ht⟩ := py_bind_inv ht
    obtain ⟨_, -, ht⟩ := py_bind_inv ht
    obtain ⟨ds, hd, ht⟩ := py_bind_inv ht
    obtain ⟨_, -, ht⟩ := py_bind_inv ht
    cases ht
    exact shielded_definitions hP hx hd
  split at h
  · obtain ⟨t, ht, h⟩ := py_bind_inv h
    cases h
    unfold parseRelationGroupType at ht
    obtain ⟨_, -, ht⟩ := py_bind_inv ht
    obtain ⟨_, -, ht⟩ := py_bind_inv ht
    obtain ⟨ds, hd, ht⟩ := py_bind_inv ht
    cases ht
    exact shielded_definitions hP hx hd
  split at h <;> cases h

/-! ## The document -/

theorem items_from {β : Type} {x : Node} {t : Str} {k : List Node → Py β} {o : Option β} {q : Zone}
    (ht : plainTag t = true) (ho : (Zone.content.inner t).isOpen = true) (hq : ∀ s, (Zone.content.inner t).inner s = q)
    (hx : shielded P .content x) (h : parsedItems x t k = .ok o) :
    o = none ∨ ∃ xs b, o = some b ∧ k xs = .ok b ∧ ∀ y ∈ xs, shielded P q y := by
  unfold parsedItems at h
  cases hc : x.find t with
  | none => rw [hc] at h; cases h; exact .inl rfl
  | some c =>
    have h1 := shielded_find (z := .content) rfl ht hx hc
    rw [hc] at h
    dsimp only at h
    cases hb : k c.children with
    | error e => rw [hb] at h; cases h
    | ok b =>
      rw [hb] at h; cases h
      exact .inr ⟨_, b, rfl, hb, fun y hy => by have := shielded_children ho h1 y hy; rwa [hq] at this⟩

theorem shielded_content (hP : Plainly P) {x : Node} {c : Content} {l : Lookup} {errs : List MissingTag} (hx : shielded P .content x)
    (h : (parseContent (none : Option (Callback Unit)) x ()).1 = .ok (c, l, errs)) :
    (∀ t ∈ c.specTypes.getD [], ∀ a ∈ typeDefinitions t, ShieldedDefault P a) ∧
    (∀ o ∈ c.specObjects.getD [], ∀ a ∈ o.attributes, ShieldedValue P a) ∧
    (∀ r ∈ c.specRelations.getD [], ∀ a ∈ r.valuesAttribute.toList, ShieldedValue P a) ∧
    (∀ s ∈ c.specifications.getD [], ∀ a ∈ s.values.getD [], ShieldedValue P a) := by
  obtain ⟨rels, -, h2, h3, h4, h5, -, h7, -, -⟩ := parseContent_inv h
  refine ⟨?_, ?_, ?_, ?_⟩
  · rcases items_from (q := .type) (by decide) rfl (fun _ => rfl) hx h2 with e | ⟨xs, b, e, hb, hs⟩
    · rw [e]; intro t ht; cases ht
    · rw [e]
      intro t ht
      obtain ⟨y, hy, e⟩ := filterMapPy_mem hb ht
      exact shielded_type hP (hs y hy) e
  · rcases items_from (q := .object) (by decide) rfl (fun _ => rfl) hx h5 with e | ⟨xs, b, e, hb, hs⟩
    · rw [e]; intro t ht; cases ht
    · rw [e]
      intro t ht
      obtain ⟨y, hy, e⟩ := filterMapPy_mem hb ht
      exact shielded_object hP (hs y hy) e
  · rw [h7]
    rcases items_from (q := .relation) (by decide) rfl (fun _ => rfl) hx h4 with e | ⟨xs, b, e, hb, hs⟩
    · rw [e]; intro t ht; cases ht
    · rw [e]
      intro t ht
      obtain ⟨r, hr, e⟩ := List.mem_filterMap.1 (show t ∈ goodRelations b from ht)
      cases r with
      | error m => cases e
      | ok r =>
        cases e
        obtain ⟨y, hy, e⟩ := mapPy_mem hb hr
        exact shielded_relation hP (hs y hy) e
  · rcases items_from (q := .specification) (by decide) rfl (fun _ => rfl) hx h3 with e | ⟨xs, b, e, hb, hs⟩
    · rw [e]; intro t ht; cases ht
    · rw [e]
      intro t ht
      obtain ⟨y, hy, e⟩ := mapPy_mem hb ht
      exact shielded_specification hP (hs y hy) e

theorem xhtmlAll_of {b : Bundle} (h : ∀ c, b.coreContent = some (some c) →
    (∀ t ∈ c.specTypes.getD [], ∀ a ∈ typeDefinitions t, ShieldedDefault P a) ∧
    (∀ o ∈ c.specObjects.getD [], ∀ a ∈ o.attributes, ShieldedValue P a) ∧
    (∀ r ∈ c.specRelations.getD [], ∀ a ∈ r.valuesAttribute.toList, ShieldedValue P a) ∧
    (∀ s ∈ c.specifications.getD [], ∀ a ∈ s.values.getD [], ShieldedValue P a)) : XhtmlAll P b := by
  constructor
  · intro a ha
    unfold everyValue specObjectsOf specRelationsOf specificationsOf at ha
    revert h
    cases hb : b.coreContent with
    | none => rw [hb] at ha; simp at ha
    | some o =>
      cases o with
      | none => rw [hb] at ha; simp at ha
      | some c =>
        intro h
        rw [hb] at ha
        simp only [List.mem_append, List.mem_flatMap] at ha
        obtain ⟨-, h2, h3, h4⟩ := h c rfl
        rcases ha with (⟨o, ho, ha⟩ | ⟨o, ho, ha⟩) | ⟨o, ho, ha⟩
        · exact h2 o ho a ha
        · exact h3 o ho a ha
        · exact h4 o ho a ha
  · intro a ha
    unfold everyDefinition specTypesOf at ha
    revert h
    cases hb : b.coreContent with
    | none => rw [hb] at ha; simp at ha
    | some o =>
      cases o with
      | none => rw [hb] at ha; simp at ha
      | some c =>
        intro h
        rw [hb] at ha
        simp only [List.mem_flatMap] at ha
        obtain ⟨t, ht, ha⟩ := ha
        exact (h c rfl).1 t ht a ha

theorem shielded_core (hP : Plainly P) {s : Node} {r : Option (Option Content) × Lookup × List MissingTag} (hs : shielded P .root s)
    (h : (parseCore (none : Option (Callback Unit)) s ()).1 = .ok r) : ∀ c, r.1 = some (some c) →
    (∀ t ∈ c.specTypes.getD [], ∀ a ∈ typeDefinitions t, ShieldedDefault P a) ∧
    (∀ o ∈ c.specObjects.getD [], ∀ a ∈ o.attributes, ShieldedValue P a) ∧
    (∀ r ∈ c.specRelations.getD [], ∀ a ∈ r.valuesAttribute.toList, ShieldedValue P a) ∧
    (∀ s ∈ c.specifications.getD [], ∀ a ∈ s.values.getD [], ShieldedValue P a) := by
  intro c hc
  unfold parseCore at h
  cases h1 : s.find c!"CORE-CONTENT" with
  | none => rw [h1] at h; cases h; cases hc
  | some k =>
    have hk := shielded_find (z := .root) rfl (by decide) hs h1
    rw [h1] at h
    dsimp only at h
    cases h2 : k.find c!"REQ-IF-CONTENT" with
    | none => rw [h2] at h; cases h; cases hc
    | some y =>
      have hy := shielded_find (z := .core) rfl (by decide) hk h2
      rw [h2] at h
      simp only [M.bind, M.pure] at h
      cases hp : (parseContent (none : Option (Callback Unit)) y ()).1 with
      | error e =>
        rw [show parseContent (none : Option (Callback Unit)) y () = ((parseContent (none : Option (Callback Unit)) y ()).1, ()) from rfl, hp] at h
        cases h
      | ok q =>
        rw [show parseContent (none : Option (Callback Unit)) y () = ((parseContent (none : Option (Callback Unit)) y ()).1, ()) from rfl, hp] at h
        cases h
        cases hc
        exact shielded_content hP hy hp

theorem shielded_document (hP : Plainly P) {d : Doc} {s : Node} {b : Bundle} (hr : strippedRoot d.root = .ok s) (hs : shielded P .root s)
    (hb : (parseReqif (none : Option (Callback Unit)) d ()).1 = .ok b) : XhtmlAll P b := by
  obtain ⟨-, h⟩ := parseReqif_parts hr hb
  refine xhtmlAll_of fun c hc => ?_
  rcases h with ⟨-, e⟩ | ⟨-, r, hp, e⟩
  · rw [e] at hc; cases hc
  · unfold rootParts at hp
    obtain ⟨hd, -, hp⟩ := py_bind_inv hp
    obtain ⟨q, hq, hp⟩ := py_bind_inv hp
    cases hp
    rw [e] at hc
    exact shielded_core hP hs hq c hc

theorem strippedRoot_shielded {n s : Node} (h : strippedRoot n = .ok s) (hn : (n.nsmap.get? none).isSome = true)
    (hs : shielded P z (Xsd.stripN n)) : shielded P z s := by
  unfold strippedRoot at h
  cases hm : n.nsmap.get? none with
  | none => rw [hm] at hn; cases hn
  | some u =>
    rw [hm] at h
    dsimp only [stripNamespace] at h
    cases ht : stripTags false n with
    | error e => rw [ht] at h; cases h
    | ok r =>
      rw [ht] at h
      cases h
      rw [← stripTags_ok ht] at hs
      exact shielded_cleanup _ _ _ hs

/-- What is read as XHTML from a disguised document. -/
theorem xhtml_disguised {u : Str} {n : Node} {d' : Doc} {b' : Bundle} (hP : Plainly (fun s => ∃ t, s = f t))
    (hd : Disguised u f none n d'.root) (hu : n.nsmap.get? none = some u) (hf : befits u .root n = true)
    (hb' : (parseReqif (none : Option (Callback Unit)) d' ()).1 = .ok b') : XhtmlAll (fun s => ∃ t, s = f t) b' := by
  have hm : d'.root.nsmap = n.nsmap := by
    generalize d'.root = r at *
    cases hd with
    | value ks s h => cases h
    | header h hk => cases h
    | elem hx hh hk => rfl
    | _ => rfl
  have hsh : shielded (fun s => ∃ t, s = f t) .root (Xsd.stripN d'.root) := by
    refine shielded_disguised none .root n _ hd hf ?_ ?_
    · cases n with
      | elem i ks => exact fun h => by cases h
      | _ => trivial
    · cases n with
      | elem i ks => exact ⟨(fun h => by cases h), (fun h => by cases h), (fun h => by cases h)⟩
      | _ => trivial
  cases hs' : strippedRoot d'.root with
  | error e =>
    unfold parseReqif at hb'
    simp only [M.bind, M.lift, hs'] at hb'
    cases hb'
  | ok s' => exact shielded_document hP hs' (strippedRoot_shielded hs' (by rw [hm, hu]; rfl) hsh) hb'

end ReqIF
