import Verif.Proofs.VeilParse
/-! A document and the anonymized document are the same tree up to the covered strings. -/
set_option linter.unusedSimpArgs false
namespace ReqIF
open Spec

/-! ## Removing namespaces -/

mutual
theorem stripTags_ok : ∀ {n s : Node}, stripTags false n = .ok s → s = Xsd.stripN n
  | .text t, s, h => by cases h; rfl
  | .comment t, s, h => by cases h; rfl
  | .pi a b, s, h => by cases h
  | .elem i ks, s, h => by
    rw [stripTags] at h
    cases hk : stripTagsList false ks with
    | error e => rw [hk] at h; cases h
    | ok ks' =>
      rw [hk] at h
      rw [Xsd.stripN, ← stripTagsList_ok hk]
      unfold Xsd.stripInfo
      revert h
      cases containsStr xhtmlNs i.tag <;> intro h <;> cases h <;> rfl

theorem stripTagsList_ok : ∀ {ns ss : List Node}, stripTagsList false ns = .ok ss → ss = Xsd.stripNs ns
  | [], ss, h => by cases h; rfl
  | n :: ns, ss, h => by
    rw [stripTagsList] at h
    cases ha : stripTags false n with
    | error e => rw [ha] at h; cases h
    | ok n' =>
      rw [ha] at h
      dsimp only at h
      cases hb : stripTagsList false ns with
      | error e => rw [hb] at h; cases h
      | ok ns' =>
        rw [hb] at h
        cases h
        rw [Xsd.stripNs, ← stripTags_ok ha, ← stripTagsList_ok hb]
end

variable {f : Str → Str}

theorem leadingNodes_cleanup (m : NsMap) : ∀ ks : List Node, leadingNodes (cleanupList m ks) = leadingNodes ks
  | [] => rfl
  | .text s :: ks => rfl
  | .elem i js :: ks => rfl
  | .comment s :: ks => rfl
  | .pi a b :: ks => rfl

mutual
theorem veil_cleanup (z : Zone) (m : NsMap) : ∀ n : Node, veil f z (cleanup m n) = veil f z n
  | .text _ => rfl
  | .comment _ => rfl
  | .pi _ _ => rfl
  | .elem i ks => by
    by_cases hz : z.isOpen = true
    · rw [cleanup, veil_open hz, veil_open hz, veilAll_cleanup z _ ks]
      rfl
    · cases z with
      | skipped => rfl
      | blob => rfl
      | fixed =>
        show Node.elem _ (leadingNodes _) = Node.elem _ (leadingNodes ks)
        rw [leadingNodes_cleanup]
        rfl
      | note =>
        show Node.elem _ (mapLeading f (leadingNodes _)) = Node.elem _ (mapLeading f (leadingNodes ks))
        rw [leadingNodes_cleanup]
        rfl
      | _ => exact absurd rfl hz

theorem veilAll_cleanup (z : Zone) (m : NsMap) : ∀ ns : List Node, veilAll f z (cleanupList m ns) = veilAll f z ns
  | [] => rfl
  | n :: ns => by
    rw [cleanupList, veilAll, veilAll, localName_cleanup, veil_cleanup _ m n, veilAll_cleanup z m ns]
end

/-! ## Zones and names -/

/-- The names that matter stand in their zones and nowhere else. -/
def Zone.fit (z : Zone) (name : Str) : Bool :=
  ((z == .specification) == (name == c!"SPECIFICATION")) &&
  ((z == .stringValue) == (name == c!"ATTRIBUTE-VALUE-STRING")) &&
  ((z == .headerBody) == (name == c!"REQ-IF-HEADER")) &&
  ((z == .xhtml) == (name == c!"ATTRIBUTE-VALUE-XHTML"))

mutual
/-- A tree whose elements have the names and the namespace their zones ask for. -/
def befits (u : Str) (z : Zone) : Node → Bool
  | .elem i ks => z == .skipped || (i.ns == some u && z.fit i.name && (!z.isOpen || befitsAll u z ks))
  | _ => true

def befitsAll (u : Str) (z : Zone) : List Node → Bool
  | [] => true
  | n :: ns => befits u (z.inner (localName n)) n && befitsAll u z ns
end

theorem inner_note {z : Zone} {n : Str} (h : z.inner n = .note) : z = .headerBody ∧ (n = c!"COMMENT" ∨ n = c!"TITLE") := by
  cases z
  case headerBody =>
    refine ⟨rfl, ?_⟩
    simp only [Zone.inner] at h
    split at h
    · assumption
    · cases h
  all_goals
    exfalso
    simp only [Zone.inner, valueZone] at h
    repeat' split at h
    all_goals cases h

/-- What the zone says about how anonymization treats an element below `p`. -/
structure Stands (u : Str) (p : Option Info) (z : Zone) (i : Info) : Prop where
  value : xhtmlValue u p i = true → z = .blob ∨ z = .skipped
  header : headerText u p i = true → z = .note ∨ z = .skipped
  note : z = .note → headerText u p i = true ∨ i.ns ≠ some u

theorem stands_kid {u : Str} {z : Zone} {i j : Info} (hz : z.isOpen = true) (hn : i.ns = some u) (hf : z.fit i.name = true) :
    Stands u (some i) (z.inner j.name) j := by
  simp only [Zone.fit, Bool.and_eq_true, beq_iff_eq] at hf
  obtain ⟨⟨⟨-, -⟩, h3⟩, h4⟩ := hf
  refine ⟨fun h => .inl ?_, fun h => .inl ?_, fun h => ?_⟩
  · simp only [xhtmlValue, Option.any_some, Bool.and_eq_true, isA, decide_eq_true_eq] at h
    rw [h.1.2] at h4
    have : z = .xhtml := by simpa using h4
    rw [this, h.2.2]
    rfl
  · simp only [headerText, Option.any_some, Bool.and_eq_true, Bool.or_eq_true, isA, decide_eq_true_eq] at h
    rw [h.1.2] at h3
    have : z = .headerBody := by simpa using h3
    rw [this]
    rcases h.2 with h | h <;> rw [h.2] <;> rfl
  · obtain ⟨rfl, hc⟩ := inner_note h
    have hi : i.name = c!"REQ-IF-HEADER" := by simpa using h3
    by_cases hj : j.ns = some u
    · left
      simp only [headerText, Option.any_some, Bool.and_eq_true, Bool.or_eq_true, isA, decide_eq_true_eq]
      exact ⟨⟨hn, hi⟩, hc.imp (fun h => ⟨hj, h⟩) (fun h => ⟨hj, h⟩)⟩
    · exact .inr hj

theorem mapAttr_id (key : Str) (as : List Attr) : mapAttr key id as = as := by
  simp [mapAttr]

theorem veilAttrs_id (z : Zone) (h : z ≠ .skipped) (as : List Attr) : veilAttrs id z as = as := by
  cases z <;> first | exact absurd rfl h | exact mapAttr_id _ _ | rfl

theorem veilAttrs_covered {u : Str} {z : Zone} {i : Info} (hn : i.ns = some u) (hf : z.fit i.name = true) :
    veilAttrs f z i.attrs = veilAttrs id z (mapCovered u f i).attrs := by
  by_cases hz : z = .skipped
  · rw [hz]; rfl
  rw [veilAttrs_id z hz]
  simp only [Zone.fit, Bool.and_eq_true, beq_iff_eq] at hf
  obtain ⟨⟨⟨h1, h2⟩, -⟩, -⟩ := hf
  by_cases hs : z = .specification
  · subst hs
    have e1 : i.name = c!"SPECIFICATION" := by simpa using h1
    show mapAttr _ _ _ = _
    unfold mapAttr mapCovered
    apply List.map_congr_left
    intro a _
    simp [coveredAttr, isA, hn, e1]
  · by_cases ht : z = .stringValue
    · subst ht
      have e1 : i.name = c!"ATTRIBUTE-VALUE-STRING" := by simpa using h2
      show mapAttr _ _ _ = _
      unfold mapAttr mapCovered
      apply List.map_congr_left
      intro a _
      simp [coveredAttr, isA, hn, e1]
    · have e1 : i.name ≠ c!"SPECIFICATION" := by
        intro e
        rw [e] at h1
        exact hs (by simpa using h1)
      have e2 : i.name ≠ c!"ATTRIBUTE-VALUE-STRING" := by
        intro e
        rw [e] at h2
        exact ht (by simpa using h2)
      have e3 : veilAttrs f z i.attrs = i.attrs := by
        cases z <;> first | exact absurd rfl hz | exact absurd rfl hs | exact absurd rfl ht | rfl
      rw [e3]
      unfold mapCovered
      have : (fun a : Attr => if coveredAttr u i a then { a with value := f a.value } else a) = fun a => a := by
        funext a
        have e1' : (i.name = c!"SPECIFICATION") = False := eq_false e1
        have e2' : (i.name = c!"ATTRIBUTE-VALUE-STRING") = False := eq_false e2
        simp [coveredAttr, isA, e1', e2']
      rw [this]
      simp

/-- The start tag. -/
theorem veilInfo_covered {u : Str} {z : Zone} {i : Info} (h : z = .skipped ∨ i.ns = some u ∧ z.fit i.name = true) :
    veilInfo f z (Xsd.stripInfo i) = veilInfo id z (Xsd.stripInfo (mapCovered u f i)) := by
  have e : veilAttrs f z i.attrs = veilAttrs id z (mapCovered u f i).attrs := by
    rcases h with rfl | ⟨h1, h2⟩
    · rfl
    · exact veilAttrs_covered h1 h2
  have ht : (mapCovered u f i).tag = i.tag := rfl
  unfold veilInfo Xsd.stripInfo
  rw [ht]
  cases containsStr xhtmlNs i.tag <;> simp only [Bool.false_eq_true, if_true, if_false, e] <;> rfl

theorem leading_disguised {u : Str} {p : Option Info} {ks ls : List Node} (h : DisguisedAll u f p ks ls) :
    leadingNodes (Xsd.stripNs ls) = leadingNodes (Xsd.stripNs ks) := by
  cases h with
  | nil => rfl
  | cons hn hs => cases hn <;> rfl

theorem stripNs_leading (ks : List Node) : Xsd.stripNs (mapLeading f ks) = mapLeading f (Xsd.stripNs ks) := by
  match ks with
  | [] => rfl
  | .text s :: ks => rfl
  | .elem j js :: ks => rfl
  | .comment s :: ks => rfl
  | .pi a b :: ks => rfl

theorem leadingNodes_leading (ks : List Node) : leadingNodes (mapLeading f ks) = mapLeading f (leadingNodes ks) := by
  match ks with
  | [] => rfl
  | .text s :: ks => rfl
  | .elem j js :: ks => rfl
  | .comment s :: ks => rfl
  | .pi a b :: ks => rfl

theorem mapLeading_id (ks : List Node) : mapLeading id ks = ks := by
  match ks with
  | [] => rfl
  | .text s :: ks => rfl
  | .elem j js :: ks => rfl
  | .comment s :: ks => rfl
  | .pi a b :: ks => rfl

theorem localName_stripN (n : Node) : localName (Xsd.stripN n) = localName n := by
  cases n with
  | elem i ks => exact Xsd.stripInfo_name i
  | _ => rfl

theorem disguised_name {u : Str} {p : Option Info} {n r : Node} (h : Disguised u f p n r) : localName r = localName n := by
  cases h <;> rfl

/-- For elements, what their zone says; nothing for other nodes. -/
def Standing (u : Str) (p : Option Info) (z : Zone) : Node → Prop
  | .elem i _ => Stands u p z i
  | _ => True

mutual
theorem veil_disguised {u : Str} : ∀ (p : Option Info) (z : Zone) (n r : Node), Disguised u f p n r → befits u z n = true →
    Standing u p z n → veil f z (Xsd.stripN n) = veil id z (Xsd.stripN r)
  | _, _, _, _, .text _, _, _ => rfl
  | _, _, _, _, .comment _, _, _ => rfl
  | _, _, _, _, .pi _ _, _, _ => rfl
  | p, z, _, _, .value (i := i) ks s h _, _, hs => by
    rcases Stands.value hs h with rfl | rfl <;> rfl
  | p, z, _, _, .header (i := i) (ks := ks) (ls := ls) h hk, hf, hs => by
    simp only [befits, Bool.or_eq_true, Bool.and_eq_true, beq_iff_eq] at hf
    rcases Stands.header hs h with rfl | rfl
    · have hf := hf.resolve_left (by decide)
      show Node.elem _ (mapLeading f (leadingNodes (Xsd.stripNs ks))) =
        Node.elem _ (mapLeading id (leadingNodes (Xsd.stripNs (mapLeading f ls))))
      rw [mapLeading_id, stripNs_leading, leadingNodes_leading, leading_disguised hk, veilInfo_covered (.inr hf.1)]
    · show Node.elem _ [] = Node.elem _ []
      rw [veilInfo_covered (.inl rfl)]
  | p, z, _, _, .elem (i := i) (ks := ks) (ls := ls) hx hh hk, hf, hs => by
    simp only [befits, Bool.or_eq_true, Bool.and_eq_true, beq_iff_eq, Bool.not_eq_true'] at hf
    by_cases hsk : z = .skipped
    · subst hsk
      show Node.elem _ [] = Node.elem _ []
      rw [veilInfo_covered (.inl rfl)]
    have hf := hf.resolve_left hsk
    have hi := veilInfo_covered (f := f) (.inr hf.1)
    by_cases hz : z.isOpen = true
    · have hf2 := hf.2.resolve_left (by rw [hz]; decide)
      simp only [Xsd.stripN]
      rw [veil_open hz, veil_open hz, hi, veilAll_disguised (some i) z ks ls hk hf2
        (fun j => stands_kid hz hf.1.1 hf.1.2)]
    · cases z with
      | skipped => exact absurd rfl hsk
      | blob =>
        show Node.elem _ [.text c!"*"] = Node.elem _ [.text c!"*"]
        rw [hi]
      | fixed =>
        show Node.elem _ (leadingNodes (Xsd.stripNs ks)) = Node.elem _ (leadingNodes (Xsd.stripNs ls))
        rw [leading_disguised hk, hi]
      | note =>
        rcases Stands.note hs rfl with h | h
        · rw [hh] at h; cases h
        · exact absurd hf.1.1 h
      | _ => exact absurd rfl hz

theorem veilAll_disguised {u : Str} : ∀ (p : Option Info) (z : Zone) (ns rs : List Node), DisguisedAll u f p ns rs →
    befitsAll u z ns = true → (∀ j : Info, Stands u p (z.inner j.name) j) →
    veilAll f z (Xsd.stripNs ns) = veilAll id z (Xsd.stripNs rs)
  | _, _, _, _, .nil, _, _ => rfl
  | p, z, _, _, .cons (n := n) (r := r) (ns := ns) (rs := rs) hn hk, hf, hs => by
    rw [befitsAll, Bool.and_eq_true] at hf
    simp only [Xsd.stripNs, veilAll, localName_stripN]
    rw [disguised_name hn, veil_disguised p _ n r hn hf.1 (by
      cases n with
      | elem i ks => exact hs i
      | _ => trivial), veilAll_disguised p z ns rs hk hf.2 hs]
end

/-! ## Valid documents -/

namespace Xsd

/-- The zones in which elements of a type can stand, besides those that are not read. -/
def zonesOf : TypeName → List Zone
  | .reqIf => [.root] | .theHeader => [.header] | .header => [.headerBody] | .coreContent => [.core] | .content => [.content]
  | .toolExtensions => [] | .toolExtension => []
  | .datatypes => [.datatypes] | .specTypes => [.types] | .specObjects => [.objects] | .specRelations => [.relations]
  | .specifications => [.specifications] | .relationGroups => [.groups]
  | .dataType _ => [.datatype] | .specifiedValues => [.specified] | .enumValue => [.enumValue] | .properties => [.flat]
  | .embeddedValue => [.fixed]
  | .specType _ => [.type] | .specAttributes _ => [.definitions] | .definition _ _ => [.definition]
  | .definitionType _ => [.flat] | .defaultValue _ => [.default]
  | .values => [.values] | .relationValues => [.values]
  | .value _ .xhtml => [.xhtml] | .value _ .string => [.stringValue] | .value _ _ => [.value]
  | .valueDefinition _ => [.flat] | .enumRefs _ => [.flat]
  | .specObject => [.object] | .objectType => [.flat] | .specRelation => [.relation] | .relationType => [.flat] | .relationEnd => [.flat]
  | .specification => [.specification] | .specificationType => [.flat] | .children => [.hierarchies] | .hierarchy => [.hierarchy]
  | .hierarchyObject => [.flat] | .editableAtts => []
  | .relationGroup => [.group] | .groupRelations => [.flat] | .groupSpecification => [.flat] | .groupType => [.flat]
  | .alternativeIds => [] | .alternativeId => []
  | .xhtmlContent _ => [.blob] | .text _ => [.fixed, .note]

/-- What is used of the elements named `nm` of type `t'` in an element of type `t`. -/
def zonesTell (t : TypeName) (nm : Str) (t' : TypeName) : Bool :=
  (zonesOf t).all fun z => !z.isOpen || z.inner nm == .skipped || ((zonesOf t').contains (z.inner nm) && (z.inner nm).fit nm)

theorem zonesTell_kids {d : Dialect} {t t' : TypeName} {nm : Str} (ht : (schema d t).model.typeOf nm = some t') :
    zonesTell t nm t' = true := by
  refine pairs_all (f := zonesTell t) ?_ ht
  cases t with
  | value b k => cases d <;> cases b <;> cases k <;> rfl
  | definition s k => cases d <;> cases s <;> cases k <;> rfl
  | specType s => cases d <;> cases s <;> rfl
  | specAttributes s => cases d <;> cases s <;> rfl
  | defaultValue k => cases d <;> cases k <;> rfl
  | dataType k => cases d <;> cases k <;> rfl
  | definitionType k => cases d <;> cases k <;> rfl
  | valueDefinition k => cases d <;> cases k <;> rfl
  | _ => cases d <;> rfl

/-- Elements of open types are not looked into. -/
theorem open_closed {d : Dialect} (t : TypeName) (h : (schema d t).model.isOpen = true) : (zonesOf t).all (fun z => !z.isOpen) = true := by
  cases t with
  | value b k => cases k <;> cases h
  | defaultValue k => cases d <;> cases k <;> cases h
  | dataType k => cases h
  | definitionType k => cases h
  | valueDefinition k => cases h
  | xhtmlContent b => rfl
  | toolExtension => rfl
  | _ => cases h

mutual
theorem befits_valid {d : Dialect} : ∀ (t : TypeName) (z : Zone) (i : Info) (ks : List Node), validBy (schema d) (some reqifNs) t (.elem i ks) = true →
    z = .skipped ∨ z ∈ zonesOf t ∧ i.ns = some reqifNs ∧ z.fit i.name = true → befits reqifNs z (.elem i ks) = true
  | t, z, i, ks, hv, hz => by
    rw [befits]
    rcases hz with rfl | ⟨hz, hn, hf⟩
    · rfl
    rw [validBy, Bool.and_eq_true] at hv
    by_cases ho : z.isOpen = true
    · have hc : (schema d t).model.isOpen = false := by
        cases hm : (schema d t).model.isOpen with
        | false => rfl
        | true =>
          have := List.all_eq_true.1 (open_closed t hm) z hz
          rw [ho] at this
          cases this
      rw [hn, hf, ho, befitsAll_valid t z hz ho hc ks hv.2]
      simp
    · simp [hn, hf, ho]

theorem befitsAll_valid {d : Dialect} (t : TypeName) (z : Zone) (hz : z ∈ zonesOf t) (ho : z.isOpen = true)
    (hc : (schema d t).model.isOpen = false) :
    ∀ ns : List Node, kidsBy (schema d) (some reqifNs) (schema d t).model ns = true → befitsAll reqifNs z ns = true
  | [], _ => rfl
  | .elem i ks :: ns, h => by
    rw [kidsBy, Bool.and_eq_true, hc, Bool.false_or, Bool.and_eq_true, beq_iff_eq] at h
    obtain ⟨⟨hn, h1⟩, h2⟩ := h
    rw [befitsAll, Bool.and_eq_true]
    refine ⟨?_, befitsAll_valid t z hz ho hc ns h2⟩
    cases ht : (schema d t).model.typeOf i.name with
    | none => rw [ht] at h1; cases h1
    | some t' =>
      rw [ht] at h1
      have hk := List.all_eq_true.1 (zonesTell_kids ht) z hz
      simp only [ho, Bool.not_true, Bool.false_or, Bool.or_eq_true, Bool.and_eq_true, beq_iff_eq, List.contains_eq_mem, decide_eq_true_eq] at hk
      exact befits_valid t' _ i ks h1 (hk.imp id (fun h => ⟨h.1, hn, h.2⟩))
  | .text s :: ns, h => by
    rw [kidsBy, Bool.and_eq_true] at h
    rw [befitsAll, befits, befitsAll_valid t z hz ho hc ns h.2]
    · rfl
    all_goals simp
  | .comment s :: ns, h => by
    rw [kidsBy] at h
    · rw [befitsAll, befits, befitsAll_valid t z hz ho hc ns h]
      · rfl
      all_goals simp
    all_goals simp
  | .pi a b :: ns, h => by
    rw [kidsBy] at h
    · rw [befitsAll, befits, befitsAll_valid t z hz ho hc ns h]
      · rfl
      all_goals simp
    all_goals simp
end

theorem befits_root {d : Dialect} {n : Node} (h : validRoot d n = true) : befits reqifNs .root n = true := by
  cases n with
  | elem i ks =>
    simp only [validRoot, valid, Bool.and_eq_true, beq_iff_eq] at h
    refine befits_valid _ .root i ks h.2 (.inr ⟨by simp [zonesOf], h.1.1, ?_⟩)
    rw [h.1.2]
    rfl
  | _ => cases h

end Xsd
end ReqIF
