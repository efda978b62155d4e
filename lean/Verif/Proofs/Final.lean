import Verif.Proofs.PlainDoc
import Verif.Spec.RoundTrip
import Verif.Spec.Order
import Verif.Spec.Said
import Verif.Spec.Xsd
/-!
# From the tree as written to the tree the parser works on

`Xml.final` is the tree below the root after resolving names, stripping the
namespace and cleaning up declarations, for documents that declare namespaces
in the root only.
-/
namespace ReqIF
open Spec

/-- Attributes without namespace. -/
def plainAttrs (as : List (Str × Str)) : List Attr := as.map (fun a => ⟨none, none, a.1, a.2⟩)

/-- Resolution of an element name in the final tree. -/
def Ctx.info (Γ : Ctx) (q : Str) (as : List (Str × Str)) : Info :=
  match splitQName q with
  | (none, l) => ⟨none, none, l, [], Γ.keep, plainAttrs as⟩
  | (some p, l) => ⟨NsMap.get? Γ.scope (some p), some p, l, [], Γ.keep, plainAttrs as⟩

mutual
def Xml.final (Γ : Ctx) : Xml → Node
  | .elem q as ks => .elem (Γ.info q as) (finalList Γ ks)
  | .text s => .text s
  | .comment s => .comment s
  | .pi t d => .pi t d

def finalList (Γ : Ctx) : List Xml → List Node
  | [] => []
  | x :: xs => x.final Γ :: finalList Γ xs
end

/-- An element name without prefix or with the XHTML prefix. -/
def Ctx.NameOk (Γ : Ctx) (q : Str) : Prop :=
  isQName q = true ∧ ∀ p, (splitQName q).1 = some p → p = Γ.pfx ∧ Γ.Bound

/-- Plain, distinct attribute names. -/
def AttrsOk (as : List (Str × Str)) : Prop :=
  (∀ a ∈ as, isNCName a.1 = true ∧ a.1 ≠ c!"xmlns") ∧ (as.map (·.1)).Nodup

/-- An element without prefix, or white space. -/
def Xml.inReqif : Xml → Bool
  | .elem q _ _ => (splitQName q).1.isNone
  | .text s => s.all isWs
  | _ => false

/-- An element with a prefix, or text. -/
def Xml.inXhtml : Xml → Bool
  | .elem q _ _ => (splitQName q).1.isSome
  | .text _ => true
  | _ => false

/-- The names of the elements, without prefixes. -/
def xmlNames : List Xml → List Str
  | [] => []
  | .elem q _ _ :: r => (splitQName q).2 :: xmlNames r
  | _ :: r => xmlNames r

/-- Elements whose child elements have an order. -/
def orderOf (name : Str) : Option (List Str) :=
  if name = c!"REQ-IF-HEADER" then some Xsd.headerNames
  else if name = c!"REQ-IF-CONTENT" then
    some [c!"DATATYPES", c!"SPEC-TYPES", c!"SPEC-OBJECTS", c!"SPEC-RELATIONS", c!"SPECIFICATIONS", c!"SPEC-RELATION-GROUPS"]
  else none

/-- The content fits the name: XHTML, one text, or elements of ReqIF. -/
def Fits (q : Str) (ks : List Xml) : Prop :=
  if (splitQName q).1.isSome || Xsd.xhtmlNames.contains (splitQName q).2 then ks.all Xml.inXhtml = true
  else if Xsd.holdsText (splitQName q).2 then ks = [] ∨ ∃ v, ks = [.text v]
  else ks.all Xml.inReqif = true ∧ ∀ l, orderOf (splitQName q).2 = some l → (xmlNames ks).Sublist l

mutual
/-- Elements and text with admissible names and attributes. -/
def Xml.Good (Γ : Ctx) : Xml → Prop
  | .elem q as ks => Γ.NameOk q ∧ (AttrsOk as ∧ ((splitQName q).1 = none → Spec.Increasing (as.map (·.1))) ∧ Fits q ks) ∧ GoodList Γ ks
  | .text _ => True
  | _ => False

def GoodList (Γ : Ctx) : List Xml → Prop
  | [] => True
  | x :: xs => x.Good Γ ∧ GoodList Γ xs
end

/-- The default namespace is not an XHTML namespace. -/
def Ctx.Ok (Γ : Ctx) : Prop := ∀ u, NsMap.get? Γ.scope none = some u → containsStr xhtmlNs u = false

theorem noDup_iff {α : Type} [DecidableEq α] {l : List α} : noDup l = true ↔ l.Nodup := by
  induction l with
  | nil => simp [noDup]
  | cons a l ih => simp [noDup, ih]

theorem push_nil (m : NsMap) : NsMap.push [] m = m := by simp [NsMap.push]

theorem declaredPrefix_ncname {n : Str} (h : isNCName n = true) (hx : n ≠ c!"xmlns") : declaredPrefix n = none := by
  unfold declaredPrefix
  rw [if_neg hx, splitQName_ncname h]

theorem attrsOk_decls {as : List (Str × Str)} (h : AttrsOk as) : declsOf as = [] := by
  unfold declsOf
  rw [List.filterMap_eq_nil_iff]
  intro a ha
  rw [declaredPrefix_ncname (h.1 a ha).1 (h.1 a ha).2]
  rfl

theorem attrsOk_plain {as : List (Str × Str)} (h : AttrsOk as) : plainOf as = as := by
  unfold plainOf
  rw [List.filter_eq_self]
  intro a ha
  rw [declaredPrefix_ncname (h.1 a ha).1 (h.1 a ha).2]
  rfl

theorem resolveAttrs_plain (m : NsMap) {as : List (Str × Str)} (h : ∀ a ∈ as, isNCName a.1 = true) :
    resolveAttrs m as = some (plainAttrs as) := by
  induction as with
  | nil => rfl
  | cons a as ih =>
    unfold resolveAttrs resolveAttr
    rw [splitQName_ncname (h a (by simp)), ih (fun b hb => h b (by simp [hb]))]
    rfl

/-- The element after resolving its name. -/
def Ctx.resInfo (Γ : Ctx) (q : Str) (as : List (Str × Str)) : Info :=
  match splitQName q with
  | (none, l) =>
    ⟨match NsMap.get? Γ.scope none with
      | none => none
      | some u => if u.isEmpty then none else some u, none, l, [], Γ.scope, plainAttrs as⟩
  | (some p, l) => ⟨NsMap.get? Γ.scope (some p), some p, l, [], Γ.scope, plainAttrs as⟩

mutual
def Xml.resolved (Γ : Ctx) : Xml → Node
  | .elem q as ks => .elem (Γ.resInfo q as) (resolvedList Γ ks)
  | .text s => .text s
  | .comment s => .comment s
  | .pi t d => .pi t d

def resolvedList (Γ : Ctx) : List Xml → List Node
  | [] => []
  | x :: xs => x.resolved Γ :: resolvedList Γ xs
end

theorem plainAttrs_keys (as : List (Str × Str)) :
    (plainAttrs as).map (fun a => (a.ns, a.name)) = as.map (fun a => (none, a.1)) := by
  simp [plainAttrs]

theorem resolveInfo_good {Γ : Ctx} {q : Str} {as : List (Str × Str)} (hq : Γ.NameOk q) (ha : AttrsOk as) :
    resolveInfo Γ.scope q as = some (Γ.resInfo q as) := by
  have h1 : noDup (as.map (·.1)) = true := noDup_iff.2 ha.2
  have h2 : noDup ((plainAttrs as).map (fun a => (a.ns, a.name))) = true := by
    rw [plainAttrs_keys, noDup_iff]
    have : as.map (fun a => ((none : Option Str), a.1)) = (as.map (·.1)).map (fun n => (none, n)) := by simp
    rw [this]
    exact List.Pairwise.map _ (by intro a b h e; exact h (by simpa using e)) ha.2
  unfold resolveInfo
  simp only [attrsOk_decls ha, attrsOk_plain ha, storedDecls, List.filter_nil, push_nil, List.all_nil, h1, Bool.and_true, if_true,
    resolveAttrs_plain _ (fun a h => (ha.1 a h).1)]
  have key : resolveElemName Γ.scope q = some ((Γ.resInfo q as).ns, (Γ.resInfo q as).pfx, (Γ.resInfo q as).name) := by
    unfold resolveElemName Ctx.resInfo
    cases hs : splitQName q with
    | mk p l =>
      cases p with
      | none =>
        dsimp only
        cases NsMap.get? Γ.scope none with
        | none => rfl
        | some u => dsimp only; split <;> rfl
      | some p =>
        obtain ⟨rfl, hb⟩ := hq.2 p (by rw [hs])
        obtain ⟨u, hu, -⟩ := hb.bound
        dsimp only
        rw [if_neg hb.notXml, hu]
  rw [key]
  dsimp only
  rw [if_pos h2]
  unfold Ctx.resInfo
  cases splitQName q with
  | mk p l => cases p <;> rfl

mutual
theorem resolve_good {Γ : Ctx} : ∀ (x : Xml), x.Good Γ → resolve Γ.scope x = some (x.resolved Γ)
  | .elem q as ks, h => by
    unfold Xml.Good at h
    unfold resolve Xml.resolved
    rw [resolveInfo_good h.1 h.2.1.1]
    dsimp only
    have : (Γ.resInfo q as).nsmap = Γ.scope := by
      unfold Ctx.resInfo; cases splitQName q with
      | mk p l => cases p <;> rfl
    rw [this, resolveList_good ks h.2.2]
  | .text s, _ => by unfold resolve Xml.resolved; rfl
  | .comment s, h => by unfold Xml.Good at h; exact h.elim
  | .pi t d, h => by unfold Xml.Good at h; exact h.elim

theorem resolveList_good {Γ : Ctx} : ∀ (xs : List Xml), GoodList Γ xs →
    resolveList Γ.scope xs = some (resolvedList Γ xs)
  | [], _ => by unfold resolveList resolvedList; rfl
  | x :: xs, h => by
    unfold GoodList at h
    unfold resolveList resolvedList
    rw [resolve_good x h.1, resolveList_good xs h.2]
end

/-- The tree after stripping. -/
def Ctx.stripInfo (Γ : Ctx) (q : Str) (as : List (Str × Str)) : Info :=
  { Γ.info q as with nsmap := Γ.scope }

mutual
def Xml.strippedN (Γ : Ctx) : Xml → Node
  | .elem q as ks => .elem (Γ.stripInfo q as) (strippedNList Γ ks)
  | .text s => .text s
  | .comment s => .comment s
  | .pi t d => .pi t d

def strippedNList (Γ : Ctx) : List Xml → List Node
  | [] => []
  | x :: xs => x.strippedN Γ :: strippedNList Γ xs
end

mutual
/-- Good elements have their attributes in order. -/
theorem resolved_sorted {Γ : Ctx} : ∀ x : Xml, x.Good Γ → Spec.SortedNode (x.resolved Γ)
  | .elem q as ks, h => by
    unfold Xml.Good at h
    unfold Xml.resolved Spec.SortedNode
    refine ⟨fun hp => ?_, resolvedList_sorted ks h.2.2⟩
    have e : ∀ as : List (Str × Str), (plainAttrs as).map Attr.name = as.map (·.1) := by
      intro as; unfold plainAttrs; rw [List.map_map]; rfl
    unfold Ctx.resInfo at hp ⊢
    have hs := h.2.1.2.1
    cases hq : splitQName q with
    | mk r l =>
      rw [hq] at hp hs
      cases r with
      | none => dsimp only; rw [e]; exact hs rfl
      | some r => cases hp
  | .text s, _ => by unfold Xml.resolved Spec.SortedNode; trivial
  | .comment s, _ => by unfold Xml.resolved Spec.SortedNode; trivial
  | .pi t d, _ => by unfold Xml.resolved Spec.SortedNode; trivial

theorem resolvedList_sorted {Γ : Ctx} : ∀ xs : List Xml, GoodList Γ xs → Spec.SortedNodes (resolvedList Γ xs)
  | [], _ => by unfold resolvedList Spec.SortedNodes; trivial
  | x :: xs, h => by
    unfold GoodList at h
    unfold resolvedList Spec.SortedNodes
    exact ⟨resolved_sorted x h.1, resolvedList_sorted xs h.2⟩
end

/-- The namespace of elements without prefix. -/
def defaultNs (m : NsMap) : Option Str :=
  match NsMap.get? m none with
  | none => none
  | some u => if u.isEmpty then none else some u

/-- An element without prefix, or white space. -/
def Node.inReqif : Node → Bool
  | .elem i _ => i.pfx.isNone
  | .text s => s.all isWs
  | _ => false

/-- An element with a prefix, or text. -/
def Node.inXhtml : Node → Bool
  | .elem i _ => i.pfx.isSome
  | .text _ => true
  | _ => false

/-- The content fits the name: XHTML, one text, or elements of ReqIF. -/
def NodeFits (i : Info) (ks : List Node) : Prop :=
  if i.pfx.isSome || Xsd.xhtmlNames.contains i.name then ks.all Node.inXhtml = true
  else if Xsd.holdsText i.name then ks = [] ∨ ∃ v, ks = [.text v]
  else ks.all Node.inReqif = true ∧ ∀ l, orderOf i.name = some l → (Xsd.childNames ks).Sublist l

mutual
/-- A printed element: its namespace goes with its prefix, it declares none, its attributes
have none, and its content fits. -/
def Laid (m : NsMap) (p : Str) : Node → Prop
  | .elem i ks => (i.ns = match i.pfx with
      | none => defaultNs m
      | some _ => NsMap.get? m (some p)) ∧ i.nsdefs = [] ∧ (∀ a ∈ i.attrs, a.ns = none ∧ a.pfx = none) ∧
      (i.attrs.map Attr.name).Nodup ∧ NodeFits i ks ∧ LaidAll m p ks
  | .text _ => True
  | _ => False

def LaidAll (m : NsMap) (p : Str) : List Node → Prop
  | [] => True
  | n :: ns => Laid m p n ∧ LaidAll m p ns
end

theorem resInfo_parts (Γ : Ctx) (q : Str) (as : List (Str × Str)) :
    (Γ.resInfo q as).pfx = (splitQName q).1 ∧ (Γ.resInfo q as).name = (splitQName q).2 ∧ (Γ.resInfo q as).nsdefs = [] ∧
      (Γ.resInfo q as).attrs = plainAttrs as := by
  unfold Ctx.resInfo
  cases splitQName q with
  | mk r l => cases r <;> exact ⟨rfl, rfl, rfl, rfl⟩

theorem resolvedList_all {f : Xml → Bool} {g : Node → Bool} {Γ : Ctx} (h : ∀ x : Xml, g (x.resolved Γ) = f x) :
    ∀ xs : List Xml, (resolvedList Γ xs).all g = xs.all f
  | [] => by unfold resolvedList; rfl
  | x :: xs => by unfold resolvedList; rw [List.all_cons, List.all_cons, h, resolvedList_all h]

theorem resolved_inReqif (Γ : Ctx) (x : Xml) : (x.resolved Γ).inReqif = x.inReqif := by
  cases x with
  | elem q as ks =>
    unfold Xml.resolved
    show (Γ.resInfo q as).pfx.isNone = _
    rw [(resInfo_parts Γ q as).1]
    rfl
  | _ => unfold Xml.resolved; rfl

theorem resolved_inXhtml (Γ : Ctx) (x : Xml) : (x.resolved Γ).inXhtml = x.inXhtml := by
  cases x with
  | elem q as ks =>
    unfold Xml.resolved
    show (Γ.resInfo q as).pfx.isSome = _
    rw [(resInfo_parts Γ q as).1]
    rfl
  | _ => unfold Xml.resolved; rfl

theorem childNames_resolved (Γ : Ctx) : ∀ xs : List Xml, Xsd.childNames (resolvedList Γ xs) = xmlNames xs
  | [] => by unfold resolvedList; rfl
  | .elem q as ks :: xs => by
    unfold resolvedList Xml.resolved
    rw [Xsd.childNames, xmlNames, childNames_resolved Γ xs, (resInfo_parts Γ q as).2.1]
  | .text s :: xs => by
    unfold resolvedList Xml.resolved
    exact childNames_resolved Γ xs
  | .comment s :: xs => by
    unfold resolvedList Xml.resolved
    exact childNames_resolved Γ xs
  | .pi t d :: xs => by
    unfold resolvedList Xml.resolved
    exact childNames_resolved Γ xs

theorem nodeFits_of {Γ : Ctx} {q : Str} {as : List (Str × Str)} {ks : List Xml} (h : Fits q ks) :
    NodeFits (Γ.resInfo q as) (resolvedList Γ ks) := by
  obtain ⟨h1, h2, -, -⟩ := resInfo_parts Γ q as
  unfold Fits at h
  unfold NodeFits
  rw [h1, h2, resolvedList_all (resolved_inXhtml Γ), resolvedList_all (resolved_inReqif Γ), childNames_resolved]
  split
  · rename_i hc; rw [if_pos hc] at h; exact h
  · rename_i hc
    rw [if_neg hc] at h
    split
    · rename_i hd
      rw [if_pos hd] at h
      rcases h with rfl | ⟨v, rfl⟩
      · left; unfold resolvedList; rfl
      · right; exact ⟨v, by unfold resolvedList Xml.resolved resolvedList; rfl⟩
    · rename_i hd; rw [if_neg hd] at h; exact h

mutual
theorem resolved_laid {Γ : Ctx} : ∀ x : Xml, x.Good Γ → Laid Γ.scope Γ.pfx (x.resolved Γ)
  | .elem q as ks, h => by
    unfold Xml.Good at h
    unfold Xml.resolved Laid
    obtain ⟨h1, h2, h3, h4⟩ := resInfo_parts Γ q as
    refine ⟨?_, h3, ?_, ?_, nodeFits_of h.2.1.2.2, resolvedList_laid ks h.2.2⟩
    · have hq := h.1.2
      unfold Ctx.resInfo
      cases hs : splitQName q with
      | mk r l =>
        cases r with
        | none => rfl
        | some r =>
          rw [hs] at hq
          dsimp only
          rw [(hq r rfl).1]
    · rw [h4]
      intro a ha
      unfold plainAttrs at ha
      rw [List.mem_map] at ha
      obtain ⟨b, -, rfl⟩ := ha
      exact ⟨rfl, rfl⟩
    · rw [h4]
      unfold plainAttrs
      rw [List.map_map]
      exact h.2.1.1.2
  | .text s, _ => by unfold Xml.resolved Laid; trivial
  | .comment s, h => by unfold Xml.Good at h; exact h.elim
  | .pi t d, h => by unfold Xml.Good at h; exact h.elim

theorem resolvedList_laid {Γ : Ctx} : ∀ xs : List Xml, GoodList Γ xs → LaidAll Γ.scope Γ.pfx (resolvedList Γ xs)
  | [], _ => by unfold resolvedList LaidAll; trivial
  | x :: xs, h => by
    unfold GoodList at h
    unfold resolvedList LaidAll
    exact ⟨resolved_laid x h.1, resolvedList_laid xs h.2⟩
end

/-- What is printed inside the root element. -/
structure RootLaid (p : Str) (i : Info) (ks : List Node) (names : List Str) : Prop where
  laid : LaidAll i.nsmap p ks
  plain : ks.all Node.inReqif = true
  names : Xsd.childNames ks = names

theorem slash_notName {c : Char} (h : isNameChar c = true) : c ≠ '/' := by
  rintro rfl; revert h; decide

theorem ncname_chars {n : Str} (h : isNCName n = true) : ∀ c ∈ n, isNameChar c = true := by
  cases n with
  | nil => simp [isNCName] at h
  | cons d s =>
    simp only [isNCName, Bool.and_eq_true, List.all_eq_true] at h
    intro c hc
    rcases List.mem_cons.1 hc with rfl | hc
    · simp [isNameChar, h.1]
    · exact h.2 c hc

theorem xhtmlNs_notIn_ncname {n : Str} (h : isNCName n = true) : containsStr xhtmlNs n = false :=
  containsStr_of_notMem (x := '/') (by decide) (fun hm => slash_notName (ncname_chars h _ hm) rfl)

theorem splitQName_local {q : Str} (h : isQName q = true) : isNCName (splitQName q).2 = true := by
  unfold isQName at h
  cases hs : splitQName q with
  | mk p l =>
    rw [hs] at h
    cases p with
    | none => exact h
    | some p => simp only [Bool.and_eq_true] at h; exact h.2

theorem stripInfo_eq {Γ : Ctx} (hΓ : Γ.Ok) {q : Str} (as : List (Str × Str)) (hq : Γ.NameOk q) (ks : List Node) :
    (if !false && containsStr xhtmlNs (Γ.resInfo q as).tag then Except.ok (Node.elem (Γ.resInfo q as) ks)
      else (.ok (.elem { Γ.resInfo q as with ns := none, pfx := none } ks) : Py Node)) =
      .ok (.elem (Γ.stripInfo q as) ks) := by
  have hl := splitQName_local hq.1
  cases hs : splitQName q with
  | mk p l =>
    rw [hs] at hl
    cases p with
    | none =>
      have : containsStr xhtmlNs (Γ.resInfo q as).tag = false := by
        unfold Ctx.resInfo Info.tag
        rw [hs]
        dsimp only
        cases hd : NsMap.get? Γ.scope none with
        | none => exact xhtmlNs_notIn_ncname hl
        | some u =>
          dsimp only
          split
          · exact xhtmlNs_notIn_ncname hl
          · rw [containsStr_clark (by decide) (by decide) (by decide), hΓ u hd, xhtmlNs_notIn_ncname hl]; rfl
      rw [this]
      simp only [Bool.and_false, Bool.false_eq_true, if_false]
      unfold Ctx.resInfo Ctx.stripInfo Ctx.info
      rw [hs]
    | some p =>
      obtain ⟨rfl, hb⟩ := hq.2 p (by rw [hs])
      obtain ⟨u, hu, hx⟩ := hb.bound
      have : containsStr xhtmlNs (Γ.resInfo q as).tag = true := by
        unfold Ctx.resInfo Info.tag
        rw [hs]
        dsimp only
        rw [hu, containsStr_clark (by decide) (by decide) (by decide), hx]; rfl
      rw [this]
      simp only [Bool.not_false, Bool.and_true, if_true]
      unfold Ctx.resInfo Ctx.stripInfo Ctx.info
      rw [hs]

mutual
theorem stripTags_good {Γ : Ctx} (hΓ : Γ.Ok) : ∀ (x : Xml), x.Good Γ →
    stripTags false (x.resolved Γ) = .ok (x.strippedN Γ)
  | .elem q as ks, h => by
    unfold Xml.Good at h
    unfold Xml.resolved Xml.strippedN stripTags
    rw [stripTagsList_good hΓ ks h.2.2]
    exact stripInfo_eq hΓ as h.1 _
  | .text s, _ => by unfold Xml.resolved Xml.strippedN stripTags; rfl
  | .comment s, h => by unfold Xml.Good at h; exact h.elim
  | .pi t d, h => by unfold Xml.Good at h; exact h.elim

theorem stripTagsList_good {Γ : Ctx} (hΓ : Γ.Ok) : ∀ (xs : List Xml), GoodList Γ xs →
    stripTagsList false (resolvedList Γ xs) = .ok (strippedNList Γ xs)
  | [], _ => by unfold resolvedList strippedNList stripTagsList; rfl
  | x :: xs, h => by
    unfold GoodList at h
    unfold resolvedList strippedNList stripTagsList
    rw [stripTags_good hΓ x h.1, stripTagsList_good hΓ xs h.2]
end

theorem info_nsdefs (Γ : Ctx) (q : Str) (as : List (Str × Str)) : (Γ.info q as).nsdefs = [] := by
  unfold Ctx.info; cases splitQName q with
  | mk p l => cases p <;> rfl

theorem info_nsmap (Γ : Ctx) (q : Str) (as : List (Str × Str)) : (Γ.info q as).nsmap = Γ.keep := by
  unfold Ctx.info; cases splitQName q with
  | mk p l => cases p <;> rfl

mutual
theorem cleanup_stripped (Γ : Ctx) : ∀ x : Xml, cleanup Γ.keep (x.strippedN Γ) = x.final Γ
  | .elem q as ks => by
    unfold Xml.strippedN Xml.final cleanup
    have h1 : (Γ.stripInfo q as).nsdefs = [] := info_nsdefs Γ q as
    dsimp only
    rw [h1]
    simp only [List.filter_nil, push_nil]
    rw [cleanupList_stripped Γ ks]
    congr 1
    unfold Ctx.stripInfo
    rw [← info_nsmap Γ q as, ← info_nsdefs Γ q as]
  | .text s => by unfold Xml.strippedN Xml.final cleanup; rfl
  | .comment s => by unfold Xml.strippedN Xml.final cleanup; rfl
  | .pi t d => by unfold Xml.strippedN Xml.final cleanup; rfl

theorem cleanupList_stripped (Γ : Ctx) : ∀ xs : List Xml, cleanupList Γ.keep (strippedNList Γ xs) = finalList Γ xs
  | [] => by unfold strippedNList finalList cleanupList; rfl
  | x :: xs => by
    unfold strippedNList finalList cleanupList
    rw [cleanup_stripped Γ x, cleanupList_stripped Γ xs]
end

/-- Without default namespace nothing is stripped. -/
theorem resInfo_final {Γ : Ctx} (h : NsMap.get? Γ.scope none = none) (hk : Γ.keep = Γ.scope) (q : Str)
    (as : List (Str × Str)) : Γ.resInfo q as = Γ.info q as := by
  unfold Ctx.resInfo Ctx.info
  rw [h, hk]

mutual
theorem resolved_final {Γ : Ctx} (h : NsMap.get? Γ.scope none = none) (hk : Γ.keep = Γ.scope) :
    ∀ x : Xml, x.resolved Γ = x.final Γ
  | .elem q as ks => by
    unfold Xml.resolved Xml.final
    rw [resInfo_final h hk, resolvedList_final h hk ks]
  | .text s => by unfold Xml.resolved Xml.final; rfl
  | .comment s => by unfold Xml.resolved Xml.final; rfl
  | .pi t d => by unfold Xml.resolved Xml.final; rfl

theorem resolvedList_final {Γ : Ctx} (h : NsMap.get? Γ.scope none = none) (hk : Γ.keep = Γ.scope) :
    ∀ xs : List Xml, resolvedList Γ xs = finalList Γ xs
  | [] => by unfold resolvedList finalList; rfl
  | x :: xs => by
    unfold resolvedList finalList
    rw [resolved_final h hk x, resolvedList_final h hk xs]
end

mutual
/-- Does the tree hold an element with a prefix? -/
def Xml.prefixed : Xml → Bool
  | .elem q _ ks => (splitQName q).1.isSome || prefixedList ks
  | _ => false

def prefixedList : List Xml → Bool
  | [] => false
  | x :: xs => x.prefixed || prefixedList xs
end

theorem stripInfo_uses {Γ : Ctx} (q : Str) (as : List (Str × Str)) (hq : Γ.NameOk q) (p : Option Str) :
    (Γ.stripInfo q as).usesPfx p = ((splitQName q).1.isSome && p == some Γ.pfx) := by
  unfold Info.usesPfx Ctx.stripInfo Ctx.info
  cases hs : splitQName q with
  | mk r l =>
    cases r with
    | none => simp [plainAttrs]
    | some r =>
      obtain ⟨rfl, hb⟩ := hq.2 r (by rw [hs])
      obtain ⟨u, hu, -⟩ := hb.bound
      simp [plainAttrs, hu, Bool.beq_comm]

mutual
theorem stripped_uses {Γ : Ctx} (p : Option Str) : ∀ x : Xml, x.Good Γ →
    (x.strippedN Γ).usesPfx p true = (x.prefixed && p == some Γ.pfx)
  | .elem q as ks, h => by
    unfold Xml.Good at h
    unfold Xml.strippedN Xml.prefixed Node.usesPfx
    have h1 : (Γ.stripInfo q as).declares p = false := by
      unfold Info.declares
      have : (Γ.stripInfo q as).nsdefs = [] := info_nsdefs Γ q as
      rw [this]; rfl
    rw [h1, stripInfo_uses q as h.1, stripped_usesList p ks h.2.2]
    cases (splitQName q).1.isSome <;> cases prefixedList ks <;> simp
  | .text s, _ => by unfold Xml.strippedN Xml.prefixed Node.usesPfx; rfl
  | .comment s, h => by unfold Xml.Good at h; exact h.elim
  | .pi t d, h => by unfold Xml.Good at h; exact h.elim

theorem stripped_usesList {Γ : Ctx} (p : Option Str) : ∀ xs : List Xml, GoodList Γ xs →
    usesPfxList p (strippedNList Γ xs) = (prefixedList xs && p == some Γ.pfx)
  | [], _ => by unfold strippedNList prefixedList usesPfxList; rfl
  | x :: xs, h => by
    unfold GoodList at h
    unfold strippedNList prefixedList usesPfxList
    rw [stripped_uses p x h.1, stripped_usesList p xs h.2]
    cases x.prefixed <;> cases prefixedList xs <;> simp
end

end ReqIF
