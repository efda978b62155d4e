import Verif.Proofs.Stringify
/-!
# Removal of all namespaces from a subtree
-/
namespace ReqIF
open Spec

/-- The element without namespaces. -/
def bareInfo (i : Info) : Info := { i with ns := none, pfx := none, nsdefs := [], nsmap := [] }

mutual
def bareNode : Node → Node
  | .elem i ks => .elem (bareInfo i) (bareList ks)
  | .text s => .text s
  | .comment s => .comment s
  | .pi t d => .pi t d

def bareList : List Node → List Node
  | [] => []
  | n :: ns => bareNode n :: bareList ns
end

/-- After stripping, the declarations are still there. -/
def strippedInfo (i : Info) : Info := { i with ns := none, pfx := none }

mutual
def strippedNode : Node → Node
  | .elem i ks => .elem (strippedInfo i) (strippedList ks)
  | .text s => .text s
  | .comment s => .comment s
  | .pi t d => .pi t d

def strippedList : List Node → List Node
  | [] => []
  | n :: ns => strippedNode n :: strippedList ns
end

mutual
theorem stripTags_full : ∀ (n n' : Node), stripTags true n = .ok n' → n' = strippedNode n
  | .text s, n', h => by rw [stripTags] at h; cases h; rw [strippedNode]
  | .comment s, n', h => by rw [stripTags] at h; cases h; rw [strippedNode]
  | .pi t d, n', h => by rw [stripTags] at h; cases h
  | .elem i ks, n', h => by
    rw [stripTags] at h
    cases hk : stripTagsList true ks with
    | error e => rw [hk] at h; cases h
    | ok ks' =>
      rw [hk] at h
      dsimp only at h
      simp only [Bool.not_true, Bool.false_and, Bool.false_eq_true, if_false] at h
      cases h
      rw [strippedNode, stripTagsList_full ks ks' hk]
      rfl

theorem stripTagsList_full : ∀ (ns ns' : List Node), stripTagsList true ns = .ok ns' → ns' = strippedList ns
  | [], ns', h => by rw [stripTagsList] at h; cases h; rw [strippedList]
  | n :: ns, ns', h => by
    rw [stripTagsList] at h
    cases h1 : stripTags true n with
    | error e => rw [h1] at h; cases h
    | ok n1 =>
      rw [h1] at h
      dsimp only at h
      cases h2 : stripTagsList true ns with
      | error e => rw [h2] at h; cases h
      | ok ns1 =>
        rw [h2] at h
        cases h
        rw [strippedList, stripTags_full n n1 h1, stripTagsList_full ns ns1 h2]
end

theorem strippedInfo_uses {i : Info} {p : Option Str} (h : ∀ a ∈ i.attrs, a.ns = none ∨ a.pfx = some c!"xml") (hp : p ≠ some c!"xml") :
    (strippedInfo i).usesPfx p = false := by
  unfold Info.usesPfx strippedInfo
  simp only [Option.isSome_none, Bool.false_and, Bool.false_or, List.any_eq_false, Bool.and_eq_true, beq_iff_eq, not_and]
  intro a ha hs e
  rcases h a ha with h | h
  · rw [h] at hs; cases hs
  · exact hp (e.symm.trans h)

mutual
theorem bareUses {p : Option Str} (hp : p ≠ some c!"xml") : ∀ (n : Node) (b : Bool),
    (∀ i ∈ infosOf n, ∀ a ∈ i.attrs, a.ns = none ∨ a.pfx = some c!"xml") → (strippedNode n).usesPfx p b = false
  | .text _, _, _ => by rw [strippedNode, Node.usesPfx]; simp
  | .comment _, _, _ => by rw [strippedNode, Node.usesPfx]; simp
  | .pi _ _, _, _ => by rw [strippedNode, Node.usesPfx]; simp
  | .elem i ks, b, h => by
    rw [infosOf] at h
    rw [strippedNode, Node.usesPfx, strippedInfo_uses (h i (by simp)) hp, bareUsesList hp ks (fun j hj => h j (by simp [hj]))]
    simp

theorem bareUsesList {p : Option Str} (hp : p ≠ some c!"xml") : ∀ (ns : List Node),
    (∀ i ∈ infosOfAll ns, ∀ a ∈ i.attrs, a.ns = none ∨ a.pfx = some c!"xml") → usesPfxList p (strippedList ns) = false
  | [], _ => by rw [strippedList, usesPfxList]
  | n :: ns, h => by
    rw [infosOfAll] at h
    rw [strippedList, usesPfxList, bareUses hp n true (fun j hj => h j (by simp [hj])),
      bareUsesList hp ns (fun j hj => h j (by simp [hj]))]
    rfl
end

/-- No attribute has a namespace, other than `xml:…`, and `xml` is not declared. -/
def PlainAttributes (i : Info) : Prop :=
  (∀ a ∈ i.attrs, a.ns = none ∨ a.pfx = some c!"xml") ∧ ∀ d ∈ i.nsdefs, d.1 ≠ some c!"xml"

mutual
theorem cleanup_strippedNode : ∀ (n : Node), (∀ i ∈ infosOf n, PlainAttributes i) → cleanup [] (strippedNode n) = bareNode n
  | .text _, _ => by rw [strippedNode, cleanup, bareNode]; simp
  | .comment _, _ => by rw [strippedNode, cleanup, bareNode]; simp
  | .pi _ _, _ => by rw [strippedNode, cleanup, bareNode]; simp
  | .elem i ks, h => by
    have h' : ∀ j ∈ infosOf (.elem i ks), ∀ a ∈ j.attrs, a.ns = none ∨ a.pfx = some c!"xml" := fun j hj => (h j hj).1
    rw [infosOf] at h
    have e : (strippedInfo i).nsdefs.filter (fun d => Node.usesPfx d.1 false (.elem (strippedInfo i) (strippedList ks))) = [] := by
      rw [List.filter_eq_nil_iff]
      intro d hd
      have := bareUses ((h i (by simp)).2 d hd) (.elem i ks) false h'
      rw [strippedNode] at this
      rw [this]
      simp
    rw [strippedNode, cleanup, e, bareNode]
    have e2 : NsMap.push [] [] = [] := rfl
    rw [e2, cleanup_strippedList ks (fun j hj => h j (by simp [hj]))]
    rfl

theorem cleanup_strippedList : ∀ (ns : List Node), (∀ i ∈ infosOfAll ns, PlainAttributes i) → cleanupList [] (strippedList ns) = bareList ns
  | [], _ => by rw [strippedList, cleanupList, bareList]
  | n :: ns, h => by
    rw [infosOfAll] at h
    rw [strippedList, cleanupList, bareList, cleanup_strippedNode n (fun j hj => h j (by simp [hj])),
      cleanup_strippedList ns (fun j hj => h j (by simp [hj]))]
end

/-- The prefixes that are added to the copied root do not contain `xml`. -/
theorem outerPfx_xml : (∀ (n : Node) (d : List (Option Str)) (p : Option Str), p ∈ n.outerPfx d → p ≠ some c!"xml") := by
  intro n
  exact Node.rec (motive_1 := fun n => ∀ (d : List (Option Str)) (p : Option Str), p ∈ n.outerPfx d → p ≠ some c!"xml")
    (motive_2 := fun ns => ∀ (d : List (Option Str)) (p : Option Str), p ∈ outerPfxList d ns → p ≠ some c!"xml")
    (fun i ks ih d p h => by
      rw [Node.outerPfx, List.mem_append] at h
      rcases h with h | h
      · have := (List.mem_filter.1 h).2
        rw [Bool.and_eq_true] at this
        simpa using this.2
      · exact ih _ _ h)
    (fun _ d p h => by rw [Node.outerPfx] at h; cases h; all_goals simp)
    (fun _ d p h => by rw [Node.outerPfx] at h; cases h; all_goals simp)
    (fun _ _ d p h => by rw [Node.outerPfx] at h; cases h; all_goals simp)
    (fun d p h => by rw [outerPfxList] at h; cases h)
    (fun n ns ih1 ih2 d p h => by
      rw [outerPfxList, List.mem_append] at h
      exact h.elim (ih1 _ _) (ih2 _ _)) n

/-- The subtree without namespaces. -/
theorem stripNamespace_bareNode {n r : Node} (h : stripNamespace true n.detach = .ok r) (hp : ∀ i ∈ infosOf n, PlainAttributes i) :
    r = bareNode n := by
  unfold stripNamespace at h
  cases hs : stripTags true n.detach with
  | error e => rw [hs] at h; cases h
  | ok m =>
    rw [hs] at h
    cases h
    have e := stripTags_full _ _ hs
    subst e
    cases n with
    | text s => unfold Node.detach; rw [strippedNode, cleanup, bareNode]; simp
    | comment s => unfold Node.detach; rw [strippedNode, cleanup, bareNode]; simp
    | pi t d => unfold Node.detach; rw [strippedNode, cleanup, bareNode]; simp
    | elem i ks =>
      rw [cleanup_strippedNode]
      · unfold Node.detach
        dsimp only
        rw [bareNode, bareNode]
        rfl
      · intro j hj
        unfold Node.detach at hj
        dsimp only at hj
        rw [infosOf] at hj
        rw [infosOf] at hp
        rcases List.mem_cons.1 hj with rfl | hj
        · refine ⟨(hp i (by simp)).1, ?_⟩
          intro d hd
          rcases List.mem_append.1 hd with hd | hd
          · exact (hp i (by simp)).2 d hd
          · obtain ⟨p, hp1, hp2⟩ := List.mem_filterMap.1 hd
            have hp3 := outerPfx_xml _ _ _ (List.mem_eraseDups.1 hp1)
            cases hg : NsMap.get? i.nsmap p with
            | none => rw [hg] at hp2; cases hp2
            | some u => rw [hg] at hp2; cases hp2; exact hp3
        · exact hp j (by simp [hj])

theorem stripNamespace_bare {n r : Node} (h : stripNamespace true n.detach = .ok r) (hp : ∀ i ∈ infosOf n, PlainAttributes i) :
    r.kids = bareList n.kids := by
  rw [stripNamespace_bareNode h hp]
  cases n <;> rw [bareNode] <;> rfl

mutual
theorem tokensOf_bare {nm rest nm' rest' : Info → Str} {short short' : Info → Bool} (h1 : ∀ i, nm (bareInfo i) = nm' i)
    (h2 : ∀ i, rest (bareInfo i) = rest' i) (h3 : ∀ i, short (bareInfo i) = short' i) : ∀ n : Node,
    tokensOf nm rest short (bareNode n) = tokensOf nm' rest' short' n
  | .text s => by rw [bareNode, tokensOf, tokensOf]
  | .comment _ => by rw [bareNode, tokensOf, tokensOf] <;> simp
  | .pi _ _ => by rw [bareNode, tokensOf, tokensOf] <;> simp
  | .elem i ks => by
    rw [bareNode, tokensOf, tokensOf, h1, h2, h3, tokensOfAll_bare h1 h2 h3 ks]
    cases ks <;> simp [bareList]

theorem tokensOfAll_bare {nm rest nm' rest' : Info → Str} {short short' : Info → Bool} (h1 : ∀ i, nm (bareInfo i) = nm' i)
    (h2 : ∀ i, rest (bareInfo i) = rest' i) (h3 : ∀ i, short (bareInfo i) = short' i) : ∀ ns : List Node,
    tokensOfAll nm rest short (bareList ns) = tokensOfAll nm' rest' short' ns
  | [] => by rw [bareList, tokensOfAll, tokensOfAll]
  | n :: ns => by rw [bareList, tokensOfAll, tokensOfAll, tokensOf_bare h1 h2 h3 n, tokensOfAll_bare h1 h2 h3 ns]
end

theorem tokensTop_bare {nm rest top nm' rest' top' : Info → Str} {short short' : Info → Bool} (h1 : ∀ i, nm (bareInfo i) = nm' i)
    (h2 : ∀ i, rest (bareInfo i) = rest' i) (h4 : ∀ i, top (bareInfo i) = top' i) (h3 : ∀ i, short (bareInfo i) = short' i) : ∀ ns : List Node,
    tokensTop nm rest top short (bareList ns) = tokensTop nm' rest' top' short' ns
  | [] => by rw [bareList, tokensTop, tokensTop]
  | .text s :: ns => by rw [bareList, bareNode, tokensTop, tokensTop, tokensTop_bare h1 h2 h4 h3 ns]
  | .comment _ :: ns => by rw [bareList, bareNode, tokensTop, tokensTop, tokensTop_bare h1 h2 h4 h3 ns] <;> simp
  | .pi _ _ :: ns => by rw [bareList, bareNode, tokensTop, tokensTop, tokensTop_bare h1 h2 h4 h3 ns] <;> simp
  | .elem i ks :: ns => by
    rw [bareList, bareNode, tokensTop, tokensTop, tokensTop_bare h1 h2 h4 h3 ns, h1, h4, h3, tokensOfAll_bare h1 h2 h3 ks]
    cases ks <;> simp [bareList]

theorem tokensChildren_bare {nm rest top nm' rest' top' : Info → Str} {short short' : Info → Bool} (h1 : ∀ i, nm (bareInfo i) = nm' i)
    (h2 : ∀ i, rest (bareInfo i) = rest' i) (h4 : ∀ i, top (bareInfo i) = top' i) (h3 : ∀ i, short (bareInfo i) = short' i) (ns : List Node) :
    tokensChildren nm rest top short (bareList ns) = tokensChildren nm' rest' top' short' ns := by
  cases ns with
  | nil => rw [bareList, tokensChildren, tokensChildren, tokensTop, tokensTop] <;> simp
  | cons n ns =>
    cases n with
    | text s => rw [bareList, bareNode, tokensChildren, tokensChildren, tokensTop_bare h1 h2 h4 h3 ns]
    | elem i ks =>
      have := tokensTop_bare h1 h2 h4 h3 (.elem i ks :: ns)
      rw [bareList, bareNode] at this ⊢
      exact this
    | comment c =>
      have := tokensTop_bare h1 h2 h4 h3 (.comment c :: ns)
      rw [bareList, bareNode] at this ⊢
      exact this
    | pi t d =>
      have := tokensTop_bare h1 h2 h4 h3 (.pi t d :: ns)
      rw [bareList, bareNode] at this ⊢
      exact this

mutual
theorem infosOf_bare : ∀ n : Node, infosOf (bareNode n) = (infosOf n).map bareInfo
  | .text s => by rw [bareNode, infosOf]; rfl; simp
  | .comment _ => by rw [bareNode, infosOf]; rfl; simp
  | .pi _ _ => by rw [bareNode, infosOf]; rfl; simp
  | .elem i ks => by rw [bareNode, infosOf, infosOf, infosOfAll_bare ks]; rfl

theorem infosOfAll_bare : ∀ ns : List Node, infosOfAll (bareList ns) = (infosOfAll ns).map bareInfo
  | [] => by rw [bareList, infosOfAll]; rfl
  | n :: ns => by rw [bareList, infosOfAll, infosOfAll, infosOf_bare n, infosOfAll_bare ns, List.map_append]
end

mutual
theorem noSpecials_bare : ∀ n : Node, noSpecials (bareNode n) = noSpecials n
  | .text s => by rw [bareNode]
  | .comment _ => by rw [bareNode]
  | .pi _ _ => by rw [bareNode]
  | .elem i ks => by rw [bareNode, noSpecials, noSpecials, noSpecialsAll_bare ks]

theorem noSpecialsAll_bare : ∀ ns : List Node, noSpecialsAll (bareList ns) = noSpecialsAll ns
  | [] => by rw [bareList]
  | n :: ns => by rw [bareList, noSpecialsAll, noSpecialsAll, noSpecials_bare n, noSpecialsAll_bare ns]
end

theorem text_mem_bare {t : Str} : ∀ {ns : List Node}, .text t ∈ bareList ns → .text t ∈ ns
  | [], h => by rw [bareList] at h; cases h
  | n :: ns, h => by
    rw [bareList] at h
    rcases List.mem_cons.1 h with h | h
    · cases n <;> simp [bareNode] at h
      simp [h]
    · exact List.mem_cons_of_mem _ (text_mem_bare h)

/-- The tokens of the stripped value. -/
theorem toks_convert {n : Node} {s : Str} (h : convertChildrenFromReqifNs n = .ok s) (hn : noSpecialsAll n.kids = true)
    (hi : ∀ i ∈ infosOfAll n.kids, NameOk i.name ∧ ∀ a ∈ i.attrs, NoAngle a.key) (hp : TopTextsPlain n.kids) (ha : ∀ i ∈ infosOf n, PlainAttributes i) :
    toks s = tokensChildren (fun i => i.name) (fun i => attributesText i.attrs) (fun i => attributesText i.attrs) (fun i => !isObject i.name) n.kids := by
  unfold convertChildrenFromReqifNs at h
  cases hs : stripNamespace true n.detach with
  | error e => rw [hs] at h; cases h
  | ok r =>
    rw [hs] at h
    have hk := stripNamespace_bare hs ha
    have := toks_children h (by rw [hk, noSpecialsAll_bare, hn]) (by
      rw [hk, infosOfAll_bare]
      intro i hm
      obtain ⟨j, hj, rfl⟩ := List.mem_map.1 hm
      exact ⟨(hi j hj).1, (hi j hj).2, by intro d hd; cases hd⟩) (by
      rw [hk]
      intro t ht
      exact hp t (text_mem_bare ht))
    rw [this, hk]
    exact tokensChildren_bare (fun i => rfl) (fun i => rfl) (fun i => List.append_nil _) (fun i => rfl) n.kids

end ReqIF
