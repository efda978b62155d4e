import Verif.Proofs.PlainSeen
import Verif.Proofs.SaidTools
import Verif.Spec.Written
/-! Removing the namespace changes neither what an element says nor what is written of it. -/
set_option linter.unusedSimpArgs false
namespace ReqIF.Xsd
open Spec

/-- What can be seen of an element besides its child elements. -/
structure SameFace (n n' : Node) : Prop where
  text : n'.isText = n.isText
  attr : n'.attr? = n.attr?
  first : n.isText = false → n'.text? = n.text?
  said : Xsd.said n' = Xsd.said n
  tree : treeOf n' = treeOf n

theorem said_congr {i i' : Info} {ks ks' : List Node} (hn : i'.name = i.name) (ha : i'.attrs = i.attrs)
    (ht : (Node.elem i' ks').text? = (Node.elem i ks).text?) (hs : saidAll ks' = saidAll ks) (hx : treesOf ks' = treesOf ks) :
    SameFace (.elem i ks) (.elem i' ks') := by
  have hattr : (Node.elem i' ks').attr? = (Node.elem i ks).attr? := by
    funext k
    unfold Node.attr?
    have e : (Node.elem i' ks').attrs = (Node.elem i ks).attrs := ha
    rw [e]
  refine ⟨rfl, hattr, fun _ => ht, ?_, ?_⟩
  · rw [said, said, hn, hattr, ht, hs, hx]
  · rw [treeOf, treeOf, hn, ha, hx]

theorem SameFace.rfl' {n : Node} : SameFace n n := ⟨rfl, rfl, fun _ => rfl, rfl, rfl⟩

/-- The nodes of two lists look the same one by one. -/
inductive SameFaces : List Node → List Node → Prop
  | nil : SameFaces [] []
  | cons {n n' : Node} {ns ns' : List Node} : SameFace n n' → (∀ s, n = .text s → n' = .text s) → SameFaces ns ns' →
      SameFaces (n :: ns) (n' :: ns')

theorem saidAll_cons (n : Node) (ns : List Node) : saidAll (n :: ns) = if n.isText then saidAll ns else said n :: saidAll ns := by
  rw [saidAll_eq, saidAll_eq, List.filter_cons]
  cases n.isText <;> rfl

theorem SameFaces.saidAll {ns ns' : List Node} (h : SameFaces ns ns') : saidAll ns' = saidAll ns := by
  induction h with
  | nil => rfl
  | cons h _ _ ih => rw [saidAll_cons, saidAll_cons, h.text, h.said, ih]

theorem SameFaces.treesOf {ns ns' : List Node} (h : SameFaces ns ns') : treesOf ns' = treesOf ns := by
  induction h with
  | nil => rfl
  | cons h _ _ ih => rw [Xsd.treesOf, Xsd.treesOf, h.tree, ih]

theorem SameFaces.text {ns ns' : List Node} (h : SameFaces ns ns') (i i' : Info) : (Node.elem i' ns').text? = (Node.elem i ns).text? := by
  cases h with
  | nil => rfl
  | @cons n n' ns ns' h ht _ =>
    cases n with
    | text s => rw [ht s rfl]; rfl
    | elem j ks =>
      have := h.text
      cases n' with
      | text s => cases this
      | _ => rfl
    | comment s =>
      have := h.text
      cases n' with
      | text s => cases this
      | _ => rfl
    | pi a b =>
      have := h.text
      cases n' with
      | text s => cases this
      | _ => rfl

theorem SameFaces.elem {ns ns' : List Node} (h : SameFaces ns ns') {i i' : Info} (hn : i'.name = i.name) (ha : i'.attrs = i.attrs) :
    SameFace (.elem i ns) (.elem i' ns') := said_congr hn ha (h.text i i') h.saidAll h.treesOf

mutual
theorem cleanup_face (m : NsMap) : ∀ n : Node, SameFace n (cleanup m n)
  | .text s => by rw [cleanup]; exact .rfl'; all_goals simp
  | .comment s => by rw [cleanup]; exact .rfl'; all_goals simp
  | .pi a b => by rw [cleanup]; exact .rfl'; all_goals simp
  | .elem i ks => by rw [cleanup]; exact (cleanup_faces _ ks).elem rfl rfl

theorem cleanup_faces (m : NsMap) : ∀ ns : List Node, SameFaces ns (cleanupList m ns)
  | [] => by rw [cleanupList]; exact .nil
  | n :: ns => by
    rw [cleanupList]
    refine .cons (cleanup_face m n) ?_ (cleanup_faces m ns)
    rintro s rfl
    rw [cleanup]
    all_goals simp
end

mutual
theorem strip_face (full : Bool) : ∀ (n : Node) {n' : Node}, stripTags full n = .ok n' → SameFace n n'
  | .text s, n', h => by rw [stripTags] at h; cases h; exact .rfl'
  | .comment s, n', h => by rw [stripTags] at h; cases h; exact .rfl'
  | .pi a b, n', h => by rw [stripTags] at h; split at h <;> cases h
  | .elem i ks, n', h => by
    rw [stripTags] at h
    cases hk : stripTagsList full ks with
    | error e => rw [hk] at h; cases h
    | ok ks' =>
      have ih := strip_faces full ks hk
      rw [hk] at h
      dsimp only at h
      split at h
      · cases h; exact ih.elem rfl rfl
      · cases h; exact ih.elem rfl rfl

theorem strip_faces (full : Bool) : ∀ (ns : List Node) {ns' : List Node}, stripTagsList full ns = .ok ns' → SameFaces ns ns'
  | [], ns', h => by rw [stripTagsList] at h; cases h; exact .nil
  | n :: ns, ns', h => by
    rw [stripTagsList] at h
    cases hn : stripTags full n with
    | error e => rw [hn] at h; cases h
    | ok n' =>
      rw [hn] at h
      dsimp only at h
      cases hns : stripTagsList full ns with
      | error e => rw [hns] at h; cases h
      | ok l =>
        rw [hns] at h
        cases h
        refine .cons (strip_face full n hn) ?_ (strip_faces full ns hns)
        rintro s rfl
        rw [stripTags] at hn
        cases hn
        rfl
end

/-- Removing the namespace of the root keeps what the document says. -/
theorem said_strippedRoot {n r : Node} (h : strippedRoot n = .ok r) : saidInside r = saidInside n := by
  unfold strippedRoot at h
  split at h
  · unfold stripNamespace at h
    cases hs : stripTags false n with
    | error e => rw [hs] at h; cases h
    | ok r' =>
      rw [hs] at h
      cases h
      cases n with
      | elem i ks =>
        rw [stripTags] at hs
        cases hk : stripTagsList false ks with
        | error e => rw [hk] at hs; cases hs
        | ok ks' =>
          rw [hk] at hs
          dsimp only at hs
          have h1 := (strip_faces false ks hk).saidAll
          unfold saidInside
          split at hs
          all_goals
            cases hs
            rw [cleanup]
            show byName (saidAll (cleanupList _ ks')) = byName (saidAll ks)
            rw [(cleanup_faces _ ks').saidAll, h1]
      | text s => rw [stripTags] at hs; cases hs; rw [cleanup]; all_goals simp
      | comment s => rw [stripTags] at hs; cases hs; rw [cleanup]; all_goals simp
      | pi a b => rw [stripTags] at hs; split at hs <;> cases hs
  · cases h; rfl

/-! ## What is written -/

theorem noSpecialsAll_iff : ∀ {ns : List Node}, noSpecialsAll ns = true ↔ ∀ n ∈ ns, noSpecials n = true
  | [] => by simp [noSpecialsAll]
  | n :: ns => by rw [noSpecialsAll, Bool.and_eq_true, noSpecialsAll_iff, List.forall_mem_cons]

mutual
theorem seen_face (m : NsMap) : ∀ n : Node, noSpecials n = true → SameFace n (seen m n)
  | .text s, _ => by rw [seen_text]; exact .rfl'
  | .comment s, h => by simp [noSpecials] at h
  | .pi a b, h => by simp [noSpecials] at h
  | .elem i ks, h => by
    rw [noSpecials] at h
    rw [seen_elem]
    exact (seen_faces _ ks h).elem (stripInfo_name i) (stripInfo_attrs i)

theorem seen_faces (m : NsMap) : ∀ ns : List Node, noSpecialsAll ns = true → SameFaces ns (seenAll m ns)
  | [], _ => by rw [seenAll_nil]; exact .nil
  | n :: ns, h => by
    rw [noSpecialsAll, Bool.and_eq_true] at h
    rw [seenAll_cons]
    refine .cons (seen_face m n h.1) ?_ (seen_faces m ns h.2)
    rintro s rfl
    rw [seen_text]
end

theorem any_seen {f : Node → Bool} (hf : ∀ m n, noSpecials n = true → f (seen m n) = f n) : ∀ (m : NsMap) (ns : List Node), noSpecialsAll ns = true →
    (seenAll m ns).any f = ns.any f
  | m, [], _ => by rw [seenAll_nil]
  | m, n :: ns, h => by
    rw [noSpecialsAll, Bool.and_eq_true] at h
    rw [seenAll_cons, List.any_cons, List.any_cons, hf m n h.1, any_seen hf m ns h.2]

theorem someFull_seen (m : NsMap) {ns : List Node} (h : noSpecialsAll ns = true) : someFull (seenAll m ns) = someFull ns := by
  refine any_seen ?_ m ns h
  intro m n hn
  cases n with
  | elem i ks => rw [seen_elem]; dsimp only; rw [seenAll_isEmpty]
  | text s => rw [seen_text]
  | comment s => simp [noSpecials] at hn
  | pi a b => simp [noSpecials] at hn

theorem namesDefault_seen (m : NsMap) {ns : List Node} (h : noSpecialsAll ns = true) : namesDefault (seenAll m ns) = namesDefault ns := by
  refine any_seen ?_ m ns h
  intro m n hn
  cases n with
  | elem i ks =>
    rw [noSpecials] at hn
    rw [seen_elem]
    refine any_seen ?_ _ ks hn
    intro m n hn
    cases n with
    | elem i ks =>
      rw [noSpecials] at hn
      rw [seen_elem]
      dsimp only
      rw [stripInfo_name, childNames_seen _ ks hn]
    | text s => rw [seen_text]
    | comment s => simp [noSpecials] at hn
    | pi a b => simp [noSpecials] at hn
  | text s => rw [seen_text]
  | comment s => simp [noSpecials] at hn
  | pi a b => simp [noSpecials] at hn

theorem writesChild_seen (m : NsMap) (t : TypeName) (nm : Str) {ns : List Node} (h : noSpecialsAll ns = true) :
    writesChild t nm (seenAll m ns) = writesChild t nm ns := by
  unfold writesChild
  congr 1
  split
  · rw [seenAll_isEmpty]
  · rw [someFull_seen m h]
  · rw [childNames_seen _ ns h]
  · rw [seenAll_isEmpty, namesDefault_seen m h]
  · rfl

theorem SameFaces.append {a a' b b' : List Node} (h : SameFaces a a') (hb : SameFaces b b') : SameFaces (a ++ b) (a' ++ b') := by
  induction h with
  | nil => exact hb
  | cons h1 h2 _ ih => exact .cons h1 h2 ih

theorem SameFaces.texts {a a' : List Node} (h : SameFaces a a') : SameFaces (a.filter Node.isText) (a'.filter Node.isText) := by
  induction h with
  | nil => exact .nil
  | @cons n n' ns ns' h1 h2 _ ih =>
    rw [List.filter_cons, List.filter_cons, h1.text]
    by_cases hn : n.isText = true
    · rw [if_pos hn, if_pos hn]
      exact .cons h1 h2 ih
    · rw [if_neg hn, if_neg hn]
      exact ih

theorem firstOnly_faces : ∀ {a a' : List Node}, SameFaces a a' → (∀ n ∈ a, noSpecials n = true) → (∀ n ∈ a', noSpecials n = true) →
    SameFaces (firstOnly a) (firstOnly a')
  | _, _, .nil, _, _ => .nil
  | _, _, .cons (n := n) (n' := n') h1 h2 h3, ha, ha' => by
    have hn := ha n (by simp)
    have hn' := ha' n' (by simp)
    cases n with
    | comment s => simp [noSpecials] at hn
    | pi a b => simp [noSpecials] at hn
    | text s =>
      cases h2 s rfl
      rw [firstOnly, firstOnly]
      · exact .cons h1 h2 (firstOnly_faces h3 (fun k hk => ha k (by simp [hk])) (fun k hk => ha' k (by simp [hk])))
      all_goals simp
    | elem i ks =>
      cases n' with
      | comment s => simp [noSpecials] at hn'
      | pi a b => simp [noSpecials] at hn'
      | text s => have := h1.text; simp [Node.isText] at this
      | elem j ls =>
        rw [firstOnly, firstOnly]
        exact .cons h1 h2 h3.texts

mutual
theorem written_plain : ∀ (t : TypeName) (n : Node), noSpecials n = true → noSpecials (written t n) = true
  | t, .text s, h => by rw [written]; exact h; all_goals simp
  | t, .comment s, h => by simp [noSpecials] at h
  | t, .pi a b, h => by simp [noSpecials] at h
  | t, .elem i ks, h => by
    rw [noSpecials] at h
    rw [written, noSpecials]
    have := writtenAll_plain t ks h
    split
    · exact firstOnly_plain this
    · exact this

theorem writtenAll_plain : ∀ (t : TypeName) (ns : List Node), noSpecialsAll ns = true → noSpecialsAll (writtenAll t ns) = true
  | t, [], _ => by rw [writtenAll, noSpecialsAll]
  | t, .text s :: ns, h => by
    rw [noSpecialsAll, Bool.and_eq_true] at h
    rw [writtenAll, noSpecialsAll, h.1, writtenAll_plain t ns h.2]
    · rfl
    all_goals simp
  | t, .comment s :: ns, h => by simp [noSpecialsAll, noSpecials] at h
  | t, .pi a b :: ns, h => by simp [noSpecialsAll, noSpecials] at h
  | t, .elem i ks :: ns, h => by
    rw [noSpecialsAll, Bool.and_eq_true] at h
    have ih := writtenAll_plain t ns h.2
    have ih' := fun t' => written_plain t' (.elem i ks) h.1
    rw [writtenAll]
    cases (schema .lenient t).model.typeOf i.name with
    | none =>
      show noSpecialsAll (.elem i ks :: writtenAll t ns) = true
      rw [noSpecialsAll, h.1, ih]; rfl
    | some t' =>
      dsimp only
      split
      · show noSpecialsAll (written t' (.elem i ks) :: writtenAll t ns) = true
        rw [noSpecialsAll, ih' t', ih]; rfl
      · exact ih

theorem firstOnly_plain : ∀ {ns : List Node}, noSpecialsAll ns = true → noSpecialsAll (firstOnly ns) = true
  | [], h => h
  | .text s :: ns, h => by
    rw [noSpecialsAll, Bool.and_eq_true] at h
    rw [firstOnly, noSpecialsAll, h.1, firstOnly_plain h.2]
    · rfl
    all_goals simp
  | .comment s :: ns, h => by simp [noSpecialsAll, noSpecials] at h
  | .pi a b :: ns, h => by simp [noSpecialsAll, noSpecials] at h
  | .elem i ks :: ns, h => by
    rw [noSpecialsAll, Bool.and_eq_true] at h
    rw [firstOnly, noSpecialsAll, h.1, Bool.true_and, noSpecialsAll_iff]
    intro n hn
    exact noSpecialsAll_iff.1 h.2 n (List.mem_filter.1 hn).1
end

mutual
theorem written_seen (m : NsMap) : ∀ (t : TypeName) (n : Node), noSpecials n = true → SameFace (written t n) (written t (seen m n))
  | t, .text s, _ => by rw [seen_text]; exact .rfl'
  | t, .comment s, h => by simp [noSpecials] at h
  | t, .pi _ _, h => by simp [noSpecials] at h
  | t, .elem i ks, h => by
    rw [noSpecials] at h
    rw [seen_elem, written, written]
    have ih := writtenAll_seen (NsMap.push (usedDefs i ks) m) t ks h
    have hf : SameFaces (if onlyFirst t then firstOnly (writtenAll t ks) else writtenAll t ks)
        (if onlyFirst t then firstOnly (writtenAll t (seenAll (NsMap.push (usedDefs i ks) m) ks)) else
          writtenAll t (seenAll (NsMap.push (usedDefs i ks) m) ks)) := by
      split
      · exact firstOnly_faces ih (noSpecialsAll_iff.1 (writtenAll_plain t ks h))
          (noSpecialsAll_iff.1 (writtenAll_plain t _ (seenAll_plain _ ks h)))
      · exact ih
    exact hf.elem (stripInfo_name i) (by
      show (stripInfo i).attrs.filterMap _ = _
      rw [stripInfo_attrs])

theorem writtenAll_seen (m : NsMap) : ∀ (t : TypeName) (ns : List Node), noSpecialsAll ns = true →
    SameFaces (writtenAll t ns) (writtenAll t (seenAll m ns))
  | t, [], _ => by rw [seenAll_nil, writtenAll]; exact .nil
  | t, .text s :: ns, h => by
    rw [noSpecialsAll, Bool.and_eq_true] at h
    rw [seenAll_cons, seen_text, writtenAll, writtenAll]
    · exact .cons .rfl' (fun _ e => e) (writtenAll_seen m t ns h.2)
    all_goals simp
  | t, .comment s :: ns, h => by simp [noSpecialsAll, noSpecials] at h
  | t, .pi _ _ :: ns, h => by simp [noSpecialsAll, noSpecials] at h
  | t, .elem i ks :: ns, h => by
    rw [noSpecialsAll, Bool.and_eq_true] at h
    have hks := h.1
    rw [noSpecials] at hks
    have hself := seen_face m (.elem i ks) h.1
    have ih' : ∀ t', SameFace (written t' (.elem i ks)) (written t' (seen m (.elem i ks))) := fun t' => written_seen m t' (.elem i ks) h.1
    have ih := writtenAll_seen m t ns h.2
    rw [seen_elem] at ih' hself
    rw [seenAll_cons, seen_elem, writtenAll, writtenAll]
    refine SameFaces.append ?_ ih
    have e : ({ stripInfo i with nsdefs := usedDefs i ks, nsmap := (usedDefs i ks).push m } : Info).name = i.name := stripInfo_name i
    rw [e, writesChild_seen _ t _ hks]
    cases (schema .lenient t).model.typeOf i.name with
    | none => exact .cons hself (fun s e => by cases e) .nil
    | some t' =>
      dsimp only
      split
      · refine .cons (ih' t') (fun s e => ?_) .nil
        rw [written] at e
        cases e
      · exact .nil
end

end ReqIF.Xsd
