import Verif.Proofs.Inside
import Verif.Props.C49_51
/-!
# C49 - C51 for documents

The conditions on names of `Props/C49_51` hold in every document.
-/
namespace ReqIF
open Spec

/-! ## Where attribute values come from -/

theorem parseSimpleValue_type {x : Node} {t : AttrType} {tag : Str} {v : SpecObjectAttribute} (h : parseSimpleValue x t tag = .ok v) : v.type = t := by
  unfold parseSimpleValue at h
  obtain ⟨_, -, h⟩ := py_bind_inv h
  obtain ⟨_, -, h⟩ := py_bind_inv h
  obtain ⟨_, -, h⟩ := py_bind_inv h
  rw [py_pure] at h
  cases h
  rfl

theorem parseAttributeValue_xhtml {x : Node} {v : SpecObjectAttribute} (h : parseAttributeValue x = .ok v) (ht : v.type = .xhtml) :
    parseXhtmlAttributeValue x = .ok v := by
  unfold parseAttributeValue at h
  split at h
  · obtain ⟨_, -, h⟩ := py_bind_inv h
    obtain ⟨_, -, h⟩ := py_bind_inv h
    obtain ⟨_, -, h⟩ := py_bind_inv h
    rw [py_pure] at h
    cases h
    cases ht
  split at h
  · obtain ⟨_, -, h⟩ := py_bind_inv h
    obtain ⟨_, -, h⟩ := py_bind_inv h
    split at h
    · cases h
    · rw [py_pure] at h
      cases h
      cases ht
  split at h
  · rw [parseSimpleValue_type h] at ht; cases ht
  split at h
  · rw [parseSimpleValue_type h] at ht; cases ht
  split at h
  · rw [parseSimpleValue_type h] at ht; cases ht
  split at h
  · rw [parseSimpleValue_type h] at ht; cases ht
  split at h
  · exact h
  · cases h

theorem parseAttributeValues_source {x : Option Node} {vs : Option (List SpecObjectAttribute)} (h : parseAttributeValues x = .ok vs)
    {v : SpecObjectAttribute} (hv : v ∈ vs.getD []) : ∃ y k, x = some y ∧ k ∈ y.children ∧ parseAttributeValue k = .ok v := by
  cases x with
  | none => cases h; cases hv
  | some y =>
    unfold parseAttributeValues at h
    obtain ⟨ws, hw, h⟩ := py_bind_inv h
    rw [py_pure] at h
    cases h
    obtain ⟨k, hk, e⟩ := mapPy_mem hw hv
    exact ⟨y, k, rfl, (List.mem_filter.1 hk).1, e⟩

theorem parseRelationValues_xhtml {x : Option Node} {a : Option SpecObjectAttribute} (h : parseRelationValues x = .ok a)
    {v : SpecObjectAttribute} (hv : a = some v) (ht : v.type = .xhtml) : ∃ y k, x = some y ∧ k ∈ y.children ∧ parseXhtmlAttributeValue k = .ok v := by
  subst hv
  cases x with
  | none => cases h
  | some y =>
    unfold parseRelationValues at h
    dsimp only at h
    split at h
    · cases h
    · rename_i k ks hk
      split at h
      · obtain ⟨_, -, h⟩ := py_bind_inv h
        obtain ⟨_, -, h⟩ := py_bind_inv h
        obtain ⟨_, -, h⟩ := py_bind_inv h
        rw [py_pure] at h
        cases h
        cases ht
      split at h
      · obtain ⟨w, hw, h⟩ := py_bind_inv h
        rw [py_pure] at h
        cases h
        exact ⟨y, k, rfl, by rw [hk]; simp, hw⟩
      split at h
      · obtain ⟨_, -, h⟩ := py_bind_inv h
        obtain ⟨_, -, h⟩ := py_bind_inv h
        obtain ⟨_, -, h⟩ := py_bind_inv h
        rw [py_pure] at h
        cases h
        cases ht
      · cases h

/-- Every XHTML value of a parsed bundle was read from an element of the document. -/
theorem xhtml_source {text : Str} {b : Bundle} {d : Doc} (hr : readDoc text = some d) (h : parseString text = .ok b)
    {v : SpecObjectAttribute} (hv : v ∈ attributeValues b) (ht : v.type = .xhtml) :
    ∃ r x, strippedRoot d.root = .ok r ∧ Within r x ∧ parseXhtmlAttributeValue x = .ok v := by
  rcases parseString_inv h with ⟨h1, h2, -⟩ | ⟨x, c, h1, h2, h3⟩
  · unfold attributeValues at hv
    split at hv
    · rename_i c hc; exact absurd hc (h2 c)
    · cases hv
  · unfold contentNode at h1
    rw [hr] at h1
    dsimp only at h1
    split at h1
    · cases h1
    · rename_i r hs
      have hx : Within r x := by
        unfold contentOf at h1
        cases hc : r.find c!"CORE-CONTENT" with
        | none => rw [hc] at h1; cases h1
        | some k => rw [hc] at h1; exact ((Within.self r).find hc).find h1
      have hitem : ∀ {tag : Str} {β : Type} {f : List Node → Py β} {o : Option β} {l : β}, parsedItems x tag f = .ok o → o = some l →
          ∃ k, Within r k ∧ f k.children = .ok l := by
        intro tag β f o l hp ho
        subst ho
        unfold parsedItems at hp
        split at hp
        · cases hp
        · rename_i k hk
          split at hp
          · cases hp
          · rename_i l' hl
            cases hp
            exact ⟨k, hx.find hk, hl⟩
      have hvals : ∀ {y : Node} {vs : Option (List SpecObjectAttribute)}, Within r y → parseAttributeValues (y.find c!"VALUES") = .ok vs → v ∈ vs.getD [] →
          ∃ k, Within r k ∧ parseXhtmlAttributeValue k = .ok v := by
        intro y vs hy hp hm
        obtain ⟨z, k, hz, hk, e⟩ := parseAttributeValues_source hp hm
        exact ⟨k, (hy.find hz).child hk, parseAttributeValue_xhtml e ht⟩
      obtain ⟨rels, -, -, hsp, hre, hob, -, hrel, -⟩ := parseContent_inv h3
      have key : ∃ k, Within r k ∧ parseXhtmlAttributeValue k = .ok v := by
        unfold attributeValues at hv
        rw [h2] at hv
        dsimp only at hv
        rcases List.mem_append.1 hv with hv | hv
        · rcases List.mem_append.1 hv with hv | hv
          · obtain ⟨o, ho, hm⟩ := List.mem_flatMap.1 hv
            cases hos : c.specObjects with
            | none => rw [hos] at ho; cases ho
            | some os =>
              rw [hos] at ho
              obtain ⟨k, hk, hl⟩ := hitem hob hos
              obtain ⟨y, hy, e⟩ := filterMapPy_mem hl ho
              unfold objectItem at e
              split at e
              · cases e
              · unfold someItem at e
                split at e
                · cases e
                · rename_i o' ho'
                  cases e
                  unfold parseSpecObject at ho'
                  obtain ⟨_, -, ho'⟩ := py_bind_inv ho'
                  obtain ⟨_, -, ho'⟩ := py_bind_inv ho'
                  obtain ⟨_, -, ho'⟩ := py_bind_inv ho'
                  obtain ⟨_, -, ho'⟩ := py_bind_inv ho'
                  obtain ⟨_, -, ho'⟩ := py_bind_inv ho'
                  obtain ⟨vs, hvs, ho'⟩ := py_bind_inv ho'
                  rw [py_pure] at ho'
                  cases ho'
                  exact hvals (hk.child hy) hvs hm
          · obtain ⟨o, ho, hm⟩ := List.mem_flatMap.1 hv
            cases hos : rels with
            | none => rw [hrel, hos] at ho; cases ho
            | some rs =>
              rw [hrel, hos] at ho
              obtain ⟨k, hk, hl⟩ := hitem hre hos
              obtain ⟨q, hq, e⟩ := List.mem_filterMap.1 ho
              cases q with
              | error m => cases e
              | ok o' =>
                cases e
                obtain ⟨y, hy, e⟩ := mapPy_mem hl hq
                unfold relationItem at e
                split at e
                · cases e
                · rename_i o' ho'
                  cases e
                  unfold parseSpecRelation at ho'
                  obtain ⟨_, -, ho'⟩ := py_bind_inv ho'
                  obtain ⟨_, -, ho'⟩ := py_bind_inv ho'
                  split at ho'
                  · cases ho'
                  split at ho'
                  · cases ho'
                  obtain ⟨_, -, ho'⟩ := py_bind_inv ho'
                  obtain ⟨_, -, ho'⟩ := py_bind_inv ho'
                  obtain ⟨_, -, ho'⟩ := py_bind_inv ho'
                  obtain ⟨_, -, ho'⟩ := py_bind_inv ho'
                  obtain ⟨_, -, ho'⟩ := py_bind_inv ho'
                  obtain ⟨_, -, ho'⟩ := py_bind_inv ho'
                  obtain ⟨_, -, ho'⟩ := py_bind_inv ho'
                  obtain ⟨_, -, ho'⟩ := py_bind_inv ho'
                  obtain ⟨vs, hvs, ho'⟩ := py_bind_inv ho'
                  rw [py_pure] at ho'
                  cases ho'
                  obtain ⟨z, k', hz, hk', e⟩ := parseRelationValues_xhtml hvs (Option.mem_toList.1 hm) ht
                  exact ⟨k', ((hk.child hy).find hz).child hk', e⟩
                · split at e <;> cases e
        · obtain ⟨o, ho, hm⟩ := List.mem_flatMap.1 hv
          cases hos : c.specifications with
          | none => rw [hos] at ho; cases ho
          | some os =>
            rw [hos] at ho
            obtain ⟨k, hk, hl⟩ := hitem hsp hos
            obtain ⟨y, hy, ho'⟩ := mapPy_mem hl ho
            unfold parseSpecification at ho'
            obtain ⟨_, -, ho'⟩ := py_bind_inv ho'
            obtain ⟨_, -, ho'⟩ := py_bind_inv ho'
            obtain ⟨_, -, ho'⟩ := py_bind_inv ho'
            obtain ⟨_, -, ho'⟩ := py_bind_inv ho'
            obtain ⟨vs, hvs, ho'⟩ := py_bind_inv ho'
            rw [py_pure] at ho'
            cases ho'
            exact hvals (hk.child hy) hvs hm
      obtain ⟨k, hk, e⟩ := key
      exact ⟨r, k, hs, hk, e⟩

/-! ## Elements of the document and of the tree the parser looks at -/

theorem ncname_nameOk {s : Str} (h : isNCName s = true) : NameOk s := by
  obtain ⟨h1, h2⟩ := isNCName_qchars h
  refine ⟨h1, ?_⟩
  intro c hc
  have hq := h2 c hc
  refine ⟨?_, ?_, ?_, ?_⟩ <;> (rintro rfl; revert hq; decide)

theorem infoOk_of {i : Info} (h : InfoFrom (DeclOf NoAngle) i) : InfoOk i := by
  have hx : NoAngle xmlNs := by decide
  refine ⟨ncname_nameOk h.name, ?_, ?_⟩
  · intro a ha
    obtain ⟨h1, -, h2⟩ := h.attrs a ha
    have hn : NoAngle a.name := fun c hc => ⟨((ncname_nameOk h1).2 c hc).2.1, ((ncname_nameOk h1).2 c hc).2.2.1⟩
    have hcl : ∀ u, NoAngle u → NoAngle (clark (some u) a.name) := by
      intro u hu c hc
      unfold clark at hc
      simp only [List.mem_append] at hc
      rcases hc with ((hc | hc) | hc) | hc
      · exact (by decide : ∀ c ∈ c!"{", c ≠ '<' ∧ c ≠ '>') c hc
      · exact hu c hc
      · exact (by decide : ∀ c ∈ c!"}", c ≠ '<' ∧ c ≠ '>') c hc
      · exact hn c hc
    unfold Attr.key
    rcases h2 with h2 | ⟨h2, -⟩ | ⟨p, u, h2, -, h3⟩
    · rw [h2]; exact hn
    · rw [h2]; exact hcl _ hx
    · rw [h2]; exact hcl _ h3.2
  · intro d hd
    exact ⟨(h.maps d hd).2, fun p hp => ncname_nameOk ((h.maps d hd).1 p hp).1⟩

mutual
theorem plain_strip (full : Bool) : ∀ {n n' : Node}, stripTags full n = .ok n' → plainTree n' = plainTree n
  | .text s, n', h => by rw [stripTags] at h; cases h; rfl
  | .comment s, n', h => by rw [stripTags] at h; cases h; rfl
  | .pi _ _, n', h => by rw [stripTags] at h; split at h <;> cases h
  | .elem i ks, n', h => by
    rw [stripTags] at h
    split at h
    · cases h
    · rename_i ks' hk
      split at h <;> cases h <;> simp only [plainTree, plain_stripList full hk]

theorem plain_stripList (full : Bool) : ∀ {ns ns' : List Node}, stripTagsList full ns = .ok ns' → plainTrees ns' = plainTrees ns
  | [], ns', h => by rw [stripTagsList] at h; cases h; rfl
  | n :: ns, ns', h => by
    rw [stripTagsList] at h
    split at h
    · cases h
    · rename_i n' h1
      split at h
      · cases h
      · rename_i ns'' h2
        cases h
        simp only [plainTrees, plain_strip full h1, plain_stripList full h2]
end

mutual
theorem plain_cleanup : ∀ (m : NsMap) (n : Node), plainTree (cleanup m n) = plainTree n
  | m, .elem i ks => by simp only [cleanup, plainTree, plain_cleanupList]
  | m, .text s => by rw [cleanup]; simp
  | m, .comment s => by rw [cleanup]; simp
  | m, .pi _ _ => by rw [cleanup]; simp

theorem plain_cleanupList : ∀ (m : NsMap) (ns : List Node), plainTrees (cleanupList m ns) = plainTrees ns
  | m, [] => by rw [cleanupList]
  | m, n :: ns => by simp only [cleanupList, plainTrees, plain_cleanup, plain_cleanupList]
end

theorem plain_root {n r : Node} (h : strippedRoot n = .ok r) : plainTree r = plainTree n := by
  unfold strippedRoot at h
  split at h
  · unfold stripNamespace at h
    split at h
    · cases h
    · rename_i n' hn
      cases h
      rw [plain_cleanup, plain_strip false hn]
  · cases h; rfl

theorem plainTrees_mem : ∀ {ns ns' : List Node}, plainTrees ns = plainTrees ns' → ∀ {k : Node}, k ∈ ns → ∃ k' ∈ ns', plainTree k' = plainTree k
  | [], ns', _, k, hk => by cases hk
  | n :: ns, [], h, k, hk => by rw [plainTrees, plainTrees] at h; cases h
  | n :: ns, n' :: ns', h, k, hk => by
    rw [plainTrees, plainTrees] at h
    obtain ⟨h1, h2⟩ := List.cons.inj h
    rcases List.mem_cons.1 hk with rfl | hk'
    · exact ⟨n', by simp, h1.symm⟩
    · obtain ⟨k', hk1, hk2⟩ := plainTrees_mem h2 hk'
      exact ⟨k', by simp [hk1], hk2⟩

theorem plain_kids {n n' : Node} (h : plainTree n = plainTree n') : plainTrees n.kids = plainTrees n'.kids := by
  cases n <;> cases n' <;> simp only [plainTree, reduceCtorEq] at h
  · exact (Node.elem.inj h).2
  all_goals rfl

/-- Every node of the tree the parser looks at is one of the document, up to namespaces. -/
theorem inside_document {a b x : Node} (h : plainTree a = plainTree b) (hx : Within a x) : ∃ y, Within b y ∧ plainTree y = plainTree x := by
  induction hx with
  | self => exact ⟨b, .self b, h.symm⟩
  | down _ hk ih =>
    obtain ⟨y, hy, e⟩ := ih
    obtain ⟨k', hk1, hk2⟩ := plainTrees_mem (plain_kids e.symm) hk
    exact ⟨k', .down hy hk1, hk2⟩

mutual
theorem fragments_plain : ∀ n : Node, fragments (plainTree n) = fragments n
  | .elem i ks => by simp only [plainTree, fragments, fragments_plains]
  | .text _ => rfl
  | .comment _ => rfl
  | .pi _ _ => rfl

theorem fragments_plains : ∀ ns : List Node, fragmentsAll (plainTrees ns) = fragmentsAll ns
  | [] => rfl
  | n :: ns => by simp only [plainTrees, fragmentsAll, fragments_plain, fragments_plains]
end

theorem fragments_eq {n n' : Node} (h : plainTree n = plainTree n') : fragmentsAll n.kids = fragmentsAll n'.kids := by
  rw [← fragments_plains, plain_kids h, fragments_plains]

mutual
theorem infos_plain : ∀ n : Node, (infosOf (plainTree n)).map (fun i => (i.name, i.attrs)) = (infosOf n).map (fun i => (i.name, i.attrs))
  | .elem i ks => by simp only [plainTree, infosOf, List.map_cons, infos_plains ks]
  | .text _ => rfl
  | .comment _ => rfl
  | .pi _ _ => rfl

theorem infos_plains : ∀ ns : List Node, (infosOfAll (plainTrees ns)).map (fun i => (i.name, i.attrs)) = (infosOfAll ns).map (fun i => (i.name, i.attrs))
  | [] => rfl
  | n :: ns => by simp only [plainTrees, infosOfAll, List.map_append, infos_plain n, infos_plains ns]
end

theorem plain_info {n n' : Node} (h : plainTree n = plainTree n') {i : Info} (hi : i ∈ infosOf n) :
    ∃ j ∈ infosOf n', j.name = i.name ∧ j.attrs = i.attrs := by
  have e : (infosOf n).map (fun i => (i.name, i.attrs)) = (infosOf n').map (fun i => (i.name, i.attrs)) := by
    rw [← infos_plain, h, infos_plain]
  have hm : (i.name, i.attrs) ∈ (infosOf n').map (fun i => (i.name, i.attrs)) := by
    rw [← e]; exact List.mem_map.2 ⟨i, hi, rfl⟩
  obtain ⟨j, hj, ej⟩ := List.mem_map.1 hm
  exact ⟨j, hj, (Prod.mk.inj ej).1, (Prod.mk.inj ej).2⟩

/-- Tags written with the name and the attributes only. -/
abbrev plainTokens (ns : List Node) : List Tok :=
  tokensChildren (fun i => i.name) (fun i => attributesText i.attrs) (fun i => attributesText i.attrs) (fun i => !isObject i.name) ns

mutual
theorem tokensOf_plain : ∀ n : Node, tokensOf (fun i => i.name) (fun i => attributesText i.attrs) (fun i => !isObject i.name) (plainTree n) =
    tokensOf (fun i => i.name) (fun i => attributesText i.attrs) (fun i => !isObject i.name) n
  | .elem i ks => by
    have hk : (plainTrees ks).isEmpty = ks.isEmpty := by cases ks <;> simp [plainTrees]
    simp only [plainTree, tokensOf, hk, tokensOfAll_plain ks]
  | .text _ => rfl
  | .comment _ => rfl
  | .pi _ _ => rfl

theorem tokensOfAll_plain : ∀ ns : List Node, tokensOfAll (fun i => i.name) (fun i => attributesText i.attrs) (fun i => !isObject i.name) (plainTrees ns) =
    tokensOfAll (fun i => i.name) (fun i => attributesText i.attrs) (fun i => !isObject i.name) ns
  | [] => rfl
  | n :: ns => by simp only [plainTrees, tokensOfAll, tokensOf_plain n, tokensOfAll_plain ns]
end

theorem tokensTop_plain : ∀ ns : List Node, tokensTop (fun i => i.name) (fun i => attributesText i.attrs) (fun i => attributesText i.attrs)
      (fun i => !isObject i.name) (plainTrees ns) =
    tokensTop (fun i => i.name) (fun i => attributesText i.attrs) (fun i => attributesText i.attrs) (fun i => !isObject i.name) ns
  | [] => rfl
  | .text _ :: ns => by simp only [plainTrees, plainTree, tokensTop, tokensTop_plain ns]
  | .comment _ :: ns => by simp only [plainTrees, plainTree, tokensTop, tokensTop_plain ns]
  | .pi _ _ :: ns => by simp only [plainTrees, plainTree, tokensTop, tokensTop_plain ns]
  | .elem i ks :: ns => by
    have hk : (plainTrees ks).isEmpty = ks.isEmpty := by cases ks <;> simp [plainTrees]
    simp only [plainTrees, plainTree, tokensTop, hk, tokensOfAll_plain ks, tokensTop_plain ns]

theorem plainTokens_plain (ns : List Node) : plainTokens (plainTrees ns) = plainTokens ns := by
  unfold plainTokens
  cases ns with
  | nil => rfl
  | cons n ns =>
    have h := tokensTop_plain (n :: ns)
    cases n with
    | text s => simp only [plainTrees, plainTree, tokensChildren, tokensTop_plain ns]
    | elem i ks => simpa only [plainTrees, plainTree, tokensChildren] using h
    | comment _ => simpa only [plainTrees, plainTree, tokensChildren] using h
    | pi _ _ => simpa only [plainTrees, plainTree, tokensChildren] using h

theorem plainTokens_eq {n n' : Node} (h : plainTree n = plainTree n') : plainTokens n.kids = plainTokens n'.kids := by
  rw [← plainTokens_plain, plain_kids h, plainTokens_plain]

theorem topTexts_plain {n n' : Node} (h : plainTree n = plainTree n') (hp : TopTextsPlain n.kids) : TopTextsPlain n'.kids := by
  intro t ht
  obtain ⟨k, hk, e⟩ := plainTrees_mem (plain_kids h.symm) ht
  cases k with
  | text s =>
    simp only [plainTree] at e
    cases e
    exact hp _ hk
  | elem _ _ => simp only [plainTree, reduceCtorEq] at e
  | comment _ => simp only [plainTree, reduceCtorEq] at e
  | pi _ _ => simp only [plainTree, reduceCtorEq] at e

/-! ## Namespaces in force below a qualified root -/

theorem push_ne {own m : NsMap} (h : m ≠ []) : NsMap.push own m ≠ [] := by
  unfold NsMap.push
  cases own with
  | nil =>
    cases m with
    | nil => exact absurd rfl h
    | cons e es => simp
  | cons d ds => simp

mutual
theorem resolve_mapped : ∀ (m : NsMap) (x : Xml) (n : Node), m ≠ [] → resolve m x = some n → ∀ i ∈ infosOf n, i.nsmap ≠ []
  | m, .elem q as ks, n, hm, h => by
    rw [resolve] at h
    split at h
    · cases h
    · rename_i i hi
      split at h
      · cases h
      · rename_i ns hk
        cases h
        have h1 : i.nsmap ≠ [] := by
          unfold resolveInfo at hi
          dsimp only at hi
          split at hi
          · split at hi
            · split at hi
              · cases hi; exact push_ne hm
              · cases hi
            · cases hi
          · cases hi
        intro j hj
        rw [infosOf] at hj
        rcases List.mem_cons.1 hj with rfl | hj'
        · exact h1
        · exact resolveList_mapped _ ks ns h1 hk j hj'
  | m, .text s, n, _, h => by rw [resolve] at h; cases h; intro i hi; cases hi
  | m, .comment s, n, _, h => by rw [resolve] at h; cases h; intro i hi; cases hi
  | m, .pi _ _, n, _, h => by rw [resolve] at h; cases h; intro i hi; cases hi

theorem resolveList_mapped : ∀ (m : NsMap) (xs : List Xml) (ns : List Node), m ≠ [] → resolveList m xs = some ns → ∀ i ∈ infosOfAll ns, i.nsmap ≠ []
  | m, [], ns, _, h => by rw [resolveList] at h; cases h; intro i hi; cases hi
  | m, x :: xs, ns, hm, h => by
    rw [resolveList] at h
    split at h
    · rename_i n ns' h1 h2
      cases h
      intro i hi
      rw [infosOfAll] at hi
      rcases List.mem_append.1 hi with hi | hi
      · exact resolve_mapped m x n hm h1 i hi
      · exact resolveList_mapped m xs ns' hm h2 i hi
    · cases h
end

mutual
theorem cleanup_mapped : ∀ (m : NsMap) (n : Node), m ≠ [] → ∀ i ∈ infosOf (cleanup m n), i.nsmap ≠ []
  | m, .elem i ks, hm => by
    rw [cleanup, infosOf]
    intro j hj
    rcases List.mem_cons.1 hj with rfl | hj'
    · exact push_ne hm
    · exact cleanupList_mapped _ ks (push_ne hm) j hj'
  | m, .text s, _ => by rw [cleanup]; intro i hi; cases hi; all_goals simp
  | m, .comment s, _ => by rw [cleanup]; intro i hi; cases hi; all_goals simp
  | m, .pi _ _, _ => by rw [cleanup]; intro i hi; cases hi; all_goals simp

theorem cleanupList_mapped : ∀ (m : NsMap) (ns : List Node), m ≠ [] → ∀ i ∈ infosOfAll (cleanupList m ns), i.nsmap ≠ []
  | m, [], _ => by rw [cleanupList]; intro i hi; cases hi
  | m, n :: ns, hm => by
    rw [cleanupList, infosOfAll]
    intro i hi
    rcases List.mem_append.1 hi with hi | hi
    · exact cleanup_mapped m n hm i hi
    · exact cleanupList_mapped m ns hm i hi
end

mutual
theorem uses_of_info {p : Option Str} : ∀ (n : Node), (∀ j ∈ infosOf n, j.declares p = false) → (∃ j ∈ infosOf n, j.usesPfx p = true) →
    Node.usesPfx p true n = true
  | .elem i ks, hd, ⟨j, hj, hu⟩ => by
    rw [infosOf] at hd hj
    rw [Node.usesPfx, hd i (by simp)]
    rcases List.mem_cons.1 hj with rfl | hj'
    · rw [hu]; simp
    · rw [usesList_of_info ks (fun k hk => hd k (by simp [hk])) ⟨j, hj', hu⟩]; simp
  | .text _, _, ⟨j, hj, _⟩ => by cases hj
  | .comment _, _, ⟨j, hj, _⟩ => by cases hj
  | .pi _ _, _, ⟨j, hj, _⟩ => by cases hj

theorem usesList_of_info {p : Option Str} : ∀ (ns : List Node), (∀ j ∈ infosOfAll ns, j.declares p = false) → (∃ j ∈ infosOfAll ns, j.usesPfx p = true) →
    usesPfxList p ns = true
  | [], _, ⟨j, hj, _⟩ => by cases hj
  | n :: ns, hd, ⟨j, hj, hu⟩ => by
    rw [infosOfAll] at hd hj
    rw [usesPfxList]
    rcases List.mem_append.1 hj with hj | hj
    · rw [uses_of_info n (fun k hk => hd k (by simp [hk])) ⟨j, hj, hu⟩]; simp
    · rw [usesList_of_info ns (fun k hk => hd k (by simp [hk])) ⟨j, hj, hu⟩]; simp
end

/-- What stripping does to the elements: declarations stay, and XHTML elements stay. -/
def StripsTo (l l' : List Info) : Prop :=
  (∀ j' ∈ l', ∃ j ∈ l, j'.nsdefs = j.nsdefs) ∧ (∀ j ∈ l, containsStr xhtmlNs j.tag = true → j ∈ l')

theorem StripsTo.append {a a' b b' : List Info} (h : StripsTo a a') (h2 : StripsTo b b') : StripsTo (a ++ b) (a' ++ b') := by
  constructor
  · intro j' hj
    rcases List.mem_append.1 hj with hj | hj
    · obtain ⟨j, hj, e⟩ := h.1 j' hj; exact ⟨j, by simp [hj], e⟩
    · obtain ⟨j, hj, e⟩ := h2.1 j' hj; exact ⟨j, by simp [hj], e⟩
  · intro j hj hx
    rcases List.mem_append.1 hj with hj | hj
    · exact List.mem_append_left _ (h.2 j hj hx)
    · exact List.mem_append_right _ (h2.2 j hj hx)

mutual
theorem strip_infos : ∀ {n n' : Node}, stripTags false n = .ok n' → StripsTo (infosOf n) (infosOf n')
  | .text s, n', h => by rw [stripTags] at h; cases h; exact ⟨(fun j hj => by cases hj), (fun j hj => by cases hj)⟩
  | .comment s, n', h => by rw [stripTags] at h; cases h; exact ⟨(fun j hj => by cases hj), (fun j hj => by cases hj)⟩
  | .pi _ _, n', h => by rw [stripTags] at h; split at h <;> cases h
  | .elem i ks, n', h => by
    rw [stripTags] at h
    split at h
    · cases h
    · rename_i ks' hk
      have ih := strips_infos hk
      split at h
      · cases h
        rw [infosOf, infosOf]
        exact StripsTo.append (a := [i]) (a' := [i]) ⟨fun j hj => ⟨j, hj, rfl⟩, fun j hj _ => hj⟩ ih
      · rename_i hc
        cases h
        rw [infosOf, infosOf]
        refine StripsTo.append (a := [i]) (a' := [{ i with ns := none, pfx := none }]) ⟨?_, ?_⟩ ih
        · intro j hj
          rw [List.mem_singleton] at hj
          exact ⟨i, by simp, by rw [hj]⟩
        · intro j hj hx
          rw [List.mem_singleton] at hj
          subst hj
          simp [hx] at hc

theorem strips_infos : ∀ {ns ns' : List Node}, stripTagsList false ns = .ok ns' → StripsTo (infosOfAll ns) (infosOfAll ns')
  | [], ns', h => by rw [stripTagsList] at h; cases h; exact ⟨(fun j hj => by cases hj), (fun j hj => by cases hj)⟩
  | n :: ns, ns', h => by
    rw [stripTagsList] at h
    split at h
    · cases h
    · rename_i n' h1
      split at h
      · cases h
      · rename_i ns'' h2
        cases h
        rw [infosOfAll, infosOfAll]
        exact (strip_infos h1).append (strips_infos h2)
end

/-- A prefix the root declares and that is used is in force in the whole tree the
parser looks at. -/
theorem mapped_of_qualified {text : Str} {d : Doc} {r : Node} (hr : readDoc text = some d) (hs : strippedRoot d.root = .ok r)
    (hq : Qualified d.root) : ∀ i ∈ infosOf r, i.nsmap ≠ [] := by
  obtain ⟨x, hx⟩ := readDoc_resolve hr
  obtain ⟨i, ks, e, hq⟩ := hq
  rw [e] at hx hs
  -- the declaration
  have hres : ∃ q as ks', x = .elem q as ks' ∧ resolveInfo [] q as = some i ∧ resolveList i.nsmap ks' = some ks := by
    cases x with
    | elem q as ks' =>
      rw [resolve] at hx
      split at hx
      · cases hx
      · rename_i j hj
        split at hx
        · cases hx
        · rename_i ks2 hk
          cases hx
          exact ⟨q, as, ks', rfl, hj, hk⟩
    | text _ => rw [resolve] at hx; cases hx
    | comment _ => rw [resolve] at hx; cases hx
    | pi _ _ => rw [resolve] at hx; cases hx
  obtain ⟨q, as, ks', rfl, hi, hks⟩ := hres
  have hown : i.nsdefs = i.nsmap := by
    unfold resolveInfo at hi
    dsimp only at hi
    split at hi
    · split at hi
      · split at hi
        · cases hi
          unfold NsMap.push; simp
        · cases hi
      · cases hi
    · cases hi
  have hattr : (∃ a ∈ i.attrs, a.ns ≠ none ∧ a.ns ≠ some xmlNs) → ∃ a ∈ i.attrs, ∃ p u, a.pfx = some p ∧ a.ns = some u ∧ (some p, u) ∈ i.nsdefs := by
    rintro ⟨a, ha, hn1, hn2⟩
    refine ⟨a, ha, ?_⟩
    unfold resolveInfo at hi
    dsimp only at hi
    split at hi
    · split at hi
      · rename_i ns pfx l bs hn hb
        split at hi
        · cases hi
          have hf := resolveAttrs_from (P := fun d => d ∈ NsMap.push (storedDecls (declsOf as)) []) (fun d hd => hd) hb a ha
          rcases hf with hf | ⟨hf, -⟩ | ⟨p, u, h1, h2, h3⟩
          · exact absurd hf hn1
          · exact absurd hf hn2
          · refine ⟨p, u, h2, h1, ?_⟩
            unfold NsMap.push at h3
            simpa using h3
        · cases hi
      · cases hi
    · cases hi
  -- the declaration is used
  have hdecl : ∃ p u, (some p, u) ∈ i.nsdefs ∧ ∀ ks2, stripTagsList false ks = .ok ks2 → ∀ j : Info, j.attrs = i.attrs →
      Node.usesPfx (some p) false (.elem j ks2) = true := by
    rcases hq with hq | ⟨p, u, h1, h2, h3, j, hj, h4, h5⟩
    · obtain ⟨a, ha, p, u, hp1, hp2, hp3⟩ := hattr hq
      refine ⟨p, u, hp3, ?_⟩
      intro ks2 _ j hj2
      have hany : j.attrs.any (fun a => a.ns.isSome && a.pfx == some p) = true := by
        rw [hj2, List.any_eq_true]
        exact ⟨a, ha, by rw [hp1, hp2]; simp⟩
      rw [Node.usesPfx, Info.usesPfx, hany]
      simp
    · refine ⟨p, u, h1, ?_⟩
      intro ks2 hk2 k _
      have hst := strips_infos hk2
      have hx : containsStr xhtmlNs j.tag = true := by
        rw [containsStr_iff]
        refine ⟨c!"{", c!"}" ++ j.name, ?_⟩
        have e1 : j.tag = clark j.ns j.name := rfl
        rw [e1, h4, h2]
        rfl
      have hl : usesPfxList (some p) ks2 = true := by
        refine usesList_of_info ks2 ?_ ⟨j, hst.2 j hj hx, ?_⟩
        · intro j' hj'
          obtain ⟨j0, hj0, e0⟩ := hst.1 j' hj'
          unfold Info.declares
          rw [e0, List.any_eq_false]
          intro d hd
          simpa using h3 j0 hj0 d hd
        · unfold Info.usesPfx
          rw [h4, h5]
          simp
      rw [Node.usesPfx, hl]
      simp
  obtain ⟨p, u, hp3, huse⟩ := hdecl
  have hne : i.nsmap ≠ [] := by rw [← hown]; exact List.ne_nil_of_mem hp3
  unfold strippedRoot at hs
  split at hs
  · unfold stripNamespace at hs
    split at hs
    · cases hs
    · rename_i n' hn'
      cases hs
      rw [stripTags] at hn'
      split at hn'
      · cases hn'
      · rename_i ks2 hk2
        have hgo : ∀ j : Info, j.nsdefs = i.nsdefs → j.attrs = i.attrs → ∀ k ∈ infosOf (cleanup [] (.elem j ks2)), k.nsmap ≠ [] := by
          intro j hj1 hj2
          have hused : (some p, u) ∈ j.nsdefs.filter (fun d => Node.usesPfx d.1 false (.elem j ks2)) := by
            rw [List.mem_filter, hj1]
            refine ⟨hp3, ?_⟩
            exact huse ks2 hk2 j hj2
          have hm' : NsMap.push (j.nsdefs.filter (fun d => Node.usesPfx d.1 false (.elem j ks2))) [] ≠ [] := by
            unfold NsMap.push
            exact List.ne_nil_of_mem (List.mem_append_left _ hused)
          intro k hk
          rw [cleanup, infosOf] at hk
          rcases List.mem_cons.1 hk with rfl | hk'
          · exact hm'
          · exact cleanupList_mapped _ ks2 hm' k hk'
        split at hn' <;> cases hn'
        · exact hgo i rfl rfl
        · exact hgo _ rfl rfl
  · cases hs
    intro k hk
    rw [infosOf] at hk
    rcases List.mem_cons.1 hk with rfl | hk'
    · exact hne
    · exact resolveList_mapped _ ks' ks hne hks k hk'

/-! ## The value and the document -/

theorem tag_local {n : Node} {s : Str} (h : n.tag = .name s) (hs : s.head? ≠ some '{') (hne : s ≠ []) : ∃ i ks, n = .elem i ks ∧ i.name = s := by
  cases n with
  | elem i ks =>
    refine ⟨i, ks, rfl, ?_⟩
    have e : clark i.ns i.name = s := by simpa [Node.tag, Info.tag] using h
    unfold clark at e
    split at e
    · exact e
    · rw [← e] at hs
      exact absurd rfl hs
  | text _ => cases h; exact absurd rfl hne
  | comment _ => cases h
  | pi _ _ => cases h

/-- Everything about an XHTML value and its place in the document. -/
theorem xhtml_document {text : Str} {d : Doc} {b : Bundle} {v : SpecObjectAttribute} (hr : readDoc text = some d) (h : parseString text = .ok b)
    (hu : ∀ u ∈ namespaceNames d.root, NoAngle u) (hv : v ∈ attributeValues b) (ht : v.type = .xhtml) :
    ∃ r x t t0, strippedRoot d.root = .ok r ∧ Within r t ∧ parseXhtmlAttributeValue x = .ok v ∧ x.find c!"THE-VALUE" = some t ∧
      ContentIn d.root v t0 ∧ plainTree t0 = plainTree t ∧ (∀ i ∈ infosOf t, InfoFrom (DeclOf NoAngle) i) := by
  obtain ⟨r, x, hs, hx, e⟩ := xhtml_source hr h hv ht
  have hxn : v.xmlNode = some x := by
    have e' := e
    unfold parseXhtmlAttributeValue at e'
    obtain ⟨th, -, e'⟩ := py_bind_inv e'
    split at e'
    · obtain ⟨_, -, e'⟩ := py_bind_inv e'
      obtain ⟨_, -, e'⟩ := py_bind_inv e'
      obtain ⟨_, -, e'⟩ := py_bind_inv e'
      obtain ⟨_, -, e'⟩ := py_bind_inv e'
      cases e'; rfl
    · obtain ⟨_, -, e'⟩ := py_bind_inv e'
      obtain ⟨_, -, e'⟩ := py_bind_inv e'
      obtain ⟨_, -, e'⟩ := py_bind_inv e'
      cases e'; rfl
  obtain ⟨t, hf⟩ : ∃ t, x.find c!"THE-VALUE" = some t := by
    have e' := e
    unfold parseXhtmlAttributeValue at e'
    obtain ⟨th, h1, -⟩ := py_bind_inv e'
    unfold findReq at h1
    cases hf : x.find c!"THE-VALUE" with
    | none => rw [hf] at h1; cases h1
    | some t => exact ⟨t, rfl⟩
  obtain ⟨y, hy, ey⟩ := inside_document (plain_root hs) hx
  have htx : t ∈ x.kids := by unfold Node.find at hf; exact List.mem_of_find?_eq_some hf
  obtain ⟨t0, ht0, e0⟩ := plainTrees_mem (plain_kids ey.symm) htx
  have htag : t.tag = .name c!"THE-VALUE" := by
    unfold Node.find at hf
    have := List.find?_some hf
    simp only [Bool.and_eq_true, beq_iff_eq] at this
    exact this.2
  obtain ⟨i, ks, rfl, hi⟩ := tag_local htag (by decide) (by decide)
  refine ⟨r, x, _, t0, hs, .down hx htx, e, hf, ⟨y, x, hy, hxn, ey.symm, ht0, ?_⟩, e0, ?_⟩
  · cases t0 with
    | elem j js =>
      refine ⟨j, js, rfl, ?_⟩
      simp only [plainTree] at e0
      have := (Node.elem.inj e0).1
      rw [← hi]
      exact (Info.mk.inj this).2.2.1
    | text _ => simp only [plainTree, reduceCtorEq] at e0
    | comment _ => simp only [plainTree, reduceCtorEq] at e0
    | pi _ _ => simp only [plainTree, reduceCtorEq] at e0
  · exact fun j hj => strippedRoot_from hs (readDoc_from hr hu) j ((Within.down hx htx).infos j hj)

/-- **C50**, for documents: in every document that can be parsed, whose root declares
a prefix that is in use and whose namespace names have no angle brackets, the text of every XHTML value, without the tags, is the concatenation of the texts
of the content in the document, in order, each escaped once. -/
theorem C50_document {text : Str} {d : Doc} {b : Bundle} {v : SpecObjectAttribute} (hr : readDoc text = some d) (h : parseString text = .ok b)
    (hu : ∀ u ∈ namespaceNames d.root, NoAngle u) (hq : Qualified d.root) (hv : v ∈ attributeValues b) (ht : v.type = .xhtml) :
    ∃ t s, ContentIn d.root v t ∧ v.value = .str s ∧ charsOf (toks s) = (fragmentsAll t.kids).flatMap escape := by
  obtain ⟨s, t, t0, h1, h2, h3, h4, h5, h6⟩ := namespaced hr h hu hq hv ht
  exact ⟨t0, s, h1, h2, by rw [C50_once h4 h5 h6, fragments_eq h3]⟩
where
  namespaced {text : Str} {d : Doc} {b : Bundle} {v : SpecObjectAttribute} (hr : readDoc text = some d) (h : parseString text = .ok b)
    (hu : ∀ u ∈ namespaceNames d.root, NoAngle u) (hq : Qualified d.root) (hv : v ∈ attributeValues b) (ht : v.type = .xhtml) :
    ∃ s t t0, ContentIn d.root v t0 ∧ v.value = .str s ∧ plainTree t = plainTree t0 ∧ stringifyNamespacedChildren t = .ok s ∧
      (∀ i ∈ infosOfAll t.kids, InfoOk i) ∧ (∀ d ∈ t.nsmap, ∀ p, d.1 = some p → NameOk p) := by
    obtain ⟨r, x, t, t0, hs, hin, e, hf, hc, e0, hi⟩ := xhtml_document hr h hu hv ht
    obtain ⟨i, ks, rfl⟩ : ∃ i ks, t = .elem i ks := by
      obtain ⟨_, _, _, _, _, _, j, js, rfl, -⟩ := hc
      cases t with
      | elem i ks => exact ⟨i, ks, rfl⟩
      | text _ => simp only [plainTree, reduceCtorEq] at e0
      | comment _ => simp only [plainTree, reduceCtorEq] at e0
      | pi _ _ => simp only [plainTree, reduceCtorEq] at e0
    have hm : i.nsmap ≠ [] := mapped_of_qualified hr hs hq i (hin.infos i (by rw [infosOf]; simp))
    have hff : findReq x c!"THE-VALUE" = .ok (.elem i ks) := by unfold findReq; rw [hf]; rfl
    have hl : (Node.elem i ks).nsmap.length > 0 := by
      show i.nsmap.length > 0
      cases hn : i.nsmap with
      | nil => exact absurd hn hm
      | cons _ _ => simp
    unfold parseXhtmlAttributeValue at e
    rw [hff, py_bind_ok, if_pos hl] at e
    obtain ⟨value, hv', e⟩ := py_bind_inv e
    obtain ⟨_, -, e⟩ := py_bind_inv e
    obtain ⟨_, -, e⟩ := py_bind_inv e
    obtain ⟨_, -, e⟩ := py_bind_inv e
    rw [py_pure] at e
    cases e
    refine ⟨value, _, t0, hc, rfl, e0.symm, hv', ?_, ?_⟩
    · intro j hj
      exact infoOk_of (hi j (by rw [infosOf]; exact List.mem_cons_of_mem _ hj))
    · intro dd hd p hp
      exact (infoOk_of (hi i (by rw [infosOf]; simp))).maps dd hd |>.2 p hp

/-- **C51**, for documents: the tags of every XHTML value match. -/
theorem C51_document {text : Str} {d : Doc} {b : Bundle} {v : SpecObjectAttribute} (hr : readDoc text = some d) (h : parseString text = .ok b)
    (hu : ∀ u ∈ namespaceNames d.root, NoAngle u) (hq : Qualified d.root) (hv : v ∈ attributeValues b) (ht : v.type = .xhtml) :
    ∃ s, v.value = .str s ∧ balanced [] (toks s) = true := by
  obtain ⟨s, t, t0, h1, h2, h3, h4, h5, h6⟩ := C50_document.namespaced hr h hu hq hv ht
  exact ⟨s, h2, C51_balanced h4 h5 h6⟩

/-- Names in the tree the parser looks at, from the attributes in the document. -/
theorem xhtmlNames_of {t t0 : Node} (e : plainTree t0 = plainTree t) (hi : ∀ i ∈ infosOf t, InfoFrom (DeclOf NoAngle) i) (ha : UnprefixedAttributes t0) :
    ∀ i ∈ infosOf t, XhtmlNames i := by
  intro i hm
  have h1 := hi i hm
  refine ⟨ncname_nameOk h1.name, ncname_noColon h1.name, ?_⟩
  intro a hma
  obtain ⟨j, hj, -, ej⟩ := plain_info e.symm hm
  obtain ⟨h2, h3, h4⟩ := h1.attrs a hma
  have h5 := ha j hj a (by rw [ej]; exact hma)
  refine ⟨ncname_nameOk h2, ?_, ?_⟩
  · rcases h5 with h5 | ⟨-, h5⟩
    · exact h3 h5
    · exact h5
  · rcases h4 with h4 | h4 | ⟨p, u, h6, h7, h8⟩
    · exact .inl h4
    · exact .inr h4
    · rcases h5 with h5 | ⟨h5, -⟩
      · exact .inl h5
      · rw [h7] at h5
        cases h5
        exact absurd rfl (h8.1 _ rfl).2

/-- **C49**, for documents: in every such document, the tags of the stripped value of an
XHTML attribute are the tags of the content in the document with the local element names,
followed by the element's attributes only (with runs of 16 spaces removed) – provided the
attributes in the content have no prefix other than `xml:`, and the texts directly below
`THE-VALUE` no `<`. -/
theorem C49_document {text : Str} {d : Doc} {b : Bundle} {v : SpecObjectAttribute} (hr : readDoc text = some d) (h : parseString text = .ok b)
    (hu : ∀ u ∈ namespaceNames d.root, NoAngle u) (hq : Qualified d.root) (hv : v ∈ attributeValues b) (ht : v.type = .xhtml) :
    ∃ t, ContentIn d.root v t ∧ (UnprefixedAttributes t → TopTextsPlain t.kids → ∃ s, v.valueStrippedXhtml = some s ∧
      tagsOf (toks s) = (tagsOf (plainTokens t.kids)).map unrunTok) := by
  obtain ⟨r, x, t, t0, hs, hin, e, hf, hc, e0, hi⟩ := xhtml_document hr h hu hv ht
  refine ⟨t0, hc, fun hpa htp => ?_⟩
  obtain ⟨s, h1, h2⟩ := C49_tags e hf (mapped hr hs hq hin hc e0) (xhtmlNames_of e0 hi hpa)
    (fun i hm dd hd hx => ((hi i hm).defs dd hd).1 _ hx |>.2 rfl) (topTexts_plain e0 htp)
  exact ⟨s, h1, by rw [h2]; exact congrArg (fun l => (tagsOf l).map unrunTok) (plainTokens_eq e0.symm)⟩
where
  mapped {text : Str} {d : Doc} {r t t0 : Node} {v : SpecObjectAttribute} (hr : readDoc text = some d) (hs : strippedRoot d.root = .ok r)
      (hq : Qualified d.root) (hin : Within r t) (hc : ContentIn d.root v t0) (e0 : plainTree t0 = plainTree t) : t.nsmap ≠ [] := by
    obtain ⟨_, _, _, _, _, _, j, js, rfl, -⟩ := hc
    cases t with
    | elem i ks => exact mapped_of_qualified hr hs hq i (hin.infos i (by rw [infosOf]; simp))
    | text _ => simp only [plainTree, reduceCtorEq] at e0
    | comment _ => simp only [plainTree, reduceCtorEq] at e0
    | pi _ _ => simp only [plainTree, reduceCtorEq] at e0

/-- **C51**, for documents: no element called `object` is self-closed in the stripped value. -/
theorem C51_document_object {text : Str} {d : Doc} {b : Bundle} {v : SpecObjectAttribute} (hr : readDoc text = some d) (h : parseString text = .ok b)
    (hu : ∀ u ∈ namespaceNames d.root, NoAngle u) (hq : Qualified d.root) (hv : v ∈ attributeValues b) (ht : v.type = .xhtml) :
    ∃ t, ContentIn d.root v t ∧ (UnprefixedAttributes t → TopTextsPlain t.kids → ∃ s, v.valueStrippedXhtml = some s ∧
      ∀ nm rest, .empty nm rest ∈ toks s → isObject nm = false) := by
  obtain ⟨t, hc, h1⟩ := C49_document hr h hu hq hv ht
  refine ⟨t, hc, fun hpa htp => ?_⟩
  obtain ⟨s, hs, e⟩ := h1 hpa htp
  refine ⟨s, hs, ?_⟩
  intro nm rest hm
  have hm' : Tok.empty nm rest ∈ tagsOf (toks s) := List.mem_filter.2 ⟨hm, rfl⟩
  rw [e] at hm'
  obtain ⟨u, hu', hu2⟩ := List.mem_map.1 hm'
  rcases mem_tokensChildren _ _ (List.mem_filter.1 hu').1 with ⟨c, rfl⟩ | ⟨i, -, hh⟩
  · cases hu2
  · rcases hh with rfl | rfl | ⟨rfl, h3⟩
    · cases hu2
    · cases hu2
    · cases hu2
      simpa using h3

/-! ## Non-vacuity -/

set_option maxRecDepth 20000 in
/-- A document with an XHTML value. -/
def xhtmlDoc : Str :=
  c!"<REQ-IF xmlns=\"http://www.omg.org/spec/ReqIF/20110401/reqif.xsd\" xmlns:h=\"http://www.w3.org/1999/xhtml\" xmlns:xsi=\"http://www.w3.org/2001/XMLSchema-instance\" " ++
  c!"xsi:schemaLocation=\"a b\"><CORE-CONTENT><REQ-IF-CONTENT><SPEC-OBJECTS><SPEC-OBJECT IDENTIFIER=\"o\"><TYPE><SPEC-OBJECT-TYPE-REF>t</SPEC-OBJECT-TYPE-REF></TYPE>" ++
  c!"<VALUES><ATTRIBUTE-VALUE-XHTML><DEFINITION><ATTRIBUTE-DEFINITION-XHTML-REF>d</ATTRIBUTE-DEFINITION-XHTML-REF></DEFINITION><THE-VALUE>" ++
  c!"<h:div class=\"a\">x &lt; y<h:br/><h:object/></h:div> z</THE-VALUE></ATTRIBUTE-VALUE-XHTML></VALUES></SPEC-OBJECT></SPEC-OBJECTS></REQ-IF-CONTENT></CORE-CONTENT></REQ-IF>"

/-- The XHTML values of a document that satisfies the hypotheses: namespace names without
angle brackets, an attribute with a namespace in the root, and no such attribute elsewhere. -/
def xhtmlValues (text : Str) : Option (List (AttrValue × Option Str)) :=
  match readDoc text, parseString text with
  | some d, .ok b =>
    if (namespaceNames d.root).all (fun u => decide (NoAngle u)) &&
        (match d.root with | .elem i _ => i.attrs.any (fun a => a.ns != none && a.ns != some xmlNs) | _ => false) &&
        (infosOfAll d.root.kids).all (fun i => i.attrs.all (fun a => a.ns == none)) then
      some (((attributeValues b).filter (fun v => v.type == .xhtml)).map (fun v => (v.value, v.valueStrippedXhtml)))
    else none
  | _, _ => none

set_option maxRecDepth 20000 in
example : xhtmlValues xhtmlDoc = some [(.str c!"<h:div class=\"a\">x &lt; y<h:br/><h:object/></h:div> z",
    some c!"<div class=\"a\">x &lt; y<br/><object></object></div> z z")] := by
  decide +kernel

end ReqIF
