import Verif.Proofs.FromXhtml
import Verif.Proofs.NodeEq
import Verif.Props.C68
/-!
# C78: an element of XHTML as a string without namespaces

`lxml_convert_from_reqif_ns_xhtml_string` turns an element of a parsed document into a string.
`tail` is the text behind the element, which lxml keeps with the element; `declared` says
whether the document of the element has an encoding.
-/
set_option linter.unusedSimpArgs false
namespace ReqIF.Format
open Spec ReqIF.Xsd

/-! ## When it succeeds -/

mutual
theorem stripFull_fails : ∀ n : Node, hasPI n = true → stripTags true n = .error .valueError
  | .text s, h => by simp [hasPI] at h
  | .comment s, h => by simp [hasPI] at h
  | .pi t d, h => by rw [stripTags]; rfl
  | .elem i ks, h => by
    rw [hasPI] at h
    rw [stripTags, stripFullList_fails ks h]

theorem stripFullList_fails : ∀ ns : List Node, hasPIs ns = true → stripTagsList true ns = .error .valueError
  | [], h => by simp [hasPIs] at h
  | n :: ns, h => by
    rw [stripTagsList]
    cases hn : hasPI n with
    | true => rw [stripFull_fails n hn]
    | false =>
      rw [hasPIs, hn, Bool.false_or] at h
      obtain ⟨n', h1, -⟩ := stripFull_ok n hn
      rw [h1, stripFullList_fails ns h]
end

theorem hasPI_detach (n : Node) : hasPI n.detach = hasPI n := by
  cases n with
  | elem i ks => unfold Node.detach; dsimp only; rw [hasPI, hasPI]
  | _ => rfl

/-- **C78**, when it succeeds: a string, or a `ValueError` exactly if there is a processing
instruction inside the element. -/
theorem C78_succeeds (declared : Bool) (n : Node) (tail : Str) :
    ((∃ s, convertFromReqifNs declared n tail = .ok s) ↔ hasPI n = false) ∧
      (hasPI n = true → convertFromReqifNs declared n tail = .error .valueError) := by
  have hbad : hasPI n = true → convertFromReqifNs declared n tail = .error .valueError := by
    intro h
    unfold convertFromReqifNs stripNamespace
    rw [stripFull_fails _ (by rw [hasPI_detach]; exact h)]
  refine ⟨⟨?_, ?_⟩, hbad⟩
  · rintro ⟨s, hs⟩
    cases h : hasPI n with
    | false => rfl
    | true => rw [hbad h] at hs; cases hs
  · intro h
    obtain ⟨n', h1, -⟩ := stripFull_ok n.detach (by rw [hasPI_detach]; exact h)
    unfold convertFromReqifNs stripNamespace
    rw [h1]
    exact ⟨_, rfl⟩

/-! ## Trees before and after the parser removes namespaces -/

mutual
theorem stripTags_same (full : Bool) : ∀ n r : Node, stripTags full n = .ok r → bareNode r = bareNode n
  | .text s, r, h => by rw [stripTags] at h; cases h; rfl
  | .comment s, r, h => by rw [stripTags] at h; cases h; rfl
  | .pi t d, r, h => by rw [stripTags] at h; split at h <;> cases h
  | .elem i ks, r, h => by
    rw [stripTags] at h
    split at h
    · cases h
    · rename_i ks' hk
      have ih := stripTagsList_same full ks ks' hk
      split at h
      · cases h; rw [bareNode, bareNode, ih]
      · cases h; rw [bareNode, bareNode, ih]; rfl

theorem stripTagsList_same (full : Bool) : ∀ ns rs : List Node, stripTagsList full ns = .ok rs → bareList rs = bareList ns
  | [], rs, h => by rw [stripTagsList] at h; cases h; rfl
  | n :: ns, rs, h => by
    rw [stripTagsList] at h
    split at h
    · cases h
    · rename_i n' hn
      split at h
      · cases h
      · rename_i ns' hns
        cases h
        rw [bareList, bareList, stripTags_same full n n' hn, stripTagsList_same full ns ns' hns]
end

mutual
theorem cleanup_same : ∀ (m : NsMap) (n : Node), bareNode (cleanup m n) = bareNode n
  | m, .text s => by rw [cleanup]; simp
  | m, .comment s => by rw [cleanup]; simp
  | m, .pi t d => by rw [cleanup]; simp
  | m, .elem i ks => by
    rw [cleanup, bareNode, bareNode, cleanupList_same _ ks]
    rfl

theorem cleanupList_same : ∀ (m : NsMap) (ns : List Node), bareList (cleanupList m ns) = bareList ns
  | m, [] => by rw [cleanupList]
  | m, n :: ns => by rw [cleanupList, bareList, bareList, cleanup_same m n, cleanupList_same m ns]
end

/-- No element declares the prefix `xml`. -/
def DeclsOk (n : Node) : Prop := ∀ i ∈ infosOf n, ∀ d ∈ i.nsdefs, d.1 ≠ some c!"xml"

def DeclsOkAll (ns : List Node) : Prop := ∀ i ∈ infosOfAll ns, ∀ d ∈ i.nsdefs, d.1 ≠ some c!"xml"

theorem declsOk_elem {i : Info} {ks : List Node} : DeclsOk (.elem i ks) ↔ (∀ d ∈ i.nsdefs, d.1 ≠ some c!"xml") ∧ DeclsOkAll ks := by
  unfold DeclsOk DeclsOkAll
  rw [infosOf]
  simp only [List.mem_cons, forall_eq_or_imp]

theorem declsOk_cons {n : Node} {ns : List Node} : DeclsOkAll (n :: ns) ↔ DeclsOk n ∧ DeclsOkAll ns := by
  unfold DeclsOk DeclsOkAll
  rw [infosOfAll]
  simp only [List.mem_append, or_imp, forall_and]

mutual
theorem stripTags_decls (full : Bool) : ∀ n r : Node, stripTags full n = .ok r → DeclsOk n → DeclsOk r
  | .text s, r, h, hd => by rw [stripTags] at h; cases h; exact hd
  | .comment s, r, h, hd => by rw [stripTags] at h; cases h; exact hd
  | .pi t d, r, h, hd => by rw [stripTags] at h; split at h <;> cases h
  | .elem i ks, r, h, hd => by
    rw [stripTags] at h
    rw [declsOk_elem] at hd
    split at h
    · cases h
    · rename_i ks' hk
      have ih := stripTagsList_decls full ks ks' hk hd.2
      split at h
      · cases h; exact declsOk_elem.2 ⟨hd.1, ih⟩
      · cases h; exact declsOk_elem.2 ⟨hd.1, ih⟩

theorem stripTagsList_decls (full : Bool) : ∀ ns rs : List Node, stripTagsList full ns = .ok rs → DeclsOkAll ns → DeclsOkAll rs
  | [], rs, h, hd => by rw [stripTagsList] at h; cases h; exact hd
  | n :: ns, rs, h, hd => by
    rw [stripTagsList] at h
    rw [declsOk_cons] at hd
    split at h
    · cases h
    · rename_i n' hn
      split at h
      · cases h
      · rename_i ns' hns
        cases h
        exact declsOk_cons.2 ⟨stripTags_decls full n n' hn hd.1, stripTagsList_decls full ns ns' hns hd.2⟩
end

mutual
theorem cleanup_decls : ∀ (m : NsMap) (n : Node), DeclsOk n → DeclsOk (cleanup m n)
  | m, .text s, h => by rw [cleanup]; exact h; simp
  | m, .comment s, h => by rw [cleanup]; exact h; simp
  | m, .pi t d, h => by rw [cleanup]; exact h; simp
  | m, .elem i ks, h => by
    rw [declsOk_elem] at h
    rw [cleanup]
    exact declsOk_elem.2 ⟨fun d hd => h.1 d (List.mem_filter.1 hd).1, cleanupList_decls _ ks h.2⟩

theorem cleanupList_decls : ∀ (m : NsMap) (ns : List Node), DeclsOkAll ns → DeclsOkAll (cleanupList m ns)
  | m, [], h => by rw [cleanupList]; exact h
  | m, n :: ns, h => by
    rw [declsOk_cons] at h
    rw [cleanupList]
    exact declsOk_cons.2 ⟨cleanup_decls m n h.1, cleanupList_decls m ns h.2⟩
end

theorem strippedRoot_same {n r : Node} (h : strippedRoot n = .ok r) : bareNode r = bareNode n ∧ (DeclsOk n → DeclsOk r) := by
  unfold strippedRoot at h
  split at h
  · unfold stripNamespace at h
    split at h
    · cases h
    · rename_i r' hr
      cases h
      exact ⟨by rw [cleanup_same, stripTags_same _ _ _ hr], fun hd => cleanup_decls _ _ (stripTags_decls _ _ _ hr hd)⟩
  · cases h
    exact ⟨rfl, id⟩

theorem declsOk_inside {n k : Node} (hi : Inside n k) : DeclsOk k → DeclsOk n := by
  induction hi with
  | self => exact id
  | child hk _ ih =>
    intro h
    refine ih ?_
    have h2 := (declsOk_elem.1 h).2
    clear ih h
    rename_i ks _
    induction ks with
    | nil => cases hk
    | cons k' ks ih2 =>
      rw [declsOk_cons] at h2
      rcases List.mem_cons.1 hk with e | hk'
      · rw [e]; exact h2.1
      · exact ih2 hk' h2.2

theorem bareList_mem {k : Node} : ∀ {ns : List Node}, k ∈ bareList ns → ∃ n ∈ ns, bareNode n = k
  | [], h => by rw [bareList] at h; cases h
  | n :: ns, h => by
    rw [bareList] at h
    rcases List.mem_cons.1 h with e | h'
    · exact ⟨n, by simp, e.symm⟩
    · obtain ⟨n', h1, h2⟩ := bareList_mem h'
      exact ⟨n', by simp [h1], h2⟩

theorem mem_bareList {n : Node} : ∀ {ns : List Node}, n ∈ ns → bareNode n ∈ bareList ns
  | m :: ns, h => by
    rw [bareList]
    rcases List.mem_cons.1 h with e | h'
    · rw [e]; simp
    · exact List.mem_cons_of_mem _ (mem_bareList h')

theorem inside_same {n r : Node} (hi : Inside n r) : ∀ k : Node, bareNode r = bareNode k → ∃ n', Inside n' k ∧ bareNode n = bareNode n' := by
  induction hi with
  | self => intro k h; exact ⟨k, .self k, h⟩
  | child hk _ ih =>
    intro k h
    rename_i i ks _
    cases k with
    | elem j js =>
      rw [bareNode, bareNode] at h
      have e : bareList ks = bareList js := (Node.elem.inj h).2
      have hm := mem_bareList hk
      rw [e] at hm
      obtain ⟨k', h1, h2⟩ := bareList_mem hm
      obtain ⟨n', h3, h4⟩ := ih k' h2.symm
      exact ⟨n', .child h1 h3, h4⟩
    | text s => rw [bareNode, bareNode] at h; cases h
    | comment s => rw [bareNode, bareNode] at h; cases h
    | pi t d => rw [bareNode, bareNode] at h; cases h

mutual
theorem hasPI_bare : ∀ n : Node, hasPI (bareNode n) = hasPI n
  | .text s => by rw [bareNode]
  | .comment s => by rw [bareNode]
  | .pi t d => by rw [bareNode]
  | .elem i ks => by rw [bareNode, hasPI, hasPI, hasPIs_bare ks]

theorem hasPIs_bare : ∀ ns : List Node, hasPIs (bareList ns) = hasPIs ns
  | [] => by rw [bareList]
  | n :: ns => by rw [bareList, hasPIs, hasPIs, hasPI_bare n, hasPIs_bare ns]
end

mutual
theorem noEmptyText_bare : ∀ n : Node, noEmptyText (bareNode n) = noEmptyText n
  | .text s => by rw [bareNode]
  | .comment s => by rw [bareNode]
  | .pi t d => by rw [bareNode]
  | .elem i ks => by rw [bareNode, noEmptyText, noEmptyText, noEmptyTextAll_bare ks]

theorem noEmptyTextAll_bare : ∀ ns : List Node, noEmptyTextAll (bareList ns) = noEmptyTextAll ns
  | [] => by rw [bareList]
  | n :: ns => by rw [bareList, noEmptyTextAll, noEmptyTextAll, noEmptyText_bare n, noEmptyTextAll_bare ns]
end

theorem ownAttrs_same {n n' : Node} (h : bareNode n = bareNode n') (ha : ∀ i ∈ infosOf n, OwnAttrs i) : ∀ i ∈ infosOf n', OwnAttrs i := by
  intro i hi
  have e := congrArg infosOf h
  rw [infosOf_bare, infosOf_bare] at e
  have hm : bareInfo i ∈ (infosOf n').map bareInfo := List.mem_map.2 ⟨i, hi, rfl⟩
  rw [← e] at hm
  obtain ⟨j, hj, ej⟩ := List.mem_map.1 hm
  have := ha j hj
  unfold OwnAttrs at this ⊢
  have ea : (bareInfo j).attrs = (bareInfo i).attrs := congrArg Info.attrs ej
  change j.attrs = i.attrs at ea
  rwa [ea] at this

/-! ## What a document holds -/

theorem inside_resolve {n k : Node} (hi : Inside n k) : ∀ {m : NsMap} {x : Xml}, x.Sane → resolve m x = some k →
    ∃ m' x', Xml.Sane x' ∧ resolve m' x' = some n := by
  induction hi with
  | self => intro m x hx h; exact ⟨m, x, hx, h⟩
  | child hk _ ih =>
    intro m x hx h
    rename_i i ks _
    cases x with
    | elem q as xs =>
      rw [Xml.Sane] at hx
      rw [resolve] at h
      split at h
      · cases h
      · split at h
        · cases h
        · rename_i ns hns
          cases h
          have key : ∀ (xs : List Xml) (ns : List Node), SaneXmls xs → resolveList i.nsmap xs = some ns → ∀ k' ∈ ns,
              ∃ x', Xml.Sane x' ∧ resolve i.nsmap x' = some k' := by
            intro xs
            induction xs with
            | nil => intro ns _ h2 k' hk'; rw [resolveList] at h2; cases h2; cases hk'
            | cons y ys ihy =>
              intro ns h1 h2 k' hk'
              rw [SaneXmls] at h1
              rw [resolveList] at h2
              split at h2
              · rename_i ny nys hny hnys
                cases h2
                rcases List.mem_cons.1 hk' with e | hk''
                · exact ⟨y, h1.1, by rw [e]; exact hny⟩
                · exact ihy nys h1.2 hnys k' hk''
              · cases h2
          obtain ⟨x', h1, h2⟩ := key xs ks hx.2.2.2 hns _ hk
          exact ih h1 h2
    | text s => rw [resolve] at h; cases h
    | comment s => rw [resolve] at h; cases h
    | pi t d => rw [resolve] at h; cases h

theorem readDoc_root {text : Str} {d : Doc} (h : readDoc text = some d) : ∃ x, Xml.Sane x ∧ resolve [] x = some d.root := by
  unfold readDoc at h
  split at h
  · cases h
  · rename_i dd xs hr
    obtain ⟨hs, -⟩ := readRaw_sane hr
    split at h
    · cases h
    · rename_i ns hns
      split at h
      · cases h
      · rename_i r hfe
        cases h
        show ∃ x, Xml.Sane x ∧ resolve [] x = some r
        clear hr
        induction xs generalizing ns with
        | nil => rw [resolveList] at hns; cases hns; rw [firstElem] at hfe; cases hfe
        | cons y ys ih =>
          rw [SaneXmls] at hs
          rw [resolveList] at hns
          split at hns
          · rename_i ny nys hny hnys
            cases hns
            cases ny with
            | elem i ks => rw [firstElem] at hfe; cases hfe; exact ⟨y, hs.1, hny⟩
            | text s => rw [firstElem] at hfe; exact ih hs.2 nys hnys hfe; simp
            | comment s => rw [firstElem] at hfe; exact ih hs.2 nys hnys hfe; simp
            | pi t d => rw [firstElem] at hfe; exact ih hs.2 nys hnys hfe; simp
          · cases hns

theorem resolveInfo_decls {m : NsMap} {q : Str} {as : List (Str × Str)} {i : Info} (h : resolveInfo m q as = some i) :
    ∀ d ∈ i.nsdefs, d.1 ≠ some c!"xml" := by
  unfold resolveInfo at h
  dsimp only at h
  split at h
  · split at h
    · split at h
      · cases h; exact storedDecls_xml _
      · cases h
    · cases h
  · cases h

mutual
theorem resolve_decls : ∀ (m : NsMap) (x : Xml) (n : Node), resolve m x = some n → DeclsOk n
  | m, .text s, n, h => by rw [resolve] at h; cases h; intro i hi; simp [infosOf] at hi
  | m, .comment s, n, h => by rw [resolve] at h; cases h; intro i hi; simp [infosOf] at hi
  | m, .pi t d, n, h => by rw [resolve] at h; cases h; intro i hi; simp [infosOf] at hi
  | m, .elem q as ks, n, h => by
    rw [resolve] at h
    split at h
    · cases h
    · rename_i i hi
      split at h
      · cases h
      · rename_i ns hns
        cases h
        exact declsOk_elem.2 ⟨resolveInfo_decls hi, resolveList_decls _ ks ns hns⟩

theorem resolveList_decls : ∀ (m : NsMap) (xs : List Xml) (ns : List Node), resolveList m xs = some ns → DeclsOkAll ns
  | m, [], ns, h => by rw [resolveList] at h; cases h; intro i hi; rw [infosOfAll] at hi; cases hi
  | m, x :: xs, ns, h => by
    rw [resolveList] at h
    split at h
    · rename_i n' ns' h1 h2
      cases h
      exact declsOk_cons.2 ⟨resolve_decls m x n' h1, resolveList_decls m xs ns' h2⟩
    · cases h
end

theorem held_fine {text : Str} {n : Node} (hh : HeldIn text n) (ha : ∀ i ∈ infosOf n, OwnAttrs i) (ht : noEmptyText n = true) :
    Fine [] (bareNode n) ∧ DeclsOk n := by
  obtain ⟨d, hd, hi⟩ := hh
  obtain ⟨x, hx, hr⟩ := readDoc_root hd
  have key : ∀ n', Inside n' d.root → bareNode n = bareNode n' → Fine [] (bareNode n) := by
    intro n' h1 h2
    obtain ⟨m', x', h3, h4⟩ := inside_resolve h1 hx hr
    have hf := fine_of m' x' n' h3 h4 (by rw [← noEmptyText_bare, ← h2, noEmptyText_bare]; exact ht)
    rw [h2]
    exact fine_bare m' n' hf (ownAttrs_same h2 ha)
  have hdecl : DeclsOk d.root := resolve_decls [] x d.root hr
  rcases hi with hi | ⟨r, h1, h2⟩
  · exact ⟨key n hi rfl, declsOk_inside hi hdecl⟩
  · obtain ⟨e1, e2⟩ := strippedRoot_same h1
    obtain ⟨n', h3, h4⟩ := inside_same h2 d.root e1
    exact ⟨key n' h3 h4, declsOk_inside h2 (e2 hdecl)⟩

/-! ## The tail -/

/-- What remains of a tail of white space: nothing. -/
theorem tail_space {tail : Str} (h : ∀ c ∈ tail, isPySpace c = true ∧ c ≠ '\r') : rstrip (serText tail ++ c!"\n") = [] := by
  have e : serText tail = tail := by
    unfold serText
    induction tail with
    | nil => rfl
    | cons c t ih =>
      rw [List.flatMap_cons, ih (fun d hd => h d (by simp [hd]))]
      obtain ⟨h1, h2⟩ := h c (by simp)
      have : serTextChar c = [c] := by
        unfold serTextChar
        have n1 : c ≠ '&' := by intro e; rw [e] at h1; revert h1; decide
        have n2 : c ≠ '<' := by intro e; rw [e] at h1; revert h1; decide
        have n3 : c ≠ '>' := by intro e; rw [e] at h1; revert h1; decide
        simp [n1, n2, n3, h2]
      rw [this]; rfl
  rw [e]
  unfold rstrip
  rw [List.reverse_eq_nil_iff]
  have key : ∀ u : Str, (∀ c ∈ u, isPySpace c = true) → u.dropWhile isPySpace = [] := by
    intro u hu
    induction u with
    | nil => rfl
    | cons c u ih => rw [List.dropWhile_cons, if_pos (hu c (by simp))]; exact ih (fun d hd => hu d (by simp [hd]))
  refine key _ (fun c hc => ?_)
  rw [List.mem_reverse, List.mem_append] at hc
  rcases hc with hc | hc
  · exact (h c hc).1
  · have : c = '\n' := by simpa using hc
    rw [this]; decide

theorem serText_clean (s : Str) : '<' ∉ serText s ∧ '\r' ∉ serText s :=
  ⟨mem_flatMap_notMem (fun c => (serTextChar_notMem c).1) s, mem_flatMap_notMem (fun c => (serTextChar_notMem c).2.2) s⟩

theorem rstrip_keeps {s : Str} {c : Char} (hc : c ∈ s) (hs : isPySpace c = false) : c ∈ rstrip s := by
  obtain ⟨a, b, rfl⟩ := List.append_of_mem hc
  rw [rstrip_after _ _ hs]
  simp

theorem rstrip_mem {s : Str} {c : Char} (hc : c ∈ rstrip s) : c ∈ s := by
  unfold rstrip at hc
  rw [List.mem_reverse] at hc
  exact List.mem_reverse.1 ((List.dropWhile_sublist _).subset hc)

theorem isWs_pySpace {c : Char} (h : isPySpace c = false) : isWs c = false := by
  cases hw : isWs c with
  | false => rfl
  | true =>
    unfold isWs at hw
    simp only [Bool.or_eq_true, beq_iff_eq] at hw
    rcases hw with ((e | e) | e) | e <;> (rw [e] at h; revert h; decide)

/-- Anything else in the tail leaves something that is not white space. -/
theorem tail_words {tail : Str} {c : Char} (hc : c ∈ tail) (h : isPySpace c = false ∨ c = '\r') :
    (rstrip (serText tail ++ c!"\n")).all isWs = false := by
  have hx : ∃ x ∈ serTextChar c, isPySpace x = false := by
    unfold serTextChar
    by_cases h1 : c = '&'; · subst h1; exact ⟨'&', by decide, by decide⟩
    by_cases h2 : c = '<'; · subst h2; exact ⟨'&', by decide, by decide⟩
    by_cases h3 : c = '>'; · subst h3; exact ⟨'&', by decide, by decide⟩
    by_cases h4 : c = '\r'; · subst h4; exact ⟨'&', by decide, by decide⟩
    refine ⟨c, by simp [h1, h2, h3, h4], ?_⟩
    rcases h with h | h
    · exact h
    · exact absurd h h4
  obtain ⟨x, hx1, hx2⟩ := hx
  have hm : x ∈ serText tail ++ c!"\n" := by
    rw [List.mem_append]
    left
    unfold serText
    exact List.mem_flatMap.2 ⟨c, hc, hx1⟩
  rw [List.all_eq_false]
  exact ⟨x, rstrip_keeps hm hx2, by rw [isWs_pySpace hx2]; decide⟩

/-! ## What is read from the string -/

/-- The tree read back. -/
theorem convert_read {declared : Bool} {n : Node} {tail : Str} (hpi : hasPI n = false) (ha : ∀ i ∈ infosOf n, OwnAttrs i)
    (hd : DeclsOk n) (he : isElem n = true) (hf : Fine [] (bareNode n)) :
    ∃ s, convertFromReqifNs declared n tail = .ok s ∧
      readDoc s = if (rstrip (serText tail ++ c!"\n")).all isWs then
        some ⟨none, [padded true 0 (bareNode n)], padded true 0 (bareNode n)⟩ else none := by
  refine ⟨_, convert_fine declared tail hpi ha hd he hf, ?_⟩
  have he' : isElem (bareNode n) = true := by cases n <;> first | (rw [bareNode]; rfl) | cases he
  have hs := serText_clean tail
  refine readDoc_alone (padded_fine [] 0 _ hf) (padded_elem he' 0) ?_ ?_
  · intro hm
    rcases List.mem_append.1 (rstrip_mem hm) with h | h
    · exact hs.1 h
    · revert h; decide
  · intro hm
    rcases List.mem_append.1 (rstrip_mem hm) with h | h
    · exact hs.2 h
    · revert h; decide

/-- **C78**, reading: an element of a document, whose attributes have no namespace (or are
`xml:` attributes), converted to a string and read again, is the same element without namespaces; line
ends and indentation are added only between nodes of an element without text. -/
theorem C78_read {text : Str} {n : Node} (hh : HeldIn text n) (he : isElem n = true) (hpi : hasPI n = false)
    (ha : ∀ i ∈ infosOf n, OwnAttrs i) (ht : noEmptyText n = true)
    {tail : Str} (hw : ∀ c ∈ tail, isPySpace c = true ∧ c ≠ '\r') (declared : Bool) :
    ∃ s n', convertFromReqifNs declared n tail = .ok s ∧ readDoc s = some ⟨none, [n'], n'⟩ ∧ Spread (unqualified n) n' := by
  obtain ⟨hf, hd⟩ := held_fine hh ha ht
  obtain ⟨s, h1, h2⟩ := convert_read (declared := declared) (tail := tail) hpi ha hd he hf
  rw [tail_space hw] at h2
  refine ⟨s, _, h1, h2, ?_⟩
  rw [unqualified_bare]
  exact spread_padded 0 _

/-- **C78**, exactly: an element with text, or an empty one, is read back as it was. -/
theorem C78_exact {text : Str} {i : Info} {ks : List Node} (hh : HeldIn text (.elem i ks)) (hpi : hasPIs ks = false)
    (ha : ∀ j ∈ infosOf (.elem i ks), OwnAttrs j) (ht : noEmptyTextAll ks = true) (hk : ks = [] ∨ ks.any Node.isText = true)
    {tail : Str} (hw : ∀ c ∈ tail, isPySpace c = true ∧ c ≠ '\r') (declared : Bool) :
    ∃ s, convertFromReqifNs declared (.elem i ks) tail = .ok s ∧
      readDoc s = some ⟨none, [unqualified (.elem i ks)], unqualified (.elem i ks)⟩ := by
  obtain ⟨s, n', h1, h2, h3⟩ := C78_read hh rfl (by rw [hasPI]; exact hpi) ha (by rw [noEmptyText]; exact ht) hw declared
  refine ⟨s, h1, ?_⟩
  rw [unqualified, Spread] at h3
  obtain ⟨ks', rfl, h4⟩ := h3
  have hk' : unqualifiedAll ks = [] ∨ (unqualifiedAll ks).any Node.isText = true := by
    rcases hk with rfl | hk
    · left; rw [unqualifiedAll]
    · right
      rw [unqualifiedAll_bare]
      obtain ⟨k, h5, h6⟩ := List.any_eq_true.1 hk
      refine List.any_eq_true.2 ⟨bareNode k, mem_bareList h5, ?_⟩
      cases k with
      | text s => rw [bareNode]; rfl
      | _ => cases h6
  rw [if_pos hk'] at h4
  rw [h4] at h2
  rw [unqualified]
  exact h2

/-- **C78**, the tail: the string is a document exactly if only white space stands behind the
element. -/
theorem C78_tail {text : Str} {n : Node} (hh : HeldIn text n) (he : isElem n = true) (hpi : hasPI n = false)
    (ha : ∀ i ∈ infosOf n, OwnAttrs i) (ht : noEmptyText n = true) (tail : Str) (declared : Bool) :
    ∃ s, convertFromReqifNs declared n tail = .ok s ∧
      ((∃ d, readDoc s = some d) ↔ ∀ c ∈ tail, isPySpace c = true ∧ c ≠ '\r') := by
  obtain ⟨hf, hd⟩ := held_fine hh ha ht
  obtain ⟨s, h1, h2⟩ := convert_read (declared := declared) (tail := tail) hpi ha hd he hf
  refine ⟨s, h1, ?_, ?_⟩
  · rintro ⟨d, hd⟩ c hc
    have key : ¬(isPySpace c = false ∨ c = '\r') := by
      intro h
      rw [tail_words hc h] at h2
      rw [h2] at hd
      cases hd
    refine ⟨?_, fun e => key (.inr e)⟩
    cases hp : isPySpace c with
    | true => rfl
    | false => exact absurd (.inl hp) key
  · intro hw
    rw [tail_space hw] at h2
    exact ⟨_, h2⟩

/-- **C78**, the encoding: whether the document has an encoding does not change what is
read. -/
theorem C78_declared {text : Str} {n : Node} (hh : HeldIn text n) (he : isElem n = true) (hpi : hasPI n = false)
    (ha : ∀ i ∈ infosOf n, OwnAttrs i) (ht : noEmptyText n = true) (tail : Str) :
    ∃ s s', convertFromReqifNs true n tail = .ok s ∧ convertFromReqifNs false n tail = .ok s' ∧ readDoc s = readDoc s' := by
  obtain ⟨hf, hd⟩ := held_fine hh ha ht
  obtain ⟨s, h1, h2⟩ := convert_read (declared := true) (tail := tail) hpi ha hd he hf
  obtain ⟨s', h3, h4⟩ := convert_read (declared := false) (tail := tail) hpi ha hd he hf
  exact ⟨s, s', h1, h3, by rw [h2, h4]⟩

/-! ## HTML content -/

mutual
theorem content_noPI {p : Str} : ∀ (t : XTree) (n : Node), IsContent p t n → hasPI n = false
  | .elem name attrs kids, .elem i ks, h => by
    unfold IsContent at h
    rw [hasPI]
    exact contents_noPI kids ks h.2.2.2.2.2
  | .text s, .text s', h => by simp [hasPI]
  | .elem .., .text _, h => by unfold IsContent at h; exact h.elim
  | .elem .., .comment _, h => by unfold IsContent at h; exact h.elim
  | .elem .., .pi .., h => by unfold IsContent at h; exact h.elim
  | .text _, .elem .., h => by unfold IsContent at h; exact h.elim
  | .text _, .comment _, h => by unfold IsContent at h; exact h.elim
  | .text _, .pi .., h => by unfold IsContent at h; exact h.elim

theorem contents_noPI {p : Str} : ∀ (ts : List XTree) (ns : List Node), AllContent p ts ns → hasPIs ns = false
  | [], [], _ => by rw [hasPIs]
  | t :: ts, n :: ns, h => by
    unfold AllContent at h
    rw [hasPIs, content_noPI t n h.1, contents_noPI ts ns h.2]; rfl
  | [], _ :: _, h => by unfold AllContent at h; exact h.elim
  | _ :: _, [], h => by unfold AllContent at h; exact h.elim
end

mutual
theorem content_texts {p : Str} : ∀ (t : XTree) (n : Node), IsContent p t n → t.WF → noEmptyText n = true
  | .elem name attrs kids, .elem i ks, h, hw => by
    unfold IsContent at h
    unfold XTree.WF at hw
    rw [noEmptyText]
    exact contents_texts kids ks h.2.2.2.2.2 hw.2.2.2.2
  | .text s, .text s', h, hw => by
    unfold IsContent at h
    unfold XTree.WF at hw
    rw [h]
    simp [noEmptyText, hw.1]
  | .elem .., .text _, h, _ => by unfold IsContent at h; exact h.elim
  | .elem .., .comment _, h, _ => by unfold IsContent at h; exact h.elim
  | .elem .., .pi .., h, _ => by unfold IsContent at h; exact h.elim
  | .text _, .elem .., h, _ => by unfold IsContent at h; exact h.elim
  | .text _, .comment _, h, _ => by unfold IsContent at h; exact h.elim
  | .text _, .pi .., h, _ => by unfold IsContent at h; exact h.elim

theorem contents_texts {p : Str} : ∀ (ts : List XTree) (ns : List Node), AllContent p ts ns → AllWF ts → noEmptyTextAll ns = true
  | [], [], _, _ => by rw [noEmptyTextAll]
  | t :: ts, n :: ns, h, hw => by
    unfold AllContent at h
    unfold AllWF at hw
    rw [noEmptyTextAll, content_texts t n h.1 hw.1, contents_texts ts ns h.2 hw.2]; rfl
  | [], _ :: _, h, _ => by unfold AllContent at h; exact h.elim
  | _ :: _, [], h, _ => by unfold AllContent at h; exact h.elim
end

theorem key_plain {a : Attr} (h : isNCName a.key = true) : a.ns = none ∧ a.key = a.name := by
  unfold Attr.key at h ⊢
  cases hn : a.ns with
  | none => exact ⟨rfl, rfl⟩
  | some u =>
    rw [hn] at h
    have e : ∃ r, clark (some u) a.name = '{' :: r := ⟨_, rfl⟩
    obtain ⟨r, e⟩ := e
    rw [e] at h
    have : isNameStart '{' = false := by decide
    simp [isNCName, this] at h

mutual
theorem content_attrs {p : Str} : ∀ (t : XTree) (n : Node), IsContent p t n → t.WF → ∀ i ∈ infosOf n, ∀ a ∈ i.attrs, isNCName a.key = true
  | .elem name attrs kids, .elem i ks, h, hw, j, hj => by
    unfold IsContent at h
    unfold XTree.WF at hw
    rw [infosOf] at hj
    rcases List.mem_cons.1 hj with rfl | hj'
    · intro a ha
      have : (a.key, a.value) ∈ attrs := by rw [← h.2.2.2.2.1]; exact List.mem_map.2 ⟨a, ha, rfl⟩
      exact (hw.2.1 _ this).1
    · exact contents_attrs kids ks h.2.2.2.2.2 hw.2.2.2.2 j hj'
  | .text s, .text s', h, hw, j, hj => by simp [infosOf] at hj
  | .elem .., .text _, h, _, _, _ => by unfold IsContent at h; exact h.elim
  | .elem .., .comment _, h, _, _, _ => by unfold IsContent at h; exact h.elim
  | .elem .., .pi .., h, _, _, _ => by unfold IsContent at h; exact h.elim
  | .text _, .elem .., h, _, _, _ => by unfold IsContent at h; exact h.elim
  | .text _, .comment _, h, _, _, _ => by unfold IsContent at h; exact h.elim
  | .text _, .pi .., h, _, _, _ => by unfold IsContent at h; exact h.elim

theorem contents_attrs {p : Str} : ∀ (ts : List XTree) (ns : List Node), AllContent p ts ns → AllWF ts →
    ∀ i ∈ infosOfAll ns, ∀ a ∈ i.attrs, isNCName a.key = true
  | [], [], _, _, j, hj => by rw [infosOfAll] at hj; cases hj
  | t :: ts, n :: ns, h, hw, j, hj => by
    unfold AllContent at h
    unfold AllWF at hw
    rw [infosOfAll, List.mem_append] at hj
    rcases hj with hj | hj
    · exact content_attrs t n h.1 hw.1 j hj
    · exact contents_attrs ts ns h.2 hw.2 j hj
  | [], _ :: _, h, _, _, _ => by unfold AllContent at h; exact h.elim
  | _ :: _, [], h, _, _, _ => by unfold AllContent at h; exact h.elim
end

theorem resolveAttrs_pfx {m : NsMap} : ∀ {as : List (Str × Str)} {xs : List Attr}, resolveAttrs m as = some xs → ∀ x ∈ xs, x.ns = none → x.pfx = none
  | [], xs, h, x, hx, _ => by rw [resolveAttrs] at h; cases h; cases hx
  | a :: as, xs, h, x, hx, hn => by
    rw [resolveAttrs] at h
    split at h
    · rename_i y ys h1 h2
      cases h
      rcases List.mem_cons.1 hx with rfl | hx'
      · unfold resolveAttr at h1
        split at h1
        · cases h1; rfl
        · split at h1
          · cases h1; cases hn
          · split at h1
            · cases h1
            · cases h1; cases hn
      · exact resolveAttrs_pfx h2 x hx' hn
    · cases h

theorem fineInfo_pfx {m : NsMap} {i : Info} (h : FineInfo m i) : ∀ a ∈ i.attrs, a.ns = none → a.pfx = none := by
  have h1 := h.resolves
  unfold resolveInfo at h1
  dsimp only at h1
  split at h1
  · split at h1
    · rename_i hr
      split at h1
      · have e : i.attrs = _ := congrArg Info.attrs (Option.some.inj h1).symm
        intro a ha
        rw [e] at ha
        exact resolveAttrs_pfx hr a ha
      · cases h1
    · cases h1
  · cases h1

mutual
/-- XHTML content without its namespaces is HTML content. -/
theorem content_html {p : Str} : ∀ (t : XTree) (n : Node), IsContent p t n → t.WF → ∀ m, Fine m (bareNode n) → IsHtml t (unqualified n)
  | .elem name attrs kids, .elem i ks, h, hw, m, hf => by
    unfold IsContent at h
    unfold XTree.WF at hw
    rw [bareNode, Fine] at hf
    rw [unqualified]
    unfold IsHtml
    refine ⟨h.1, rfl, rfl, ?_, contents_html kids ks h.2.2.2.2.2 hw.2.2.2.2 _ hf.2.2⟩
    have hp := fineInfo_pfx hf.1
    have hk : ∀ a ∈ i.attrs, isNCName a.key = true := by
      intro a ha
      have : (a.key, a.value) ∈ attrs := by rw [← h.2.2.2.2.1]; exact List.mem_map.2 ⟨a, ha, rfl⟩
      exact (hw.2.1 _ this).1
    show i.attrs = _
    rw [← h.2.2.2.2.1, List.map_map]
    have key : ∀ as : List Attr, (∀ a ∈ as, isNCName a.key = true) → (∀ a ∈ as, a.ns = none → a.pfx = none) →
        as = as.map ((fun a => (⟨none, none, a.1, a.2⟩ : Attr)) ∘ fun a => (a.key, a.value)) := by
      intro as h1 h2
      induction as with
      | nil => rfl
      | cons a as ih =>
        rw [List.map_cons, ← ih (fun b hb => h1 b (by simp [hb])) (fun b hb => h2 b (by simp [hb]))]
        obtain ⟨e1, e2⟩ := key_plain (h1 a (by simp))
        have e3 := h2 a (by simp) e1
        congr 1
        show a = ⟨none, none, a.key, a.value⟩
        rw [e2]
        cases a
        cases e1
        cases e3
        rfl
    exact key i.attrs hk hp
  | .text s, .text s', h, _, _, _ => by
    unfold IsContent at h
    rw [unqualified]
    unfold IsHtml
    exact h
  | .elem .., .text _, h, _, _, _ => by unfold IsContent at h; exact h.elim
  | .elem .., .comment _, h, _, _, _ => by unfold IsContent at h; exact h.elim
  | .elem .., .pi .., h, _, _, _ => by unfold IsContent at h; exact h.elim
  | .text _, .elem .., h, _, _, _ => by unfold IsContent at h; exact h.elim
  | .text _, .comment _, h, _, _, _ => by unfold IsContent at h; exact h.elim
  | .text _, .pi .., h, _, _, _ => by unfold IsContent at h; exact h.elim

theorem contents_html {p : Str} : ∀ (ts : List XTree) (ns : List Node), AllContent p ts ns → AllWF ts → ∀ m, FineAll m (bareList ns) → AllHtml ts (unqualifiedAll ns)
  | [], [], _, _, _, _ => by rw [unqualifiedAll]; unfold AllHtml; trivial
  | t :: ts, n :: ns, h, hw, m, hf => by
    unfold AllContent at h
    unfold AllWF at hw
    rw [bareList, FineAll] at hf
    rw [unqualifiedAll]
    unfold AllHtml
    exact ⟨content_html t n h.1 hw.1 m hf.1, contents_html ts ns h.2 hw.2 m hf.2⟩
  | [], _ :: _, h, _, _, _ => by unfold AllContent at h; exact h.elim
  | _ :: _, [], h, _, _, _ => by unfold AllContent at h; exact h.elim
end

/-- The string `s` is read as the HTML element `t`, spread over lines. -/
def ReadsHtml (t : XTree) (s : Str) : Prop :=
  ∃ h n', readDoc s = some ⟨none, [n'], n'⟩ ∧ IsHtml t h ∧ Spread h n'

/-- **C78**, content: an element of XHTML content becomes the HTML element of the same name,
with the same attributes, texts and elements in it. -/
theorem C78_html {text : Str} {n : Node} (hh : HeldIn text n) {p : Str} {t : XTree} (hc : IsContent p t n) (hw : t.WF)
    (ht : t.isText = false) {tail : Str} (htail : ∀ c ∈ tail, isPySpace c = true ∧ c ≠ '\r') (declared : Bool) :
    ∃ s, convertFromReqifNs declared n tail = .ok s ∧ ReadsHtml t s := by
  have he : isElem n = true := by
    cases t with
    | text s => cases ht
    | elem name attrs kids =>
      cases n with
      | elem i ks => rfl
      | _ => unfold IsContent at hc; exact hc.elim
  have ha : ∀ i ∈ infosOf n, OwnAttrs i := fun i hi a hai => .inl (key_plain (content_attrs t n hc hw i hi a hai)).1
  have hn := content_texts t n hc hw
  obtain ⟨s, n', h1, h2, h3⟩ := C78_read hh he (content_noPI t n hc) ha hn htail declared
  exact ⟨s, h1, unqualified n, n', h2, content_html t n hc hw [] (held_fine hh ha hn).1, h3⟩

theorem allContent_get {p : Str} : ∀ {ts : List XTree} {ns : List Node}, AllContent p ts ns → ∀ {i : Nat} {t : XTree} {n : Node},
    ts[i]? = some t → ns[i]? = some n → IsContent p t n
  | [], _, _, i, t, n, h1, _ => by simp at h1
  | t' :: ts, [], h, _, _, _, _, _ => by unfold AllContent at h; exact h.elim
  | t' :: ts, n' :: ns, h, 0, t, n, h1, h2 => by
    unfold AllContent at h
    simp only [List.getElem?_cons_zero, Option.some.injEq] at h1 h2
    rw [← h1, ← h2]; exact h.1
  | t' :: ts, n' :: ns, h, i + 1, t, n, h1, h2 => by
    unfold AllContent at h
    simp only [List.getElem?_cons_succ] at h1 h2
    exact allContent_get h.2 h1 h2

theorem allContent_length {p : Str} : ∀ {ts : List XTree} {ns : List Node}, AllContent p ts ns → ns.length = ts.length
  | [], [], _ => rfl
  | [], _ :: _, h => by unfold AllContent at h; exact h.elim
  | _ :: _, [], h => by unfold AllContent at h; exact h.elim
  | t :: ts, n :: ns, h => by
    unfold AllContent at h
    simp only [List.length_cons, allContent_length h.2]

theorem allWF_get : ∀ {ts : List XTree}, AllWF ts → ∀ {i : Nat} {t : XTree}, ts[i]? = some t → t.WF
  | [], _, i, t, h => by simp at h
  | t' :: ts, hw, 0, t, h => by
    unfold AllWF at hw
    simp only [List.getElem?_cons_zero, Option.some.injEq] at h
    rw [← h]; exact hw.1
  | t' :: ts, hw, i + 1, t, h => by
    unfold AllWF at hw
    simp only [List.getElem?_cons_succ] at h
    exact allWF_get hw.2 h

theorem inside_find {x w : Node} {tag : Str} (h : x.find tag = some w) : ∀ {r : Node}, Inside x r → Inside w r := by
  intro r hi
  have hw : w ∈ x.kids := List.mem_of_find?_eq_some h
  induction hi with
  | self =>
    cases x with
    | elem i ks => exact .child hw (.self _)
    | _ => cases hw
  | child hk _ ih => exact .child hk ih

theorem inside_children {x r : Node} (h : x ∈ r.children) : Inside x r := by
  have := (List.mem_filter.1 h).1
  cases r with
  | elem i ks => exact .child this (.self _)
  | _ => cases this

theorem inside_trans {a b c : Node} (h1 : Inside a b) (h2 : Inside b c) : Inside a c := by
  induction h2 with
  | self => exact h1
  | child hk _ ih => exact .child hk ih

/-- **C78**, both conversions: HTML is turned into the value of an XHTML attribute and written to
a document (C68); that is read, and each element of the value turned into a string.  What is
read from these strings is the HTML that was there at first. -/
theorem C78_roundtrip (fragment : Str → Py Node) (string : Str) (reqifXhtml : Bool) (ts : List XTree) (html : Node) (v : Str)
    (hf : fragment string = .ok html) (hh : AllHtml ts html.kids) (hwf : AllWF ts) (hna : noAdjacentText ts = true)
    (hv : convertToReqifNs fragment string reqifXhtml = .ok v)
    {as : List (Str × Str)} (hr : RootAttrs as) {Γ : Ctx} (hΓ : IsCtx as (xhtmlPrefix reqifXhtml) (!ts.all XTree.isText) Γ)
    (hb : Γ.Bound) (hk : Γ.keep.firstKey = some (xhtmlPrefix reqifXhtml)) {ref : Option Str} (href : PlainElem ref) :
    ∃ t x w, unparseAttributeValue ⟨.xhtml, ref, .str v, none, none⟩ = .ok t ∧ ReadsAs as t [x] ∧
      x.find c!"THE-VALUE" = some w ∧ w.kids.length = ts.length ∧
      ∀ (i : Nat) (e : XTree) (n : Node), ts[i]? = some e → w.kids[i]? = some n → e.isText = false →
        ∀ (declared : Bool) (tail : Str), (∀ c ∈ tail, isPySpace c = true ∧ c ≠ '\r') →
          ∃ s, convertFromReqifNs declared n tail = .ok s ∧ ReadsHtml e s := by
  obtain ⟨t, x, a, h1, h2, -, -, -, ⟨w, h3, -, h4⟩, -⟩ :=
    C68_roundtrip fragment string reqifXhtml ts html v hf hh hwf hna hv hr hΓ hb hk href
  refine ⟨t, x, w, h1, h2, h3, allContent_length h4, ?_⟩
  intro i e n he hn ht declared tail htail
  obtain ⟨d, r, hd, hr, hx⟩ := h2
  have hin : Inside n r := by
    have hw := inside_find h3 (inside_children (x := x) (r := r) (by rw [hx]; simp))
    have hm := List.mem_of_getElem? hn
    have hnw : Inside n w := by
      cases w with
      | elem i ks => exact .child hm (.self _)
      | _ => cases hm
    exact inside_trans hnw hw
  exact C78_html ⟨d, hd, .inr ⟨r, hr, hin⟩⟩ (allContent_get h4 he hn) (allWF_get hwf he) ht htail declared

/-! ## Concrete cases -/

/-- An element without its own scope entries, as the reader gives it. -/
def xhtmlEl (name : Str) (decls : NsMap) (attrs : List Attr) (ks : List Node) : Node :=
  .elem ⟨some c!"http://www.w3.org/1999/xhtml", some c!"xhtml", name, decls, [(some c!"xhtml", c!"http://www.w3.org/1999/xhtml")], attrs⟩ ks

def xhtmlDecl : NsMap := [(some c!"xhtml", c!"http://www.w3.org/1999/xhtml")]

set_option maxRecDepth 20000 in
def mixedText : Str :=
  c!"<xhtml:div xmlns:xhtml=\"http://www.w3.org/1999/xhtml\">Some<xhtml:span>combination</xhtml:span>of<xhtml:b>tags</xhtml:b></xhtml:div>"

def mixedNode : Node := xhtmlEl c!"div" xhtmlDecl []
  [.text c!"Some", xhtmlEl c!"span" [] [] [.text c!"combination"], .text c!"of", xhtmlEl c!"b" [] [] [.text c!"tags"]]

set_option maxRecDepth 20000 in
theorem mixed_held : HeldIn mixedText mixedNode := by
  have h : readDoc mixedText = some ⟨none, [mixedNode], mixedNode⟩ := isRootOnly_eq (by decide +kernel)
  exact ⟨_, h, .inl (.self _)⟩

/-- The case of the project's unit test. -/
example (b : Bool) : convertFromReqifNs b mixedNode [] = .ok c!"<div>Some<span>combination</span>of<b>tags</b></div>" := by
  cases b <;> rfl

/-- The hypotheses of `C78_read`, `C78_exact`, `C78_tail` and `C78_declared` are met. -/
example : HeldIn mixedText mixedNode ∧ isElem mixedNode = true ∧ hasPI mixedNode = false ∧ (∀ i ∈ infosOf mixedNode, OwnAttrs i) ∧
    noEmptyText mixedNode = true ∧ mixedNode.kids.any Node.isText = true ∧ ∀ c ∈ c!"\n  ", isPySpace c = true ∧ c ≠ '\r' := by
  refine ⟨mixed_held, rfl, rfl, ?_, rfl, rfl, by decide⟩
  intro i hi
  simp only [mixedNode, xhtmlEl, infosOf, infosOfAll, List.append_nil, List.nil_append, List.mem_cons, List.mem_append, List.cons_append, List.not_mem_nil, or_false] at hi
  rcases hi with rfl | rfl | rfl <;> (intro a ha; cases ha)

/-- The hypotheses of `C78_html` are met. -/
example : IsContent c!"xhtml" (.elem c!"div" [] [.text c!"Some", .elem c!"span" [] [.text c!"combination"], .text c!"of", .elem c!"b" [] [.text c!"tags"]]) mixedNode := by
  simp [IsContent, AllContent, mixedNode, xhtmlEl]

def listNode (declared : Bool) : Node := xhtmlEl c!"ul" xhtmlDecl [⟨none, none, c!"title", if declared then c!"é" else c!"e"⟩]
  [xhtmlEl c!"li" [] [] [], xhtmlEl c!"li" [] [] [.text c!"é"]]

/-- An element without text is spread over lines; characters outside ASCII in attributes are
references if the document has no encoding. -/
example : convertFromReqifNs false (listNode true) c!" \n" = .ok c!"<ul title=\"&#xE9;\">\n  <li/>\n  <li>é</li>\n</ul>" ∧
    convertFromReqifNs true (listNode true) c!" \n" = .ok c!"<ul title=\"é\">\n  <li/>\n  <li>é</li>\n</ul>" := ⟨rfl, rfl⟩

set_option maxRecDepth 20000 in
/-- **C78**, the opposite: the words behind the element become part of the string. -/
theorem C78_words : convertFromReqifNs true mixedNode c!" and more" =
      .ok c!"<div>Some<span>combination</span>of<b>tags</b></div> and more" ∧
    (readDoc c!"<div>Some<span>combination</span>of<b>tags</b></div> and more").isNone = true := ⟨rfl, by decide +kernel⟩

/-- **C78**, the opposite: an attribute with a namespace keeps a declaration. -/
theorem C78_attribute : convertFromReqifNs true
      (xhtmlEl c!"p" xhtmlDecl [⟨some c!"http://www.w3.org/1999/xhtml", some c!"xhtml", c!"id", c!"1"⟩] []) [] =
    .ok c!"<p xmlns:xhtml=\"http://www.w3.org/1999/xhtml\" xhtml:id=\"1\"/>" := rfl

/-- **C78**, the opposite: a processing instruction inside the element is an error. -/
theorem C78_instruction : convertFromReqifNs true (xhtmlEl c!"p" xhtmlDecl [] [.pi c!"a" c!"b"]) [] = .error .valueError := rfl

end ReqIF.Format
