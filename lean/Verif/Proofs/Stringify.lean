import Verif.Proofs.Markup
/-!
# The printing functions for XHTML, as `textWith`
-/
namespace ReqIF
open Spec

theorem char_cases {c : Char} (h : 'A' ≤ c ∧ c ≤ 'Z') (P : Char → Prop) (hP : ∀ n, n < 26 → P (Char.ofNat (65 + n))) : P c := by
  have h1 : 65 ≤ c.toNat := h.1
  have h2 : c.toNat ≤ 90 := h.2
  have := hP (c.toNat - 65) (by omega)
  rw [show 65 + (c.toNat - 65) = c.toNat by omega, Char.ofNat_toNat] at this
  exact this

theorem lower_eq (l u c : Char) (h1 : asciiLower u = l) (h2 : ¬ ('A' ≤ l ∧ l ≤ 'Z'))
    (h3 : ∀ n, n < 26 → asciiLower (Char.ofNat (65 + n)) = l → Char.ofNat (65 + n) = u) :
    (asciiLower c == l) = (c == l || c == u) := by
  rw [Bool.eq_iff_iff]
  simp only [beq_iff_eq, Bool.or_eq_true]
  constructor
  · intro h
    by_cases hc : 'A' ≤ c ∧ c ≤ 'Z'
    · right
      revert h
      exact char_cases hc (fun c => asciiLower c = l → c = u) h3
    · left
      unfold asciiLower at h
      rw [if_neg (by simpa using hc)] at h
      exact h
  · rintro (rfl | rfl)
    · unfold asciiLower
      rw [if_neg (by simpa using h2)]
    · exact h1

theorem isObjectTag_eq (t : Str) : isObjectTag t = isObject t := by
  unfold isObjectTag isObject
  split
  · rename_i a b c d e f
    simp only [List.map_cons, List.map_nil]
    have : ∀ x y : Char, ∀ s t : Str, ((x :: s) == (y :: t)) = (x == y && s == t) := fun x y s t => rfl
    rw [this, this, this, this, this, this]
    rw [lower_eq 'o' 'O' a (by decide) (by decide) (by decide), lower_eq 'b' 'B' b (by decide) (by decide) (by decide),
      lower_eq 'j' 'J' c (by decide) (by decide) (by decide), lower_eq 'e' 'E' d (by decide) (by decide) (by decide),
      lower_eq 'c' 'C' e (by decide) (by decide) (by decide), lower_eq 't' 'T' f (by decide) (by decide) (by decide)]
    have : (([] : Str) == []) = true := rfl
    rw [this]
    simp [Bool.and_assoc]
  · rename_i h
    rw [Bool.eq_false_iff]
    intro e
    rw [beq_iff_eq] at e
    have hl := congrArg List.length e
    rw [List.length_map] at hl
    match t, hl, h with
    | [a, b, c, d, e, f], _, h => exact h a b c d e f rfl

theorem isObjectTag_ns {i : Info} : (!isObjectTag i.tag) = (i.ns.isSome || !isObject i.name) := by
  rw [isObjectTag_eq]
  unfold Info.tag
  cases i.ns with
  | none => rfl
  | some u =>
    simp only [clark, Option.isSome_some, Bool.true_or, Bool.not_eq_true']
    unfold isObject
    split
    · rename_i e
      simp only [List.append_assoc, List.cons_append, List.nil_append, List.cons.injEq] at e
      rw [← e.1]
      rfl
    · rfl

theorem attrsOut_text (as : List Attr) : attrsOut as = attributesText as := by
  induction as with
  | nil => rfl
  | cons a as ih =>
    rw [attrsOut, ih, lxmlEscape_eq]
    rfl

mutual
/-- Elements, texts; anything else is an error in the namespaced form. -/
theorem stringifyNs_text {k : Option Str} {f : Bool} : ∀ n : Node, AllInfos (fun _ => True) n → stringifyNsNode k f n =
    .ok (textWith (nsTagOut k f) (fun i => nsDeclOut i ++ attributesText i.attrs) (fun i => i.ns.isSome || !isObject i.name) n)
  | .text s, _ => by rw [stringifyNsNode, textWith, lxmlEscape_eq]
  | .elem i ks, h => by
    rw [AllInfos] at h
    rw [stringifyNsNode, stringifyNsKids_text ks h.2, textWith, attrsOut_text]
    rw [← isObjectTag_ns]
    cases ks.isEmpty <;> cases isObjectTag i.tag <;> simp
  | .comment _, h => by rw [AllInfos] at h; exact h.elim; all_goals simp
  | .pi _ _, h => by rw [AllInfos] at h; exact h.elim; all_goals simp

theorem stringifyNsKids_text {k : Option Str} {f : Bool} : ∀ ns : List Node, AllInfosList (fun _ => True) ns → stringifyNsKids k f ns =
    .ok (textWithAll (nsTagOut k f) (fun i => nsDeclOut i ++ attributesText i.attrs) (fun i => i.ns.isSome || !isObject i.name) ns)
  | [], _ => by rw [stringifyNsKids, textWithAll]
  | n :: ns, h => by
    rw [AllInfosList] at h
    rw [stringifyNsKids, stringifyNs_text n h.1, stringifyNsKids_text ns h.2, textWithAll]
end

mutual
theorem stringifyNs_inv {k : Option Str} {f : Bool} : ∀ (n : Node) (s : Str), stringifyNsNode k f n = .ok s → AllInfos (fun _ => True) n
  | .text _, _, _ => by rw [AllInfos]; trivial
  | .elem i ks, s, h => by
    rw [AllInfos]
    rw [stringifyNsNode] at h
    refine ⟨trivial, ?_⟩
    cases hk : ks.isEmpty with
    | true =>
      rw [List.isEmpty_iff] at hk
      rw [hk, AllInfosList]; trivial
    | false =>
      rw [hk] at h
      cases hb : stringifyNsKids k f ks with
      | ok b => exact stringifyNsKids_inv ks b hb
      | error e => rw [hb] at h; cases h
  | .comment _, _, h => by rw [stringifyNsNode] at h; cases h
  | .pi _ _, _, h => by rw [stringifyNsNode] at h; cases h

theorem stringifyNsKids_inv {k : Option Str} {f : Bool} : ∀ (ns : List Node) (s : Str), stringifyNsKids k f ns = .ok s →
    AllInfosList (fun _ => True) ns
  | [], _, _ => by rw [AllInfosList]; trivial
  | n :: ns, s, h => by
    rw [AllInfosList]
    rw [stringifyNsKids] at h
    cases hn : stringifyNsNode k f n with
    | error e => rw [hn] at h; cases h
    | ok a =>
      rw [hn] at h
      dsimp only at h
      cases hs : stringifyNsKids k f ns with
      | error e => rw [hs] at h; cases h
      | ok b => exact ⟨stringifyNs_inv n a hn, stringifyNsKids_inv ns b hs⟩
end

mutual
theorem AllInfos.mono {P Q : Info → Prop} : ∀ n, (∀ i ∈ infosOf n, P i → Q i) → AllInfos P n → AllInfos Q n
  | .text _, _, _ => by rw [AllInfos]; trivial
  | .elem i ks, hq, h => by
    rw [infosOf] at hq
    rw [AllInfos] at h ⊢
    exact ⟨hq i (by simp) h.1, AllInfosList.mono ks (fun j hj => hq j (by simp [hj])) h.2⟩
  | .comment _, _, h => by rw [AllInfos] at h; exact h.elim; all_goals simp
  | .pi _ _, _, h => by rw [AllInfos] at h; exact h.elim; all_goals simp

theorem AllInfosList.mono {P Q : Info → Prop} : ∀ ns, (∀ i ∈ infosOfAll ns, P i → Q i) → AllInfosList P ns → AllInfosList Q ns
  | [], _, _ => by rw [AllInfosList]; trivial
  | n :: ns, hq, h => by
    rw [infosOfAll] at hq
    rw [AllInfosList] at h ⊢
    exact ⟨AllInfos.mono n (fun i hi => hq i (by simp [hi])) h.1, AllInfosList.mono ns (fun i hi => hq i (by simp [hi])) h.2⟩
end

/-! ## What follows the name -/

theorem escape_noGt (s : Str) : '>' ∉ escape s := mem_flatMap_notMem (fun c => (escChar_notMem c).2.1) _

theorem RestOk.append {a b : Str} (ha : RestOk a) (hb : RestOk b) : RestOk (a ++ b) := by
  refine ⟨?_, ?_, ?_⟩
  · rcases ha.space with rfl | ⟨r, rfl⟩
    · exact hb.space
    · exact .inr ⟨r ++ b, rfl⟩
  · rw [List.getLast?_append]
    cases h : b.getLast? with
    | none => simpa using ha.last
    | some c =>
      have := hb.last
      rw [h] at this
      simpa using this
  · rw [List.mem_append, not_or]
    exact ⟨ha.angle, hb.angle⟩

theorem restOk_nil : RestOk [] := ⟨.inl rfl, by simp, by simp⟩

theorem restOk_attr {k v : Str} (hk : '>' ∉ k) (hv : '>' ∉ v) : RestOk (c!" " ++ k ++ c!"=\"" ++ v ++ c!"\"") := by
  refine ⟨.inr ⟨k ++ c!"=\"" ++ v ++ c!"\"", by simp⟩, by rw [List.getLast?_append]; simp, ?_⟩
  simp [hk, hv]

theorem NoAngle.noGt {s : Str} (h : NoAngle s) : '>' ∉ s := fun hm => (h _ hm).2 rfl

theorem restOk_attrs {as : List Attr} (h : ∀ a ∈ as, NoAngle a.key) : RestOk (attributesText as) := by
  unfold attributesText
  induction as with
  | nil => exact restOk_nil
  | cons a as ih =>
    rw [List.flatMap_cons]
    exact (restOk_attr (NoAngle.noGt (h a (by simp))) (escape_noGt _)).append (ih (fun b hb => h b (by simp [hb])))

theorem get_mem {m : NsMap} {p : Option Str} {u : Str} (h : NsMap.get? m p = some u) : (p, u) ∈ m := by
  unfold NsMap.get? at h
  rw [Option.map_eq_some_iff] at h
  obtain ⟨d, h1, rfl⟩ := h
  have h2 := List.mem_of_find?_eq_some h1
  have h3 := List.find?_some h1
  simp only [beq_iff_eq] at h3
  rw [← h3]
  exact h2

theorem restOk_decl {i : Info} (h : InfoOk i) : RestOk (nsDeclOut i) := by
  unfold nsDeclOut
  split
  · refine restOk_attr (k := c!"xmlns") (by decide) ?_
    cases hg : NsMap.get? i.nsmap none with
    | none => decide
    | some u => exact NoAngle.noGt (h.maps _ (get_mem hg)).1
  · exact restOk_nil

theorem nameOk_colon {p n : Str} (hp : NameOk p) (hn : NameOk n) : NameOk (p ++ c!":" ++ n) := by
  refine ⟨by simp, ?_⟩
  intro c hc
  simp only [List.mem_append, List.mem_cons, List.not_mem_nil, or_false] at hc
  rcases hc with (hc | rfl) | hc
  · exact hp.2 c hc
  · decide
  · exact hn.2 c hc

theorem nsTagOut_name (k : Option Str) (i : Info) (f : Bool) : nsTagOut k f i = i.name ∨ nsTagOut k f i = fmtOpt k ++ c!":" ++ i.name := by
  unfold nsTagOut
  split
  · exact .inl rfl
  · split
    · exact .inr rfl
    · rename_i h
      left
      unfold Info.tag
      cases hi : i.ns with
      | none => rfl
      | some u => rw [hi] at h; simp at h

theorem nameOk_tag {k : Option Str} (hk : ∀ p, k = some p → NameOk p) (f : Bool) {i : Info} (h : NameOk i.name) : NameOk (nsTagOut k f i) := by
  rcases nsTagOut_name k i f with e | e
  · rw [e]; exact h
  · rw [e]
    refine nameOk_colon ?_ h
    cases k with
    | none => decide
    | some p => exact hk p rfl

/-- The tokens of the namespaced form. -/
theorem toks_ns {k : Option Str} (hk : ∀ p, k = some p → NameOk p) {f : Bool} {ns : List Node} {s : Str}
    (h : stringifyNsKids k f ns = .ok s) (hi : ∀ i ∈ infosOfAll ns, InfoOk i) :
    toks s = tokensOfAll (nsTagOut k f) (fun i => nsDeclOut i ++ attributesText i.attrs) (fun i => i.ns.isSome || !isObject i.name) ns := by
  have h0 := stringifyNsKids_inv ns s h
  rw [stringifyNsKids_text ns h0] at h
  cases h
  refine toks_textWithAll (AllInfosList.mono ns (fun i hm _ => ?_) h0)
  exact ⟨nameOk_tag hk f (hi i hm).name, (restOk_decl (hi i hm)).append (restOk_attrs (hi i hm).attrs)⟩

/-! ## The form without namespaces -/

mutual
theorem noSpecials_infos : ∀ n, noSpecials n = true → AllInfos (fun _ => True) n
  | .text _, _ => by rw [AllInfos]; trivial
  | .elem i ks, h => by
    rw [noSpecials] at h
    rw [AllInfos]
    exact ⟨trivial, noSpecialsAll_infos ks h⟩
  | .comment _, h => by simp [noSpecials] at h
  | .pi _ _, h => by simp [noSpecials] at h

theorem noSpecialsAll_infos : ∀ ns, noSpecialsAll ns = true → AllInfosList (fun _ => True) ns
  | [], _ => by rw [AllInfosList]; trivial
  | n :: ns, h => by
    rw [noSpecialsAll, Bool.and_eq_true] at h
    rw [AllInfosList]
    exact ⟨noSpecials_infos n h.1, noSpecialsAll_infos ns h.2⟩
end

mutual
theorem infos_noSpecials {P : Info → Prop} : ∀ n, AllInfos P n → noSpecials n = true
  | .text _, _ => by rw [noSpecials]
  | .elem i ks, h => by
    rw [AllInfos] at h
    rw [noSpecials]
    exact infosList_noSpecials ks h.2
  | .comment _, h => by rw [AllInfos] at h; exact h.elim; all_goals simp
  | .pi _ _, h => by rw [AllInfos] at h; exact h.elim; all_goals simp

theorem infosList_noSpecials {P : Info → Prop} : ∀ ns, AllInfosList P ns → noSpecialsAll ns = true
  | [], _ => by rw [noSpecialsAll]
  | n :: ns, h => by
    rw [AllInfosList] at h
    rw [noSpecialsAll, infos_noSpecials n h.1, infosList_noSpecials ns h.2]; rfl
end

/-- Is an element without content printed as an empty-element tag? -/
def shortTag (i : Info) : Bool := i.ns.isSome || !isObject i.name

mutual
theorem stringify_text : ∀ n : Node, AllInfos (fun _ => True) n → stringifyNode false n =
    .ok (textWith nodeTagOut (fun i => attributesText i.attrs) shortTag n)
  | .text s, _ => by rw [stringifyNode, textWith, lxmlEscape_eq]
  | .elem i ks, h => by
    rw [AllInfos] at h
    have hd : nodeDeclOut false i = [] := by
      unfold nodeDeclOut
      split <;> rfl
    rw [stringifyNode, stringifyKids_text ks h.2, textWith, attrsOut_text, hd, List.append_nil]
    unfold shortTag
    rw [← isObjectTag_ns]
    cases ks.isEmpty <;> cases isObjectTag i.tag <;> simp
  | .comment _, h => by rw [AllInfos] at h; exact h.elim; all_goals simp
  | .pi _ _, h => by rw [AllInfos] at h; exact h.elim; all_goals simp

theorem stringifyKids_text : ∀ ns : List Node, AllInfosList (fun _ => True) ns → stringifyKids ns =
    .ok (textWithAll nodeTagOut (fun i => attributesText i.attrs) shortTag ns)
  | [], _ => by rw [stringifyKids, textWithAll]
  | n :: ns, h => by
    rw [AllInfosList] at h
    rw [stringifyKids, stringify_text n h.1, stringifyKids_text ns h.2, textWithAll]
end

theorem stringify_top {i : Info} {ks : List Node} (h : AllInfosList (fun _ => True) ks) : stringifyNode true (.elem i ks) =
    .ok (if ks.isEmpty && shortTag i then c!"<" ++ nodeTagOut i ++ (attributesText i.attrs ++ nodeDeclOut true i) ++ c!"/>"
      else c!"<" ++ nodeTagOut i ++ (attributesText i.attrs ++ nodeDeclOut true i) ++ c!">" ++
        textWithAll nodeTagOut (fun i => attributesText i.attrs) shortTag ks ++ c!"</" ++ nodeTagOut i ++ c!">") := by
  rw [stringifyNode, stringifyKids_text ks h, attrsOut_text]
  unfold shortTag
  rw [← isObjectTag_ns]
  cases ks.isEmpty <;> cases isObjectTag i.tag <;> simp

theorem nameOk_node {i : Info} (h : InfoOk i) : NameOk (nodeTagOut i) := by
  unfold nodeTagOut
  split
  · rename_i k u m e
    split
    · exact nameOk_colon ((h.maps (some k, u) (by rw [e]; simp)).2 k rfl) h.name
    · exact h.name
  · exact h.name

theorem restOk_nodeDecl {i : Info} (h : InfoOk i) : RestOk (nodeDeclOut true i) := by
  unfold nodeDeclOut
  split
  · rename_i p v m e
    exact restOk_attr (k := c!"xmlns") (by decide) (NoAngle.noGt (h.maps (p, v) (by rw [e]; simp)).1)
  · exact restOk_nil

theorem scan_top : ∀ (ns : List Node) (s : Str), stringifyChildrenGo ns = .ok s → AllInfosList InfoOk ns → TopTextsPlain ns →
    toks s = tokensTop nodeTagOut (fun i => attributesText i.attrs) (fun i => attributesText i.attrs ++ nodeDeclOut true i) shortTag ns
  | [], s, h, _, _ => by
    rw [stringifyChildrenGo] at h
    cases h
    rw [tokensTop]
    rfl
  | .text t :: ns, s, h, hi, hp => by
    rw [stringifyChildrenGo] at h
    rw [AllInfosList] at hi
    cases hs : stringifyChildrenGo ns with
    | error e => rw [hs] at h; cases h
    | ok b =>
      rw [hs] at h
      cases h
      have ih := scan_top ns b hs hi.2 (fun u hu => hp u (by simp [hu]))
      unfold toks at ih ⊢
      rw [tokensTop, lxmlEscape_eq, scan_text (by rw [List.mem_append, not_or]; exact ⟨escape_noLt t, hp t (by simp)⟩), ih]
  | .elem i ks :: ns, s, h, hi, hp => by
    rw [AllInfosList, AllInfos] at hi
    obtain ⟨⟨hi1, hi2⟩, hi3⟩ := hi
    rw [stringifyChildrenGo, stringify_top (AllInfosList.mono ks (fun _ _ _ => trivial) hi2)] at h
    · dsimp only at h
      cases hs : stringifyChildrenGo ns with
      | error e => rw [hs] at h; cases h
      | ok b =>
        rw [hs] at h
        cases h
        have ih := scan_top ns b hs hi3 (fun u hu => hp u (by simp [hu]))
        have h1 := nameOk_node hi1
        have h2 := (restOk_attrs hi1.attrs).append (restOk_nodeDecl hi1)
        have g1 : '>' ∉ nodeTagOut i := fun hm => (h1.2 _ hm).2.2.1 rfl
        have g2 := h2.angle
        have hks : AllInfosList (fun i => NameOk (nodeTagOut i) ∧ RestOk (attributesText i.attrs)) ks :=
          AllInfosList.mono ks (fun j _ hj => ⟨nameOk_node hj, restOk_attrs hj.attrs⟩) hi2
        unfold toks at ih ⊢
        rw [tokensTop]
        generalize attributesText i.attrs ++ nodeDeclOut true i = r at h2 g2 ⊢
        split
        · have e : c!"<" ++ nodeTagOut i ++ r ++ c!"/>" ++ b = '<' :: ((nodeTagOut i ++ r ++ c!"/") ++ '>' :: b) := by simp
          rw [e, scan_tag (by simp [g1, g2]), tagTok_empty h1 h2, ih]
          rfl
        · have e : c!"<" ++ nodeTagOut i ++ r ++ c!">" ++ textWithAll nodeTagOut (fun i => attributesText i.attrs) shortTag ks ++ c!"</" ++
              nodeTagOut i ++ c!">" ++ b = '<' :: ((nodeTagOut i ++ r) ++ '>' :: (textWithAll nodeTagOut (fun i => attributesText i.attrs) shortTag ks ++
                ('<' :: (('/' :: nodeTagOut i) ++ '>' :: b)))) := by simp
          rw [e, scan_tag (by simp [g1, g2]), tagTok_start h1 h2, scan_textWithAll ks hks, scan_tag (by simp [g1]), ih]
          simp [tagTok]
    · simp
  | .comment _ :: _, s, h, hi, _ => by
    rw [AllInfosList, AllInfos] at hi
    · exact hi.1.elim
    all_goals simp
  | .pi _ _ :: _, s, h, hi, _ => by
    rw [AllInfosList, AllInfos] at hi
    · exact hi.1.elim
    all_goals simp

/-- The tokens of the form without namespaces. -/
theorem toks_children {n : Node} {s : Str} (h : stringifyChildren n = .ok s) (hn : noSpecialsAll n.kids = true)
    (hi : ∀ i ∈ infosOfAll n.kids, InfoOk i) (hp : TopTextsPlain n.kids) :
    toks s = tokensChildren nodeTagOut (fun i => attributesText i.attrs) (fun i => attributesText i.attrs ++ nodeDeclOut true i) shortTag n.kids := by
  have hall : AllInfosList InfoOk n.kids := AllInfosList.mono n.kids (fun i hm _ => hi i hm) (noSpecialsAll_infos _ hn)
  unfold stringifyChildren at h
  generalize n.kids = ks at *
  split at h
  · rename_i t ks'
    rw [AllInfosList] at hall
    cases hs : stringifyChildrenGo ks' with
    | error e => rw [hs] at h; cases h
    | ok b =>
      rw [hs] at h
      cases h
      have := scan_top ks' b hs hall.2 (fun u hu => hp u (by simp [hu]))
      rw [tokensChildren]
      unfold toks at this ⊢
      rw [scan_text (hp t (by simp)), this]
  · rename_i hne
    rw [tokensChildren]
    · exact scan_top _ s h hall hp
    · exact hne

theorem charsOf_top {nm rest restTop : Info → Str} {short : Info → Bool} : ∀ ns : List Node,
    charsOf (tokensTop nm rest restTop short ns) = charsTop ns
  | [] => by rw [tokensTop, charsTop]; rfl
  | .text t :: ns => by
    rw [tokensTop, charsTop, charsOf_append, charsOf_chars, charsOf_top ns]
  | .elem i ks :: ns => by
    rw [tokensTop, charsTop, charsOf_append, charsOf_top ns]
    · congr 1
      rw [fragments]
      split
      · rename_i h
        rw [Bool.and_eq_true, List.isEmpty_iff] at h
        rw [h.1, fragmentsAll]
        rfl
      · rw [List.cons_append]
        show charsOf (tokensOfAll nm rest short ks ++ [Tok.stop (nm i)]) = _
        rw [charsOf_append, charsOf_tokensOfAll ks]
        exact List.append_nil _
    · simp
  | .comment s :: ns => by
    rw [tokensTop, charsTop, charsOf_top ns]
    · rfl
    all_goals simp
  | .pi _ _ :: ns => by
    rw [tokensTop, charsTop, charsOf_top ns]
    · rfl
    all_goals simp

theorem charsOf_children {nm rest restTop : Info → Str} {short : Info → Bool} (ns : List Node) :
    charsOf (tokensChildren nm rest restTop short ns) = charsChildren ns := by
  unfold tokensChildren charsChildren
  split
  · rw [charsOf_append, charsOf_chars, charsOf_top]
  · rw [charsOf_top]

theorem balanced_top {nm rest restTop : Info → Str} {short : Info → Bool} : ∀ ns : List Node,
    balanced [] (tokensTop nm rest restTop short ns) = true
  | [] => by rw [tokensTop]; rfl
  | .text t :: ns => by rw [tokensTop, balanced_chars, balanced_top ns]
  | .elem i ks :: ns => by
    rw [tokensTop]
    split
    · rw [List.cons_append, balanced]; exact balanced_top ns
    · rw [List.cons_append, List.cons_append, balanced, List.append_assoc, balanced_tokensOfAll ks, List.cons_append, balanced]
      simp [balanced_top ns]
  | .comment s :: ns => by rw [tokensTop, balanced_top ns] <;> simp
  | .pi _ _ :: ns => by rw [tokensTop, balanced_top ns] <;> simp

theorem balanced_children {nm rest restTop : Info → Str} {short : Info → Bool} (ns : List Node) :
    balanced [] (tokensChildren nm rest restTop short ns) = true := by
  unfold tokensChildren
  split
  · rw [balanced_chars, balanced_top]
  · exact balanced_top _

/-! ## Tags come from elements -/

mutual
theorem mem_tokensOf {nm rest : Info → Str} {short : Info → Bool} : ∀ (n : Node) (t : Tok), t ∈ tokensOf nm rest short n →
    (∃ c, t = .char c) ∨ ∃ i ∈ infosOf n, t = .start (nm i) (rest i) ∨ t = .stop (nm i) ∨ (t = .empty (nm i) (rest i) ∧ short i = true)
  | .text s, t, h => by
    rw [tokensOf] at h
    obtain ⟨c, -, rfl⟩ := List.mem_map.1 h
    exact .inl ⟨c, rfl⟩
  | .elem i ks, t, h => by
    rw [tokensOf] at h
    rw [infosOf]
    split at h
    · rename_i hs
      rw [Bool.and_eq_true] at hs
      rw [List.mem_singleton] at h
      exact .inr ⟨i, by simp, .inr (.inr ⟨h, hs.2⟩)⟩
    · simp only [List.cons_append, List.mem_cons, List.mem_append, List.not_mem_nil, or_false] at h
      rcases h with h | h | h
      · exact .inr ⟨i, by simp, .inl h⟩
      · rcases mem_tokensOfAll ks t h with hc | ⟨j, hj, hh⟩
        · exact .inl hc
        · exact .inr ⟨j, by simp [hj], hh⟩
      · exact .inr ⟨i, by simp, .inr (.inl h)⟩
  | .comment _, t, h => by rw [tokensOf] at h; cases h; all_goals simp
  | .pi _ _, t, h => by rw [tokensOf] at h; cases h; all_goals simp

theorem mem_tokensOfAll {nm rest : Info → Str} {short : Info → Bool} : ∀ (ns : List Node) (t : Tok), t ∈ tokensOfAll nm rest short ns →
    (∃ c, t = .char c) ∨ ∃ i ∈ infosOfAll ns, t = .start (nm i) (rest i) ∨ t = .stop (nm i) ∨ (t = .empty (nm i) (rest i) ∧ short i = true)
  | [], t, h => by rw [tokensOfAll] at h; cases h
  | n :: ns, t, h => by
    rw [tokensOfAll, List.mem_append] at h
    rw [infosOfAll]
    rcases h with h | h
    · rcases mem_tokensOf n t h with hc | ⟨j, hj, hh⟩
      · exact .inl hc
      · exact .inr ⟨j, by simp [hj], hh⟩
    · rcases mem_tokensOfAll ns t h with hc | ⟨j, hj, hh⟩
      · exact .inl hc
      · exact .inr ⟨j, by simp [hj], hh⟩
end

theorem mem_tokensTop {nm rest : Info → Str} {short : Info → Bool} : ∀ (ns : List Node) (t : Tok), t ∈ tokensTop nm rest rest short ns →
    (∃ c, t = .char c) ∨ ∃ i ∈ infosOfAll ns, t = .start (nm i) (rest i) ∨ t = .stop (nm i) ∨ (t = .empty (nm i) (rest i) ∧ short i = true)
  | [], t, h => by rw [tokensTop] at h; cases h
  | .text s :: ns, t, h => by
    rw [tokensTop, List.mem_append] at h
    rw [infosOfAll, infosOf] <;> try simp
    rcases h with h | h
    · obtain ⟨c, -, rfl⟩ := List.mem_map.1 h
      exact .inl ⟨c, rfl⟩
    · simpa using mem_tokensTop ns t h
  | .elem i ks :: ns, t, h => by
    have e : tokensTop nm rest rest short (.elem i ks :: ns) = tokensOf nm rest short (.elem i ks) ++ tokensTop nm rest rest short ns := by
      rw [tokensTop, tokensOf]
    rw [e, List.mem_append] at h
    rw [infosOfAll]
    rcases h with h | h
    · rcases mem_tokensOf _ t h with hc | ⟨j, hj, hh⟩
      · exact .inl hc
      · exact .inr ⟨j, by simp [hj], hh⟩
    · rcases mem_tokensTop ns t h with hc | ⟨j, hj, hh⟩
      · exact .inl hc
      · exact .inr ⟨j, by simp [hj], hh⟩
  | .comment s :: ns, t, h => by
    rw [tokensTop] at h
    · rw [infosOfAll, infosOf] <;> try simp
      simpa using mem_tokensTop ns t h
    all_goals simp
  | .pi _ _ :: ns, t, h => by
    rw [tokensTop] at h
    · rw [infosOfAll, infosOf] <;> try simp
      simpa using mem_tokensTop ns t h
    all_goals simp

theorem mem_tokensChildren {nm rest : Info → Str} {short : Info → Bool} (ns : List Node) (t : Tok) (h : t ∈ tokensChildren nm rest rest short ns) :
    (∃ c, t = .char c) ∨ ∃ i ∈ infosOfAll ns, t = .start (nm i) (rest i) ∨ t = .stop (nm i) ∨ (t = .empty (nm i) (rest i) ∧ short i = true) := by
  unfold tokensChildren at h
  split at h
  · rename_i s ns'
    rw [List.mem_append] at h
    rcases h with h | h
    · obtain ⟨c, -, rfl⟩ := List.mem_map.1 h
      exact .inl ⟨c, rfl⟩
    · rcases mem_tokensTop _ t h with hc | ⟨j, hj, hh⟩
      · exact .inl hc
      · exact .inr ⟨j, by rw [infosOfAll]; simp [hj], hh⟩
  · exact mem_tokensTop _ t h

end ReqIF
