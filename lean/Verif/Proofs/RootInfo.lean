import Verif.Spec.Root
import Verif.Proofs.ItemTools
import Verif.Proofs.Indent
/-!
# The root tag: what is read, and how it is dumped
-/
namespace ReqIF
open Spec

/-- The attribute name that declares a prefix. -/
def declName : Option Str → Str
  | none => c!"xmlns"
  | some p => c!"xmlns:" ++ p

theorem splitQName_colon {p l : Str} (h : ':' ∉ p) : splitQName (p ++ ':' :: l) = (some p, l) := by
  have h1 : ∀ c ∈ p, (c != ':') = true := by
    intro c hc
    simp only [bne_iff_ne, ne_eq]
    rintro rfl; exact h hc
  unfold splitQName
  rw [List.dropWhile_append_of_pos h1, List.takeWhile_append_of_pos h1]
  simp

theorem declaredPrefix_declName (q : Option Str) : declaredPrefix (declName q) = some q := by
  cases q with
  | none => rfl
  | some p =>
    have e : declName (some p) = c!"xmlns" ++ ':' :: p := rfl
    unfold declaredPrefix
    rw [e, splitQName_colon (by decide)]
    have : ¬ (c!"xmlns" ++ ':' :: p = c!"xmlns") := by
      intro h
      have := congrArg List.length h
      simp at this
    rw [if_neg this]
    simp

theorem declaredPrefix_some {n : Str} {q : Option Str} (h : declaredPrefix n = some q) : n = declName q := by
  unfold declaredPrefix at h
  split at h
  · rename_i e; cases h; exact e
  · rcases splitQName_eq n with e | ⟨p, l, e, e2⟩
    · rw [e] at h; cases h
    · rw [e] at h
      dsimp only at h
      split at h
      · rename_i hp
        cases h
        subst hp
        exact e2
      · cases h

theorem get_declsOf (as : List (Str × Str)) (q : Option Str) : NsMap.get? (declsOf as) q = attrValue as (declName q) := by
  induction as with
  | nil => rfl
  | cons a as ih =>
    unfold NsMap.get? declsOf attrValue at *
    rw [List.filterMap_cons]
    cases h : declaredPrefix a.1 with
    | none =>
      dsimp only [Option.map_none]
      have : (a.1 == declName q) = false := by
        rw [Bool.eq_false_iff]
        intro e
        have e : a.1 = declName q := by simpa using e
        rw [e, declaredPrefix_declName] at h
        cases h
      rw [List.find?_cons, this]
      exact ih
    | some r =>
      dsimp only [Option.map_some]
      have hr := declaredPrefix_some h
      rw [List.find?_cons, List.find?_cons]
      by_cases e : r = q
      · subst e
        have e1 : (r == r) = true := by simp
        have e2 : (a.1 == declName r) = true := by simp [hr]
        rw [e1, e2]
        rfl
      · have e1 : (r == q) = false := by simpa using e
        have e2 : (a.1 == declName q) = false := by
          rw [Bool.eq_false_iff]
          intro e'
          have e' : a.1 = declName q := by simpa using e'
          rw [e', declaredPrefix_declName] at h
          cases h
          exact e rfl
        rw [e1, e2]
        exact ih

/-- What `resolveInfo` says about a root element. -/
structure RootInfo (as : List (Str × Str)) (ri : Info) : Prop where
  nodup : (as.map (·.1)).Nodup
  declsOk : (declsOf as).all declOk = true
  nsmap : ri.nsmap = storedDecls (declsOf as)
  attrs : resolveAttrs ri.nsmap (plainOf as) = some ri.attrs

theorem rootInfo_of {as : List (Str × Str)} {ri : Info} (h : resolveInfo [] c!"REQ-IF" as = some ri) : RootInfo as ri := by
  unfold resolveInfo at h
  dsimp only at h
  split at h
  · rename_i hc
    simp only [Bool.and_eq_true] at hc
    have hp : ∀ m : NsMap, NsMap.push m [] = m := by intro m; simp [NsMap.push]
    rw [hp] at h
    cases he : resolveElemName (storedDecls (declsOf as)) c!"REQ-IF" with
    | none => rw [he] at h; cases h
    | some x =>
      cases ha : resolveAttrs (storedDecls (declsOf as)) (plainOf as) with
      | none => rw [ha, he] at h; cases h
      | some xs =>
        rw [ha, he] at h
        obtain ⟨a, b, c⟩ := x
        dsimp only at h
        split at h
        · cases h
          exact ⟨noDup_iff.1 hc.1, hc.2, rfl, ha⟩
        · cases h
  · cases h

theorem stored_eq {as : List (Str × Str)} (h : ∀ a ∈ as, a.1 ≠ c!"xmlns:xml") : storedDecls (declsOf as) = declsOf as := by
  unfold storedDecls
  rw [List.filter_eq_self]
  intro d hd
  unfold declsOf at hd
  rw [List.mem_filterMap] at hd
  obtain ⟨a, ha, e⟩ := hd
  cases hp : declaredPrefix a.1 with
  | none => rw [hp] at e; cases e
  | some q =>
    rw [hp] at e
    cases e
    simp only [bne_iff_ne, ne_eq]
    rintro rfl
    exact h a ha (declaredPrefix_some hp)

/-! ## Attributes of the root -/

theorem key_inj {u v l m : Str} (hl : isNCName l = true) (hm : isNCName m = true) :
    clark (some u) l = clark (some v) m ↔ u = v ∧ l = m := by
  constructor
  · intro h
    have hl : '}' ∉ l := fun hc => absurd (ncname_chars hl _ hc) (by decide)
    have hm : '}' ∉ m := fun hc => absurd (ncname_chars hm _ hc) (by decide)
    have h : u ++ '}' :: l = v ++ '}' :: m := by
      have e := List.cons.inj (show '{' :: (u ++ c!"}" ++ l) = '{' :: (v ++ c!"}" ++ m) from h)
      simpa using e.2
    rcases List.append_eq_append_iff.1 h with ⟨w, e1, e2⟩ | ⟨w, e1, e2⟩
    · cases w with
      | nil => simp at e1 e2; exact ⟨e1.symm, e2⟩
      | cons c w =>
        simp only [List.cons_append, List.cons.injEq] at e2
        exact absurd (by rw [e2.2]; simp) hl
    · cases w with
      | nil => simp at e1 e2; exact ⟨e1, e2.symm⟩
      | cons c w =>
        simp only [List.cons_append, List.cons.injEq] at e2
        exact absurd (by rw [e2.2]; simp) hm
  · rintro ⟨rfl, rfl⟩; rfl

/-- Looking up an attribute of the root by its key `{u}l`. -/
theorem find_key {m : NsMap} {l : Str} {u n : Str} : ∀ {ps : List (Str × Str)} {xs : List Attr},
    resolveAttrs m ps = some xs →
    (∀ a ∈ ps, ∀ x, resolveAttr m a = some x → (x.key = clark (some u) l ↔ a.1 = n)) →
    (xs.find? (fun a => a.key == clark (some u) l)).map (·.value) = attrValue ps n
  | [], xs, h, _ => by cases h; rfl
  | a :: ps, xs, h, hk => by
    unfold resolveAttrs at h
    cases ha : resolveAttr m a with
    | none => rw [ha] at h; cases h
    | some x =>
      cases hr : resolveAttrs m ps with
      | none => rw [ha, hr] at h; cases h
      | some ys =>
        rw [ha, hr] at h
        cases h
        have ih := find_key hr (fun b hb => hk b (List.mem_cons_of_mem _ hb))
        have hx := hk a (by simp) x ha
        unfold attrValue at ih ⊢
        rw [List.find?_cons, List.find?_cons]
        by_cases e : a.1 = n
        · have e1 : (a.1 == n) = true := by simpa using e
          have e2 : (x.key == clark (some u) l) = true := by simpa using hx.2 e
          rw [e1, e2]
          show some x.value = some a.2
          unfold resolveAttr at ha
          repeat' (split at ha)
          all_goals first | (cases ha; rfl) | cases ha
        · have e1 : (a.1 == n) = false := by simpa using e
          have e2 : (x.key == clark (some u) l) = false := by
            rw [Bool.eq_false_iff]
            intro h'
            exact e (hx.1 (by simpa using h'))
          rw [e1, e2]
          exact ih

theorem attrValue_plain {as : List (Str × Str)} {n : Str} (hn : declaredPrefix n = none) :
    attrValue (plainOf as) n = attrValue as n := by
  unfold attrValue plainOf
  rw [List.find?_filter]
  congr 2
  funext a
  by_cases e : a.1 = n
  · simp [e, hn]
  · simp [e]

/-- Facts about a resolved attribute. -/
theorem resolveAttr_cases {m : NsMap} {a : Str × Str} {x : Attr} (h : resolveAttr m a = some x) :
    (splitQName a.1 = (none, a.1) ∧ x = ⟨none, none, a.1, a.2⟩) ∨
    (∃ l, a.1 = c!"xml" ++ ':' :: l ∧ splitQName a.1 = (some c!"xml", l) ∧ x = ⟨some xmlNs, some c!"xml", l, a.2⟩) ∨
    (∃ p l u, a.1 = p ++ ':' :: l ∧ splitQName a.1 = (some p, l) ∧ p ≠ c!"xml" ∧ NsMap.get? m (some p) = some u ∧
      x = ⟨some u, some p, l, a.2⟩) := by
  unfold resolveAttr at h
  rcases splitQName_eq a.1 with e | ⟨p, l, e, e2⟩
  · rw [e] at h
    cases h
    exact Or.inl ⟨e, rfl⟩
  · rw [e] at h
    dsimp only at h
    split at h
    · rename_i hp
      subst hp
      cases h
      exact Or.inr (Or.inl ⟨l, e2, e, rfl⟩)
    · rename_i hp
      cases hg : NsMap.get? m (some p) with
      | none => rw [hg] at h; cases h
      | some u =>
        rw [hg] at h
        cases h
        exact Or.inr (Or.inr ⟨p, l, u, e2, e, hp, hg, rfl⟩)

theorem qname_local {q p l : Str} (h : isQName q = true) (hs : splitQName q = (some p, l)) : isNCName p = true ∧ isNCName l = true := by
  unfold isQName at h
  rw [hs] at h
  simpa using h

theorem ncname_notBrace {n u l : Str} (h : isNCName n = true) : n ≠ clark (some u) l := by
  intro e
  have : '{' ∈ n := by rw [e]; simp [clark]
  exact absurd (ncname_chars h _ this) (by decide)

theorem get_mem {m : NsMap} {q : Option Str} {u : Str} (h : NsMap.get? m q = some u) : (q, u) ∈ m := by
  unfold NsMap.get? at h
  rw [Option.map_eq_some_iff] at h
  obtain ⟨d, hd, rfl⟩ := h
  have := List.find?_some hd
  have e : d.1 = q := by simpa using this
  have hm := List.mem_of_find?_eq_some hd
  rw [← e]
  exact hm

theorem bound_notXml {as : List (Str × Str)} (hd : (declsOf as).all declOk = true) {p u : Str} (hp : p ≠ c!"xml")
    (h : NsMap.get? (declsOf as) (some p) = some u) : u ≠ xmlNs ∧ u ≠ [] := by
  have := List.all_eq_true.1 hd _ (get_mem h)
  unfold declOk at this
  simp only [Bool.and_eq_true] at this
  obtain ⟨⟨⟨-, h2⟩, -⟩, h4⟩ := this
  have hp' : (p == c!"xml") = false := by
    rw [Bool.eq_false_iff]
    intro e
    exact hp (by simpa using e)
  rw [hp'] at h4
  constructor
  · rintro rfl
    revert h4
    simp
  · rintro rfl
    simp at h2

/-- The namespace information read from a good root tag. -/
theorem describes_of {as : List (Str × Str)} (hg : GoodRoot as) {ri : Info} (hr : resolveInfo [] c!"REQ-IF" as = some ri)
    {d : Doc} {nons : Node} {ks0 : List Node} (hd : d.root = .elem ri ks0) (hn : nons.attrs = ri.attrs) :
    Describes as (namespaceInfoOf d nons) := by
  have h := rootInfo_of hr
  have hm : ri.nsmap = declsOf as := by rw [h.nsmap, stored_eq hg.noXml]
  have hget : ∀ q, NsMap.get? d.root.nsmap q = attrValue as (declName q) := by
    intro q
    rw [hd]
    show NsMap.get? ri.nsmap q = _
    rw [hm, get_declsOf]
  have hattrs := h.attrs
  rw [hm] at hattrs
  have hq : ∀ a ∈ plainOf as, isQName a.1 = true := fun a ha => (hg.names a (List.mem_filter.1 ha).1).1
  refine ⟨hget none, hget (some c!"xsi"), hget (some c!"configuration"), hget (some c!"id"), hget (some c!"xhtml"), ?_, ?_⟩
  · show (match NsMap.get? d.root.nsmap (some c!"xsi") with
      | none => none
      | some u => if u.isEmpty then none else nons.attr? (clark (some u) c!"schemaLocation")) = _
    rw [hget]
    cases hx : attrValue as (declName (some c!"xsi")) with
    | none =>
      dsimp only
      symm
      rw [← attrValue_plain (by decide)]
      unfold attrValue
      rw [Option.map_eq_none_iff, List.find?_eq_none]
      intro a ha e
      have e : a.1 = c!"xsi:schemaLocation" := by simpa using e
      -- the attribute could not have been resolved
      have : ∀ ps xs, resolveAttrs (declsOf as) ps = some xs → a ∈ ps → ∃ x, resolveAttr (declsOf as) a = some x := by
        intro ps
        induction ps with
        | nil => intro _ _ hm; cases hm
        | cons b ps ih =>
          intro xs h1 hm
          unfold resolveAttrs at h1
          cases hb : resolveAttr (declsOf as) b with
          | none => rw [hb] at h1; cases h1
          | some y =>
            cases hps : resolveAttrs (declsOf as) ps with
            | none => rw [hb, hps] at h1; cases h1
            | some ys =>
              rcases List.mem_cons.1 hm with rfl | hm
              · exact ⟨y, hb⟩
              · exact ih ys hps hm
      obtain ⟨x, hx'⟩ := this _ _ hattrs ha
      unfold resolveAttr at hx'
      rw [e] at hx'
      have e3 : splitQName c!"xsi:schemaLocation" = (some c!"xsi", c!"schemaLocation") := by decide
      rw [e3] at hx'
      dsimp only at hx'
      rw [if_neg (by decide), get_declsOf, hx] at hx'
      cases hx'
    | some u =>
      have hu := bound_notXml h.declsOk (p := c!"xsi") (by decide) (by rw [get_declsOf]; exact hx)
      dsimp only
      rw [if_neg (by simpa using hu.2)]
      unfold Node.attr?
      rw [hn, ← attrValue_plain (as := as) (by decide)]
      apply find_key hattrs
      intro a ha x hxa
      have haq := hq a ha
      rcases resolveAttr_cases hxa with ⟨e1, rfl⟩ | ⟨l, e1, e2, rfl⟩ | ⟨p, l, v, e1, e2, hp, hv, rfl⟩
      · have hnc : isNCName a.1 = true := by unfold isQName at haq; rw [e1] at haq; exact haq
        constructor
        · intro e; exact absurd e (ncname_notBrace hnc)
        · intro e; rw [e] at e1; exact absurd e1 (by decide)
      · constructor
        · intro e
          have := (key_inj (qname_local haq e2).2 (by decide)).1 e
          exact absurd this.1.symm hu.1
        · intro e; rw [e] at e2; revert e2; simp [splitQName]
      · constructor
        · intro e
          obtain ⟨rfl, rfl⟩ := (key_inj (qname_local haq e2).2 (by decide)).1 e
          have hal := hg.xsi v hx
          rw [get_declsOf] at hv
          have hmem : (declName (some p), v) ∈ as := by
            unfold attrValue at hv
            rw [Option.map_eq_some_iff] at hv
            obtain ⟨b, hb, rfl⟩ := hv
            have e4 : b.1 = declName (some p) := by simpa using List.find?_some hb
            rw [← e4]
            exact List.mem_of_find?_eq_some hb
          have := hal _ hmem (by unfold isPrefixDecl; rw [declaredPrefix_declName]; rfl) rfl
          have : p = c!"xsi" := by simpa [declName] using this
          rw [e1, this]
          rfl
        · intro e
          have e4 : splitQName c!"xsi:schemaLocation" = (some c!"xsi", c!"schemaLocation") := by decide
          rw [e, e4] at e2
          cases e2
          rw [get_declsOf, hx] at hv
          cases hv
          rfl
  · show nons.attr? (clark (some xmlNs) c!"lang") = _
    unfold Node.attr?
    rw [hn, ← attrValue_plain (as := as) (by decide)]
    apply find_key hattrs
    intro a ha x hxa
    have haq := hq a ha
    have e4 : splitQName c!"xml:lang" = (some c!"xml", c!"lang") := by decide
    rcases resolveAttr_cases hxa with ⟨e1, rfl⟩ | ⟨l, e1, e2, rfl⟩ | ⟨p, l, v, e1, e2, hp, hv, rfl⟩
    · have hnc : isNCName a.1 = true := by unfold isQName at haq; rw [e1] at haq; exact haq
      constructor
      · intro e; exact absurd e (ncname_notBrace hnc)
      · intro e; rw [e] at e1; exact absurd e1 (by decide)
    · constructor
      · intro e
        have := (key_inj (qname_local haq e2).2 (by decide)).1 e
        rw [e1, this.2]
        rfl
      · intro e
        rw [e, e4] at e2
        cases e2
        rfl
    · have hu := bound_notXml h.declsOk hp hv
      constructor
      · intro e
        exact absurd ((key_inj (qname_local haq e2).2 (by decide)).1 e).1 hu.1
      · intro e
        rw [e, e4] at e2
        cases e2
        exact absurd rfl hp

/-! ## The dump -/

theorem replaceStrGo_noHead {c : Char} {old new a s : Str} (h : c ∉ a) :
    replaceStrGo (c :: old) new 0 (a ++ s) = a ++ replaceStrGo (c :: old) new 0 s := by
  induction a with
  | nil => rfl
  | cons d a ih =>
    simp only [List.mem_cons, not_or] at h
    rw [List.cons_append, replaceStrGo, if_neg, ih h.2]
    · rfl
    · rw [List.isPrefixOf_cons₂]
      simp [h.1]

theorem dump_text {x : Str} (h : '<' ∉ x) :
    strip (replaceStr c!"</REQ-IF>" [] (c!"<" ++ c!"REQ-IF" ++ x ++ c!"></" ++ c!"REQ-IF" ++ c!">\n")) = c!"<REQ-IF" ++ x ++ c!">" := by
  have e : c!"<" ++ c!"REQ-IF" ++ x ++ c!"></" ++ c!"REQ-IF" ++ c!">\n" = '<' :: ((c!"REQ-IF" ++ x ++ c!">") ++ (c!"</REQ-IF>" ++ c!"\n")) := by
    simp only [List.append_assoc]; rfl
  unfold replaceStr
  rw [e, replaceStrGo, if_neg (by
    show ¬ (List.isPrefixOf ('<' :: '/' :: c!"REQ-IF>") ('<' :: 'R' :: _) = true)
    rw [List.isPrefixOf_cons₂, List.isPrefixOf_cons₂]; simp)]
  rw [replaceStrGo_noHead (by simp [h]), replaceStrGo_match (by decide)]
  have e2 : replaceStrGo c!"</REQ-IF>" [] 0 c!"\n" = c!"\n" := by decide
  rw [e2]
  have e3 : '<' :: (c!"REQ-IF" ++ x ++ c!">" ++ ([] ++ c!"\n")) = (c!"<REQ-IF" ++ x ++ c!">") ++ c!"\n" := by
    simp only [List.append_assoc]; rfl
  rw [e3]
  unfold strip lstrip rstrip
  have e4 : List.dropWhile isPySpace ((c!"<REQ-IF" ++ x ++ c!">") ++ c!"\n") = (c!"<REQ-IF" ++ x ++ c!">") ++ c!"\n" := by
    show List.dropWhile isPySpace ('<' :: _) = _
    rw [List.dropWhile_cons, if_neg (by decide)]
    rfl
  rw [e4]
  simp only [List.reverse_append, List.reverse_cons, List.reverse_nil, List.nil_append, List.cons_append]
  rw [List.dropWhile_cons, if_pos (by decide), List.dropWhile_cons, if_neg (by decide)]
  simp

theorem serAttrChar_notMem (c : Char) : '<' ∉ serAttrChar c ∧ '"' ∉ serAttrChar c ∧ '\r' ∉ serAttrChar c := by
  unfold serAttrChar
  by_cases h1 : c = '&'; · subst h1; decide
  by_cases h2 : c = '<'; · subst h2; decide
  by_cases h3 : c = '>'; · subst h3; decide
  by_cases h4 : c = '"'; · subst h4; decide
  by_cases h5 : c = '\n'; · subst h5; decide
  by_cases h6 : c = '\r'; · subst h6; decide
  by_cases h7 : c = '\t'; · subst h7; decide
  simp only [h1, h2, h3, h4, h5, h6, h7, if_false]
  split
  · simp only [List.mem_singleton]
    exact ⟨fun e => h2 e.symm, fun e => h4 e.symm, fun e => h6 e.symm⟩
  · have hd : ∀ x : Char, x.isDigit = false → x ∉ Nat.toDigits 10 c.toNat := by
      intro x hx hm
      rw [Nat.isDigit_of_mem_toDigits (by decide) (by decide) hm] at hx
      cases hx
    simp [hd]

theorem serAttr_eq (s : Str) : serAttr s = s.flatMap serAttrChar := by
  unfold serAttr
  rw [List.flatMap_def]

theorem serAttr_notMem (s : Str) : '<' ∉ serAttr s ∧ '"' ∉ serAttr s ∧ '\r' ∉ serAttr s := by
  rw [serAttr_eq]
  exact ⟨mem_flatMap_notMem (fun c => (serAttrChar_notMem c).1) s, mem_flatMap_notMem (fun c => (serAttrChar_notMem c).2.1) s,
    mem_flatMap_notMem (fun c => (serAttrChar_notMem c).2.2) s⟩

theorem readDigits_toDigits (n : Nat) : readDigits 10 decVal 0 (Nat.toDigits 10 n) = some n := by
  have key : ∀ (l : Str) (acc : Nat), (∀ c ∈ l, c.isDigit = true) → readDigits 10 decVal acc l = some (Nat.ofDigitChars 10 l acc) := by
    intro l
    induction l with
    | nil => intro acc _; simp [readDigits, Nat.ofDigitChars]
    | cons c l ih =>
      intro acc h
      have hc := h c (by simp)
      have hc2 : ('0' ≤ c && c ≤ '9') = true := by
        simp only [Char.isDigit, Bool.and_eq_true, decide_eq_true_eq] at hc
        simp only [Bool.and_eq_true, decide_eq_true_eq]
        exact ⟨hc.1, hc.2⟩
      have hv : decVal c = some (c.toNat - '0'.toNat) := by unfold decVal; rw [if_pos hc2]
      unfold readDigits
      rw [hv]
      dsimp only
      rw [ih _ (fun d hd => h d (by simp [hd]))]
      simp [Nat.ofDigitChars, Nat.mul_comm]
  rw [key _ _ (fun c hc => Nat.isDigit_of_mem_toDigits (by decide) (by decide) hc), Nat.ofDigitChars_ten_toDigits]

theorem decodeGo_pend {lit : Char → Option Char} {nm a rest : Str} (h : ';' ∉ a) :
    decodeGo lit (some nm) (a ++ ';' :: rest) = match entityChar (nm.reverse ++ a) with
      | none => none
      | some d => (decodeGo lit none rest).map (d :: ·) := by
  induction a generalizing nm with
  | nil =>
    rw [List.nil_append, decodeGo, if_pos rfl, List.append_nil]
    cases entityChar nm.reverse <;> rfl
  | cons c a ih =>
    simp only [List.mem_cons, not_or] at h
    rw [List.cons_append, decodeGo, if_neg (fun e => h.1 e.symm), ih h.2]
    simp

theorem entityChar_dec (c : Char) : entityChar (c!"#" ++ Nat.toDigits 10 c.toNat) = textBack c := by
  have hd : ∀ x ∈ Nat.toDigits 10 c.toNat, x.isDigit = true := fun x h => Nat.isDigit_of_mem_toDigits (by decide) (by decide) h
  have hr := readDigits_toDigits c.toNat
  have hne : Nat.toDigits 10 c.toNat ≠ [] := Nat.toDigits_ne_nil
  generalize Nat.toDigits 10 c.toNat = l at hd hr hne
  cases l with
  | nil => exact absurd rfl hne
  | cons d ds =>
    have hdx : d ≠ 'x' := by
      rintro rfl
      have := hd 'x' (by simp)
      revert this; decide
    have h1 : ∀ s : Str, s.head? ≠ some '#' → c!"#" ++ d :: ds ≠ s := by
      rintro s hs rfl
      exact hs rfl
    unfold entityChar
    rw [if_neg (h1 _ (by decide)), if_neg (h1 _ (by decide)), if_neg (h1 _ (by decide)), if_neg (h1 _ (by decide)),
      if_neg (h1 _ (by decide))]
    have : charOfCode c.toNat = textBack c := by
      have hv : c.toNat.isValidChar := c.valid
      unfold charOfCode
      rw [if_pos hv, Char.ofNat_toNat]
      rfl
    show (match ('#' :: d :: ds : Str) with
      | '#' :: 'x' :: d :: ds => (readDigits 16 hexVal 0 (d :: ds)).bind charOfCode
      | '#' :: d :: ds => (readDigits 10 decVal 0 (d :: ds)).bind charOfCode
      | _ => none) = textBack c
    split
    · rename_i heq
      simp only [List.cons.injEq] at heq
      exact absurd heq.2.1 hdx
    · rename_i heq
      simp only [List.cons.injEq] at heq
      obtain ⟨-, rfl, rfl⟩ := heq
      rw [hr]
      exact this
    · rename_i h
      exact absurd rfl (h d ds)

theorem decodeAttr_ser {s : Str} (h : ∀ c ∈ s, isXmlChar c = true) : decodeAttr (serAttr s) = some s := by
  rw [serAttr_eq]
  have key : decodeAttr (s.flatMap serAttrChar) = mapChars textBack s := by
    refine decodeGo_flatMap _ _ _ ?_ s
    intro c rest
    unfold serAttrChar
    by_cases h1 : c = '&'; · subst h1; rfl
    by_cases h2 : c = '<'; · subst h2; rfl
    by_cases h3 : c = '>'; · subst h3; rfl
    by_cases h4 : c = '"'; · subst h4; rfl
    by_cases h5 : c = '\n'; · subst h5; rfl
    by_cases h6 : c = '\r'; · subst h6; rfl
    by_cases h7 : c = '\t'; · subst h7; rfl
    simp only [h1, h2, h3, h4, h5, h6, h7, if_false]
    split
    · rw [decodeGo_lit _ _ h1]
      have : litAttr c = textBack c := by
        unfold litAttr textBack isWs
        by_cases h8 : c = ' '
        · subst h8; rfl
        · by_cases h9 : isXmlChar c = true
          · simp [h2, h5, h6, h7, h8, h9]
          · simp [h9]
      rw [this]
    · have hs : ';' ∉ c!"#" ++ Nat.toDigits 10 c.toNat := by
        intro hm
        simp only [List.cons_append, List.nil_append, List.mem_cons] at hm
        rcases hm with e | hm
        · revert e; decide
        · have := Nat.isDigit_of_mem_toDigits (by decide) (by decide) hm
          revert this; decide
      have e : c!"&#" ++ Nat.toDigits 10 c.toNat ++ c!";" ++ rest = '&' :: ((c!"#" ++ Nat.toDigits 10 c.toNat) ++ ';' :: rest) := by
        simp only [List.append_assoc]; rfl
      rw [e, decodeGo, if_pos rfl, decodeGo_pend hs]
      rw [List.reverse_nil, List.nil_append, entityChar_dec]
      cases textBack c <;> rfl
  rw [key]
  exact mapChars_eq_self.2 (fun c hc => by simp [textBack, h c hc])

/-- The attributes as lxml prints them. -/
def serAttrs (as : List (Str × Str)) : List (Str × Str) := as.map (fun a => (a.1, serAttr a.2))

theorem serDecls_text (as : List (Str × Str)) :
    ((declsOf as).map serDecl).flatten = attrsText (serAttrs (as.filter isDecl)) := by
  induction as with
  | nil => rfl
  | cons a as ih =>
    unfold declsOf at ih ⊢
    rw [List.filterMap_cons]
    cases h : declaredPrefix a.1 with
    | none =>
      have : isDecl a = false := by unfold isDecl; rw [h]; rfl
      rw [List.filter_cons_of_neg (by simp [this])]
      exact ih
    | some q =>
      have : isDecl a = true := by unfold isDecl; rw [h]; rfl
      rw [List.filter_cons_of_pos this]
      have hq := declaredPrefix_some h
      simp only [Option.map_some, List.map_cons, List.flatten_cons, ih, serAttrs]
      have e : serDecl (q, a.2) = attrOut a.1 (serAttr a.2) := by
        rw [hq]
        cases q with
        | none => rfl
        | some p =>
          simp only [serDecl, attrOut, declName]
          simp
      rw [e, attrsText_cons]

theorem serRootAttrs_text {m : NsMap} : ∀ {ps : List (Str × Str)} {xs : List Attr}, resolveAttrs m ps = some xs →
    (∀ a ∈ ps, ∀ x, resolveAttr m a = some x → serRootAttr m x = attrOut a.1 (serAttr a.2)) →
    (xs.map (serRootAttr m)).flatten = attrsText (serAttrs ps)
  | [], xs, h, _ => by cases h; rfl
  | a :: ps, xs, h, hk => by
    unfold resolveAttrs at h
    cases ha : resolveAttr m a with
    | none => rw [ha] at h; cases h
    | some x =>
      cases hr : resolveAttrs m ps with
      | none => rw [ha, hr] at h; cases h
      | some ys =>
        rw [ha, hr] at h
        cases h
        have ih := serRootAttrs_text hr (fun b hb => hk b (List.mem_cons_of_mem _ hb))
        have hx := hk a (by simp) x ha
        simp only [List.map_cons, List.flatten_cons, ih, hx, serAttrs]
        rw [attrsText_cons]

theorem prefixFor_default {as : List (Str × Str)} {u : Str}
    (h : ((as.filter isDecl).find? (fun a => a.2 == u)).map (·.1) = some c!"xmlns") : prefixFor (declsOf as) u = none := by
  unfold prefixFor
  induction as with
  | nil => rfl
  | cons a as ih =>
    unfold declsOf at ih ⊢
    rw [List.filterMap_cons]
    cases hp : declaredPrefix a.1 with
    | none =>
      have : isDecl a = false := by unfold isDecl; rw [hp]; rfl
      rw [List.filter_cons_of_neg (by simp [this])] at h
      exact ih h
    | some q =>
      have : isDecl a = true := by unfold isDecl; rw [hp]; rfl
      rw [List.filter_cons_of_pos this, List.find?_cons] at h
      dsimp only [Option.map_some]
      rw [List.find?_cons]
      dsimp only
      cases he : a.2 == u with
      | true =>
        rw [he] at h
        dsimp only at h ⊢
        have h : a.1 = c!"xmlns" := by simpa using h
        rw [h] at hp
        have : declaredPrefix c!"xmlns" = some none := by decide
        rw [this] at hp
        cases hp
        rfl
      | false =>
        rw [he] at h
        exact ih h

theorem attrValue_mem {as : List (Str × Str)} {n u : Str} (h : attrValue as n = some u) : (n, u) ∈ as := by
  unfold attrValue at h
  rw [Option.map_eq_some_iff] at h
  obtain ⟨b, hb, rfl⟩ := h
  have e4 : b.1 = n := by simpa using List.find?_some hb
  rw [← e4]
  exact List.mem_of_find?_eq_some hb

theorem attrPrefixFor_alone {as : List (Str × Str)} {p v : Str} (hv : NsMap.get? (declsOf as) (some p) = some v)
    (hx : v ≠ xmlNs) (h : Alone as p) : attrPrefixFor (declsOf as) v = some p := by
  unfold attrPrefixFor
  rw [if_neg hx]
  cases hf : (declsOf as).find? (fun d => d.2 == v && d.1.isSome) with
  | none =>
    rw [List.find?_eq_none] at hf
    have := hf _ (get_mem hv)
    simp at this
  | some d =>
    dsimp only
    have h1 := List.find?_some hf
    have h2 := List.mem_of_find?_eq_some hf
    simp only [Bool.and_eq_true, beq_iff_eq] at h1
    unfold declsOf at h2
    rw [List.mem_filterMap] at h2
    obtain ⟨a, ha, e⟩ := h2
    cases hp : declaredPrefix a.1 with
    | none => rw [hp] at e; cases e
    | some q =>
      rw [hp] at e
      cases e
      rw [get_declsOf] at hv
      have := h v hv a ha (by unfold isPrefixDecl; rw [hp]; exact h1.2) h1.1
      rw [this] at hp
      have e := declaredPrefix_declName (some p)
      unfold declName at e
      rw [e] at hp
      cases hp
      rfl

theorem plainOf_eq (as : List (Str × Str)) : plainOf as = as.filter (fun a => !isDecl a) := by
  unfold plainOf isDecl
  congr 1
  funext a
  cases declaredPrefix a.1 <;> rfl

theorem qname_noLt {n : Str} (h : isQName n = true) : '<' ∉ n := by
  intro hm
  exact absurd ((isQName_qchars h).2 _ hm) (by decide)

/-- The text captured from a good root tag. -/
theorem rootTagDump_eq {as : List (Str × Str)} (hg : GoodRoot as) {ri : Info} (hr : resolveInfo [] c!"REQ-IF" as = some ri) :
    rootTagDump ri = capturedTag as := by
  have h := rootInfo_of hr
  obtain ⟨hname, -, -, hns⟩ := resolveInfo_root hr
  have hm : ri.nsmap = declsOf as := by rw [h.nsmap, stored_eq hg.noXml]
  have hattrs := h.attrs
  rw [hm] at hattrs
  have hp : ∀ u, ri.ns = some u → prefixFor ri.nsmap u = none := by
    intro u e
    have := hns u e
    rw [hm, get_declsOf] at this
    rw [hm]
    exact prefixFor_default (hg.default u this)
  have htext : (ri.nsmap.map serDecl).flatten ++ (ri.attrs.map (serRootAttr ri.nsmap)).flatten = attrsText (serAttrs as) := by
    rw [hm, serDecls_text, serRootAttrs_text hattrs, plainOf_eq, ← attrsText_append]
    · conv => rhs; rw [hg.declarationsFirst]
      unfold serAttrs
      rw [List.map_append]
    · intro a ha x hx
      have ha' := List.mem_filter.1 ha
      unfold serRootAttr
      rcases resolveAttr_cases hx with ⟨e1, rfl⟩ | ⟨l, e1, e2, rfl⟩ | ⟨p, l, v, e1, e2, hp, hv, rfl⟩
      · rfl
      · dsimp only
        have : attrPrefixFor (declsOf as) xmlNs = some c!"xml" := by unfold attrPrefixFor; rw [if_pos rfl]
        rw [this, e1]
        rfl
      · dsimp only
        have hal := hg.alone a ha'.1 (by
          have := ha'.2
          unfold isDecl
          cases h : declaredPrefix a.1 with
          | none => rfl
          | some q => rw [h] at this; cases this) p l e2
        rw [attrPrefixFor_alone hv (bound_notXml h.declsOk hp hv).1 hal, e1]
        simp [qnameOut, attrOut]
  have hno : '<' ∉ attrsText (serAttrs as) := by
    intro hmem
    simp only [attrsText, serAttrs, List.mem_flatMap, List.mem_map] at hmem
    obtain ⟨a, ⟨b, hb, rfl⟩, hmem⟩ := hmem
    simp only [List.mem_append, List.mem_cons] at hmem
    have e1 := qname_noLt (hg.names b hb).1
    have e2 := (serAttr_notMem b.2).1
    simp_all
  have := dump_text hno
  rw [← htext] at this
  unfold capturedTag
  rw [rootTag_eq]
  show _ = c!"<REQ-IF" ++ attrsText (serAttrs as) ++ c!">"
  rw [← htext, ← this]
  unfold rootTagDump
  rw [hname]
  cases e : ri.ns with
  | none =>
    unfold qnameOut
    simp only [List.append_assoc]
  | some u =>
    dsimp only
    rw [hp u e]
    unfold qnameOut
    simp only [List.append_assoc]

/-- A captured tag is read as its attributes. -/
theorem rootTag_captured {as : List (Str × Str)} (hg : GoodRoot as) : ∃ ri, RootTag (serAttrs as) as ri := by
  obtain ⟨ri, h2, h3⟩ := hg.resolves
  refine ⟨ri, ?_, ?_, ?_, h2, h3⟩
  · rw [List.all_eq_true]
    intro a ha
    unfold serAttrs at ha
    rw [List.mem_map] at ha
    obtain ⟨b, hb, rfl⟩ := ha
    simp only [attrLexOk, (hg.names b hb).1, Bool.true_and, Bool.not_eq_true', List.contains_eq_mem, decide_eq_false_iff_not]
    exact (serAttr_notMem b.2).2.1
  · intro hm
    simp only [attrsText, serAttrs, List.mem_flatMap, List.mem_map] at hm
    obtain ⟨a, ⟨b, hb, rfl⟩, hm⟩ := hm
    simp only [List.mem_append, List.mem_cons] at hm
    have e1 := qname_noCr (hg.names b hb).1
    have e2 := (serAttr_notMem b.2).2.2
    simp_all
  · have h1 := hg.names
    clear h2 h3 hg
    induction as with
    | nil => rfl
    | cons a as ih =>
      have ih := ih (fun b hb => h1 b (by simp [hb]))
      unfold serAttrs at ih ⊢
      rw [List.map_cons, decodeAttrs]
      dsimp only
      rw [decodeAttr_ser (h1 a (by simp)).2, ih]

/-- The printed root tag of safe namespace information. -/
theorem safeRoot_tag {i : NamespaceInfo} {as : List (Str × Str)} (h : SafeRoot i as) :
    ∃ ras ri, RootTag ras as ri ∧ unparseNamespaceInfo i = .ok (rootTag ras ++ c!"\n") ∧
      (i.originalReqifTagDump.isSome = true → ras = serAttrs as) ∧ (i.originalReqifTagDump = none → ras = as) ∧ Describes as i := by
  obtain ⟨hg, h⟩ := h
  obtain ⟨dump, dt, enc, f1, f2, f3, f4, f5, f6, f7⟩ := i
  unfold unparseNamespaceInfo
  cases dump with
  | some s =>
    dsimp only at h ⊢
    obtain ⟨ri, hri⟩ := rootTag_captured hg
    refine ⟨serAttrs as, ri, hri, ?_, fun _ => rfl, by simp, h.2⟩
    rw [h.1]
    rfl
  | none =>
    dsimp only at h ⊢
    obtain ⟨e, hne, hp⟩ := h
    obtain ⟨ri, hri⟩ := rootTag_of (as := as) ⟨fun a ha => ⟨(hg.names a ha).1, hp a ha⟩, hg.resolves⟩
    refine ⟨as, ri, hri, ?_, by simp, fun _ => rfl, ?_⟩
    · clear hri hp hg
      have hl : ∀ i : NamespaceInfo, namespaceComponents i = (fieldAttrs i).map (fun a => a.1 ++ c!"=\"" ++ a.2 ++ c!"\"") := by
        intro i
        obtain ⟨dump, dt, enc, f1, f2, f3, f4, f5, f6, f7⟩ := i
        cases f1 <;> cases f2 <;> cases f3 <;> cases f4 <;> cases f5 <;> cases f6 <;> cases f7 <;> rfl
      have hj : ∀ l : List (Str × Str), l ≠ [] → c!" " ++ joinSpace (l.map (fun a => a.1 ++ c!"=\"" ++ a.2 ++ c!"\"")) = attrsText l := by
        intro l
        induction l with
        | nil => intro h; exact absurd rfl h
        | cons a l ih =>
          intro _
          cases l with
          | nil => simp [joinSpace, attrsText]
          | cons b l =>
            have := ih (by simp)
            rw [attrsText_cons, ← this]
            simp [joinSpace, attrOut]
      rw [hl, ← e, if_pos (by
        rw [List.length_map]
        exact List.length_pos_iff.2 hne)]
      rw [rootTag_eq, ← hj as hne]
      simp only [List.append_assoc]
      rfl
    · subst e
      constructor <;>
      (cases f1 <;> cases f2 <;> cases f3 <;> cases f4 <;> cases f5 <;> cases f6 <;> cases f7 <;> rfl)

end ReqIF
