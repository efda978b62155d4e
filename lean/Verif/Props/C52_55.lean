import Verif.Spec.Anonymize
import Verif.Proofs.ParseInv
import Verif.Proofs.PlainDoc
/-!
# C52-C55: anonymization
-/
namespace ReqIF
open Spec

set_option linter.unusedSimpArgs false

variable {u : Str}

theorem inNs_eq (u name : Str) (i : Info) : inNs u name i = isA u name i := by
  unfold inNs isA
  rw [Bool.eq_iff_iff]
  simp

theorem isA_name {name name' : Str} {i : Info} (h : isA u name i = true) (hn : name ≠ name') :
    isA u name' i = false := by
  simp only [isA, decide_eq_true_eq] at h
  simp only [isA, decide_eq_false_iff_not, not_and]
  intro _ h2
  exact hn (h.2 ▸ h2)

theorem isA_mapCovered (name : Str) (f : Str → Str) (i : Info) : isA u name (mapCovered u f i) = isA u name i := rfl

/-! ## The passes over texts and attributes -/

theorem mapCovered_eq (f : Str → Str) (i : Info) (hash : Str → Nat) (hf : f = anonymizeString hash) :
    (if inNs u c!"ATTRIBUTE-VALUE-STRING" i then
        { i with attrs := mapAttr c!"THE-VALUE" (anonymizeString hash) i.attrs }
      else if inNs u c!"SPECIFICATION" i then
        { i with attrs := mapAttr c!"LONG-NAME" (anonymizeString hash) i.attrs }
      else i) = mapCovered u f i := by
  subst hf
  rw [inNs_eq, inNs_eq]
  unfold mapCovered coveredAttr
  by_cases h1 : isA u c!"ATTRIBUTE-VALUE-STRING" i = true
  · have h2 := isA_name (name' := c!"SPECIFICATION") h1 (by decide)
    simp only [h1, h2, if_true, Bool.false_and, Bool.false_or, Bool.true_and, mapAttr]
    congr 1
    apply List.map_congr_left
    intro a _
    by_cases ha : a.key = c!"THE-VALUE" <;> simp [ha]
  · simp only [Bool.not_eq_true] at h1
    by_cases h2 : isA u c!"SPECIFICATION" i = true
    · simp only [h1, h2, if_true, Bool.false_and, Bool.or_false, Bool.true_and, mapAttr, Bool.false_eq_true, if_false]
      congr 1
      apply List.map_congr_left
      intro a _
      by_cases ha : a.key = c!"LONG-NAME" <;> simp [ha]
    · simp only [Bool.not_eq_true] at h2
      simp [h1, h2]

theorem anonAttr_comp (hash : Str → Nat) (i : Info) :
    (let i1 := if inNs u c!"SPECIFICATION" i then
        { i with attrs := mapAttr c!"LONG-NAME" (anonymizeString hash) i.attrs } else i
     if inNs u c!"ATTRIBUTE-VALUE-STRING" i1 then
        { i1 with attrs := mapAttr c!"THE-VALUE" (anonymizeString hash) i1.attrs } else i1) =
      mapCovered u (anonymizeString hash) i := by
  rw [← mapCovered_eq (anonymizeString hash) i hash rfl]
  dsimp only
  by_cases h2 : inNs u c!"SPECIFICATION" i = true
  · have h1 : inNs u c!"ATTRIBUTE-VALUE-STRING" i = false := by
      rw [inNs_eq] at h2 ⊢
      exact isA_name h2 (by decide)
    have h1' : inNs u c!"ATTRIBUTE-VALUE-STRING"
        { i with attrs := mapAttr c!"LONG-NAME" (anonymizeString hash) i.attrs } = false := h1
    simp only [h2, if_true, h1, h1', Bool.false_eq_true, if_false]
  · simp only [h2, Bool.false_eq_true, if_false]

theorem anonTextList_setText {hash : Str → Nat} {name s : Str} {b : Bool} {ks ks' : List Node} {t : Str}
    (h : anonTextList hash u name b (setText s (.text t :: ks)) = .ok ks') :
    ∃ ks2, anonTextList hash u name b (.text t :: ks) = .ok (.text t :: ks2) ∧ ks' = .text s :: ks2 := by
  simp only [setText, anonTextList, anonText] at h ⊢
  cases hk : anonTextList hash u name b ks with
  | error e => rw [hk] at h; cases h
  | ok k2 => rw [hk] at h; cases h; exact ⟨k2, rfl, rfl⟩

theorem anonTextList_text {hash : Str → Nat} {name : Str} {b : Bool} {ks ks' : List Node} {t : Str}
    (h : anonTextList hash u name b ks = .ok ks') (ht : textOf ks = some t) :
    ∃ k1 k2, ks = .text t :: k1 ∧ ks' = .text t :: k2 := by
  match ks, ht with
  | .text _ :: ks, ht =>
    cases ht
    simp only [anonTextList, anonText] at h
    cases hk : anonTextList hash u name b ks with
    | error e => rw [hk] at h; cases h
    | ok k2 => rw [hk] at h; cases h; exact ⟨ks, k2, rfl, rfl⟩

mutual
theorem texts_node (hash : Str → Nat) (p : Option Info) (x x1 x2 : Node)
    (h1 : anonText hash u c!"COMMENT" (p.any (isA u c!"REQ-IF-HEADER")) x = .ok x1)
    (h2 : anonText hash u c!"TITLE" (p.any (isA u c!"REQ-IF-HEADER")) x1 = .ok x2) :
    anonAttr hash u c!"ATTRIBUTE-VALUE-STRING" c!"THE-VALUE"
      (anonAttr hash u c!"SPECIFICATION" c!"LONG-NAME" x2) =
        rewriteTexts u (anonymizeString hash) p x := by
  cases x with
  | text s => cases h1; cases h2; rfl
  | comment s => cases h1; cases h2; rfl
  | pi t d => cases h1; cases h2; rfl
  | elem i ks =>
    simp only [anonText, inNs_eq] at h1
    simp only [rewriteTexts]
    have hany : isA u c!"REQ-IF-HEADER" i = (some i).any (isA u c!"REQ-IF-HEADER") := rfl
    rw [hany] at h1
    by_cases hp : p.any (isA u c!"REQ-IF-HEADER") = true
    · by_cases hc : isA u c!"COMMENT" i = true
      · -- a comment: the first pass changes it
        have ht := isA_name (name' := c!"TITLE") hc (by decide)
        have hh : headerText u p i = true := by simp [headerText, hp, hc]
        rw [if_pos hh]
        rw [if_pos (by simp [hp, hc])] at h1
        cases htx : textOf ks with
        | none => rw [htx] at h1; cases h1
        | some t =>
          rw [htx] at h1
          dsimp only at h1
          cases hk : anonTextList hash u c!"COMMENT" ((some i).any (isA u c!"REQ-IF-HEADER")) ks with
          | error e => rw [hk] at h1; cases h1
          | ok ks1 =>
            rw [hk] at h1
            cases h1
            simp only [anonText, inNs_eq] at h2
            rw [if_neg (by simp [ht]), hany] at h2
            obtain ⟨k0, k1, hks, hks1⟩ := anonTextList_text hk htx
            rw [hks1] at h2 hk
            cases hk2 : anonTextList hash u c!"TITLE" ((some i).any (isA u c!"REQ-IF-HEADER"))
                (setText (anonymizeString hash t) (.text t :: k1)) with
            | error e => rw [hk2] at h2; cases h2
            | ok ks2 =>
              rw [hk2] at h2
              cases h2
              obtain ⟨k2, hk3, rfl⟩ := anonTextList_setText hk2
              have ih := texts_list hash (some i) ks _ _ hk hk3
              simp only [anonAttrList, anonAttr] at ih
              rw [← ih, anonAttr, anonAttr, anonAttr_comp]
              simp only [anonAttrList, anonAttr, mapLeading]
      · simp only [Bool.not_eq_true] at hc
        rw [if_neg (by simp [hc])] at h1
        cases hk : anonTextList hash u c!"COMMENT" ((some i).any (isA u c!"REQ-IF-HEADER")) ks with
        | error e => rw [hk] at h1; cases h1
        | ok ks1 =>
          rw [hk] at h1
          cases h1
          simp only [anonText, inNs_eq] at h2
          rw [hany] at h2
          by_cases ht : isA u c!"TITLE" i = true
          · have hh : headerText u p i = true := by simp [headerText, hp, ht]
            rw [if_pos hh]
            rw [if_pos (by simp [hp, ht])] at h2
            cases htx : textOf ks1 with
            | none => rw [htx] at h2; cases h2
            | some t =>
              rw [htx] at h2
              dsimp only at h2
              cases hk2 : anonTextList hash u c!"TITLE" ((some i).any (isA u c!"REQ-IF-HEADER")) ks1 with
              | error e => rw [hk2] at h2; cases h2
              | ok ks2 =>
                rw [hk2] at h2
                cases h2
                have ih := texts_list hash (some i) ks _ _ hk hk2
                obtain ⟨k1, k2, hks1, hks2⟩ := anonTextList_text hk2 htx
                rw [hks2] at ih ⊢
                simp only [anonAttrList, anonAttr] at ih
                rw [← ih, anonAttr, anonAttr, anonAttr_comp]
                simp only [setText, anonAttrList, anonAttr, mapLeading]
          · simp only [Bool.not_eq_true] at ht
            have hh : headerText u p i = false := by simp [headerText, hc, ht]
            rw [hh, if_neg (by simp)]
            rw [if_neg (by simp [ht])] at h2
            cases hk2 : anonTextList hash u c!"TITLE" ((some i).any (isA u c!"REQ-IF-HEADER")) ks1 with
            | error e => rw [hk2] at h2; cases h2
            | ok ks2 =>
              rw [hk2] at h2
              cases h2
              rw [← texts_list hash (some i) ks _ _ hk hk2, anonAttr, anonAttr, anonAttr_comp]
    · simp only [Bool.not_eq_true] at hp
      have hh : headerText u p i = false := by simp [headerText, hp]
      rw [hh, if_neg (by simp)]
      rw [hp, Bool.false_and, if_neg (by simp)] at h1
      cases hk : anonTextList hash u c!"COMMENT" ((some i).any (isA u c!"REQ-IF-HEADER")) ks with
      | error e => rw [hk] at h1; cases h1
      | ok ks1 =>
        rw [hk] at h1
        cases h1
        simp only [anonText, inNs_eq] at h2
        rw [hany, hp, Bool.false_and, if_neg (by simp)] at h2
        cases hk2 : anonTextList hash u c!"TITLE" ((some i).any (isA u c!"REQ-IF-HEADER")) ks1 with
        | error e => rw [hk2] at h2; cases h2
        | ok ks2 =>
          rw [hk2] at h2
          cases h2
          rw [← texts_list hash (some i) ks _ _ hk hk2, anonAttr, anonAttr, anonAttr_comp]

theorem texts_list (hash : Str → Nat) (p : Option Info) (xs xs1 xs2 : List Node)
    (h1 : anonTextList hash u c!"COMMENT" (p.any (isA u c!"REQ-IF-HEADER")) xs = .ok xs1)
    (h2 : anonTextList hash u c!"TITLE" (p.any (isA u c!"REQ-IF-HEADER")) xs1 = .ok xs2) :
    anonAttrList hash u c!"ATTRIBUTE-VALUE-STRING" c!"THE-VALUE"
      (anonAttrList hash u c!"SPECIFICATION" c!"LONG-NAME" xs2) =
        rewriteTextsList u (anonymizeString hash) p xs := by
  cases xs with
  | nil => cases h1; cases h2; rfl
  | cons x xs =>
    simp only [anonTextList] at h1
    cases ha : anonText hash u c!"COMMENT" (p.any (isA u c!"REQ-IF-HEADER")) x with
    | error e => rw [ha] at h1; cases h1
    | ok y =>
      rw [ha] at h1
      dsimp only at h1
      cases hb : anonTextList hash u c!"COMMENT" (p.any (isA u c!"REQ-IF-HEADER")) xs with
      | error e => rw [hb] at h1; cases h1
      | ok ys =>
        rw [hb] at h1
        cases h1
        simp only [anonTextList] at h2
        cases hc : anonText hash u c!"TITLE" (p.any (isA u c!"REQ-IF-HEADER")) y with
        | error e => rw [hc] at h2; cases h2
        | ok z =>
          rw [hc] at h2
          dsimp only at h2
          cases hd : anonTextList hash u c!"TITLE" (p.any (isA u c!"REQ-IF-HEADER")) ys with
          | error e => rw [hd] at h2; cases h2
          | ok zs =>
            rw [hd] at h2
            cases h2
            simp only [anonAttrList, rewriteTextsList]
            rw [texts_node hash p x y z ha hc, texts_list hash p xs ys zs hb hd]
end

/-! ## The pass over XHTML values -/

theorem covered_parent {p q : Option Info} (h1 : ∀ i, headerText u p i = headerText u q i)
    (h2 : ∀ i, xhtmlValue u p i = xhtmlValue u q i) (l : List Node) : coveredList u p l = coveredList u q l := by
  induction l with
  | nil => rfl
  | cons n l ih =>
    simp only [coveredList, ih]
    congr 1
    cases n <;> simp only [covered, h1, h2]

theorem mask_parent {p q : Option Info} (h1 : ∀ i, headerText u p i = headerText u q i)
    (h2 : ∀ i, xhtmlValue u p i = xhtmlValue u q i) (l : List Node) : maskList u p l = maskList u q l := by
  induction l with
  | nil => rfl
  | cons n l ih =>
    simp only [maskList, ih]
    congr 1
    cases n <;> simp only [mask, h1, h2]

theorem coveredList_mapCovered (f : Str → Str) (i : Info) (l : List Node) :
    coveredList u (some (mapCovered u f i)) l = coveredList u (some i) l :=
  covered_parent (p := some (mapCovered u f i)) (q := some i) (fun _ => rfl) (fun _ => rfl) l

theorem maskList_mapCovered (f : Str → Str) (i : Info) (l : List Node) :
    maskList u (some (mapCovered u f i)) l = maskList u (some i) l :=
  mask_parent (p := some (mapCovered u f i)) (q := some i) (fun _ => rfl) (fun _ => rfl) l

theorem anonXhtmlList_mapLeading (hash : Str → Nat) (v : Bool) (f : Str → Str) (l : List Node) :
    anonXhtmlList hash u v (mapLeading f l) = pyMap (mapLeading f) (anonXhtmlList hash u v l) := by
  match l with
  | [] => rfl
  | .text s :: l =>
    simp only [mapLeading, anonXhtmlList, anonXhtml]
    cases anonXhtmlList hash u v l <;> rfl
  | .comment s :: l =>
    simp only [mapLeading, anonXhtmlList, anonXhtml]
    cases anonXhtmlList hash u v l <;> rfl
  | .pi t d :: l =>
    simp only [mapLeading, anonXhtmlList, anonXhtml]
    cases anonXhtmlList hash u v l <;> rfl
  | .elem i ks :: l =>
    simp only [mapLeading, anonXhtmlList]
    cases hx : anonXhtml hash u v (.elem i ks) with
    | error e => rfl
    | ok y =>
      dsimp only
      cases anonXhtmlList hash u v l with
      | error e => rfl
      | ok ys =>
        have : ∃ j js, y = .elem j js := by
          simp only [anonXhtml] at hx
          repeat' (split at hx)
          all_goals first
            | (cases hx; exact ⟨_, _, rfl⟩)
            | cases hx
        obtain ⟨j, js, rfl⟩ := this
        rfl

theorem anonXhtmlList_leading {hash : Str → Nat} {v : Bool} {l l' : List Node} (h : anonXhtmlList hash u v l = .ok l') :
    leadingText l' = leadingText l := by
  match l with
  | [] => cases h; rfl
  | .text s :: l =>
    simp only [anonXhtmlList, anonXhtml] at h
    cases hk : anonXhtmlList hash u v l with
    | error e => rw [hk] at h; cases h
    | ok k => rw [hk] at h; cases h; rfl
  | .comment s :: l =>
    simp only [anonXhtmlList, anonXhtml] at h
    cases hk : anonXhtmlList hash u v l with
    | error e => rw [hk] at h; cases h
    | ok k => rw [hk] at h; cases h; rfl
  | .pi t d :: l =>
    simp only [anonXhtmlList, anonXhtml] at h
    cases hk : anonXhtmlList hash u v l with
    | error e => rw [hk] at h; cases h
    | ok k => rw [hk] at h; cases h; rfl
  | .elem i ks :: l =>
    simp only [anonXhtmlList] at h
    cases hx : anonXhtml hash u v (.elem i ks) with
    | error e => rw [hx] at h; cases h
    | ok y =>
      rw [hx] at h
      dsimp only at h
      cases hk : anonXhtmlList hash u v l with
      | error e => rw [hk] at h; cases h
      | ok k =>
        rw [hk] at h
        cases h
        simp only [anonXhtml] at hx
        repeat' (split at hx)
        all_goals first
          | (cases hx; rfl)
          | cases hx

theorem rewriteTextsList_leading (f : Str → Str) (p : Option Info) (l : List Node) :
    leadingText (rewriteTextsList u f p l) = leadingText l := by
  match l with
  | [] => rfl
  | .text s :: l => rfl
  | .comment s :: l => rfl
  | .pi t d :: l => rfl
  | .elem i ks :: l => rfl

theorem leadingText_mapLeading (f : Str → Str) (l : List Node) :
    leadingText (mapLeading f l) = (leadingText l).map (pyMap f) := by
  match l with
  | [] => rfl
  | .text s :: l => rfl
  | .comment s :: l => rfl
  | .pi t d :: l => rfl
  | .elem i ks :: l => rfl

theorem coveredList_mapLeading (p : Option Info) (f : Str → Str) (l : List Node) :
    coveredList u p (mapLeading f l) = coveredList u p l := by
  match l with
  | [] => rfl
  | .text s :: l => rfl
  | .comment s :: l => rfl
  | .pi t d :: l => rfl
  | .elem i ks :: l => rfl

theorem maskList_mapLeading (p : Option Info) (f : Str → Str) (l : List Node) :
    maskList u p (mapLeading f l) = mapLeading f (maskList u p l) := by
  match l with
  | [] => rfl
  | .text s :: l => rfl
  | .comment s :: l => rfl
  | .pi t d :: l => rfl
  | .elem i ks :: l => simp only [mapLeading, maskList, mask]

theorem mapLeading_mapLeading (g : Str → Str) (l : List Node) :
    mapLeading (fun _ => c!"*") (mapLeading g l) = mapLeading (fun _ => c!"*") l := by
  match l with
  | [] => rfl
  | .text s :: l => rfl
  | .comment s :: l => rfl
  | .pi t d :: l => rfl
  | .elem i ks :: l => rfl

theorem coveredAttrs_mapCovered (f : Str → Str) (i : Info) :
    (((mapCovered u f i).attrs.filter (coveredAttr u (mapCovered u f i))).map (fun a => (Except.ok a.value : Py Str))) =
      ((i.attrs.filter (coveredAttr u i)).map (fun a => (Except.ok a.value : Py Str))).map (pyMap f) := by
  have gen : ∀ l : List Attr,
      (((l.map (fun a => if coveredAttr u i a then { a with value := f a.value } else a)).filter
        (coveredAttr u (mapCovered u f i))).map (fun a => (Except.ok a.value : Py Str))) =
      ((l.filter (coveredAttr u i)).map (fun a => (Except.ok a.value : Py Str))).map (pyMap f) := by
    intro l
    induction l with
    | nil => rfl
    | cons a l ih =>
      rw [List.map_cons]
      by_cases ha : coveredAttr u i a = true
      · have ha' : coveredAttr u (mapCovered u f i) { a with value := f a.value } = true := ha
        rw [if_pos ha, List.filter_cons_of_pos ha, List.filter_cons_of_pos ha',
          List.map_cons, List.map_cons, List.map_cons, ih]
        rfl
      · have ha' : ¬ coveredAttr u (mapCovered u f i) a = true := ha
        rw [if_neg ha, List.filter_cons_of_neg ha, List.filter_cons_of_neg ha', ih]
  exact gen i.attrs

theorem mapCovered_mask (f : Str → Str) (i : Info) :
    mapCovered u (fun _ => c!"*") (mapCovered u f i) = mapCovered u (fun _ => c!"*") i := by
  unfold mapCovered
  dsimp only
  rw [List.map_map]
  congr 1
  apply List.map_congr_left
  intro a _
  simp only [Function.comp]
  by_cases ha : coveredAttr u i a = true
  · have : coveredAttr u { i with attrs := i.attrs.map (fun a => if coveredAttr u i a then { a with value := f a.value } else a) }
        { a with value := f a.value } = true := ha
    rw [if_pos ha, if_pos this, if_pos ha]
  · have : ¬ coveredAttr u { i with attrs := i.attrs.map (fun a => if coveredAttr u i a then { a with value := f a.value } else a) }
        a = true := ha
    rw [if_neg ha, if_neg this, if_neg ha]

theorem mapCovered_value (f : Str → Str) {i : Info} (h : isA u c!"THE-VALUE" i = true) : mapCovered u f i = i := by
  have h1 := isA_name (name' := c!"SPECIFICATION") h (by decide)
  have h2 := isA_name (name' := c!"ATTRIBUTE-VALUE-STRING") h (by decide)
  have hc : ∀ a, coveredAttr u i a = false := by intro a; simp [coveredAttr, h1, h2]
  unfold mapCovered
  simp [hc]

theorem anonymizeString_chars (hash : Str → Nat) (s : Str) :
    ∀ c ∈ anonymizeString hash s, escChar c = [c] := by
  intro c hc
  unfold anonymizeString at hc
  rcases List.mem_append.mp hc with hc | hc
  · rcases List.mem_append.mp hc with hc | hc
    · have : ∀ d ∈ c!"...Anonymized-", escChar d = [d] := by decide
      exact this c hc
    · have hd := Nat.isDigit_of_mem_toDigits (by decide) (by decide) hc
      have h : ∀ d : Char, d.isDigit = false → c ≠ d := by
        rintro d h rfl
        rw [h] at hd
        cases hd
      unfold escChar
      rw [if_neg (h _ (by decide)), if_neg (h _ (by decide)), if_neg (h _ (by decide)), if_neg (h _ (by decide)),
        if_neg (h _ (by decide)), if_neg (h _ (by decide)), if_neg (h _ (by decide))]
  · have : ∀ d ∈ c!"...", escChar d = [d] := by decide
    exact this c hc

/-- An anonymized text needs no escaping. -/
theorem escape_anonymized (hash : Str → Nat) (s : Str) :
    lxmlEscapeForHtml (anonymizeString hash s) = anonymizeString hash s := by
  rw [lxmlEscape_eq, escape]
  have h := anonymizeString_chars hash s
  generalize anonymizeString hash s = t at h
  induction t with
  | nil => rfl
  | cons c t ih =>
    rw [List.flatMap_cons, h c (by simp), ih (fun d hd => h d (by simp [hd]))]
    rfl

theorem anonymizeString_anonymized (hash : Str → Nat) (s : Str) : Anonymized (anonymizeString hash s) :=
  ⟨hash s % 10 ^ 10, Nat.mod_lt _ (by decide), rfl⟩

/-- What the last pass makes of a document whose other strings are replaced. -/
structure Xhtml (u : Str) (hash : Str → Nat) (p : Option Info) (x r : List Node) : Prop where
  mask : maskList u p r = maskList u p x
  covered : coveredList u p r = (coveredAfterList u (anonymizeString hash) p x).map (pyMap (anonymizeString hash))
  ok : ∀ s ∈ coveredAfterList u (anonymizeString hash) p x, ∃ t, s = .ok t

mutual
theorem xhtml_node (hash : Str → Nat) (p : Option Info) (x r : Node)
    (h : anonXhtml hash u (p.any (isA u c!"ATTRIBUTE-VALUE-XHTML"))
      (rewriteTexts u (anonymizeString hash) p x) = .ok r) : Xhtml u hash p [x] [r] := by
  cases x with
  | text s => cases h; exact ⟨rfl, rfl, by simp [coveredAfterList, coveredAfter]⟩
  | comment s => cases h; exact ⟨rfl, rfl, by simp [coveredAfterList, coveredAfter]⟩
  | pi t d => cases h; exact ⟨rfl, rfl, by simp [coveredAfterList, coveredAfter]⟩
  | elem i ks =>
    simp only [rewriteTexts, anonXhtml, inNs_eq, isA_mapCovered] at h
    by_cases hx : xhtmlValue u p i = true
    · have hv : isA u c!"THE-VALUE" i = true := by
        simp only [xhtmlValue, Bool.and_eq_true] at hx; exact hx.2
      have hh : headerText u p i = false := by
        simp [headerText, isA_name (name' := c!"COMMENT") hv (by decide), isA_name (name' := c!"TITLE") hv (by decide)]
      rw [if_pos (by simpa [xhtmlValue] using hx), hh, if_neg (by simp), mapCovered_value _ hv] at h
      have hca : ∀ a, coveredAttr u i a = false := by
        intro a
        simp [coveredAttr, isA_name (name' := c!"SPECIFICATION") hv (by decide),
          isA_name (name' := c!"ATTRIBUTE-VALUE-STRING") hv (by decide)]
      have hfil : i.attrs.filter (coveredAttr u i) = [] := by simp [hca]
      cases hs : stringifyNamespacedChildren
          (.elem i (rewriteTextsList u (anonymizeString hash) (some i) ks)) with
      | error e => rw [hs] at h; cases h
      | ok s =>
        rw [hs] at h
        cases h
        refine ⟨?_, ?_, ?_⟩
        · simp only [maskList, Spec.mask, hx, if_true]
        · simp only [coveredList, Spec.covered, coveredAfterList, coveredAfter, hx, if_true, hfil, List.map_nil,
            List.nil_append, List.append_nil, hs, List.map_cons, pyMap]
          unfold stringifyNamespacedChildren at hs ⊢
          by_cases hn : (Node.elem i (rewriteTextsList u (anonymizeString hash) (some i) ks)).nsmap.isEmpty = true
          · rw [if_pos hn] at hs; cases hs
          · have hn' : ¬ (Node.elem i [.text (anonymizeString hash s)]).nsmap.isEmpty = true := hn
            rw [if_neg hn']
            simp only [Node.kids, stringifyNsKids, stringifyNsNode, escape_anonymized, List.append_nil]
        · simp only [coveredAfterList, coveredAfter, hx, if_true, hfil, List.map_nil,
            List.nil_append, List.append_nil, hs, List.mem_singleton]
          rintro _ rfl
          exact ⟨s, rfl⟩
    · rw [if_neg (by simpa [xhtmlValue] using hx)] at h
      have hany : isA u c!"ATTRIBUTE-VALUE-XHTML" i = (some i).any (isA u c!"ATTRIBUTE-VALUE-XHTML") := rfl
      rw [hany] at h
      have hx' : xhtmlValue u p (mapCovered u (anonymizeString hash) i) = false := by
        have : ¬ xhtmlValue u p (mapCovered u (anonymizeString hash) i) = true := hx
        simpa using this
      have hx2 : xhtmlValue u p i = false := by simpa using hx
      by_cases hh : headerText u p i = true
      · have hh' : headerText u p (mapCovered u (anonymizeString hash) i) = true := hh
        rw [if_pos hh, anonXhtmlList_mapLeading] at h
        cases hk : anonXhtmlList hash u ((some i).any (isA u c!"ATTRIBUTE-VALUE-XHTML"))
            (rewriteTextsList u (anonymizeString hash) (some i) ks) with
        | error e => rw [hk] at h; cases h
        | ok ks2 =>
          rw [hk] at h
          cases h
          obtain ⟨im, ic, io⟩ := xhtml_list hash (some i) ks ks2 hk
          have hl : leadingText ks2 = leadingText ks := by
            rw [anonXhtmlList_leading hk, rewriteTextsList_leading]
          refine ⟨?_, ?_, ?_⟩
          · simp only [maskList, Spec.mask, hx2, hx', hh, hh', if_true, Bool.false_eq_true, if_false,
              maskList_mapCovered, maskList_mapLeading, mapLeading_mapLeading, mapCovered_mask, im]
          · simp only [coveredList, Spec.covered, coveredAfterList, coveredAfter, hx2, hx', hh, hh', if_true,
              Bool.false_eq_true, if_false, coveredList_mapCovered, coveredList_mapLeading, ic,
              leadingText_mapLeading, hl, coveredAttrs_mapCovered, List.map_append, List.append_nil]
          · simp only [coveredAfterList, coveredAfter, hx2, hh, if_true, Bool.false_eq_true, if_false, List.append_nil]
            intro s hs
            rcases List.mem_append.mp hs with hs | hs
            · obtain ⟨a, _, rfl⟩ := List.mem_map.mp hs
              exact ⟨_, rfl⟩
            · rcases List.mem_append.mp hs with hs | hs
              · unfold leadingText at hs
                split at hs
                · simp only [List.mem_singleton] at hs; exact ⟨_, hs⟩
                · cases hs
              · exact io s hs
      · have hh2 : headerText u p i = false := by simpa using hh
        have hh' : headerText u p (mapCovered u (anonymizeString hash) i) = false := hh2
        rw [if_neg hh] at h
        cases hk : anonXhtmlList hash u ((some i).any (isA u c!"ATTRIBUTE-VALUE-XHTML"))
            (rewriteTextsList u (anonymizeString hash) (some i) ks) with
        | error e => rw [hk] at h; cases h
        | ok ks2 =>
          rw [hk] at h
          cases h
          obtain ⟨im, ic, io⟩ := xhtml_list hash (some i) ks ks2 hk
          refine ⟨?_, ?_, ?_⟩
          · simp only [maskList, Spec.mask, hx2, hx', hh2, hh', Bool.false_eq_true, if_false,
              maskList_mapCovered, mapCovered_mask, im]
          · simp only [coveredList, Spec.covered, coveredAfterList, coveredAfter, hx2, hx', hh2, hh',
              Bool.false_eq_true, if_false, coveredList_mapCovered, ic,
              coveredAttrs_mapCovered, List.map_append, List.append_nil, List.nil_append]
          · simp only [coveredAfterList, coveredAfter, hx2, hh2, Bool.false_eq_true, if_false, List.append_nil, List.nil_append]
            intro s hs
            rcases List.mem_append.mp hs with hs | hs
            · obtain ⟨a, _, rfl⟩ := List.mem_map.mp hs
              exact ⟨_, rfl⟩
            · exact io s hs

theorem xhtml_list (hash : Str → Nat) (p : Option Info) (xs rs : List Node)
    (h : anonXhtmlList hash u (p.any (isA u c!"ATTRIBUTE-VALUE-XHTML"))
      (rewriteTextsList u (anonymizeString hash) p xs) = .ok rs) : Xhtml u hash p xs rs := by
  cases xs with
  | nil => cases h; exact ⟨rfl, rfl, by simp [coveredAfterList]⟩
  | cons x xs =>
    simp only [rewriteTextsList, anonXhtmlList] at h
    cases ha : anonXhtml hash u (p.any (isA u c!"ATTRIBUTE-VALUE-XHTML"))
        (rewriteTexts u (anonymizeString hash) p x) with
    | error e => rw [ha] at h; cases h
    | ok y =>
      rw [ha] at h
      dsimp only at h
      cases hb : anonXhtmlList hash u (p.any (isA u c!"ATTRIBUTE-VALUE-XHTML"))
          (rewriteTextsList u (anonymizeString hash) p xs) with
      | error e => rw [hb] at h; cases h
      | ok ys =>
        rw [hb] at h
        cases h
        obtain ⟨m1, c1, o1⟩ := xhtml_node hash p x y ha
        obtain ⟨m2, c2, o2⟩ := xhtml_list hash p xs ys hb
        simp only [maskList, coveredList, coveredAfterList, List.append_nil, List.cons.injEq, and_true] at m1 c1 o1
        refine ⟨?_, ?_, ?_⟩
        · simp only [maskList, m1, m2]
        · simp only [coveredList, coveredAfterList, c1, c2, List.map_append]
        · simp only [coveredAfterList]
          intro s hs
          rcases List.mem_append.mp hs with hs | hs
          · exact o1 s hs
          · exact o2 s hs
end

/-! ## C52, C53, C55 -/

theorem anonymizeTree_inv {hash : Str → Nat} {root r : Node} (h : anonymizeTree hash root = .ok r) :
    ∃ u, root.nsmap.get? none = some u ∧ Xhtml u hash none [root] [r] := by
  unfold anonymizeTree at h
  cases hu : root.nsmap.get? none with
  | none => rw [hu] at h; cases h
  | some u =>
    rw [hu] at h
    dsimp only at h
    cases h1 : anonText hash u c!"COMMENT" false root with
    | error e => rw [h1] at h; cases h
    | ok r1 =>
      rw [h1] at h
      dsimp only at h
      cases h2 : anonText hash u c!"TITLE" false r1 with
      | error e => rw [h2] at h; cases h
      | ok r2 =>
        rw [h2] at h
        dsimp only at h
        rw [texts_node (u := u) hash none root r1 r2 h1 h2] at h
        exact ⟨u, rfl, xhtml_node hash none root r h⟩

theorem anonymize_inv {hash : Str → Nat} {print : Doc → Str} {bytes : ByteArray} {text : Str}
    (h : anonymize hash print (.ok bytes) = .ok text) :
    ∃ d u r, AnonymizedTo print bytes text d u r ∧ anonymizeTree hash d.root = .ok r ∧
      Xhtml u hash none [d.root] [r] := by
  unfold anonymize at h
  dsimp only at h
  cases hs : decodeUtf8 bytes with
  | error e => rw [hs] at h; cases h
  | ok s =>
    rw [hs] at h
    dsimp only at h
    cases hd : readDoc (normEol s) with
    | none => rw [hd] at h; cases h
    | some d =>
      rw [hd] at h
      dsimp only at h
      cases hr : anonymizeTree hash d.root with
      | error e => rw [hr] at h; cases h
      | ok r =>
        rw [hr] at h
        cases h
        obtain ⟨u, hu, hx⟩ := anonymizeTree_inv hr
        exact ⟨d, u, r, ⟨⟨s, hs, hd⟩, hu, rfl⟩, hr, hx⟩

/-- **C52.** In the printed document every header comment and title, every
specification long name, every STRING value and every XHTML value is an anonymized
string. -/
theorem C52_replaced (hash : Str → Nat) (print : Doc → Str) (bytes : ByteArray) (text : Str)
    (h : anonymize hash print (.ok bytes) = .ok text) :
    ∃ d u r, AnonymizedTo print bytes text d u r ∧ ∀ s ∈ covered u none r, ∃ t, s = .ok t ∧ Anonymized t := by
  obtain ⟨d, u, r, ha, _, _, hc, ho⟩ := anonymize_inv h
  refine ⟨d, u, r, ha, fun s hs => ?_⟩
  simp only [coveredList, List.append_nil] at hc
  rw [hc] at hs
  obtain ⟨s', hs', rfl⟩ := List.mem_map.mp hs
  obtain ⟨t, rfl⟩ := ho s' hs'
  exact ⟨_, rfl, anonymizeString_anonymized hash t⟩

/-- **C55.** The printed document is the one that was read, apart from the covered
strings. -/
theorem C55_rest (hash : Str → Nat) (print : Doc → Str) (bytes : ByteArray) (text : Str)
    (h : anonymize hash print (.ok bytes) = .ok text) :
    ∃ d u r, AnonymizedTo print bytes text d u r ∧ mask u none r = mask u none d.root := by
  obtain ⟨d, u, r, ha, _, hm, _, _⟩ := anonymize_inv h
  simp only [maskList, List.cons.injEq, and_true] at hm
  exact ⟨d, u, r, ha, hm⟩

mutual
theorem coveredAfter_noNesting (f : Str → Str) (p : Option Info) (x : Node) (h : NoNesting u p x) :
    coveredAfter u f p x = covered u p x := by
  cases x with
  | text s => rfl
  | comment s => rfl
  | pi t d => rfl
  | elem i ks =>
    simp only [NoNesting] at h
    simp only [coveredAfter, covered]
    by_cases hx : xhtmlValue u p i = true
    · rw [if_pos hx] at h
      rw [if_pos hx, if_pos hx, h f]
    · rw [if_neg hx] at h
      rw [if_neg hx, if_neg hx, coveredAfterList_noNesting f (some i) ks h]

theorem coveredAfterList_noNesting (f : Str → Str) (p : Option Info) (xs : List Node) (h : NoNestingList u p xs) :
    coveredAfterList u f p xs = coveredList u p xs := by
  cases xs with
  | nil => rfl
  | cons x xs =>
    simp only [NoNestingList] at h
    simp only [coveredAfterList, coveredList, coveredAfter_noNesting f p x h.1, coveredAfterList_noNesting f p xs h.2]
end

/-- **C53**, for every document: one function of the string alone gives the
replacement at each place; the string of an XHTML value is its content as it is when
the covered strings inside it, if any, are replaced. -/
theorem C53_function (hash : Str → Nat) (print : Doc → Str) (bytes : ByteArray) (text : Str)
    (h : anonymize hash print (.ok bytes) = .ok text) :
    ∃ d u r, AnonymizedTo print bytes text d u r ∧
      ∃ strings : List Str, coveredAfter u (anonymizeString hash) none d.root = strings.map .ok ∧
        covered u none r = strings.map (fun s => .ok (anonymizeString hash s)) ∧
        (NoNesting u none d.root → covered u none d.root = strings.map .ok) := by
  obtain ⟨d, u, r, ha, _, _, hc, ho⟩ := anonymize_inv h
  simp only [coveredList, coveredAfterList, List.append_nil] at hc ho
  have key : ∀ l : List (Py Str), (∀ s ∈ l, ∃ t, s = .ok t) → ∃ ts : List Str, l = ts.map .ok := by
    intro l hl
    induction l with
    | nil => exact ⟨[], rfl⟩
    | cons s l ih =>
      obtain ⟨t, rfl⟩ := hl s (by simp)
      obtain ⟨ts, rfl⟩ := ih (fun s hs => hl s (by simp [hs]))
      exact ⟨t :: ts, rfl⟩
  obtain ⟨ts, hts⟩ := key _ ho
  refine ⟨d, u, r, ha, ts, hts, ?_, fun hn => ?_⟩
  · rw [hc, hts, List.map_map]
    rfl
  · rw [← coveredAfter_noNesting (anonymizeString hash) none d.root hn, hts]

/-- **C53.** Equal covered strings are replaced by equal strings, and different
replacements come from different strings, in whatever places they stand. -/
theorem C53_consistent (hash : Str → Nat) (print : Doc → Str) (bytes : ByteArray) (text : Str)
    (h : anonymize hash print (.ok bytes) = .ok text) :
    ∃ d u r, AnonymizedTo print bytes text d u r ∧
      (NoNesting u none d.root →
        (covered u none r).length = (covered u none d.root).length ∧
        ∀ i j : Nat, (covered u none d.root)[i]? = (covered u none d.root)[j]? →
          (covered u none r)[i]? = (covered u none r)[j]?) := by
  obtain ⟨d, u, r, ha, ts, _, hr, hn⟩ := C53_function hash print bytes text h
  refine ⟨d, u, r, ha, fun hh => ?_⟩
  rw [hr, hn hh]
  refine ⟨by simp, fun i j hij => ?_⟩
  simp only [List.getElem?_map] at hij ⊢
  cases hi : ts[i]? with
  | none => cases hj : ts[j]? with
    | none => rfl
    | some y => rw [hi, hj] at hij; cases hij
  | some x => cases hj : ts[j]? with
    | none => rw [hi, hj] at hij; cases hij
    | some y => rw [hi, hj] at hij; simp only [Option.map_some, Option.some.injEq, Except.ok.injEq] at hij ⊢; rw [hij]

/-! ## C54 -/

theorem anonymizeString_inj {hash : Str → Nat} {s t : Str} :
    anonymizeString hash s = anonymizeString hash t ↔ hash s % 10 ^ 10 = hash t % 10 ^ 10 := by
  unfold anonymizeString
  constructor
  · intro h
    have h1 := List.append_cancel_right h
    have h2 := List.append_cancel_left h1
    have h3 := congrArg (fun l => Nat.ofDigitChars 10 l 0) h2
    simp only [Nat.ofDigitChars_ten_toDigits] at h3
    exact h3
  · intro h
    rw [h]

/-- More strings than numbers: two of them share their number. -/
theorem collision (N : Nat) (hN : 0 < N) (g : Str → Nat) :
    ∃ m n, m ≠ n ∧ g (List.replicate m 'a') % N = g (List.replicate n 'a') % N := by
  refine Classical.byContradiction fun hno => ?_
  have hinj : ∀ m n, g (List.replicate m 'a') % N = g (List.replicate n 'a') % N → m = n := by
    intro m n h
    refine Classical.byContradiction fun hne => hno ⟨m, n, hne, h⟩
  have hnd : ((List.range (N + 1)).map (fun m => g (List.replicate m 'a') % N)).Nodup := by
    refine List.pairwise_map.mpr ?_
    exact (List.nodup_range (n := N + 1)).imp (fun hne h => hne (hinj _ _ h))
  have hsub : (List.range (N + 1)).map (fun m => g (List.replicate m 'a') % N) ⊆ List.range N := by
    intro x hx
    obtain ⟨m, _, rfl⟩ := List.mem_map.mp hx
    exact List.mem_range.mpr (Nat.mod_lt _ hN)
  have := List.Nodup.length_le_of_subset hnd hsub
  simp at this
  omega

/-- A document with two specifications that differ in their names. -/
def twoSpecs (s t : Str) : Src :=
  .elem c!"REQ-IF" [(c!"xmlns", c!"u")]
    [.elem c!"SPECIFICATION" [(c!"LONG-NAME", s)] [], .elem c!"SPECIFICATION" [(c!"LONG-NAME", t)] []]

/-- The tree it stands for. -/
def twoSpecsTree (s t : Str) : Node :=
  .elem ⟨some c!"u", none, c!"REQ-IF", [(none, c!"u")], [(none, c!"u")], []⟩
    [.elem ⟨some c!"u", none, c!"SPECIFICATION", [], [(none, c!"u")], [⟨none, none, c!"LONG-NAME", s⟩]⟩ [],
     .elem ⟨some c!"u", none, c!"SPECIFICATION", [], [(none, c!"u")], [⟨none, none, c!"LONG-NAME", t⟩]⟩ []]

theorem plainAttr_replicate (n : Nat) : PlainAttr (List.replicate n 'a') := by
  intro c hc
  rw [List.eq_of_mem_replicate hc]
  decide

theorem readDoc_twoSpecs {s t : Str} (hs : PlainAttr s) (ht : PlainAttr t) :
    readDoc (declText ++ (twoSpecs s t).render ++ c!"\n") =
      some ⟨some ⟨some c!"UTF-8"⟩, [twoSpecsTree s t], twoSpecsTree s t⟩ := by
  have hq : ∀ v, PlainAttr v → v.contains '"' = false := by
    intro v hv
    simp only [List.contains_eq_mem, decide_eq_false_iff_not]
    intro hm
    exact (hv _ hm).2.2.2.1 rfl
  have hr : ∀ v, PlainAttr v → '\r' ∉ v := fun v hv hm => (hv _ hm).2.2.2.2.2.2 rfl
  have hu : PlainAttr c!"u" := by unfold PlainAttr; decide
  have q1 : isQName c!"REQ-IF" = true := by decide
  have q2 : isQName c!"SPECIFICATION" = true := by decide
  have q3 : isQName c!"LONG-NAME" = true := by decide
  have q4 : isQName c!"xmlns" = true := by decide
  have hlex : (twoSpecs s t).lexOk = true := by
    simp only [twoSpecs, Src.lexOk, lexOkList, List.all_cons, List.all_nil, attrLexOk, hq s hs, hq t ht, hq _ hu,
      q1, q2, q3, q4]
    rfl
  have hcr : '\r' ∉ (twoSpecs s t).render := by
    simp [twoSpecs, Src.render, renderList, attrsText, hr s hs, hr t ht]
  rw [readDoc_decl (twoSpecs s t) rfl hlex hcr]
  simp only [twoSpecs, Src.eval, decodeAttrs, decodeAttr_plain hs, decodeAttr_plain ht, decodeAttr_plain hu,
    evalKids, execList, Src.exec, flushK]
  rfl

theorem decodeUtf8_encode (s : Str) : decodeUtf8 s.utf8Encode = .ok s := by
  simp [decodeUtf8, List.utf8Decode?_utf8Encode]

/-- **C54**, where the README's claim fails: whatever the hash, there is a document
with two different covered strings that anonymization makes equal. -/
theorem C54_collision (hash : Str → Nat) (print : Doc → Str) :
    ∃ (bytes : ByteArray) (text : Str) (d : Doc) (u : Str) (r : Node) (s t : Str),
      anonymize hash print (.ok bytes) = .ok text ∧ AnonymizedTo print bytes text d u r ∧
      s ≠ t ∧ covered u none d.root = [.ok s, .ok t] ∧ ∃ x, covered u none r = [.ok x, .ok x] := by
  obtain ⟨m, n, hne, hh⟩ := collision (10 ^ 10) (by decide) hash
  have hx := anonymizeString_inj.mpr hh
  have hst : List.replicate m 'a' ≠ List.replicate n 'a' := by
    intro h
    have := congrArg List.length h
    simp only [List.length_replicate] at this
    exact hne this
  have hd := readDoc_twoSpecs (plainAttr_replicate m) (plainAttr_replicate n)
  have hn : '\r' ∉ declText ++ (twoSpecs (List.replicate m 'a') (List.replicate n 'a')).render ++ c!"\n" := by
    have : ∀ k, '\r' ∉ List.replicate k 'a' := fun k h => absurd (List.eq_of_mem_replicate h) (by decide)
    simp [declText, twoSpecs, Src.render, renderList, attrsText]
  generalize List.replicate m 'a' = s at *
  generalize List.replicate n 'a' = t at *
  have hr : anonymizeTree hash (twoSpecsTree s t) =
      .ok (twoSpecsTree (anonymizeString hash s) (anonymizeString hash t)) := rfl
  refine ⟨(declText ++ (twoSpecs s t).render ++ c!"\n").utf8Encode, _,
    ⟨some ⟨some c!"UTF-8"⟩, [twoSpecsTree s t], twoSpecsTree s t⟩, c!"u",
    twoSpecsTree (anonymizeString hash s) (anonymizeString hash t), s, t, ?_,
    ⟨⟨_, decodeUtf8_encode _, ?_⟩, rfl, rfl⟩, hst, rfl, anonymizeString hash t, ?_⟩
  · simp only [anonymize, decodeUtf8_encode, normEol_of_noCr hn, hd, hr]
  · rw [normEol_of_noCr hn, hd]
  · rw [hx]
    rfl

/-- **C54**, where it holds: if the numbers of different strings differ, then
different strings stay different. -/
theorem C54_unique (hash : Str → Nat) (print : Doc → Str) (bytes : ByteArray) (text : Str)
    (h : anonymize hash print (.ok bytes) = .ok text) :
    ∃ d u r, AnonymizedTo print bytes text d u r ∧
      (NoNesting u none d.root →
        (∀ s t, .ok s ∈ covered u none d.root → .ok t ∈ covered u none d.root →
          hash s % 10 ^ 10 = hash t % 10 ^ 10 → s = t) →
        ∀ i j : Nat, (covered u none r)[i]? = (covered u none r)[j]? →
          (covered u none d.root)[i]? = (covered u none d.root)[j]?) := by
  obtain ⟨d, u, r, ha, ts, _, hr, hn⟩ := C53_function hash print bytes text h
  refine ⟨d, u, r, ha, fun hh hinj i j => ?_⟩
  rw [hn hh] at hinj ⊢
  rw [hr]
  simp only [List.getElem?_map]
  intro hij
  cases hi : ts[i]? with
  | none => cases hj : ts[j]? with
    | none => rfl
    | some y => rw [hi, hj] at hij; cases hij
  | some x => cases hj : ts[j]? with
    | none => rw [hi, hj] at hij; cases hij
    | some y =>
      rw [hi, hj] at hij
      simp only [Option.map_some, Option.some.injEq, Except.ok.injEq] at hij ⊢
      exact hinj x y (List.mem_map.mpr ⟨x, List.mem_of_getElem? hi, rfl⟩)
        (List.mem_map.mpr ⟨y, List.mem_of_getElem? hj, rfl⟩) (anonymizeString_inj.mp hij)

/-! ## What is refused -/

/-- A document without default namespace is refused. -/
theorem anonymize_noNamespace (hash : Str → Nat) (root : Node) (h : root.nsmap.get? none = none) :
    anonymizeTree hash root = .error .keyError := by
  unfold anonymizeTree
  rw [h]

/-- A document whose header has an empty comment or title is refused: an
`AttributeError` comes out of the command. -/
theorem anonymize_emptyComment (hash : Str → Nat) :
    anonymizeTree hash
      (.elem ⟨some c!"u", none, c!"REQ-IF-HEADER", [(none, c!"u")], [(none, c!"u")], []⟩
        [.elem ⟨some c!"u", none, c!"COMMENT", [], [(none, c!"u")], []⟩ []]) = .error .attributeError := rfl

/-! ## Examples -/

/-- A document with each kind of covered string, and a SPEC-OBJECT name that is not
covered. -/
def anonEx : Str :=
  c!"<REQ-IF xmlns=\"u\" xmlns:x=\"http://www.w3.org/1999/xhtml\"><THE-HEADER><REQ-IF-HEADER><COMMENT>abc</COMMENT><TITLE>t</TITLE></REQ-IF-HEADER></THE-HEADER>" ++
  c!"<SPECIFICATION LONG-NAME=\"abc\" DESC=\"d\"/><SPEC-OBJECT LONG-NAME=\"n\"><ATTRIBUTE-VALUE-STRING THE-VALUE=\"t\"/>" ++
  c!"<ATTRIBUTE-VALUE-XHTML><THE-VALUE><x:div>a&amp;<x:b/></x:div></THE-VALUE></ATTRIBUTE-VALUE-XHTML></SPEC-OBJECT></REQ-IF>"

set_option maxRecDepth 20000 in
/-- It is accepted, holds five strings, none of them inside another, and two pairs of
equal ones. -/
example : (match readDoc anonEx with
    | none => false
    | some d =>
      (match covered c!"u" none d.root with
        | [.ok a, .ok b, .ok c, .ok e, .ok x] =>
          decide (a = c!"abc" ∧ b = c!"t" ∧ c = c!"abc" ∧ e = c!"t" ∧ x = c!"<None:div>a&amp;<None:b/></None:div>")
        | _ => false) &&
      (match anonymizeTree List.length d.root with
        | .ok r =>
          match covered c!"u" none r with
          | [.ok a, .ok b, .ok c, .ok e, .ok x] =>
            decide (a = c!"...Anonymized-3..." ∧ b = c!"...Anonymized-1..." ∧ c = a ∧ e = b ∧ x = c!"...Anonymized-36...")
          | _ => false
        | .error _ => false)) = true := by
  decide +kernel

/-- A tree with an XHTML value that holds none of the other covered strings. -/
example : NoNesting c!"u" none
    (.elem ⟨some c!"u", none, c!"ATTRIBUTE-VALUE-XHTML", [(none, c!"u")], [(none, c!"u")], []⟩
      [.elem ⟨some c!"u", none, c!"THE-VALUE", [], [(none, c!"u")], []⟩
        [.elem ⟨some xhtmlNs, some c!"x", c!"div", [], [(none, c!"u")], [⟨none, none, c!"class", c!"c"⟩]⟩
          [.text c!"a&"]]]) := by
  simp only [NoNesting, NoNestingList]
  exact ⟨fun f => rfl, trivial⟩

end ReqIF
