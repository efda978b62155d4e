import Verif.Proofs.FormatTree
import Verif.Proofs.Bare
import Verif.Model.FromXhtml
import Verif.Spec.FromXhtml
/-! Elements printed as a Python string are read back. -/
set_option linter.unusedSimpArgs false
namespace ReqIF.Format
open Spec ReqIF.Xsd

/-! ## Hexadecimal references -/

theorem readDigits_append {b : Nat} {val : Char → Option Nat} : ∀ (s t : Str) (acc : Nat),
    readDigits b val acc (s ++ t) = (readDigits b val acc s).bind (fun a => readDigits b val a t)
  | [], t, acc => by rw [readDigits]; rfl
  | c :: s, t, acc => by
    rw [List.cons_append, readDigits, readDigits]
    cases val c with
    | none => rfl
    | some d => exact readDigits_append s t _

theorem hexDigit_back : ∀ d : Nat, d < 16 → hexVal (Nat.digitChar d).toUpper = some d := by decide

theorem readDigits_hex (n : Nat) : readDigits 16 hexVal 0 ((Nat.toDigits 16 n).map Char.toUpper) = some n := by
  induction n using Nat.strongRecOn with
  | ind n ih =>
    rw [Nat.toDigits_eq_if (by decide)]
    split
    · rename_i h
      simp only [List.map_cons, List.map_nil, readDigits, hexDigit_back n h]
      simp
    · rename_i h
      have := ih (n / 16) (Nat.div_lt_self (by omega) (by decide))
      rw [List.map_append, readDigits_append, this]
      simp only [List.map_cons, List.map_nil, Option.bind_some, readDigits, hexDigit_back (n % 16) (Nat.mod_lt n (by decide))]
      congr 1
      omega

theorem hexDigit_mem (n : Nat) : ∀ c ∈ (Nat.toDigits 16 n).map Char.toUpper, ∃ d, d < 16 ∧ c = (Nat.digitChar d).toUpper := by
  induction n using Nat.strongRecOn with
  | ind n ih =>
    rw [Nat.toDigits_eq_if (by decide)]
    split
    · rename_i h
      intro c hc
      simp only [List.map_cons, List.map_nil, List.mem_singleton] at hc
      exact ⟨n, h, hc⟩
    · rename_i h
      intro c hc
      rw [List.map_append, List.mem_append] at hc
      rcases hc with hc | hc
      · exact ih (n / 16) (Nat.div_lt_self (by omega) (by decide)) c hc
      · simp only [List.map_cons, List.map_nil, List.mem_singleton] at hc
        exact ⟨n % 16, Nat.mod_lt n (by decide), hc⟩

theorem hexDigit_not {x : Char} (h : ∀ d, d < 16 → x ≠ (Nat.digitChar d).toUpper) (n : Nat) : x ∉ (Nat.toDigits 16 n).map Char.toUpper := by
  intro hm
  obtain ⟨d, hd, e⟩ := hexDigit_mem n x hm
  exact h d hd e

theorem entityChar_hex (c : Char) : entityChar (c!"#x" ++ (Nat.toDigits 16 c.toNat).map Char.toUpper) = textBack c := by
  have hr := readDigits_hex c.toNat
  have hne : (Nat.toDigits 16 c.toNat).map Char.toUpper ≠ [] := by
    intro e
    exact Nat.toDigits_ne_nil (List.map_eq_nil_iff.1 e)
  generalize (Nat.toDigits 16 c.toNat).map Char.toUpper = l at hr hne
  cases l with
  | nil => exact absurd rfl hne
  | cons d ds =>
    have h1 : ∀ s : Str, s.head? ≠ some '#' → c!"#x" ++ d :: ds ≠ s := by
      rintro s hs rfl
      exact hs rfl
    unfold entityChar
    rw [if_neg (h1 _ (by decide)), if_neg (h1 _ (by decide)), if_neg (h1 _ (by decide)), if_neg (h1 _ (by decide)),
      if_neg (h1 _ (by decide))]
    have : charOfCode c.toNat = textBack c := by
      have hv : c.toNat.isValidChar := c.valid
      unfold charOfCode
      rw [if_pos hv, Char.ofNat_toNat]
      rfl
    show (readDigits 16 hexVal 0 (d :: ds)).bind charOfCode = textBack c
    rw [hr]
    exact this

/-! ## Texts and attribute values -/

theorem serTextChar_notMem (c : Char) : '<' ∉ serTextChar c ∧ '>' ∉ serTextChar c ∧ '\r' ∉ serTextChar c := by
  unfold serTextChar
  by_cases h1 : c = '&'; · subst h1; decide
  by_cases h2 : c = '<'; · subst h2; decide
  by_cases h3 : c = '>'; · subst h3; decide
  by_cases h4 : c = '\r'; · subst h4; decide
  simp only [h1, h2, h3, h4, if_false, List.mem_singleton]
  exact ⟨fun e => h2 e.symm, fun e => h3 e.symm, fun e => h4 e.symm⟩

theorem serTextChar_ne (c : Char) : serTextChar c ≠ [] := by
  unfold serTextChar
  repeat' split
  all_goals simp

theorem decodeText_ser {s : Str} (h : ∀ c ∈ s, isXmlChar c = true) : decodeText (serText s) = some s := by
  unfold serText
  have h0 : containsStr c!"]]>" (s.flatMap serTextChar) = false :=
    containsStr_of_notMem (x := '>') (by decide) (mem_flatMap_notMem (fun c => (serTextChar_notMem c).2.1) s)
  unfold decodeText
  rw [h0]
  have key : decodeGo litText none (s.flatMap serTextChar) = mapChars textBack s := by
    refine decodeGo_flatMap _ _ _ ?_ s
    intro c rest
    unfold serTextChar
    by_cases h1 : c = '&'; · subst h1; rfl
    by_cases h2 : c = '<'; · subst h2; rfl
    by_cases h3 : c = '>'; · subst h3; rfl
    by_cases h4 : c = '\r'; · subst h4; rfl
    simp only [h1, h2, h3, h4, if_false]
    rw [decodeGo_lit _ _ h1]
    have : litText c = textBack c := by
      unfold litText textBack
      by_cases h9 : isXmlChar c = true
      · simp [h2, h9]
      · simp [h9]
    rw [this]
  simp only [Bool.false_eq_true, if_false]
  rw [key]
  exact mapChars_eq_self.2 (fun c hc => by simp [textBack, h c hc])

theorem uniAttrChar_notMem (b : Bool) (c : Char) : '"' ∉ uniAttrChar b c ∧ '\r' ∉ uniAttrChar b c := by
  unfold uniAttrChar
  by_cases h1 : c = '&'; · subst h1; cases b <;> decide
  by_cases h2 : c = '<'; · subst h2; cases b <;> decide
  by_cases h3 : c = '>'; · subst h3; cases b <;> decide
  by_cases h4 : c = '"'; · subst h4; cases b <;> decide
  by_cases h5 : c = '\n'; · subst h5; cases b <;> decide
  by_cases h6 : c = '\r'; · subst h6; cases b <;> decide
  by_cases h7 : c = '\t'; · subst h7; cases b <;> decide
  simp only [h1, h2, h3, h4, h5, h6, h7, if_false]
  split
  · simp only [List.mem_singleton]
    exact ⟨fun e => h4 e.symm, fun e => h6 e.symm⟩
  · have a1 := hexDigit_not (x := '"') (by decide) c.toNat
    have a2 := hexDigit_not (x := '\r') (by decide) c.toNat
    unfold hexRef
    simp only [List.mem_append, not_or]
    exact ⟨⟨⟨by decide, a1⟩, by decide⟩, ⟨by decide, a2⟩, by decide⟩

theorem decodeAttr_uni {b : Bool} {s : Str} (h : ∀ c ∈ s, isXmlChar c = true) : decodeAttr (uniAttr b s) = some s := by
  unfold uniAttr
  have key : decodeAttr (s.flatMap (uniAttrChar b)) = mapChars textBack s := by
    refine decodeGo_flatMap _ _ _ ?_ s
    intro c rest
    unfold uniAttrChar
    by_cases h1 : c = '&'; · subst h1; rfl
    by_cases h2 : c = '<'; · subst h2; rfl
    by_cases h3 : c = '>'; · subst h3; rfl
    by_cases h4 : c = '"'; · subst h4; rfl
    by_cases h5 : c = '\n'; · subst h5; rfl
    by_cases h6 : c = '\r'; · subst h6; rfl
    by_cases h7 : c = '\t'; · subst h7; rfl
    simp only [h1, h2, h3, h4, h5, h6, h7, if_false]
    split
    · rw [decodeGo_lit _ _ h1]
      have : litAttr c = textBack c := by
        unfold litAttr textBack isWs
        by_cases h8 : c = ' '
        · subst h8; rfl
        · by_cases h9 : isXmlChar c = true
          · simp [h2, h5, h6, h7, h8, h9]
          · simp [h9]
      rw [this]
    · have hs : ';' ∉ c!"#x" ++ (Nat.toDigits 16 c.toNat).map Char.toUpper := by
        have := hexDigit_not (x := ';') (by decide) c.toNat
        rw [List.mem_append, not_or]
        exact ⟨by decide, this⟩
      have e : hexRef c.toNat ++ rest = '&' :: ((c!"#x" ++ (Nat.toDigits 16 c.toNat).map Char.toUpper) ++ ';' :: rest) := by
        unfold hexRef
        simp only [List.append_assoc]; rfl
      rw [e, decodeGo, if_pos rfl, decodeGo_pend hs]
      rw [List.reverse_nil, List.nil_append, entityChar_hex]
      cases textBack c <;> rfl
  rw [key]
  exact mapChars_eq_self.2 (fun c hc => by simp [textBack, h c hc])

theorem serText_line (l : Nat) : serText ('\n' :: indent l) = '\n' :: indent l := by
  unfold serText indent
  rw [List.flatMap_cons]
  generalize 2 * min l 30 = k
  have e : serTextChar '\n' = ['\n'] := by decide
  rw [e, List.singleton_append]
  congr 1
  induction k with
  | zero => rfl
  | succ k ih => rw [List.replicate_succ, List.flatMap_cons, ih]; rfl

/-- How `tostring` prints with `encoding=str`. -/
def uniPrinter (declared : Bool) : Printer where
  text := serText
  attr := uniAttr declared
  text_lt s := mem_flatMap_notMem (fun c => (serTextChar_notMem c).1) s
  text_cr s := mem_flatMap_notMem (fun c => (serTextChar_notMem c).2.2) s
  text_ne s hne := by
    cases s with
    | nil => exact absurd rfl hne
    | cons c s =>
      unfold serText
      rw [List.flatMap_cons]
      intro e
      exact serTextChar_ne c (List.append_eq_nil_iff.1 e).1
  text_back _ h := decodeText_ser h
  text_line := serText_line
  attr_quote s := mem_flatMap_notMem (fun c => (uniAttrChar_notMem declared c).1) s
  attr_cr s := mem_flatMap_notMem (fun c => (uniAttrChar_notMem declared c).2) s
  attr_back _ h := decodeAttr_uni h

/-! ## The printed tree -/

theorem uniDeclName_eq (p : Option Str) : uniDeclName p = declName p := by cases p <;> rfl

theorem uni_tag (b : Bool) (i : Info) :
    c!"<" ++ qnameOut i.pfx i.name ++ i.nsdefs.flatMap (fun d => uniAttrOut b (uniDeclName d.1) d.2) ++
      i.attrs.flatMap (fun a => uniAttrOut b (qnameOut a.pfx a.name) a.value) =
      '<' :: rawName i ++ attrsText ((uniPrinter b).attrs (rawAttrs i)) := by
  rw [← tag_attrs (uniPrinter b) i]
  have e : (fun d : Option Str × Str => uniAttrOut b (uniDeclName d.1) d.2) = fun d => attrOut (declName d.1) ((uniPrinter b).attr d.2) := by
    funext d; rw [uniDeclName_eq]; rfl
  have e2 : (fun a : Attr => uniAttrOut b (qnameOut a.pfx a.name) a.value) = fun a => attrOut (qnameOut a.pfx a.name) ((uniPrinter b).attr a.value) := by
    funext a; rfl
  rw [e, e2, List.append_assoc]
  rfl

theorem uni_line (b : Bool) (l : Nat) : (uniPrinter b).text ('\n' :: indent l) = '\n' :: indent l := serText_line l

mutual
theorem uni_plain (b : Bool) : ∀ (l : Nat) (n : Node), uniDump b false l n = src (uniPrinter b) n
  | l, .text s => by rw [uniDump, src]; rfl
  | l, .comment s => by rw [uniDump, src]
  | l, .pi t d => by rw [uniDump, src]
  | l, .elem i ks => by
    rw [uniDump, src, uni_tag]
    congr 1
    by_cases hk : ks = []
    · rw [if_pos hk, if_pos hk]
    · rw [if_neg hk, if_neg hk, Bool.false_and, if_neg (by decide), uniKids_plain b (l + 1) ks]
      rfl

theorem uniKids_plain (b : Bool) : ∀ (l : Nat) (ns : List Node), uniDumpKids b false l ns = srcAll (uniPrinter b) ns
  | l, [] => by rw [uniDumpKids, srcAll]
  | l, n :: ns => by rw [uniDumpKids, srcAll, if_neg (by decide), uni_plain b l n, uniKids_plain b l ns]
end

mutual
theorem uni_pretty (b : Bool) : ∀ (l : Nat) (n : Node), uniDump b true l n = src (uniPrinter b) (padded true l n)
  | l, .text s => by rw [uniDump, show padded true l (.text s) = .text s by simp [padded], src]; rfl
  | l, .comment s => by rw [uniDump, show padded true l (.comment s) = .comment s by simp [padded], src]
  | l, .pi t d => by rw [uniDump, show padded true l (.pi t d) = .pi t d by simp [padded], src]
  | l, .elem i ks => by
    rw [uniDump, uni_tag, padded]
    by_cases hk : ks = []
    · rw [if_pos hk, if_pos hk, src, if_pos rfl]
    · by_cases ht : (true && !ks.any Node.isText) = true
      · rw [if_neg hk, if_pos ht, if_neg hk, if_pos ht, src]
        congr 1
        rw [if_neg (by simp), srcAll_append]
        have e2 := uniKids_pretty b (l + 1) ks (indent l)
        have e3 : srcAll (uniPrinter b) [Node.text ('\n' :: indent l)] = '\n' :: indent l := by
          rw [srcAll, src, uni_line, srcAll, List.append_nil]
        rw [e3]
        have e7 : c!">\n" ++ uniDumpKids b true (l + 1) ks ++ indent l =
            c!">" ++ (srcAll (uniPrinter b) (paddedKids (l + 1) ks) ++ '\n' :: indent l) := by
          rw [← e2]; simp
        rw [e7]
        rfl
      · rw [if_neg hk, if_neg ht, if_neg hk, if_neg ht, src, if_neg hk, uniKids_plain b (l + 1) ks]
        rfl

theorem uniKids_pretty (b : Bool) : ∀ (l : Nat) (ns : List Node), ∀ e : Str,
    '\n' :: (uniDumpKids b true l ns ++ e) = srcAll (uniPrinter b) (paddedKids l ns) ++ '\n' :: e
  | l, [], e => by rw [uniDumpKids, paddedKids, srcAll]; rfl
  | l, n :: ns, e => by
    have ih := uniKids_pretty b l ns e
    rw [uniDumpKids, if_pos rfl, paddedKids, srcAll, srcAll, src, uni_line, uni_pretty b l n]
    simp only [List.append_assoc, List.cons_append, List.nil_append]
    rw [← ih]
end

/-! ## An element alone -/

theorem src_elem {P : Printer} {m : NsMap} {n : Node} (hf : Fine m n) (he : isElem n = true) :
    (∃ c tl, src P n = '<' :: c :: tl ∧ isQChar c = true) ∧ ∃ a, src P n = a ++ c!">" := by
  cases n with
  | elem i ks =>
    rw [Fine] at hf
    obtain ⟨hne, hq⟩ := isQName_qchars hf.1.name
    refine ⟨?_, ?_⟩
    · rw [src]
      cases hr : rawName i with
      | nil => exact absurd hr hne
      | cons c r => exact ⟨c, _, by rw [List.cons_append, List.cons_append, List.cons_append, List.cons_append], hq c (by rw [hr]; simp)⟩
    · rw [src]
      split
      · exact ⟨'<' :: rawName i ++ attrsText (P.attrs (rawAttrs i)) ++ c!"/", by simp only [List.append_assoc]; rfl⟩
      · exact ⟨'<' :: rawName i ++ attrsText (P.attrs (rawAttrs i)) ++ (c!">" ++ srcAll P ks ++ c!"</" ++ rawName i),
          by simp only [List.append_assoc]⟩
  | text s => cases he
  | comment s => cases he
  | pi t d => cases he

/-- A printed element, with text behind it. -/
theorem readDoc_alone {P : Printer} {r : Node} (hr : Fine [] r) (re : isElem r = true) {w : Str} (hlt : '<' ∉ w) (hcr : '\r' ∉ w) :
    readDoc (src P r ++ w) = if w.all isWs then some ⟨none, [r], r⟩ else none := by
  have hrt : r.isText = false := by cases r <;> first | rfl | cases re
  obtain ⟨⟨c, tl, hc, hq⟩, -⟩ := src_elem (P := P) hr re
  have hne := not_qchar_of_mem hq
  have hrun : run RS.start (src P r ++ w) = some ⟨.text w.reverse, ⟨[], [], [rawOf r]⟩, []⟩ := by
    unfold RS.start
    rw [run_node [] r hr hrt _ _ _ (fun _ => rfl)]
    have := run_text w hlt [] ⟨[], [], [rawOf r]⟩ [] []
    rw [List.append_nil, List.append_nil] at this
    rw [this, run]
  have hraw : readRaw (src P r ++ w) = if w.all isWs then some (none, [rawOf r]) else none := by
    unfold readRaw
    have e0 : dropBom (src P r ++ w) = src P r ++ w := by rw [hc, List.cons_append, dropBom, if_neg (by decide)]
    have hcr' : '\r' ∉ src P r ++ w := by
      rw [List.mem_append, not_or]
      exact ⟨src_noCr [] r hr, hcr⟩
    rw [e0, normEol_of_noCr hcr']
    have hd : readDecl (src P r ++ w) = some (none, src P r ++ w) := by
      rw [hc]
      unfold readDecl
      split
      · rename_i h'; injection h' with _ h'; injection h' with h' _; exact absurd h' hne.2.2.1
      · rfl
    rw [hd]
    dsimp only
    rw [hrun]
    unfold finish
    have hel : hasElem [rawOf r] = true := by
      cases r with
      | elem i ks => rw [rawOf]; rfl
      | text s => cases re
      | comment s => cases re
      | pi t d => cases re
    simp only [hel, List.isEmpty_nil, Bool.true_and, Bool.and_true, List.all_reverse, List.reverse_cons, List.reverse_nil, List.nil_append]
    split <;> simp_all
  unfold readDoc
  rw [hraw]
  by_cases hw : w.all isWs = true
  · rw [if_pos hw, if_pos hw]
    dsimp only
    have hl := resolveList_raw [] [r] (by rw [FineAll, FineAll]; exact ⟨hr, trivial⟩)
    rw [rawAll, rawAll] at hl
    rw [hl]
    have hfe : firstElem [r] = some r := by cases r <;> first | rfl | cases re
    dsimp only
    rw [hfe]
  · rw [if_neg hw, if_neg hw]

/-! ## What has been read, without namespaces -/

mutual
theorem unqualified_bare : ∀ n : Node, unqualified n = bareNode n
  | .elem i ks => by rw [unqualified, bareNode, unqualifiedAll_bare ks]; rfl
  | .text s => by rw [unqualified, bareNode]
  | .comment s => by rw [unqualified, bareNode]
  | .pi t d => by rw [unqualified, bareNode]

theorem unqualifiedAll_bare : ∀ ns : List Node, unqualifiedAll ns = bareList ns
  | [] => by rw [unqualifiedAll, bareList]
  | n :: ns => by rw [unqualifiedAll, bareList, unqualified_bare n, unqualifiedAll_bare ns]
end

theorem resolveAttr_nil {m : NsMap} {a : Str × Str} {x : Attr} (h : resolveAttr m a = some x) (hx : x.ns = none ∨ x.pfx = some c!"xml") :
    resolveAttr [] a = some x := by
  unfold resolveAttr at h ⊢
  split at h
  · exact h
  · rename_i p l hs
    split at h
    · rename_i hp; rw [if_pos hp]; exact h
    · rename_i hp
      split at h
      · cases h
      · cases h
        rcases hx with hx | hx
        · cases hx
        · cases hx; exact absurd rfl hp

theorem resolveAttrs_nil {m : NsMap} : ∀ {as : List (Str × Str)} {xs : List Attr}, resolveAttrs m as = some xs →
    (∀ x ∈ xs, x.ns = none ∨ x.pfx = some c!"xml") → resolveAttrs [] as = some xs
  | [], xs, h, _ => h
  | a :: as, xs, h, hx => by
    rw [resolveAttrs] at h ⊢
    cases ha : resolveAttr m a with
    | none => rw [ha] at h; cases h
    | some x =>
      cases hr : resolveAttrs m as with
      | none => rw [ha, hr] at h; cases h
      | some ys =>
        rw [ha, hr] at h
        cases h
        rw [resolveAttr_nil ha (hx x (by simp)), resolveAttrs_nil hr (fun y hy => hx y (by simp [hy]))]

theorem fineInfo_bare {m : NsMap} {i : Info} (h : FineInfo m i) (ha : OwnAttrs i) : FineInfo [] (bareInfo i) := by
  have hs := resolveInfo_name h.resolves
  have hnc : isNCName i.name = true := by
    have := splitQName_local h.name
    rw [hs] at this
    exact this
  have hr := h.resolves
  unfold resolveInfo at hr
  dsimp only at hr
  split at hr
  · rename_i hc
    rw [Bool.and_eq_true] at hc
    split at hr
    · rename_i ns pfx l xs he hx
      split at hr
      · rename_i hd
        have e0 := congrArg Info.attrs (Option.some.inj hr)
        dsimp only at e0
        have hp : i.attrs.map (fun a => (qnameOut a.pfx a.name, a.value)) = plainOf (rawAttrs i) := by
          rw [← e0]; exact rawAttrs_plain hx
        have er : rawAttrs (bareInfo i) = plainOf (rawAttrs i) := by
          rw [← hp]; rfl
        have ed : declsOf (plainOf (rawAttrs i)) = [] := by
          unfold declsOf plainOf
          rw [List.filterMap_eq_nil_iff]
          intro a hm
          have := (List.mem_filter.1 hm).2
          cases hq : declaredPrefix a.1 with
          | none => rfl
          | some q => rw [hq] at this; cases this
        have ep : plainOf (plainOf (rawAttrs i)) = plainOf (rawAttrs i) := by
          unfold plainOf; rw [List.filter_filter]; simp
        have en : noDup ((plainOf (rawAttrs i)).map (·.1)) = true := by
          rw [noDup_iff]
          exact List.Nodup.sublist ((List.filter_sublist).map _) (noDup_iff.1 hc.1)
        refine ⟨?_, ?_, ?_⟩
        · rw [er]
          show resolveInfo [] i.name _ = _
          unfold resolveInfo
          dsimp only
          rw [en, ed, ep, if_pos (by rfl)]
          have hx' := resolveAttrs_nil hx (by rw [e0]; exact ha)
          have e1 : resolveElemName (NsMap.push (storedDecls []) []) i.name = some (none, none, i.name) := by
            unfold resolveElemName
            rw [splitQName_ncname hnc]
            rfl
          rw [e1]
          have e2 : NsMap.push (storedDecls []) [] = [] := rfl
          rw [e2, hx']
          dsimp only
          rw [if_pos hd, e0]
          rfl
        · exact isQName_of_ncname hnc
        · rw [er]
          intro a hm
          exact h.attrs a (List.mem_filter.1 hm).1
      · cases hr
    · cases hr
  · cases hr

theorem bareList_texts : ∀ ks : List Node, noTextTwice (bareList ks) = noTextTwice ks := by
  have ht : ∀ n : Node, (bareNode n).isText = n.isText := by intro n; cases n <;> (rw [bareNode]; try rfl)
  intro ks
  induction ks with
  | nil => rw [bareList]
  | cons n ks ih =>
    cases ks with
    | nil => rw [bareList, bareList]; rfl
    | cons k ks =>
      have e : bareList (n :: k :: ks) = bareNode n :: bareNode k :: bareList ks := by rw [bareList, bareList]
      have e2 : bareList (k :: ks) = bareNode k :: bareList ks := by rw [bareList]
      rw [e2] at ih
      rw [e, noTextTwice, noTextTwice, ht, ht, ih]

mutual
theorem fine_bare : ∀ (m : NsMap) (n : Node), Fine m n → (∀ i ∈ infosOf n, OwnAttrs i) → Fine [] (bareNode n)
  | m, .elem i ks, h, ha => by
    rw [Fine] at h
    rw [infosOf] at ha
    rw [bareNode, Fine]
    exact ⟨fineInfo_bare h.1 (ha i (by simp)), by rw [bareList_texts]; exact h.2.1, fineAll_bare i.nsmap ks h.2.2 (fun j hj => ha j (by simp [hj]))⟩
  | m, .text s, h, _ => by rw [Fine] at h; rw [bareNode, Fine]; exact h
  | m, .comment s, h, _ => by rw [Fine] at h; rw [bareNode, Fine]; exact h
  | m, .pi t d, h, _ => by rw [Fine] at h; rw [bareNode, Fine]; exact h

theorem fineAll_bare : ∀ (m : NsMap) (ns : List Node), FineAll m ns → (∀ i ∈ infosOfAll ns, OwnAttrs i) → FineAll [] (bareList ns)
  | m, [], _, _ => by rw [bareList, FineAll]; trivial
  | m, n :: ns, h, ha => by
    rw [FineAll] at h
    rw [infosOfAll] at ha
    rw [bareList, FineAll]
    exact ⟨fine_bare m n h.1 (fun j hj => ha j (by simp [hj])), fineAll_bare m ns h.2 (fun j hj => ha j (by simp [hj]))⟩
end

theorem fine_inside {n k : Node} (hi : Inside n k) : ∀ {m : NsMap}, Fine m k → ∃ m', Fine m' n := by
  induction hi with
  | self => intro m h; exact ⟨m, h⟩
  | child hk _ ih =>
    intro m h
    rw [Fine] at h
    exact ih (fineAll_iff.1 h.2.2 _ hk)

theorem storedDecls_xml (ds : NsMap) : ∀ d ∈ storedDecls ds, d.1 ≠ some c!"xml" := by
  intro d hd e
  have := (List.mem_filter.1 hd).2
  rw [e] at this
  revert this; decide

mutual
theorem fine_decls : ∀ (m : NsMap) (n : Node), Fine m n → ∀ i ∈ infosOf n, ∀ d ∈ i.nsdefs, d.1 ≠ some c!"xml"
  | m, .elem i ks, h, j, hj => by
    rw [Fine] at h
    rw [infosOf] at hj
    rcases List.mem_cons.1 hj with rfl | hj'
    · have hr := h.1.resolves
      unfold resolveInfo at hr
      dsimp only at hr
      split at hr
      · split at hr
        · split at hr
          · have e0 := congrArg Info.nsdefs (Option.some.inj hr)
            dsimp only at e0
            rw [← e0]
            exact storedDecls_xml _
          · cases hr
        · cases hr
      · cases hr
    · exact fineAll_decls i.nsmap ks h.2.2 j hj'
  | m, .text s, _, j, hj => by rw [infosOf] at hj <;> first | cases hj | simp
  | m, .comment s, _, j, hj => by rw [infosOf] at hj <;> first | cases hj | simp
  | m, .pi t d, _, j, hj => by rw [infosOf] at hj <;> first | cases hj | simp

theorem fineAll_decls : ∀ (m : NsMap) (ns : List Node), FineAll m ns → ∀ i ∈ infosOfAll ns, ∀ d ∈ i.nsdefs, d.1 ≠ some c!"xml"
  | m, [], _, j, hj => by rw [infosOfAll] at hj; cases hj
  | m, n :: ns, h, j, hj => by
    rw [FineAll] at h
    rw [infosOfAll, List.mem_append] at hj
    rcases hj with hj | hj
    · exact fine_decls m n h.1 j hj
    · exact fineAll_decls m ns h.2 j hj
end

/-! ## Spread over lines -/

mutual
theorem spread_padded : ∀ (l : Nat) (n : Node), Spread n (padded true l n)
  | l, .elem i ks => by
    rw [Spread, padded]
    by_cases hk : ks = []
    · rw [if_pos hk]
      exact ⟨[], rfl, by rw [if_pos (.inl hk)]; exact hk.symm⟩
    · rw [if_neg hk]
      by_cases ht : ks.any Node.isText = true
      · rw [if_neg (by rw [ht]; decide)]
        exact ⟨ks, rfl, by rw [if_pos (.inr ht)]⟩
      · have ht' : ks.any Node.isText = false := by simpa using ht
        rw [if_pos (by rw [ht']; decide)]
        refine ⟨_, rfl, ?_⟩
        rw [if_neg (by rintro (h | h); exact hk h; exact ht h)]
        have e := spreadAll_padded (l + 1) ks ht'
        refine ⟨?_, ?_⟩
        · intro k hm hkt
          rcases List.mem_append.1 hm with hm | hm
          · exact paddedKids_spacing (l + 1) ks ht' k hm hkt
          · rw [List.mem_singleton] at hm
            rw [hm]; exact eol_spacing l
        · rw [List.filter_append]
          have : [Node.text ('\n' :: indent l)].filter (fun k => !k.isText) = [] := rfl
          rw [this, List.append_nil]
          exact e
  | l, .text s => by rw [Spread]; simp [padded]
  | l, .comment s => by rw [Spread]; simp [padded]
  | l, .pi t d => by rw [Spread]; simp [padded]

theorem spreadAll_padded : ∀ (l : Nat) (ks : List Node), ks.any Node.isText = false →
    SpreadAll ks ((paddedKids l ks).filter (fun k => !k.isText))
  | l, [], _ => by rw [paddedKids, SpreadAll]; rfl
  | l, k :: ks, h => by
    rw [List.any_cons, Bool.or_eq_false_iff] at h
    rw [paddedKids, SpreadAll, List.filter_cons_of_neg (by simp [Node.isText]), List.filter_cons_of_pos (by rw [padded_isText, h.1]; rfl)]
    exact ⟨_, _, rfl, spread_padded l k, spreadAll_padded l ks h.2⟩

theorem paddedKids_spacing : ∀ (l : Nat) (ks : List Node), ks.any Node.isText = false → ∀ k ∈ paddedKids l ks, k.isText = true → isSpacing k = true
  | l, [], _, k, hk, _ => by rw [paddedKids] at hk; cases hk
  | l, n :: ks, h, k, hk, ht => by
    rw [List.any_cons, Bool.or_eq_false_iff] at h
    rw [paddedKids] at hk
    rcases List.mem_cons.1 hk with rfl | hk1
    · exact eol_spacing l
    · rcases List.mem_cons.1 hk1 with rfl | hk2
      · rw [padded_isText, h.1] at ht; cases ht
      · exact paddedKids_spacing l ks h.2 k hk2 ht
end

/-! ## The string -/

theorem rstrip_after (a t : Str) {c : Char} (hc : isPySpace c = false) : rstrip (a ++ c :: t) = a ++ c :: rstrip t := by
  unfold rstrip
  have e : (a ++ c :: t).reverse = t.reverse ++ c :: a.reverse := by simp
  rw [e]
  have key : ∀ u : Str, (u ++ c :: a.reverse).dropWhile isPySpace = u.dropWhile isPySpace ++ c :: a.reverse := by
    intro u
    induction u with
    | nil => rw [List.nil_append, List.dropWhile_cons, if_neg (by rw [hc]; decide)]; rfl
    | cons d u ih =>
      rw [List.cons_append, List.dropWhile_cons, List.dropWhile_cons]
      split
      · exact ih
      · rfl
  rw [key]
  simp

/-- The string: the printed element, and what is left of its tail. -/
theorem convert_fine {n : Node} (declared : Bool) (tail : Str) (hpi : hasPI n = false) (ha : ∀ i ∈ infosOf n, OwnAttrs i)
    (hd : ∀ i ∈ infosOf n, ∀ d ∈ i.nsdefs, d.1 ≠ some c!"xml") (he : isElem n = true) (hf : Fine [] (bareNode n)) :
    convertFromReqifNs declared n tail = .ok (src (uniPrinter declared) (padded true 0 (bareNode n)) ++ rstrip (serText tail ++ c!"\n")) := by
  have hdet : hasPI n.detach = false := by
    cases n with
    | elem i ks => rw [hasPI] at hpi; unfold Node.detach; dsimp only; rw [hasPI]; exact hpi
    | _ => exact hpi
  obtain ⟨n', h1, -⟩ := stripFull_ok _ hdet
  have hs : stripNamespace true n.detach = .ok (cleanup [] n') := by unfold stripNamespace; rw [h1]
  have e := stripNamespace_bareNode hs (fun i hi => ⟨ha i hi, hd i hi⟩)
  have he' : isElem (bareNode n) = true := by cases n <;> first | (rw [bareNode]; rfl) | cases he
  obtain ⟨-, a, hsrc⟩ := src_elem (P := uniPrinter declared) (padded_fine [] 0 _ hf) (padded_elem he' 0)
  unfold convertFromReqifNs
  rw [hs, e]
  dsimp only
  unfold toUnicode
  rw [uni_pretty, hsrc]
  have e2 : a ++ c!">" ++ serText tail ++ c!"\n" = a ++ '>' :: (serText tail ++ c!"\n") := by simp
  rw [e2, rstrip_after _ _ (by decide)]
  simp

end ReqIF.Format
