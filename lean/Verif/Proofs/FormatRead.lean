import Verif.Proofs.ReadSane
import Verif.Proofs.PlainRoot
import Verif.Model.Format
import Verif.Spec.Format
/-! Printed trees are read back. -/
set_option linter.unusedSimpArgs false
namespace ReqIF.Format
open Spec ReqIF.Xsd

/-! ## A tree as it is written -/

def rawName (i : Info) : Str := qnameOut i.pfx i.name

def rawAttrs (i : Info) : List (Str × Str) :=
  i.nsdefs.map (fun d => (declName d.1, d.2)) ++ i.attrs.map (fun a => (qnameOut a.pfx a.name, a.value))

mutual
def rawOf : Node → Xml
  | .elem i ks => .elem (rawName i) (rawAttrs i) (rawAll ks)
  | .text s => .text s
  | .comment s => .comment s
  | .pi t d => .pi t d

def rawAll : List Node → List Xml
  | [] => []
  | n :: ns => rawOf n :: rawAll ns
end

def asciiInfo (i : Info) : Bool :=
  ascii i.name && ascii (i.pfx.getD []) && i.nsdefs.all (fun d => ascii (d.1.getD [])) &&
    i.attrs.all (fun a => ascii a.name && ascii (a.pfx.getD []))

/-- What is needed of a start tag. -/
structure FineInfo (m : NsMap) (i : Info) : Prop where
  resolves : resolveInfo m (rawName i) (rawAttrs i) = some i
  name : isQName (rawName i) = true
  attrs : AttrsSane (rawAttrs i)

mutual
/-- A tree that is printed and read back in the scope `m`. -/
def Fine (m : NsMap) : Node → Prop
  | .elem i ks => FineInfo m i ∧ noTextTwice ks = true ∧ FineAll i.nsmap ks
  | .text s => s ≠ [] ∧ ∀ c ∈ s, isXmlChar c = true
  | .comment s => CommentOk s
  | .pi t d => PiOk t d

def FineAll (m : NsMap) : List Node → Prop
  | [] => True
  | n :: ns => Fine m n ∧ FineAll m ns
end

theorem fineAll_iff {m : NsMap} {ns : List Node} : FineAll m ns ↔ ∀ n ∈ ns, Fine m n := by
  induction ns with
  | nil => simp [FineAll]
  | cons n ns ih => rw [FineAll, ih]; simp

mutual
theorem resolve_raw : ∀ (m : NsMap) (n : Node), Fine m n → resolve m (rawOf n) = some n
  | m, .elem i ks, h => by
    rw [Fine] at h
    rw [rawOf, resolve, h.1.resolves]
    dsimp only
    rw [resolveList_raw i.nsmap ks h.2.2]
  | m, .text s, _ => by rw [rawOf, resolve]
  | m, .comment s, _ => by rw [rawOf, resolve]
  | m, .pi t d, _ => by rw [rawOf, resolve]

theorem resolveList_raw : ∀ (m : NsMap) (ns : List Node), FineAll m ns → resolveList m (rawAll ns) = some ns
  | m, [], _ => by rw [rawAll, resolveList]
  | m, n :: ns, h => by
    rw [FineAll] at h
    rw [rawAll, resolveList, resolve_raw m n h.1, resolveList_raw m ns h.2]
end

/-! ## What has been read is fine -/

theorem qnameOut_split {q : Str} {p : Option Str} {l : Str} (h : splitQName q = (p, l)) : qnameOut p l = q := by
  rcases splitQName_eq q with e | ⟨p', l', e, e2⟩
  · rw [e] at h; cases h; rfl
  · rw [e] at h; cases h; rw [e2]; simp [qnameOut]

theorem rawAttr_eq {m : NsMap} {a : Str × Str} {x : Attr} (h : resolveAttr m a = some x) : (qnameOut x.pfx x.name, x.value) = a := by
  unfold resolveAttr at h
  split at h
  · rename_i l hs
    cases h
    exact Prod.ext (qnameOut_split hs) rfl
  · rename_i p l hs
    split at h
    · cases h; exact Prod.ext (qnameOut_split hs) rfl
    · split at h
      · cases h
      · cases h; exact Prod.ext (qnameOut_split hs) rfl

theorem rawAttrs_plain {m : NsMap} : ∀ {ps : List (Str × Str)} {xs : List Attr}, resolveAttrs m ps = some xs →
    xs.map (fun a => (qnameOut a.pfx a.name, a.value)) = ps
  | [], xs, h => by cases h; rfl
  | a :: ps, xs, h => by
    unfold resolveAttrs at h
    cases ha : resolveAttr m a with
    | none => rw [ha] at h; cases h
    | some x =>
      cases hr : resolveAttrs m ps with
      | none => rw [ha, hr] at h; cases h
      | some ys =>
        rw [ha, hr] at h
        cases h
        rw [List.map_cons, rawAttrs_plain hr, rawAttr_eq ha]

theorem declName_xml {q : Option Str} : declName q = c!"xmlns:xml" ↔ q = some c!"xml" := by
  constructor
  · intro h
    have := declaredPrefix_declName q
    rw [h] at this
    have e : declaredPrefix c!"xmlns:xml" = some (some c!"xml") := by decide
    rw [e] at this
    cases this
    rfl
  · rintro rfl; rfl

theorem rawDecls (as : List (Str × Str)) :
    (storedDecls (declsOf as)).map (fun d => (declName d.1, d.2)) = as.filter (fun a => isDecl a && a.1 != c!"xmlns:xml") := by
  induction as with
  | nil => rfl
  | cons a as ih =>
    unfold declsOf storedDecls at ih ⊢
    rw [List.filterMap_cons, List.filter_cons]
    cases hd : declaredPrefix a.1 with
    | none =>
      have : isDecl a = false := by unfold isDecl; rw [hd]; rfl
      rw [this]
      exact ih
    | some q =>
      have h1 : isDecl a = true := by unfold isDecl; rw [hd]; rfl
      have hn := declaredPrefix_some hd
      dsimp only [Option.map_some]
      rw [h1, Bool.true_and, List.filter_cons]
      by_cases hx : q = some c!"xml"
      · have e1 : (q != some c!"xml") = false := by rw [hx]; decide
        have e2 : (a.1 != c!"xmlns:xml") = false := by rw [hn, declName_xml.2 hx]; decide
        dsimp only
        rw [e1, e2]
        exact ih
      · have e1 : (q != some c!"xml") = true := by rw [bne_iff_ne]; exact hx
        have e2 : (a.1 != c!"xmlns:xml") = true := by
          rw [bne_iff_ne, hn]
          exact fun e => hx (declName_xml.1 e)
        dsimp only
        rw [e1, e2, if_pos rfl, if_pos rfl, List.map_cons, ih]
        exact congrArg (· :: _) (Prod.ext hn.symm rfl)

theorem rawAttrs_tidy {m : NsMap} {q : Str} {as : List (Str × Str)} {i : Info} (h : resolveInfo m q as = some i) :
    rawName i = q ∧ rawAttrs i = tidyAttrs as := by
  refine ⟨qnameOut_split (resolveInfo_name h), ?_⟩
  unfold resolveInfo at h
  dsimp only at h
  split at h
  · split at h
    · rename_i ns pfx l xs he ha
      split at h
      · cases h
        unfold rawAttrs tidyAttrs
        dsimp only
        rw [rawDecls, rawAttrs_plain ha, plainOf_eq]
      · cases h
    · cases h
  · cases h

theorem fineInfo_of {m : NsMap} {q : Str} {as : List (Str × Str)} {i : Info} (hq : isQName q = true) (ha : AttrsSane as)
    (h : resolveInfo m q as = some i) : FineInfo m i := by
  obtain ⟨h1, h2⟩ := rawAttrs_tidy h
  refine ⟨?_, ?_, ?_⟩
  · rw [h1, h2]; exact resolveInfo_tidy h
  · rw [h1]; exact hq
  · rw [h2]; exact fun a hm => ha a (tidyAttrs_mem hm).1

mutual
theorem fine_of : ∀ (m : NsMap) (x : Xml) (n : Node), x.Sane → resolve m x = some n → noEmptyText n = true → Fine m n
  | m, .elem q as ks, n, hx, h, h2 => by
    rw [Xml.Sane] at hx
    rw [resolve] at h
    split at h
    · cases h
    · rename_i i hi
      split at h
      · cases h
      · rename_i ns hns
        cases h
        rw [noEmptyText] at h2
        rw [Fine]
        exact ⟨fineInfo_of hx.1 hx.2.1 hi, resolveList_texts hns hx.2.2.1, fineAll_of i.nsmap ks ns hx.2.2.2 hns h2⟩
  | m, .text s, n, hx, h, h2 => by
    rw [resolve] at h; cases h; rw [Fine]; rw [Xml.Sane] at hx
    refine ⟨?_, hx⟩
    rintro rfl
    exact absurd h2 (by decide)
  | m, .comment s, n, hx, h, _ => by
    rw [resolve] at h; cases h; rw [Fine]; rw [Xml.Sane] at hx; exact hx
  | m, .pi a b, n, hx, h, _ => by
    rw [resolve] at h; cases h; rw [Fine]; rw [Xml.Sane] at hx; exact hx

theorem fineAll_of : ∀ (m : NsMap) (xs : List Xml) (ns : List Node), SaneXmls xs → resolveList m xs = some ns →
    noEmptyTextAll ns = true → FineAll m ns
  | m, [], ns, _, h, _ => by rw [resolveList] at h; cases h; rw [FineAll]; trivial
  | m, x :: xs, ns, hx, h, h2 => by
    rw [SaneXmls] at hx
    rw [resolveList] at h
    split at h
    · rename_i n ns' hn hns
      cases h
      rw [noEmptyTextAll, Bool.and_eq_true] at h2
      rw [FineAll]
      exact ⟨fine_of m x n hx.1 hn h2.1, fineAll_of m xs ns' hx.2 hns h2.2⟩
    · cases h
end

/-! ## Ways to print characters -/

/-- How texts and attribute values are printed. -/
structure Printer where
  text : Str → Str
  attr : Str → Str
  text_lt : ∀ s, '<' ∉ text s
  text_cr : ∀ s, '\r' ∉ text s
  text_ne : ∀ s, s ≠ [] → text s ≠ []
  text_back : ∀ s, (∀ c ∈ s, isXmlChar c = true) → decodeText (text s) = some s
  text_line : ∀ l, text ('\n' :: indent l) = '\n' :: indent l
  attr_quote : ∀ s, '"' ∉ attr s
  attr_cr : ∀ s, '\r' ∉ attr s
  attr_back : ∀ s, (∀ c ∈ s, isXmlChar c = true) → decodeAttr (attr s) = some s

/-- The attributes as they are printed. -/
def Printer.attrs (P : Printer) (as : List (Str × Str)) : List (Str × Str) := as.map (fun a => (a.1, P.attr a.2))

theorem tag_attrs (P : Printer) (i : Info) :
    i.nsdefs.flatMap (fun d => attrOut (declName d.1) (P.attr d.2)) ++ i.attrs.flatMap (fun a => attrOut (qnameOut a.pfx a.name) (P.attr a.value)) =
      attrsText (P.attrs (rawAttrs i)) := by
  have e : ∀ l : List (Str × Str), attrsText (P.attrs l) = l.flatMap (fun a => attrOut a.1 (P.attr a.2)) := by
    intro l
    unfold Printer.attrs
    induction l with
    | nil => rfl
    | cons a l ih => rw [List.map_cons, attrsText_cons, ih, List.flatMap_cons]
  rw [e]
  unfold rawAttrs
  rw [List.flatMap_append, List.flatMap_map, List.flatMap_map]

/-! ## The printed text -/

mutual
/-- A tree printed without formatting. -/
def src (P : Printer) : Node → Str
  | .text s => P.text s
  | .comment s => c!"<!--" ++ s ++ c!"-->"
  | .pi t d => c!"<?" ++ t ++ (if d = [] then [] else ' ' :: d) ++ c!"?>"
  | .elem i ks => '<' :: rawName i ++ attrsText (P.attrs (rawAttrs i)) ++
      if ks = [] then c!"/>" else c!">" ++ srcAll P ks ++ c!"</" ++ rawName i ++ c!">"

def srcAll (P : Printer) : List Node → Str
  | [] => []
  | n :: ns => src P n ++ srcAll P ns
end

mutual
/-- The tree with the line ends and the indentation that are printed into it. -/
def padded (pretty : Bool) (level : Nat) : Node → Node
  | .elem i ks =>
    if ks = [] then .elem i []
    else if pretty && !ks.any Node.isText then .elem i (paddedKids (level + 1) ks ++ [.text ('\n' :: indent level)])
    else .elem i ks
  | n => n

def paddedKids (level : Nat) : List Node → List Node
  | [] => []
  | k :: ks => .text ('\n' :: indent level) :: padded true level k :: paddedKids level ks
end

theorem toAscii_append (a b : Str) : toAscii (a ++ b) = toAscii a ++ toAscii b := by
  unfold toAscii; rw [List.flatMap_append]

theorem toAscii_same {s : Str} (h : Spec.ascii s = true) : toAscii s = s := by
  unfold Spec.ascii at h
  rw [List.all_eq_true] at h
  induction s with
  | nil => rfl
  | cons c s ih =>
    have hc := h c (by simp)
    rw [decide_eq_true_eq] at hc
    have := ih (fun d hd => h d (by simp [hd]))
    unfold toAscii at this ⊢
    rw [List.flatMap_cons, this]
    unfold asciiChar
    rw [if_pos hc]
    rfl

theorem ascii_append {a b : Str} : Spec.ascii (a ++ b) = true ↔ Spec.ascii a = true ∧ Spec.ascii b = true := by
  unfold Spec.ascii
  rw [List.all_append, Bool.and_eq_true]

theorem ascii_serAttr (s : Str) : Spec.ascii (serAttr s) = true := by
  rw [serAttr_eq]
  unfold Spec.ascii
  rw [List.all_flatMap, List.all_eq_true]
  intro c _
  unfold serAttrChar
  by_cases h1 : c = '&'; · subst h1; decide
  by_cases h2 : c = '<'; · subst h2; decide
  by_cases h3 : c = '>'; · subst h3; decide
  by_cases h4 : c = '"'; · subst h4; decide
  by_cases h5 : c = '\n'; · subst h5; decide
  by_cases h6 : c = '\r'; · subst h6; decide
  by_cases h7 : c = '\t'; · subst h7; decide
  simp only [h1, h2, h3, h4, h5, h6, h7, if_false]
  split
  · rename_i h; simp [h]
  · rw [List.all_append, List.all_append, Bool.and_eq_true, Bool.and_eq_true]
    refine ⟨⟨by decide, ?_⟩, by decide⟩
    rw [List.all_eq_true]
    intro d hd
    have := Nat.isDigit_of_mem_toDigits (by decide) (by decide) hd
    simp only [Char.isDigit, Bool.and_eq_true, decide_eq_true_eq] at this
    have h9 := this.2
    rw [UInt32.le_iff_toNat_le] at h9
    have e9 : ('9'.val).toNat = 57 := by decide
    have ed : d.val.toNat = d.toNat := rfl
    rw [decide_eq_true_eq]
    omega

theorem ascii_qname {p : Option Str} {l : Str} (hp : Spec.ascii (p.getD []) = true) (hl : Spec.ascii l = true) : Spec.ascii (qnameOut p l) = true := by
  cases p with
  | none => exact hl
  | some p =>
    unfold qnameOut
    exact ascii_append.2 ⟨ascii_append.2 ⟨hp, by decide⟩, hl⟩

theorem ascii_declName {p : Option Str} (hp : Spec.ascii (p.getD []) = true) : Spec.ascii (declName p) = true := by
  cases p with
  | none => decide
  | some p =>
    unfold declName
    exact ascii_append.2 ⟨by decide, hp⟩

theorem serTag_attrs (i : Info) : i.nsdefs.flatMap serDecl ++ i.attrs.flatMap serAttrOut = attrsText (serAttrs (rawAttrs i)) := by
  have e : ∀ l : List (Str × Str), attrsText (serAttrs l) = l.flatMap (fun a => attrOut a.1 (serAttr a.2)) := by
    intro l
    unfold serAttrs
    induction l with
    | nil => rfl
    | cons a l ih => rw [List.map_cons, attrsText_cons, ih, List.flatMap_cons]
  rw [e]
  unfold rawAttrs
  rw [List.flatMap_append, List.flatMap_map, List.flatMap_map]
  congr 1
  congr 1
  funext d
  cases d with
  | mk p u =>
    cases p with
    | none => rfl
    | some p => simp [serDecl, attrOut, declName]

theorem ascii_attrs {i : Info} (h : asciiInfo i = true) : Spec.ascii (attrsText (serAttrs (rawAttrs i))) = true := by
  unfold asciiInfo at h
  simp only [Bool.and_eq_true, List.all_eq_true] at h
  unfold attrsText serAttrs
  unfold Spec.ascii
  rw [List.flatMap_map, List.all_flatMap, List.all_eq_true]
  intro a ha
  have hn : Spec.ascii a.1 = true := by
    unfold rawAttrs at ha
    rcases List.mem_append.1 ha with ha | ha
    · obtain ⟨d, hd, rfl⟩ := List.mem_map.1 ha
      exact ascii_declName (h.1.2 d hd)
    · obtain ⟨b, hb, rfl⟩ := List.mem_map.1 ha
      exact ascii_qname (h.2 b hb).2 (h.2 b hb).1
  have : Spec.ascii (' ' :: a.1 ++ c!"=\"" ++ serAttr a.2 ++ c!"\"") = true := by
    refine ascii_append.2 ⟨ascii_append.2 ⟨ascii_append.2 ⟨?_, by decide⟩, ascii_serAttr _⟩, by decide⟩
    exact (ascii_append (a := [' '])).2 ⟨by decide, hn⟩
  exact this

theorem ascii_rawName {i : Info} (h : asciiInfo i = true) : Spec.ascii (rawName i) = true := by
  unfold asciiInfo at h
  simp only [Bool.and_eq_true] at h
  exact ascii_qname h.1.1.2 h.1.1.1

theorem ascii_indent (l : Nat) : Spec.ascii (indent l) = true := by
  unfold Spec.ascii indent
  rw [List.all_eq_true]
  intro c hc
  rw [(List.mem_replicate.1 hc).2]
  decide

theorem serText_indent (l : Nat) : toAscii (serText ('\n' :: indent l)) = '\n' :: indent l := by
  have : serText ('\n' :: indent l) = '\n' :: indent l := by
    unfold serText indent
    rw [List.flatMap_cons]
    generalize 2 * min l 30 = k
    have e : serTextChar '\n' = ['\n'] := by decide
    rw [e, List.singleton_append]
    congr 1
    induction k with
    | zero => rfl
    | succ k ih => rw [List.replicate_succ, List.flatMap_cons, ih]; rfl
  rw [this]
  exact toAscii_same ((ascii_append (a := ['\n'])).2 ⟨by decide, ascii_indent l⟩)

/-! ## Texts -/

/-- A character of text as it is printed. -/
def textOut (c : Char) : Str := toAscii (serTextChar c)

theorem textOut_eq (s : Str) : toAscii (serText s) = s.flatMap textOut := by
  unfold toAscii serText
  rw [List.flatMap_assoc]
  rfl

theorem textOut_cases (c : Char) : (c = '&' ∧ textOut c = c!"&amp;") ∨ (c = '<' ∧ textOut c = c!"&lt;") ∨ (c = '>' ∧ textOut c = c!"&gt;") ∨
    (c = '\r' ∧ textOut c = c!"&#13;") ∨ (c ≠ '&' ∧ c ≠ '<' ∧ c ≠ '>' ∧ c ≠ '\r' ∧ c.toNat < 128 ∧ textOut c = [c]) ∨
    (c.toNat ≥ 128 ∧ textOut c = c!"&#" ++ Nat.toDigits 10 c.toNat ++ c!";") := by
  unfold textOut serTextChar
  by_cases h1 : c = '&'; · subst h1; decide
  by_cases h2 : c = '<'; · subst h2; decide
  by_cases h3 : c = '>'; · subst h3; decide
  by_cases h4 : c = '\r'; · subst h4; decide
  simp only [h1, h2, h3, h4, if_false, false_and, false_or, ne_eq, not_false_eq_true, true_and]
  unfold toAscii asciiChar
  by_cases h5 : c.toNat < 128
  · left; simp [h5]
  · right; simp [h5, Nat.le_of_not_lt h5]

theorem digits_notMem {n : Nat} {x : Char} (hx : x.isDigit = false) : x ∉ Nat.toDigits 10 n := by
  intro hm
  rw [Nat.isDigit_of_mem_toDigits (by decide) (by decide) hm] at hx
  cases hx

theorem textOut_notMem (c : Char) : '<' ∉ textOut c ∧ '>' ∉ textOut c ∧ '\r' ∉ textOut c := by
  rcases textOut_cases c with ⟨-, e⟩ | ⟨-, e⟩ | ⟨-, e⟩ | ⟨-, e⟩ | ⟨-, h2, h3, h4, -, e⟩ | ⟨-, e⟩
  · rw [e]; decide
  · rw [e]; decide
  · rw [e]; decide
  · rw [e]; decide
  · rw [e]
    simp only [List.mem_singleton]
    exact ⟨fun e => h2 e.symm, fun e => h3 e.symm, fun e => h4 e.symm⟩
  · rw [e]
    have h1 := @digits_notMem c.toNat '<' (by decide)
    have h2 := @digits_notMem c.toNat '>' (by decide)
    have h3 := @digits_notMem c.toNat '\r' (by decide)
    simp [h1, h2, h3]

theorem textOut_ne (c : Char) : textOut c ≠ [] := by
  rcases textOut_cases c with ⟨-, e⟩ | ⟨-, e⟩ | ⟨-, e⟩ | ⟨-, e⟩ | ⟨-, h2, h3, h4, -, e⟩ | ⟨-, e⟩ <;> rw [e] <;> simp

theorem decodeText_out {s : Str} (h : ∀ c ∈ s, isXmlChar c = true) : decodeText (s.flatMap textOut) = some s := by
  have h0 : containsStr c!"]]>" (s.flatMap textOut) = false :=
    containsStr_of_notMem (x := '>') (by decide) (mem_flatMap_notMem (fun c => (textOut_notMem c).2.1) s)
  unfold decodeText
  rw [h0]
  have key : decodeGo litText none (s.flatMap textOut) = mapChars textBack s := by
    refine decodeGo_flatMap _ _ _ ?_ s
    intro c rest
    rcases textOut_cases c with ⟨h, e⟩ | ⟨h, e⟩ | ⟨h, e⟩ | ⟨h, e⟩ | ⟨h1, h2, h3, h4, -, e⟩ | ⟨-, e⟩
    · subst h; rw [e]; rfl
    · subst h; rw [e]; rfl
    · subst h; rw [e]; rfl
    · subst h; rw [e]; rfl
    · rw [e, decodeGo_lit _ _ h1]
      have : litText c = textBack c := by
        unfold litText textBack
        by_cases h9 : isXmlChar c = true
        · simp [h2, h9]
        · simp [h9]
      rw [this]
    · have hs : ';' ∉ c!"#" ++ Nat.toDigits 10 c.toNat := by
        have := @digits_notMem c.toNat ';' (by decide)
        simp [this]
      have e' : textOut c ++ rest = '&' :: ((c!"#" ++ Nat.toDigits 10 c.toNat) ++ ';' :: rest) := by
        rw [e]; simp only [List.append_assoc]; rfl
      rw [e', decodeGo, if_pos rfl, decodeGo_pend hs]
      rw [List.reverse_nil, List.nil_append, entityChar_dec]
      cases textBack c <;> rfl
  simp only [Bool.false_eq_true, if_false]
  rw [key]
  exact mapChars_eq_self.2 (fun c hc => by simp [textBack, h c hc])

/-- How `tostring` prints without an encoding: everything outside ASCII is a reference. -/
def asciiPrinter : Printer where
  text s := toAscii (serText s)
  attr := serAttr
  text_lt s := by rw [textOut_eq]; exact mem_flatMap_notMem (fun c => (textOut_notMem c).1) s
  text_cr s := by rw [textOut_eq]; exact mem_flatMap_notMem (fun c => (textOut_notMem c).2.2) s
  text_ne s hne := by
    rw [textOut_eq]
    cases s with
    | nil => exact absurd rfl hne
    | cons c s =>
      rw [List.flatMap_cons]
      intro e
      exact textOut_ne c (List.append_eq_nil_iff.1 e).1
  text_back s h := by rw [textOut_eq]; exact decodeText_out h
  text_line := serText_indent
  attr_quote s := (serAttr_notMem s).2.1
  attr_cr s := (serAttr_notMem s).2.2
  attr_back _ h := decodeAttr_ser h

theorem srcAll_append (P : Printer) (a b : List Node) : srcAll P (a ++ b) = srcAll P a ++ srcAll P b := by
  induction a with
  | nil => rfl
  | cons n a ih => rw [List.cons_append, srcAll, srcAll, ih, List.append_assoc]

theorem tag_text {i : Info} (h : asciiInfo i = true) :
    toAscii (c!"<" ++ qnameOut i.pfx i.name ++ i.nsdefs.flatMap serDecl ++ i.attrs.flatMap serAttrOut) =
      '<' :: rawName i ++ attrsText (asciiPrinter.attrs (rawAttrs i)) := by
  have e : c!"<" ++ qnameOut i.pfx i.name ++ i.nsdefs.flatMap serDecl ++ i.attrs.flatMap serAttrOut =
      '<' :: rawName i ++ attrsText (serAttrs (rawAttrs i)) := by
    rw [← serTag_attrs i]; unfold rawName; simp
  rw [e]
  refine toAscii_same (ascii_append.2 ⟨?_, ascii_attrs h⟩)
  exact (ascii_append (a := ['<'])).2 ⟨by decide, ascii_rawName h⟩

mutual
theorem dump_plain : ∀ (l : Nat) (n : Node), asciiMarkup n = true → toAscii (dump false l n) = src asciiPrinter n
  | l, .text s, _ => by rw [dump, src]; rfl
  | l, .comment s, h => by
    rw [asciiMarkup] at h
    rw [dump, src]
    exact toAscii_same (ascii_append.2 ⟨ascii_append.2 ⟨by decide, h⟩, by decide⟩)
  | l, .pi t d, h => by
    rw [asciiMarkup, Bool.and_eq_true] at h
    rw [dump, src]
    refine toAscii_same (ascii_append.2 ⟨ascii_append.2 ⟨ascii_append.2 ⟨by decide, h.1⟩, ?_⟩, by decide⟩)
    split
    · rfl
    · exact (ascii_append (a := [' '])).2 ⟨by decide, h.2⟩
  | l, .elem i ks, h => by
    rw [asciiMarkup, Bool.and_eq_true] at h
    have hi : asciiInfo i = true := h.1
    rw [dump, src, toAscii_append, tag_text hi]
    congr 1
    by_cases hk : ks = []
    · rw [if_pos hk, if_pos hk]; rfl
    · rw [if_neg hk, if_neg hk, Bool.false_and, if_neg (by decide)]
      simp only [toAscii_append]
      rw [dumpKids_plain (l + 1) ks h.2]
      have e : toAscii (qnameOut i.pfx i.name) = rawName i := toAscii_same (ascii_rawName hi)
      rw [e]
      rfl

theorem dumpKids_plain : ∀ (l : Nat) (ns : List Node), asciiMarkupAll ns = true → toAscii (dumpKids false l ns) = srcAll asciiPrinter ns
  | l, [], _ => by rw [dumpKids, srcAll]; rfl
  | l, n :: ns, h => by
    rw [asciiMarkupAll, Bool.and_eq_true] at h
    rw [dumpKids, srcAll, if_neg (by decide), toAscii_append, dump_plain l n h.1, dumpKids_plain l ns h.2]
end

theorem ascii_line (l : Nat) : asciiPrinter.text ('\n' :: indent l) = '\n' :: indent l := serText_indent l

mutual
theorem dump_pretty : ∀ (l : Nat) (n : Node), asciiMarkup n = true → toAscii (dump true l n) = src asciiPrinter (padded true l n)
  | l, .text s, h => by
    rw [show dump true l (.text s) = dump false l (.text s) by rw [dump, dump], dump_plain l _ h]; simp [padded]
  | l, .comment s, h => by
    rw [show dump true l (.comment s) = dump false l (.comment s) by rw [dump, dump], dump_plain l _ h]; simp [padded]
  | l, .pi t d, h => by
    rw [show dump true l (.pi t d) = dump false l (.pi t d) by rw [dump, dump], dump_plain l _ h]; simp [padded]
  | l, .elem i ks, h => by
    have h0 := h
    rw [asciiMarkup, Bool.and_eq_true] at h
    have hi : asciiInfo i = true := h.1
    by_cases hk : ks = []
    · subst hk
      have e : dump true l (.elem i []) = dump false l (.elem i []) := by
        rw [dump, dump, if_pos rfl, if_pos rfl]
      rw [e, dump_plain l _ h0]
      simp [padded]
    · by_cases ht : (true && !ks.any Node.isText) = true
      · rw [dump, toAscii_append, tag_text hi, if_neg hk, if_pos ht, padded, if_neg hk, if_pos ht, src]
        congr 1
        rw [if_neg (by simp), srcAll_append]
        simp only [toAscii_append]
        have e : toAscii (qnameOut i.pfx i.name) = rawName i := toAscii_same (ascii_rawName hi)
        have e2 := dumpKids_pretty (l + 1) ks h.2 (indent l)
        rw [e, toAscii_same (ascii_indent l)]
        have e3 : srcAll asciiPrinter [Node.text ('\n' :: indent l)] = '\n' :: indent l := by
          rw [srcAll, src, ascii_line, srcAll, List.append_nil]
        rw [e3]
        have e4 : toAscii c!">\n" = c!">\n" := by decide
        have e5 : toAscii c!"</" = c!"</" := by decide
        have e6 : toAscii c!">" = c!">" := by decide
        rw [e4, e5, e6]
        have e7 : c!">\n" ++ toAscii (dumpKids true (l + 1) ks) ++ indent l =
            c!">" ++ (srcAll asciiPrinter (paddedKids (l + 1) ks) ++ '\n' :: indent l) := by
          rw [← e2]; simp
        rw [e7]
      · rw [dump, toAscii_append, tag_text hi, if_neg hk, if_neg ht, padded, if_neg hk, if_neg ht, src, if_neg hk]
        congr 1
        simp only [toAscii_append]
        rw [dumpKids_plain (l + 1) ks h.2]
        have e : toAscii (qnameOut i.pfx i.name) = rawName i := toAscii_same (ascii_rawName hi)
        rw [e]
        rfl

theorem dumpKids_pretty : ∀ (l : Nat) (ns : List Node), asciiMarkupAll ns = true → ∀ e : Str,
    '\n' :: (toAscii (dumpKids true l ns) ++ e) = srcAll asciiPrinter (paddedKids l ns) ++ '\n' :: e
  | l, [], _, e => by rw [dumpKids, paddedKids, srcAll]; rfl
  | l, n :: ns, h, e => by
    rw [asciiMarkupAll, Bool.and_eq_true] at h
    have ih := dumpKids_pretty l ns h.2 e
    rw [dumpKids, if_pos rfl, paddedKids, srcAll, srcAll, src, ascii_line]
    simp only [toAscii_append]
    rw [dump_pretty l n h.1, toAscii_same (ascii_indent l)]
    have e4 : toAscii c!"\n" = c!"\n" := by decide
    rw [e4]
    simp only [List.append_assoc, List.cons_append, List.nil_append]
    rw [← ih]
end

end ReqIF.Format
