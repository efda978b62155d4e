import Verif.Xml.Resolve
import Verif.Proofs.Str
/-!
# Reading rendered source

`Src` is XML source: text and attribute values are kept raw (encoded).  The
main result, `run_srcs`, says what the reader does on the rendering of a list of
such items inside an element.
-/
namespace ReqIF

/-- XML source. -/
inductive Src where
  | elem (name : Str) (attrs : List (Str × Str)) (kids : List Src)
  | empty (name : Str) (attrs : List (Str × Str))
  | text (raw : Str)

/-- Attributes of a tag. -/
def attrsText (as : List (Str × Str)) : Str :=
  as.flatMap (fun a => ' ' :: a.1 ++ c!"=\"" ++ a.2 ++ c!"\"")

mutual
def Src.render : Src → Str
  | .elem n as ks => '<' :: n ++ attrsText as ++ c!">" ++ renderList ks ++ c!"</" ++ n ++ c!">"
  | .empty n as => '<' :: n ++ attrsText as ++ c!"/>"
  | .text raw => raw

def renderList : List Src → Str
  | [] => []
  | x :: xs => x.render ++ renderList xs
end

theorem renderList_append (a b : List Src) : renderList (a ++ b) = renderList a ++ renderList b := by
  induction a with
  | nil => rfl
  | cons x a ih => simp [renderList, ih]

/-- Decodes attribute values. -/
def decodeAttrs : List (Str × Str) → Option (List (Str × Str))
  | [] => some []
  | a :: as =>
    match decodeAttr a.2 with
    | none => none
    | some v =>
      match decodeAttrs as with
      | none => none
      | some vs => some ((a.1, v) :: vs)

/-- Ends a run of text inside an element. -/
def flushK (buf : Str) (ks : List Xml) : Option (List Xml) :=
  match buf with
  | [] => some ks
  | _ => (decodeText buf.reverse).map (fun t => addText t ks)

mutual
/-- Effect of an item on the pending raw text (reversed) and the finished nodes (last first). -/
def Src.exec : Src → Str × List Xml → Option (Str × List Xml)
  | .text raw, s => some (raw.reverse ++ s.1, s.2)
  | .empty n as, s =>
    match flushK s.1 s.2, decodeAttrs as with
    | some ks, some vs => some ([], .elem n vs [] :: ks)
    | _, _ => none
  | .elem n as kids, s =>
    match flushK s.1 s.2, decodeAttrs as with
    | some ks, some vs =>
      match execList kids ([], []) with
      | none => none
      | some (b, k) =>
        match flushK b k with
        | none => none
        | some k' => some ([], .elem n vs k'.reverse :: ks)
    | _, _ => none

def execList : List Src → Str × List Xml → Option (Str × List Xml)
  | [], s => some s
  | x :: xs, s =>
    match x.exec s with
    | none => none
    | some s' => execList xs s'
end

/-- Attribute text that can be lexed: a qualified name and a value without quote. -/
def attrLexOk (a : Str × Str) : Bool := isQName a.1 && !a.2.contains '"'

mutual
/-- Source that can be lexed as intended. -/
def Src.lexOk : Src → Bool
  | .elem n as ks => isQName n && as.all attrLexOk && lexOkList ks
  | .empty n as => isQName n && as.all attrLexOk
  | .text raw => !raw.contains '<'

def lexOkList : List Src → Bool
  | [] => true
  | x :: xs => x.lexOk && lexOkList xs
end

theorem run_append (s : RS) (a b : Str) :
    run s (a ++ b) = (run s a).bind (fun s' => run s' b) := by
  induction a generalizing s with
  | nil => rfl
  | cons c a ih =>
    simp only [List.cons_append, run]
    cases step s c with
    | none => rfl
    | some s' => exact ih s'

theorem run_append_of_eq {s s' : RS} {a : Str} (h : run s a = some s') (b : Str) :
    run s (a ++ b) = run s' b := by
  rw [run_append, h]; rfl

theorem run_cons {s s' : RS} {c : Char} (h : step s c = some s') (cs : Str) : run s (c :: cs) = run s' cs := by
  rw [run, h]

/-! ## Names -/

theorem not_qchar_of_mem {c : Char} (h : isQChar c = true) :
    c ≠ '/' ∧ c ≠ '!' ∧ c ≠ '?' ∧ c ≠ '>' ∧ c ≠ '<' ∧ c ≠ ' ' ∧ c ≠ '=' ∧ c ≠ '"' ∧ isWs c = false := by
  refine ⟨?_, ?_, ?_, ?_, ?_, ?_, ?_, ?_, ?_⟩
  all_goals first
    | (intro hc; subst hc; revert h; decide)
    | skip
  cases hw : isWs c with
  | false => rfl
  | true =>
    simp only [isWs, Bool.or_eq_true, beq_iff_eq] at hw
    rcases hw with ((hw | hw) | hw) | hw <;> subst hw <;> revert h <;> decide

theorem isNCName_qchars {s : Str} (h : isNCName s = true) : s ≠ [] ∧ ∀ c ∈ s, isQChar c = true := by
  cases s with
  | nil => simp [isNCName] at h
  | cons c s =>
    simp only [isNCName, Bool.and_eq_true, List.all_eq_true] at h
    refine ⟨by simp, ?_⟩
    intro d hd
    rcases List.mem_cons.1 hd with rfl | hd
    · simp [isQChar, isNameChar, h.1]
    · simp [isQChar, h.2 d hd]

theorem splitQName_eq (s : Str) :
    (splitQName s = (none, s)) ∨
    (∃ p l, splitQName s = (some p, l) ∧ s = p ++ ':' :: l) := by
  unfold splitQName
  split
  · left; rfl
  · rename_i x loc h
    right
    refine ⟨_, _, rfl, ?_⟩
    have hx : x = ':' := by
      have := List.head?_dropWhile_not (p := fun c => c != ':') (l := s)
      rw [h] at this
      simpa using this
    have := List.takeWhile_append_dropWhile (p := fun c => c != ':') (l := s)
    rw [h, hx] at this
    exact this.symm

theorem isQName_qchars {s : Str} (h : isQName s = true) : s ≠ [] ∧ ∀ c ∈ s, isQChar c = true := by
  unfold isQName at h
  rcases splitQName_eq s with h1 | ⟨p, l, h1, h2⟩
  · rw [h1] at h; exact isNCName_qchars h
  · rw [h1] at h
    simp only [Bool.and_eq_true] at h
    have hp := isNCName_qchars h.1
    have hl := isNCName_qchars h.2
    subst h2
    refine ⟨by simp, ?_⟩
    intro c hc
    simp only [List.mem_append, List.mem_cons] at hc
    rcases hc with hc | rfl | hc
    · exact hp.2 c hc
    · decide
    · exact hl.2 c hc

/-! ## Lexing steps -/

theorem run_text (raw : Str) (h : '<' ∉ raw) (buf : Str) (f : Frame) (rest : List Frame) (tl : Str) :
    run ⟨.text buf, f, rest⟩ (raw ++ tl) = run ⟨.text (raw.reverse ++ buf), f, rest⟩ tl := by
  induction raw generalizing buf with
  | nil => rfl
  | cons c raw ih =>
    simp only [List.mem_cons, not_or] at h
    have := ih h.2 (c :: buf)
    simp only [List.cons_append, run, step, if_neg (Ne.symm h.1)]
    rw [this]
    simp

theorem run_tagName (n : Str) (h : ∀ c ∈ n, isQChar c = true) (buf : Str) (f : Frame) (rest : List Frame) (tl : Str) :
    run ⟨.tagName buf, f, rest⟩ (n ++ tl) = run ⟨.tagName (n.reverse ++ buf), f, rest⟩ tl := by
  induction n generalizing buf with
  | nil => rfl
  | cons c n ih =>
    simp only [List.cons_append, run, step, h c (by simp), if_true]
    rw [ih (fun d hd => h d (by simp [hd]))]
    simp

theorem run_attrName (n : Str) (h : ∀ c ∈ n, isQChar c = true) (nm : Str) (as : List (Str × Str)) (buf : Str)
    (f : Frame) (rest : List Frame) (tl : Str) :
    run ⟨.attrName nm as buf, f, rest⟩ (n ++ tl) = run ⟨.attrName nm as (n.reverse ++ buf), f, rest⟩ tl := by
  induction n generalizing buf with
  | nil => rfl
  | cons c n ih =>
    simp only [List.cons_append, run, step, h c (by simp), if_true]
    rw [ih (fun d hd => h d (by simp [hd]))]
    simp

theorem run_attrVal (raw : Str) (h : '"' ∉ raw) (nm : Str) (as : List (Str × Str)) (an buf : Str)
    (f : Frame) (rest : List Frame) (tl : Str) :
    run ⟨.attrVal nm as an '"' buf, f, rest⟩ (raw ++ tl) =
      run ⟨.attrVal nm as an '"' (raw.reverse ++ buf), f, rest⟩ tl := by
  induction raw generalizing buf with
  | nil => rfl
  | cons c raw ih =>
    simp only [List.mem_cons, not_or] at h
    have := ih h.2 (c :: buf)
    simp only [List.cons_append, run, step, if_neg (Ne.symm h.1)]
    rw [this]
    simp

theorem run_closeName (n : Str) (h : ∀ c ∈ n, isQChar c = true) (buf : Str) (f : Frame) (rest : List Frame) (tl : Str) :
    run ⟨.closeName buf, f, rest⟩ (n ++ tl) = run ⟨.closeName (n.reverse ++ buf), f, rest⟩ tl := by
  induction n generalizing buf with
  | nil => rfl
  | cons c n ih =>
    have hc := not_qchar_of_mem (h c (by simp))
    simp only [List.cons_append, run, step, if_neg hc.2.2.2.1, hc.2.2.2.2.2.2.2.2, Bool.false_eq_true, if_false]
    rw [ih (fun d hd => h d (by simp [hd]))]
    simp

/-- One attribute, read after the white space before it. -/
theorem run_attr (n raw : Str) (hn : isQName n = true) (hr : '"' ∉ raw) (nm : Str) (as : List (Str × Str))
    (f : Frame) (rest : List Frame) (tl : Str) :
    run ⟨.inTag nm as true, f, rest⟩ (n ++ c!"=\"" ++ raw ++ '"' :: tl) =
      match decodeAttr raw with
      | none => none
      | some v => run ⟨.inTag nm (as ++ [(n, v)]) false, f, rest⟩ tl := by
  obtain ⟨hne, hq⟩ := isQName_qchars hn
  cases n with
  | nil => exact absurd rfl hne
  | cons c n =>
    have hc := not_qchar_of_mem (hq c (by simp))
    simp only [List.cons_append, List.append_assoc, run]
    simp only [step, hc.2.2.2.2.2.2.2.2, Bool.false_eq_true, if_false, if_neg hc.2.2.2.1, if_neg hc.1, hq c (by simp),
      Bool.and_self, if_true]
    rw [run_attrName n (fun d hd => hq d (by simp [hd]))]
    have he : (n.reverse ++ [c]).reverse = c :: n := by simp
    simp only [List.nil_append, run, step, he]
    rw [if_neg (by decide), if_pos hn]
    simp only [if_true]
    rw [if_neg (by decide), if_pos (by decide)]
    dsimp only
    rw [run_attrVal raw hr]
    simp only [run, step, if_true, List.append_nil, List.reverse_reverse]
    cases decodeAttr raw <;> rfl

/-- Attributes, read right after a name or an attribute. -/
theorem run_attrs (as : List (Str × Str)) (h : as.all attrLexOk = true) (nm : Str) (pre : List (Str × Str)) (ws : Bool)
    (f : Frame) (rest : List Frame) (c : Char) (hc : c = '>' ∨ c = '/') (tl : Str) :
    run ⟨.inTag nm pre ws, f, rest⟩ (attrsText as ++ c :: tl) =
      match decodeAttrs as with
      | none => none
      | some vs => run ⟨.inTag nm (pre ++ vs) false, f, rest⟩ (c :: tl) := by
  induction as generalizing pre ws with
  | nil =>
    simp only [attrsText, List.flatMap_nil, List.nil_append, decodeAttrs, List.append_nil]
    rcases hc with rfl | rfl <;> simp [run, step, isWs]
  | cons a as ih =>
    simp only [List.all_cons, Bool.and_eq_true, attrLexOk, Bool.not_eq_true', List.contains_eq_mem, decide_eq_false_iff_not] at h
    have e : attrsText (a :: as) ++ c :: tl = ' ' :: (a.1 ++ c!"=\"" ++ a.2 ++ '"' :: (attrsText as ++ c :: tl)) := by
      simp [attrsText, List.append_assoc]
    rw [e]
    have hs : run ⟨.inTag nm pre ws, f, rest⟩ (' ' :: (a.1 ++ c!"=\"" ++ a.2 ++ '"' :: (attrsText as ++ c :: tl))) =
        run ⟨.inTag nm pre true, f, rest⟩ (a.1 ++ c!"=\"" ++ a.2 ++ '"' :: (attrsText as ++ c :: tl)) := by
      rw [run]; simp [step, isWs]
    rw [hs, run_attr _ _ h.1.1 h.1.2]
    simp only [decodeAttrs]
    cases hd : decodeAttr a.2 with
    | none => rfl
    | some v =>
      simp only
      rw [ih (by simpa using h.2)]
      cases hds : decodeAttrs as with
      | none => rfl
      | some vs => simp

/-- A start tag up to the character `>` or `/` that ends the attributes. -/
theorem run_tagStart (n : Str) (hn : isQName n = true) (as : List (Str × Str)) (h : as.all attrLexOk = true)
    (buf : Str) (f : Frame) (rest : List Frame) (c : Char) (hc : c = '>' ∨ c = '/') (tl : Str) :
    run ⟨.text buf, f, rest⟩ ('<' :: n ++ attrsText as ++ c :: tl) =
      match flush buf f rest, decodeAttrs as with
      | some f', some vs => run ⟨.inTag n vs false, f', rest⟩ (c :: tl)
      | _, _ => none := by
  obtain ⟨hne, hq⟩ := isQName_qchars hn
  simp only [List.cons_append, run, step, if_true]
  cases hf : flush buf f rest with
  | none => rfl
  | some f' =>
    simp only [Option.map_some]
    cases n with
    | nil => exact absurd rfl hne
    | cons d n =>
      have hd := not_qchar_of_mem (hq d (by simp))
      simp only [List.cons_append, run, step, if_neg hd.1, if_neg hd.2.1, if_neg hd.2.2.1, hq d (by simp), if_true]
      rw [List.append_assoc, run_tagName n (fun d hd => hq d (by simp [hd]))]
      have he : (n.reverse ++ [d]).reverse = d :: n := by simp
      cases as with
      | nil =>
        simp only [attrsText, List.flatMap_nil, List.nil_append, decodeAttrs]
        rcases hc with rfl | rfl
        · simp only [run, step, he]
          rw [if_neg (by decide), if_pos hn]
          simp [isWs]
        · simp only [run, step, he]
          rw [if_neg (by decide), if_pos hn]
          simp [isWs]
      | cons a as =>
        have e : attrsText (a :: as) ++ c :: tl = ' ' :: (a.1 ++ c!"=\"" ++ a.2 ++ '"' :: (attrsText as ++ c :: tl)) := by
          simp [attrsText, List.append_assoc]
        have e2 := run_attrs (a :: as) h (d :: n) [] true f' rest c hc tl
        rw [e] at e2 ⊢
        rw [run_cons (s' := ⟨.inTag (d :: n) [] true, f', rest⟩) (by simp [step, isWs])] at e2
        rw [run_cons (s' := ⟨.inTag (d :: n) [] true, f', rest⟩)
          (by simp only [step, he]; rw [if_neg (by decide), if_pos hn, if_pos (by decide)]), e2]
        cases decodeAttrs (a :: as) <;> rfl

theorem run_close (n : Str) (hn : isQName n = true) (buf : Str) (f : Frame) (rest : List Frame) (tl : Str) :
    run ⟨.text buf, f, rest⟩ (c!"</" ++ n ++ '>' :: tl) =
      match flush buf f rest with
      | none => none
      | some f' =>
        match closeElem n f' rest with
        | none => none
        | some s => run s tl := by
  obtain ⟨hne, hq⟩ := isQName_qchars hn
  simp only [List.cons_append, List.nil_append, run, step, if_true]
  cases flush buf f rest with
  | none => rfl
  | some f' =>
    simp only [Option.map_some]
    rw [run_closeName n hq]
    simp only [run, step, if_true, List.append_nil, List.reverse_reverse]
    cases closeElem n f' rest <;> rfl

theorem flush_inner (buf : Str) (fn : Str) (fa : List (Str × Str)) (ks : List Xml) (g : Frame) (rest : List Frame) :
    flush buf ⟨fn, fa, ks⟩ (g :: rest) = (flushK buf ks).map (fun k => ⟨fn, fa, k⟩) := by
  cases buf with
  | nil => rfl
  | cons c b =>
    simp only [flush, flushK]
    cases decodeText (c :: b).reverse <;> rfl

mutual
/-- What the reader does on one item inside an element. -/
theorem run_src (x : Src) (hx : x.lexOk = true) (buf : Str) (fn : Str) (fa : List (Str × Str)) (ks : List Xml)
    (g : Frame) (rest : List Frame) (tl : Str) :
    run ⟨.text buf, ⟨fn, fa, ks⟩, g :: rest⟩ (x.render ++ tl) =
      match x.exec (buf, ks) with
      | none => none
      | some r => run ⟨.text r.1, ⟨fn, fa, r.2⟩, g :: rest⟩ tl := by
  match x with
  | .text raw =>
    simp only [Src.lexOk, Bool.not_eq_true', List.contains_eq_mem, decide_eq_false_iff_not] at hx
    simp only [Src.render, Src.exec]
    exact run_text raw hx ..
  | .empty n as =>
    simp only [Src.lexOk, Bool.and_eq_true] at hx
    have e : (Src.empty n as).render ++ tl = '<' :: n ++ attrsText as ++ '/' :: ('>' :: tl) := by
      simp [Src.render, List.append_assoc]
    rw [e, run_tagStart n hx.1 as hx.2 _ _ _ _ (Or.inr rfl), flush_inner]
    simp only [Src.exec]
    cases flushK buf ks with
    | none => simp
    | some ks1 =>
      cases decodeAttrs as with
      | none => simp
      | some vs => simp [run, step, emptyElem, isWs]
  | .elem n as kids =>
    simp only [Src.lexOk, Bool.and_eq_true] at hx
    have e : (Src.elem n as kids).render ++ tl =
        '<' :: n ++ attrsText as ++ '>' :: (renderList kids ++ (c!"</" ++ n ++ '>' :: tl)) := by
      simp [Src.render, List.append_assoc]
    rw [e, run_tagStart n hx.1.1 as hx.1.2 _ _ _ _ (Or.inl rfl), flush_inner]
    simp only [Src.exec]
    cases flushK buf ks with
    | none => simp
    | some ks1 =>
      cases decodeAttrs as with
      | none => simp
      | some vs =>
        simp only [Option.map_some]
        rw [run]
        simp only [step, openElem]
        rw [if_neg (by decide)]
        simp only [if_true, List.isEmpty_cons, Bool.false_and, Bool.false_eq_true, if_false]
        rw [run_srcs kids hx.2]
        cases hk : execList kids ([], []) with
        | none => rfl
        | some r =>
          obtain ⟨b, k⟩ := r
          simp only
          rw [run_close n hx.1.1, flush_inner]
          cases flushK b k with
          | none => simp
          | some k' => simp [closeElem]

/-- What the reader does on a list of items inside an element. -/
theorem run_srcs (xs : List Src) (hx : lexOkList xs = true) (buf : Str) (fn : Str) (fa : List (Str × Str))
    (ks : List Xml) (g : Frame) (rest : List Frame) (tl : Str) :
    run ⟨.text buf, ⟨fn, fa, ks⟩, g :: rest⟩ (renderList xs ++ tl) =
      match execList xs (buf, ks) with
      | none => none
      | some r => run ⟨.text r.1, ⟨fn, fa, r.2⟩, g :: rest⟩ tl := by
  match xs with
  | [] => simp [renderList, execList]
  | x :: xs =>
    simp only [lexOkList, Bool.and_eq_true] at hx
    simp only [renderList, List.append_assoc, execList]
    rw [run_src x hx.1]
    cases x.exec (buf, ks) with
    | none => rfl
    | some r => exact run_srcs xs hx.2 ..
end

end ReqIF
