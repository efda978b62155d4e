import Verif.Proofs.Read
/-! Reading whole documents. -/
namespace ReqIF

/-- The child nodes of an element with this content. -/
def evalKids (kids : List Src) : Option (List Xml) :=
  match execList kids ([], []) with
  | none => none
  | some r => (flushK r.1 r.2).map List.reverse

/-- The tree an element item denotes. -/
def Src.eval : Src → Option Xml
  | .elem n as kids =>
    match decodeAttrs as, evalKids kids with
    | some vs, some ks => some (.elem n vs ks)
    | _, _ => none
  | .empty n as =>
    match decodeAttrs as with
    | some vs => some (.elem n vs [])
    | none => none
  | .text _ => none

/-- Is the item an element? -/
def Src.isElem : Src → Bool
  | .text _ => false
  | _ => true

theorem exec_elem (x : Src) (h : x.isElem = true) (buf : Str) (ks : List Xml) :
    x.exec (buf, ks) =
      match flushK buf ks, x.eval with
      | some k, some e => some ([], e :: k)
      | _, _ => none := by
  cases x with
  | text raw => simp [Src.isElem] at h
  | empty n as =>
    simp only [Src.exec, Src.eval]
    cases flushK buf ks <;> cases decodeAttrs as <;> rfl
  | elem n as kids =>
    simp only [Src.exec, Src.eval, evalKids]
    cases flushK buf ks <;> cases decodeAttrs as <;> try rfl
    simp only
    cases execList kids ([], []) with
    | none => rfl
    | some r => simp only; cases flushK r.1 r.2 <;> rfl

/-- Reading the root element. -/
theorem run_root (x : Src) (h : x.isElem = true) (hx : x.lexOk = true) (buf : Str) (hb : buf.all isWs = true)
    (ks : List Xml) (hk : hasElem ks = false) (tl : Str) :
    run ⟨.text buf, ⟨[], [], ks⟩, []⟩ (x.render ++ tl) =
      match x.eval with
      | none => none
      | some e => run ⟨.text [], ⟨[], [], e :: ks⟩, []⟩ tl := by
  have hf : flush buf ⟨[], [], ks⟩ [] = some ⟨[], [], ks⟩ := by
    unfold flush
    cases buf with
    | nil => rfl
    | cons c b => simp only [hb, if_true]
  match x, h with
  | .empty n as, _ =>
    simp only [Src.lexOk, Bool.and_eq_true] at hx
    have e : (Src.empty n as).render ++ tl = '<' :: n ++ attrsText as ++ '/' :: ('>' :: tl) := by
      simp [Src.render, List.append_assoc]
    rw [e, run_tagStart n hx.1 as hx.2 _ _ _ _ (Or.inr rfl), hf]
    simp only [Src.eval]
    cases decodeAttrs as with
    | none => simp
    | some vs => simp [run, step, emptyElem, isWs, hk]
  | .elem n as kids, _ =>
    simp only [Src.lexOk, Bool.and_eq_true] at hx
    have e : (Src.elem n as kids).render ++ tl =
        '<' :: n ++ attrsText as ++ '>' :: (renderList kids ++ (c!"</" ++ n ++ '>' :: tl)) := by
      simp [Src.render, List.append_assoc]
    rw [e, run_tagStart n hx.1.1 as hx.1.2 _ _ _ _ (Or.inl rfl), hf]
    simp only [Src.eval, evalKids]
    cases decodeAttrs as with
    | none => simp
    | some vs =>
      dsimp only
      rw [run_cons (s' := ⟨.text [], ⟨n, vs, []⟩, ⟨[], [], ks⟩ :: []⟩)
        (by simp only [step, openElem, hk]; rw [if_neg (by decide)]; simp), run_srcs kids hx.2]
      cases execList kids ([], []) with
      | none => rfl
      | some r =>
        dsimp only
        rw [run_close n hx.1.1, flush_inner]
        cases flushK r.1 r.2 with
        | none => simp
        | some k' => simp [closeElem]

theorem isElem_render (x : Src) (h : x.isElem = true) (hx : x.lexOk = true) :
    ∃ c tl, x.render = '<' :: c :: tl ∧ isQChar c = true := by
  have key : ∀ n, isQName n = true → ∃ c tl, n = c :: tl ∧ isQChar c = true := by
    intro n hn
    obtain ⟨hne, hq⟩ := isQName_qchars hn
    cases n with
    | nil => exact absurd rfl hne
    | cons c tl => exact ⟨c, tl, rfl, hq c (by simp)⟩
  cases x with
  | text raw => simp [Src.isElem] at h
  | empty n as =>
    simp only [Src.lexOk, Bool.and_eq_true] at hx
    obtain ⟨c, tl, rfl, hc⟩ := key n hx.1
    exact ⟨c, tl ++ attrsText as ++ c!"/>", by simp [Src.render], hc⟩
  | elem n as kids =>
    simp only [Src.lexOk, Bool.and_eq_true] at hx
    obtain ⟨c, tl, rfl, hc⟩ := key n hx.1.1
    exact ⟨c, tl ++ attrsText as ++ c!">" ++ renderList kids ++ c!"</" ++ c :: tl ++ c!">", by simp [Src.render], hc⟩

theorem run_start_src (x : Src) (h : x.isElem = true) (hx : x.lexOk = true) (pre post : Str)
    (hpre : pre.all isWs = true) (hpost : post.all isWs = true) :
    (run RS.start (pre ++ (x.render ++ post))).bind finish = x.eval.map (fun e => [e]) := by
  have noLt : ∀ s : Str, s.all isWs = true → '<' ∉ s := by
    intro s hs hm
    have := List.all_eq_true.1 hs _ hm
    exact absurd this (by decide)
  have e1 : run RS.start (pre ++ (x.render ++ post)) =
      run ⟨.text pre.reverse, ⟨[], [], []⟩, []⟩ (x.render ++ post) := by
    have := run_text pre (noLt pre hpre) [] ⟨[], [], []⟩ [] (x.render ++ post)
    simpa [RS.start] using this
  rw [e1, run_root x h hx _ (by simpa using hpre) [] rfl]
  cases hev : x.eval with
  | none => rfl
  | some e =>
    dsimp only
    have e2 := run_text post (noLt post hpost) [] ⟨[], [], [e]⟩ [] []
    simp only [List.append_nil] at e2
    rw [e2]
    have he : hasElem [e] = true := by
      cases x with
      | text raw => simp [Src.isElem] at h
      | empty n as =>
        simp only [Src.eval] at hev
        split at hev <;> simp at hev
        subst hev; rfl
      | elem n as kids =>
        simp only [Src.eval] at hev
        split at hev <;> simp at hev
        subst hev; rfl
    simp [run, finish, he, hpost]

/-- A document that is one element. -/
theorem readRaw_src (x : Src) (h : x.isElem = true) (hx : x.lexOk = true) (hr : '\r' ∉ x.render) :
    readRaw x.render = x.eval.map (fun e => (none, [e])) := by
  obtain ⟨c, tl, hc, hq⟩ := isElem_render x h hx
  have hne := not_qchar_of_mem hq
  unfold readRaw
  have e0 : dropBom x.render = x.render := by rw [hc, dropBom, if_neg (by decide)]
  rw [e0, normEol_of_noCr hr]
  have hd : readDecl x.render = some (none, x.render) := by
    rw [hc]
    unfold readDecl
    split
    · rename_i h'; injection h' with _ h'; injection h' with h' _; exact absurd h' hne.2.2.1
    · rfl
  rw [hd]
  dsimp only
  have e := run_start_src x h hx [] [] rfl rfl
  simp only [List.nil_append, List.append_nil] at e
  cases hrun : run RS.start x.render with
  | none => rw [hrun] at e; cases hev : x.eval <;> rw [hev] at e <;> simp_all
  | some st =>
    rw [hrun] at e
    simp only [Option.bind_some] at e
    dsimp only
    rw [e]
    cases x.eval <;> rfl

/-- The XML declaration the unparser prints. -/
def declText : Str := c!"<?xml version=\"1.0\" encoding=\"UTF-8\"?>\n"

/-- A document with declaration, one element and a final line feed. -/
theorem readRaw_decl (x : Src) (h : x.isElem = true) (hx : x.lexOk = true) (hr : '\r' ∉ x.render) :
    readRaw (declText ++ x.render ++ c!"\n") = x.eval.map (fun e => (some ⟨some c!"UTF-8"⟩, [e])) := by
  have hn : normEol (declText ++ x.render ++ c!"\n") = declText ++ x.render ++ c!"\n" := by
    apply normEol_of_noCr
    simp only [List.mem_append, not_or]
    exact ⟨⟨by decide, hr⟩, by decide⟩
  have hd : readDecl (declText ++ x.render ++ c!"\n") =
      some (some ⟨some c!"UTF-8"⟩, c!"\n" ++ (x.render ++ c!"\n")) := by
    rfl
  unfold readRaw
  have e0 : ∀ s : Str, dropBom (declText ++ s) = declText ++ s := fun s => by
    simp only [declText, List.cons_append]; rw [dropBom, if_neg (by decide)]
  rw [List.append_assoc] at hn hd ⊢
  rw [e0, hn, hd]
  dsimp only
  have e := run_start_src x h hx c!"\n" c!"\n" (by decide) (by decide)
  cases hrun : run RS.start (c!"\n" ++ (x.render ++ c!"\n")) with
  | none => rw [hrun] at e; cases hev : x.eval <;> rw [hev] at e <;> simp_all
  | some st =>
    rw [hrun] at e
    simp only [Option.bind_some] at e
    dsimp only
    rw [e]
    cases x.eval <;> rfl

end ReqIF
