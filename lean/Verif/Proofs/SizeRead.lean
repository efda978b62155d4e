import Verif.Spec.Size
import Verif.Proofs.GrammarNames
import Verif.Spec.Markup
import Verif.Model.Parser
/-!
# The tree read from a text is no larger than the text

The reader holds at every moment no more than it has read; resolving prefixes splits names and drops nothing else.
-/
namespace ReqIF
open Spec

/-- An attribute as written. -/
def attrSize (a : Str × Str) : Nat := a.1.length + a.2.length + 1

/-- A start tag as written. -/
def tagSize (name : Str) (attrs : List (Str × Str)) : Nat := 1 + name.length + (attrs.map attrSize).sum

mutual
/-- A tree as written. -/
def Xml.size : Xml → Nat
  | .elem name attrs ks => tagSize name attrs + xmlsSize ks
  | .text s => s.length
  | .comment s => s.length + 1
  | .pi t d => t.length + d.length + 1

def xmlsSize : List Xml → Nat
  | [] => 0
  | x :: xs => x.size + xmlsSize xs
end

theorem xmlsSize_append (xs ys : List Xml) : xmlsSize (xs ++ ys) = xmlsSize xs + xmlsSize ys := by
  induction xs with
  | nil => simp [xmlsSize]
  | cons x xs ih => rw [List.cons_append, xmlsSize, xmlsSize, ih]; omega

theorem xmlsSize_reverse (xs : List Xml) : xmlsSize xs.reverse = xmlsSize xs := by
  induction xs with
  | nil => rfl
  | cons x xs ih => rw [List.reverse_cons, xmlsSize_append, ih]; simp only [xmlsSize]; omega

/-- What the reader is in the middle of. -/
def Mode.size : Mode → Nat
  | .text buf => buf.length
  | .lt => 1
  | .tagName buf => buf.length + 1
  | .inTag name attrs _ => tagSize name attrs
  | .attrName name attrs buf => tagSize name attrs + buf.length
  | .attrEq name attrs an => tagSize name attrs + an.length
  | .attrQuote name attrs an => tagSize name attrs + an.length
  | .attrVal name attrs an _ buf => tagSize name attrs + an.length + buf.length + 1
  | .slash name attrs => tagSize name attrs
  | .closeName _ => 0
  | .closeWs _ => 0
  | .bang _ => 0
  | .comment buf => buf.length
  | .cdata buf => buf.length
  | .pi buf => buf.length

def Frame.size (f : Frame) : Nat := tagSize f.name f.attrs + xmlsSize f.kidsRev

def RS.size (s : RS) : Nat := s.mode.size + s.top.size + (s.rest.map Frame.size).sum

theorem decodeGo_length (lit : Char → Option Char) : ∀ (raw : Str) (p : Option Str) (t : Str), decodeGo lit p raw = some t → t.length ≤ raw.length
  | [], none, t, h => by rw [decodeGo] at h; cases h; exact Nat.le_refl _
  | [], some _, t, h => by rw [decodeGo] at h; cases h
  | c :: s, none, t, h => by
    rw [decodeGo] at h
    split at h
    · have := decodeGo_length lit s _ t h
      exact Nat.le_succ_of_le this
    · split at h
      · cases h
      · cases hd : decodeGo lit none s with
        | none => rw [hd] at h; cases h
        | some u =>
          rw [hd] at h
          cases h
          exact Nat.succ_le_succ (decodeGo_length lit s _ u hd)
  | c :: s, some nm, t, h => by
    rw [decodeGo] at h
    split at h
    · split at h
      · cases h
      · cases hd : decodeGo lit none s with
        | none => rw [hd] at h; cases h
        | some u =>
          rw [hd] at h
          cases h
          exact Nat.succ_le_succ (decodeGo_length lit s _ u hd)
    · exact Nat.le_succ_of_le (decodeGo_length lit s _ t h)

theorem decodeText_length {raw t : Str} (h : decodeText raw = some t) : t.length ≤ raw.length := by
  unfold decodeText at h
  split at h
  · cases h
  · exact decodeGo_length _ _ _ _ h

theorem addText_size (t : Str) (ks : List Xml) : xmlsSize (addText t ks) = t.length + xmlsSize ks := by
  unfold addText
  split
  · simp only [xmlsSize, Xml.size, List.length_append]; omega
  · simp only [xmlsSize, Xml.size]

theorem flush_size {buf : Str} {f g : Frame} {rest : List Frame} (h : flush buf f rest = some g) : g.size ≤ f.size + buf.length := by
  unfold flush at h
  split at h
  · cases h; exact Nat.le_refl _
  · split at h
    · split at h
      · cases h; exact Nat.le_add_right _ _
      · cases h
    · split at h
      · cases h
      · rename_i t ht
        cases h
        have := decodeText_length ht
        rw [List.length_reverse] at this
        simp only [Frame.size, addText_size]
        omega

theorem openElem_size {name : Str} {attrs : List (Str × Str)} {f : Frame} {rest : List Frame} {s : RS}
    (h : openElem name attrs f rest = some s) : s.size = tagSize name attrs + f.size + (rest.map Frame.size).sum := by
  unfold openElem at h
  split at h
  · cases h
  · cases h
    simp only [RS.size, Mode.size, Frame.size, xmlsSize, List.map_cons, List.sum_cons, List.length_nil]
    omega

theorem emptyElem_size {name : Str} {attrs : List (Str × Str)} {f : Frame} {rest : List Frame} {s : RS}
    (h : emptyElem name attrs f rest = some s) : s.size = tagSize name attrs + f.size + (rest.map Frame.size).sum := by
  unfold emptyElem at h
  split at h
  · cases h
  · cases h
    simp only [RS.size, Mode.size, Frame.size, xmlsSize, Xml.size, List.length_nil]
    omega

theorem closeElem_size {name : Str} {f : Frame} {rest : List Frame} {s : RS}
    (h : closeElem name f rest = some s) : s.size = f.size + (rest.map Frame.size).sum := by
  unfold closeElem at h
  split at h
  · cases h
  · split at h
    · cases h
      simp only [RS.size, Mode.size, Frame.size, xmlsSize, Xml.size, xmlsSize_reverse, List.map_cons, List.sum_cons, List.length_nil]
      omega
    · cases h

theorem dropWhile_length {p : Char → Bool} (s : Str) : (s.dropWhile p).length ≤ s.length := by
  induction s with
  | nil => exact Nat.le_refl _
  | cons c s ih =>
    rw [List.dropWhile_cons]
    split
    · exact Nat.le_succ_of_le ih
    · exact Nat.le_refl _

theorem finishPi_size {body : Str} {x : Xml} (h : finishPi body = some x) : x.size ≤ body.length + 1 := by
  unfold finishPi at h
  dsimp only at h
  split at h
  · cases h
    have h1 : (body.takeWhile (fun c => !isWs c)).length + (body.dropWhile (fun c => !isWs c)).length = body.length := by
      rw [← List.length_append, List.takeWhile_append_dropWhile]
    have h2 := dropWhile_length (p := isWs) (body.dropWhile (fun c => !isWs c))
    simp only [Xml.size]
    omega
  · cases h

theorem tagSize_snoc (name : Str) (attrs : List (Str × Str)) (a v : Str) :
    tagSize name (attrs ++ [(a, v)]) = tagSize name attrs + a.length + v.length + 1 := by
  simp only [tagSize, attrSize, List.map_append, List.sum_append, List.map_cons, List.map_nil, List.sum_cons, List.sum_nil]
  omega

theorem step_size {s s' : RS} {c : Char} (h : step s c = some s') : s'.size ≤ s.size + 1 := by
  obtain ⟨mode, top, rest⟩ := s
  unfold step at h
  cases mode with
  | text buf =>
    dsimp only at h
    split at h
    · cases hf : flush buf top rest with
      | none => rw [hf] at h; cases h
      | some f =>
        rw [hf] at h
        cases h
        have := flush_size hf
        simp only [RS.size, Mode.size]
        omega
    · cases h
      simp only [RS.size, Mode.size, List.length_cons]
      omega
  | lt =>
    dsimp only at h
    repeat' split at h
    all_goals first | cases h; done | (cases h; simp only [RS.size, Mode.size, List.length_cons, List.length_nil]; omega)
  | tagName buf =>
    dsimp only at h
    split at h
    · cases h; simp only [RS.size, Mode.size, List.length_cons]; omega
    · split at h
      · split at h
        · cases h
          simp only [RS.size, Mode.size, tagSize, List.length_reverse, List.map_nil, List.sum_nil]; omega
        · split at h
          · have := openElem_size h
            rw [this]
            simp only [RS.size, Mode.size, tagSize, List.length_reverse, List.map_nil, List.sum_nil]; omega
          · split at h
            · cases h
              simp only [RS.size, Mode.size, tagSize, List.length_reverse, List.map_nil, List.sum_nil]; omega
            · cases h
      · cases h
  | inTag name attrs ws =>
    dsimp only at h
    split at h
    · cases h; exact Nat.le_succ _
    · split at h
      · rw [openElem_size h]
        simp only [RS.size, Mode.size]; omega
      · split at h
        · cases h; exact Nat.le_succ _
        · split at h
          · cases h
            simp only [RS.size, Mode.size, List.length_cons, List.length_nil]; omega
          · cases h
  | attrName name attrs buf =>
    dsimp only at h
    repeat' split at h
    all_goals first
      | cases h; done
      | (cases h; simp only [RS.size, Mode.size, List.length_cons, List.length_reverse]; omega)
  | attrEq name attrs an =>
    dsimp only at h
    repeat' split at h
    all_goals first
      | cases h; done
      | (cases h; simp only [RS.size, Mode.size]; omega)
  | attrQuote name attrs an =>
    dsimp only at h
    repeat' split at h
    all_goals first
      | cases h; done
      | (cases h; simp only [RS.size, Mode.size, List.length_nil]; omega)
  | attrVal name attrs an q buf =>
    dsimp only at h
    split at h
    · split at h
      · cases h
      · rename_i v hv
        cases h
        have := decodeGo_length _ _ _ _ hv
        rw [List.length_reverse] at this
        simp only [RS.size, Mode.size, tagSize_snoc]
        omega
    · cases h
      simp only [RS.size, Mode.size, List.length_cons]; omega
  | slash name attrs =>
    dsimp only at h
    split at h
    · rw [emptyElem_size h]
      simp only [RS.size, Mode.size]; omega
    · cases h
  | closeName buf =>
    dsimp only at h
    split at h
    · rw [closeElem_size h]
      simp only [RS.size, Mode.size]; omega
    · split at h <;> (cases h; simp only [RS.size, Mode.size]; omega)
  | closeWs name =>
    dsimp only at h
    split at h
    · rw [closeElem_size h]
      simp only [RS.size, Mode.size]; omega
    · split at h
      · cases h; exact Nat.le_succ _
      · cases h
  | bang buf =>
    dsimp only at h
    repeat' split at h
    all_goals first
      | cases h; done
      | (cases h; simp only [RS.size, Mode.size, List.length_nil]; omega)
  | comment buf =>
    dsimp only at h
    split at h
    · rename_i h2
      split at h
      · cases h
        have h3 : (buf.take 2).length = 2 := by rw [h2]; rfl
        rw [List.length_take] at h3
        simp only [RS.size, Mode.size, Frame.size, xmlsSize, Xml.size, List.length_reverse, List.length_drop, List.length_nil]
        omega
      · cases h
    · cases h
      simp only [RS.size, Mode.size, List.length_cons]; omega
  | cdata buf =>
    dsimp only at h
    split at h
    · split at h
      · cases h
        simp only [RS.size, Mode.size, Frame.size, addText_size, List.length_reverse, List.length_drop, List.length_nil]
        omega
      · cases h
    · cases h
      simp only [RS.size, Mode.size, List.length_cons]; omega
  | pi buf =>
    dsimp only at h
    split at h
    · split at h
      · cases h
      · rename_i p hp
        cases h
        have := finishPi_size hp
        simp only [List.length_reverse, List.length_drop] at this
        simp only [RS.size, Mode.size, Frame.size, xmlsSize, List.length_nil]
        omega
    · cases h
      simp only [RS.size, Mode.size, List.length_cons]; omega

theorem run_size : ∀ (t : Str) (s s' : RS), run s t = some s' → s'.size ≤ s.size + t.length
  | [], s, s', h => by rw [run] at h; cases h; exact Nat.le_refl _
  | c :: cs, s, s', h => by
    rw [run] at h
    split at h
    · cases h
    · rename_i s1 h1
      have := step_size h1
      have := run_size cs s1 s' h
      rw [List.length_cons]
      omega

theorem normEol_length : ∀ s : Str, (normEol s).length ≤ s.length := by
  intro s
  induction s using normEol.induct with
  | case1 => exact Nat.le_refl _
  | case2 s ih => rw [normEol]; simp only [List.length_cons]; omega
  | case3 c s h ih => rw [normEol.eq_3 c s h]; simp only [List.length_cons]; omega

theorem dropBom_length (s : Str) : (dropBom s).length ≤ s.length := by
  cases s with
  | nil => exact Nat.le_refl _
  | cons c s =>
    rw [dropBom]
    split
    · exact Nat.le_succ _
    · exact Nat.le_refl _

theorem splitPiEnd_length : ∀ (s : Str) (p : Str × Str), splitPiEnd s = some p → p.2.length ≤ s.length := by
  intro s
  induction s using splitPiEnd.induct with
  | case1 => intro p h; rw [splitPiEnd] at h; cases h
  | case2 s => intro p h; rw [splitPiEnd] at h; cases h; simp only [List.length_cons]; omega
  | case3 c s hc ih =>
    intro p h
    rw [splitPiEnd.eq_3 c s hc] at h
    cases hs : splitPiEnd s with
    | none => rw [hs] at h; cases h
    | some q =>
      rw [hs] at h
      cases h
      have := ih q hs
      simp only [List.length_cons]
      omega

theorem readDecl_length {s s' : Str} {d : Option Decl} (h : readDecl s = some (d, s')) : s'.length ≤ s.length := by
  unfold readDecl at h
  split at h
  · split at h
    · split at h
      · cases h
      · rename_i body s'' hs
        split at h
        · cases h
        · split at h
          · split at h
            · cases h
              have := splitPiEnd_length _ _ hs
              simp only [List.length_cons]
              dsimp only at this
              omega
            · cases h
          · cases h
    · cases h; exact Nat.le_refl _
  · cases h; exact Nat.le_refl _

theorem readRaw_size {s : Str} {d : Option Decl} {xs : List Xml} (h : readRaw s = some (d, xs)) : xmlsSize xs ≤ s.length := by
  unfold readRaw at h
  split at h
  · cases h
  · rename_i d' s' hd
    split at h
    · cases h
    · rename_i st hst
      split at h
      · cases h
      · rename_i ks hks
        cases h
        have h1 := readDecl_length hd
        have h2 := normEol_length (dropBom s)
        have h3 := dropBom_length s
        have h4 := run_size _ _ _ hst
        have h5 : xmlsSize xs + 1 ≤ st.size := by
          unfold finish at hks
          split at hks
          · split at hks
            · cases hks
              rw [xmlsSize_reverse]
              simp only [RS.size, Frame.size, tagSize]
              omega
            · cases hks
          · cases hks
        have h6 : RS.start.size = 1 := rfl
        omega

/-! ## Resolved trees -/

theorem splitQName_length (q : Str) : prefixSize (splitQName q).1 + (splitQName q).2.length ≤ q.length := by
  unfold splitQName
  split
  · simp [prefixSize]
  · rename_i c l h
    have h1 : (q.takeWhile (· != ':')).length + (q.dropWhile (· != ':')).length = q.length := by
      rw [← List.length_append, List.takeWhile_append_dropWhile]
    rw [h, List.length_cons] at h1
    simp only [prefixSize]
    omega

theorem declared_length {an : Str} {p : Option Str} (h : declaredPrefix an = some p) : prefixSize p ≤ an.length := by
  have hq := splitQName_length an
  unfold declaredPrefix at h
  split at h
  · cases h; exact Nat.zero_le _
  · revert hq h
    cases splitQName an with
    | mk a l =>
      cases a with
      | none => intro hq h; cases h
      | some q =>
        intro hq h
        dsimp only at h
        split at h
        · cases h
          simp only [prefixSize] at hq ⊢
          rename_i hx
          rw [hx] at hq
          simp only [List.length_cons, List.length_nil] at hq
          omega
        · cases h

theorem resolveAttr_size {m : NsMap} {a : Str × Str} {x : Attr} (h : resolveAttr m a = some x) : x.size ≤ attrSize a := by
  have hq := splitQName_length a.1
  unfold resolveAttr at h
  revert hq h
  cases splitQName a.1 with
  | mk p l =>
    cases p with
    | none => intro h hq; cases h; simp only [Attr.size, attrSize, prefixSize] at *; omega
    | some p =>
      intro h hq
      dsimp only at h
      split at h
      · cases h; simp only [Attr.size, attrSize, prefixSize] at *; omega
      · split at h
        · cases h
        · cases h; simp only [Attr.size, attrSize, prefixSize] at *; omega

theorem resolveAttrs_size {m : NsMap} : ∀ (as : List (Str × Str)) (xs : List Attr), resolveAttrs m as = some xs →
    (xs.map Attr.size).sum ≤ (as.map attrSize).sum
  | [], xs, h => by rw [resolveAttrs] at h; cases h; exact Nat.le_refl _
  | a :: as, xs, h => by
    rw [resolveAttrs] at h
    split at h
    · rename_i x ys h1 h2
      cases h
      have := resolveAttr_size h1
      have := resolveAttrs_size as ys h2
      simp only [List.map_cons, List.sum_cons]
      omega
    · cases h

theorem decls_size : ∀ as : List (Str × Str), ((declsOf as).map declSize).sum + ((plainOf as).map attrSize).sum ≤ (as.map attrSize).sum
  | [] => Nat.le_refl _
  | a :: as => by
    have ih := decls_size as
    unfold declsOf plainOf at ih ⊢
    cases hd : declaredPrefix a.1 with
    | none =>
      rw [List.filterMap_cons_none (by rw [hd]; rfl), List.filter_cons_of_pos (by rw [hd]; rfl)]
      simp only [List.map_cons, List.sum_cons]
      omega
    | some p =>
      rw [List.filterMap_cons_some (b := (p, a.2)) (by rw [hd]; rfl), List.filter_cons_of_neg (by rw [hd]; exact Bool.false_ne_true)]
      have := declared_length hd
      simp only [List.map_cons, List.sum_cons, declSize, attrSize]
      omega

theorem filter_sum {α : Type} (f : α → Nat) (p : α → Bool) : ∀ l : List α, ((l.filter p).map f).sum ≤ (l.map f).sum
  | [] => Nat.le_refl _
  | a :: l => by
    have := filter_sum f p l
    rw [List.filter_cons]
    split <;> simp only [List.map_cons, List.sum_cons] <;> omega

theorem resolveInfo_size {m : NsMap} {name : Str} {attrs : List (Str × Str)} {i : Info} (h : resolveInfo m name attrs = some i) :
    i.size ≤ tagSize name attrs := by
  obtain ⟨-, -, h1, -, h2, h3, -⟩ := Grammar.resolveInfo_inv h
  have ha := resolveAttrs_size _ _ h3
  have hd := decls_size attrs
  have hs : (i.nsdefs.map declSize).sum ≤ ((declsOf attrs).map declSize).sum := by
    rw [h1]
    exact filter_sum _ _ _
  have hn : i.name.length + prefixSize i.pfx ≤ name.length := by
    have hq := splitQName_length name
    unfold resolveElemName at h2
    revert hq h2
    cases splitQName name with
    | mk p l =>
      cases p with
      | none =>
        intro h2 hq
        dsimp only at h2
        simp only [prefixSize] at hq
        split at h2
        · injection h2 with h2; injection h2 with e1 e2; injection e2 with e2 e3
          rw [← e2, ← e3]; simp only [prefixSize]; omega
        · split at h2 <;>
          · injection h2 with h2; injection h2 with e1 e2; injection e2 with e2 e3
            rw [← e2, ← e3]; simp only [prefixSize]; omega
      | some p =>
        intro h2 hq
        dsimp only at h2
        simp only [prefixSize] at hq
        split at h2
        · injection h2 with h2; injection h2 with e1 e2; injection e2 with e2 e3
          rw [← e2, ← e3]; simp only [prefixSize]; omega
        · split at h2
          · cases h2
          · injection h2 with h2; injection h2 with e1 e2; injection e2 with e2 e3
            rw [← e2, ← e3]; simp only [prefixSize]; omega
  simp only [Info.size, tagSize]
  omega

mutual
theorem resolve_size : ∀ (m : NsMap) (x : Xml) (n : Node), resolve m x = some n → n.size ≤ x.size
  | m, .elem name attrs kids, n, h => by
    rw [resolve] at h
    split at h
    · cases h
    · rename_i i hi
      split at h
      · cases h
      · rename_i ks hks
        cases h
        have := resolveInfo_size hi
        have := resolveList_size i.nsmap kids ks hks
        simp only [Node.size, Xml.size]
        omega
  | m, .text s, n, h => by rw [resolve] at h; cases h; exact Nat.le_refl _
  | m, .comment s, n, h => by rw [resolve] at h; cases h; exact Nat.le_refl _
  | m, .pi t d, n, h => by rw [resolve] at h; cases h; exact Nat.le_refl _

theorem resolveList_size : ∀ (m : NsMap) (xs : List Xml) (ns : List Node), resolveList m xs = some ns → sizeAll ns ≤ xmlsSize xs
  | m, [], ns, h => by rw [resolveList] at h; cases h; exact Nat.le_refl _
  | m, x :: xs, ns, h => by
    rw [resolveList] at h
    split at h
    · rename_i n ns' h1 h2
      cases h
      have := resolve_size m x n h1
      have := resolveList_size m xs ns' h2
      simp only [sizeAll, xmlsSize]
      omega
    · cases h
end

theorem firstElem_size : ∀ (ns : List Node) (r : Node), firstElem ns = some r → r.size ≤ sizeAll ns
  | [], r, h => by rw [firstElem] at h; cases h
  | .elem i ks :: ns, r, h => by rw [firstElem] at h; cases h; simp only [sizeAll]; omega
  | .text s :: ns, r, h => by
    have := firstElem_size ns r (by rw [firstElem] at h; exact h; intros; rename_i e; cases e)
    simp only [sizeAll]; omega
  | .comment s :: ns, r, h => by
    have := firstElem_size ns r (by rw [firstElem] at h; exact h; intros; rename_i e; cases e)
    simp only [sizeAll]; omega
  | .pi s t :: ns, r, h => by
    have := firstElem_size ns r (by rw [firstElem] at h; exact h; intros; rename_i e; cases e)
    simp only [sizeAll]; omega

/-! ## Namespaces in force -/

/-- The namespaces an element knows are no longer than `K`. -/
def SmallInfo (K : Nat) (i : Info) : Prop :=
  (∀ u, i.ns = some u → u.length ≤ K) ∧ (∀ d ∈ i.nsmap, declSize d ≤ K) ∧ ∀ a ∈ i.attrs, ∀ u, a.ns = some u → u.length ≤ K

theorem get?_from {m : NsMap} {p : Option Str} {u : Str} (h : m.get? p = some u) : ∃ d ∈ m, d.2 = u := by
  unfold NsMap.get? at h
  cases hf : m.find? (fun d => d.1 == p) with
  | none => rw [hf] at h; cases h
  | some d => rw [hf] at h; cases h; exact ⟨d, List.mem_of_find?_eq_some hf, rfl⟩

theorem get?_small {m : NsMap} {K : Nat} (hm : ∀ d ∈ m, declSize d ≤ K) {p : Option Str} {u : Str} (h : m.get? p = some u) : u.length ≤ K := by
  obtain ⟨d, hd, rfl⟩ := get?_from h
  have := hm d hd
  simp only [declSize] at this
  omega

theorem push_small {own m : NsMap} {K : Nat} (h1 : ∀ d ∈ own, declSize d ≤ K) (h2 : ∀ d ∈ m, declSize d ≤ K) :
    ∀ d ∈ NsMap.push own m, declSize d ≤ K := by
  intro d hd
  unfold NsMap.push at hd
  rcases List.mem_append.mp hd with hd | hd
  · exact h1 d hd
  · exact h2 d (List.mem_filter.mp hd).1

theorem sum_mem {α : Type} (f : α → Nat) {l : List α} {a : α} (h : a ∈ l) : f a ≤ (l.map f).sum := by
  induction l with
  | nil => cases h
  | cons b l ih =>
    simp only [List.map_cons, List.sum_cons]
    rcases List.mem_cons.mp h with rfl | h
    · exact Nat.le_add_right _ _
    · exact Nat.le_trans (ih h) (Nat.le_add_left _ _)

theorem resolveAttr_small {m : NsMap} {K : Nat} (hK : 36 ≤ K) (hm : ∀ d ∈ m, declSize d ≤ K) {a : Str × Str} {x : Attr} (h : resolveAttr m a = some x) :
    ∀ u, x.ns = some u → u.length ≤ K := by
  unfold resolveAttr at h
  revert h
  cases splitQName a.1 with
  | mk p l =>
    cases p with
    | none => intro h u hu; cases h; cases hu
    | some p =>
      intro h u hu
      dsimp only at h
      split at h
      · cases h; cases hu; exact hK
      · split at h
        · cases h
        · rename_i v hv
          cases h; cases hu
          exact get?_small hm hv

theorem resolveAttrs_small {m : NsMap} {K : Nat} (hK : 36 ≤ K) (hm : ∀ d ∈ m, declSize d ≤ K) : ∀ (as : List (Str × Str)) (xs : List Attr),
    resolveAttrs m as = some xs → ∀ x ∈ xs, ∀ u, x.ns = some u → u.length ≤ K
  | [], xs, h => by rw [resolveAttrs] at h; cases h; intro x hx; cases hx
  | a :: as, xs, h => by
    rw [resolveAttrs] at h
    split at h
    · rename_i y ys h1 h2
      cases h
      intro x hx
      rcases List.mem_cons.mp hx with rfl | hx
      · exact resolveAttr_small hK hm h1
      · exact resolveAttrs_small hK hm as ys h2 x hx
    · cases h

theorem resolveInfo_small {m : NsMap} {K : Nat} (hK : 36 ≤ K) (hm : ∀ d ∈ m, declSize d ≤ K) {name : Str} {attrs : List (Str × Str)} {i : Info}
    (hs : tagSize name attrs ≤ K) (h : resolveInfo m name attrs = some i) : SmallInfo K i := by
  have hz := resolveInfo_size h
  obtain ⟨-, -, h1, h4, h2, h3, -⟩ := Grammar.resolveInfo_inv h
  have hown : ∀ d ∈ i.nsdefs, declSize d ≤ K := by
    intro d hd
    have := sum_mem declSize hd
    simp only [Info.size] at hz
    omega
  have hmap : ∀ d ∈ i.nsmap, declSize d ≤ K := by
    rw [h4, ← h1, ← Grammar.push_inside]
    exact push_small hown hm
  refine ⟨?_, hmap, resolveAttrs_small hK hmap _ _ h3⟩
  intro u hu
  unfold resolveElemName at h2
  revert h2
  cases splitQName name with
  | mk p l =>
    cases p with
    | none =>
      intro h2
      dsimp only at h2
      split at h2
      · injection h2 with h2; injection h2 with e1 e2; rw [hu] at e1; cases e1
      · rename_i v hv
        split at h2
        · injection h2 with h2; injection h2 with e1 e2; rw [hu] at e1; cases e1
        · injection h2 with h2; injection h2 with e1 e2; rw [hu] at e1; cases e1
          exact get?_small hmap hv
    | some p =>
      intro h2
      dsimp only at h2
      split at h2
      · injection h2 with h2; injection h2 with e1 e2; rw [hu] at e1; cases e1
        exact hK
      · split at h2
        · cases h2
        · rename_i v hv
          injection h2 with h2; injection h2 with e1 e2; rw [hu] at e1; cases e1
          exact get?_small hmap hv

mutual
theorem resolve_small {K : Nat} (hK : 36 ≤ K) : ∀ (m : NsMap) (x : Xml) (n : Node), (∀ d ∈ m, declSize d ≤ K) → x.size ≤ K → resolve m x = some n →
    ∀ i ∈ infosOf n, SmallInfo K i
  | m, .elem name attrs kids, n, hm, hx, h => by
    rw [resolve] at h
    split at h
    · cases h
    · rename_i i hi
      split at h
      · cases h
      · rename_i ks hks
        cases h
        simp only [Xml.size] at hx
        have h0 := resolveInfo_small hK hm (by omega) hi
        intro j hj
        rw [infosOf] at hj
        rcases List.mem_cons.mp hj with rfl | hj
        · exact h0
        · exact resolveList_small hK i.nsmap kids ks h0.2.1 (by omega) hks j hj
  | m, .text s, n, hm, hx, h => by rw [resolve] at h; cases h; intro i hi; cases hi
  | m, .comment s, n, hm, hx, h => by rw [resolve] at h; cases h; intro i hi; cases hi
  | m, .pi t d, n, hm, hx, h => by rw [resolve] at h; cases h; intro i hi; cases hi

theorem resolveList_small {K : Nat} (hK : 36 ≤ K) : ∀ (m : NsMap) (xs : List Xml) (ns : List Node), (∀ d ∈ m, declSize d ≤ K) → xmlsSize xs ≤ K →
    resolveList m xs = some ns → ∀ i ∈ infosOfAll ns, SmallInfo K i
  | m, [], ns, hm, hx, h => by rw [resolveList] at h; cases h; intro i hi; cases hi
  | m, x :: xs, ns, hm, hx, h => by
    rw [resolveList] at h
    split at h
    · rename_i n ns' h1 h2
      cases h
      simp only [xmlsSize] at hx
      intro i hi
      rw [infosOfAll] at hi
      rcases List.mem_append.mp hi with hi | hi
      · exact resolve_small hK m x n hm (by omega) h1 i hi
      · exact resolveList_small hK m xs ns' hm (by omega) h2 i hi
    · cases h
end

theorem firstElem_infos : ∀ (ns : List Node) (r : Node), firstElem ns = some r → ∀ i ∈ infosOf r, i ∈ infosOfAll ns
  | [], r, h => by rw [firstElem] at h; cases h
  | .elem i ks :: ns, r, h => by rw [firstElem] at h; cases h; intro j hj; rw [infosOfAll]; exact List.mem_append_left _ hj
  | .text s :: ns, r, h => by
    have := firstElem_infos ns r (by rw [firstElem] at h; exact h; intros; rename_i e; cases e)
    intro j hj; rw [infosOfAll]; exact List.mem_append_right _ (this j hj)
  | .comment s :: ns, r, h => by
    have := firstElem_infos ns r (by rw [firstElem] at h; exact h; intros; rename_i e; cases e)
    intro j hj; rw [infosOfAll]; exact List.mem_append_right _ (this j hj)
  | .pi s t :: ns, r, h => by
    have := firstElem_infos ns r (by rw [firstElem] at h; exact h; intros; rename_i e; cases e)
    intro j hj; rw [infosOfAll]; exact List.mem_append_right _ (this j hj)

/-- The namespaces in the tree of a document are no longer than its text (or than that of the prefix `xml`). -/
theorem readDoc_small {text : Str} {d : Doc} (h : readDoc text = some d) : ∀ i ∈ infosOf d.root, SmallInfo (text.length + 36) i := by
  unfold readDoc at h
  split at h
  · cases h
  · rename_i dc xs hx
    split at h
    · cases h
    · rename_i ns hn
      split at h
      · cases h
      · rename_i r hr
        cases h
        have := readRaw_size hx
        intro i hi
        exact resolveList_small (by omega) [] xs ns (by intro d hd; cases hd) (by omega) hn i (firstElem_infos _ _ hr i hi)

mutual
theorem stripTags_size {full : Bool} : ∀ (n r : Node), stripTags full n = .ok r → r.size ≤ n.size
  | .elem i ks, r, h => by
    rw [stripTags] at h
    split at h
    · cases h
    · rename_i ks' hk
      have ih := stripTagsList_size ks ks' hk
      split at h
      · cases h; simp only [Node.size]; omega
      · cases h
        simp only [Node.size, Info.size, prefixSize]
        omega
  | .text s, r, h => by rw [stripTags] at h; cases h; exact Nat.le_refl _
  | .comment s, r, h => by rw [stripTags] at h; cases h; exact Nat.le_refl _
  | .pi t d, r, h => by rw [stripTags] at h; split at h <;> cases h

theorem stripTagsList_size {full : Bool} : ∀ (ns rs : List Node), stripTagsList full ns = .ok rs → sizeAll rs ≤ sizeAll ns
  | [], rs, h => by rw [stripTagsList] at h; cases h; exact Nat.le_refl _
  | n :: ns, rs, h => by
    rw [stripTagsList] at h
    split at h
    · cases h
    · rename_i n' hn
      split at h
      · cases h
      · rename_i ns' hns
        cases h
        have := stripTags_size n n' hn
        have := stripTagsList_size ns ns' hns
        simp only [sizeAll]
        omega
end

mutual
theorem cleanup_size : ∀ (m : NsMap) (n : Node), (cleanup m n).size ≤ n.size
  | m, .elem i ks => by
    rw [cleanup]
    have := cleanupList_size (NsMap.push (i.nsdefs.filter (fun d => Node.usesPfx d.1 false (.elem i ks))) m) ks
    have := filter_sum declSize (fun d => Node.usesPfx d.1 false (.elem i ks)) i.nsdefs
    simp only [Node.size, Info.size]
    omega
  | m, .text s => Nat.le_refl _
  | m, .comment s => Nat.le_refl _
  | m, .pi t d => Nat.le_refl _

theorem cleanupList_size : ∀ (m : NsMap) (ns : List Node), sizeAll (cleanupList m ns) ≤ sizeAll ns
  | m, [] => Nat.le_refl _
  | m, n :: ns => by
    have := cleanup_size m n
    have := cleanupList_size m ns
    simp only [cleanupList, sizeAll]
    omega
end

/-- The bounds on namespaces that removing declarations keeps. -/
def SmallNames (K : Nat) (i : Info) : Prop :=
  (∀ u, i.ns = some u → u.length ≤ K) ∧ (∀ d ∈ i.nsdefs, declSize d ≤ K) ∧ ∀ a ∈ i.attrs, ∀ u, a.ns = some u → u.length ≤ K

mutual
theorem small_names {K : Nat} : ∀ n : Node, (∀ i ∈ infosOf n, SmallInfo K i) → n.size ≤ K → ∀ i ∈ infosOf n, SmallNames K i
  | .elem i ks, h, hs, j, hj => by
    simp only [Node.size] at hs
    rw [infosOf] at hj
    rcases List.mem_cons.mp hj with rfl | hj
    · refine ⟨(h j (by rw [infosOf]; exact List.mem_cons_self)).1, ?_, (h j (by rw [infosOf]; exact List.mem_cons_self)).2.2⟩
      intro d hd
      have := sum_mem declSize hd
      simp only [Info.size] at hs
      omega
    · exact small_namesAll ks (fun i hi => h i (by rw [infosOf]; exact List.mem_cons_of_mem _ hi)) (by omega) j hj
  | .text _, _, _, j, hj => by cases hj
  | .comment _, _, _, j, hj => by cases hj
  | .pi _ _, _, _, j, hj => by cases hj

theorem small_namesAll {K : Nat} : ∀ ns : List Node, (∀ i ∈ infosOfAll ns, SmallInfo K i) → sizeAll ns ≤ K → ∀ i ∈ infosOfAll ns, SmallNames K i
  | [], _, _, j, hj => by cases hj
  | n :: ns, h, hs, j, hj => by
    simp only [sizeAll] at hs
    rw [infosOfAll] at hj
    rcases List.mem_append.mp hj with hj | hj
    · exact small_names n (fun i hi => h i (by rw [infosOfAll]; exact List.mem_append_left _ hi)) (by omega) j hj
    · exact small_namesAll ns (fun i hi => h i (by rw [infosOfAll]; exact List.mem_append_right _ hi)) (by omega) j hj
end

mutual
theorem stripTags_names {K : Nat} {full : Bool} : ∀ (n r : Node), stripTags full n = .ok r → (∀ i ∈ infosOf n, SmallNames K i) → ∀ i ∈ infosOf r, SmallNames K i
  | .elem i ks, r, h, hs => by
    rw [stripTags] at h
    have h0 := hs i (by rw [infosOf]; exact List.mem_cons_self)
    split at h
    · cases h
    · rename_i ks' hk
      have ih := stripTagsList_names ks ks' hk (fun j hj => hs j (by rw [infosOf]; exact List.mem_cons_of_mem _ hj))
      split at h
      · cases h
        intro j hj
        rw [infosOf] at hj
        rcases List.mem_cons.mp hj with rfl | hj
        · exact h0
        · exact ih j hj
      · cases h
        intro j hj
        rw [infosOf] at hj
        rcases List.mem_cons.mp hj with rfl | hj
        · exact ⟨(fun u hu => by cases hu), h0.2⟩
        · exact ih j hj
  | .text s, r, h, hs => by rw [stripTags] at h; cases h; intro i hi; cases hi
  | .comment s, r, h, hs => by rw [stripTags] at h; cases h; intro i hi; cases hi
  | .pi t d, r, h, hs => by rw [stripTags] at h; split at h <;> cases h

theorem stripTagsList_names {K : Nat} {full : Bool} : ∀ (ns rs : List Node), stripTagsList full ns = .ok rs → (∀ i ∈ infosOfAll ns, SmallNames K i) →
    ∀ i ∈ infosOfAll rs, SmallNames K i
  | [], rs, h, hs => by rw [stripTagsList] at h; cases h; intro i hi; cases hi
  | n :: ns, rs, h, hs => by
    rw [stripTagsList] at h
    split at h
    · cases h
    · rename_i n' hn
      split at h
      · cases h
      · rename_i ns' hns
        cases h
        intro i hi
        rw [infosOfAll] at hi
        rcases List.mem_append.mp hi with hi | hi
        · exact stripTags_names n n' hn (fun j hj => hs j (by rw [infosOfAll]; exact List.mem_append_left _ hj)) i hi
        · exact stripTagsList_names ns ns' hns (fun j hj => hs j (by rw [infosOfAll]; exact List.mem_append_right _ hj)) i hi
end

mutual
theorem cleanup_small {K : Nat} : ∀ (m : NsMap) (n : Node), (∀ d ∈ m, declSize d ≤ K) → (∀ i ∈ infosOf n, SmallNames K i) →
    ∀ i ∈ infosOf (cleanup m n), SmallInfo K i
  | m, .elem i ks, hm, hs, j, hj => by
    rw [cleanup] at hj
    have h0 := hs i (by rw [infosOf]; exact List.mem_cons_self)
    have hp : ∀ d ∈ NsMap.push (i.nsdefs.filter (fun d => Node.usesPfx d.1 false (.elem i ks))) m, declSize d ≤ K :=
      push_small (fun d hd => h0.2.1 d (List.mem_filter.mp hd).1) hm
    rw [infosOf] at hj
    rcases List.mem_cons.mp hj with rfl | hj
    · exact ⟨h0.1, hp, h0.2.2⟩
    · exact cleanupList_small _ ks hp (fun i hi => hs i (by rw [infosOf]; exact List.mem_cons_of_mem _ hi)) j hj
  | m, .text s, hm, hs, j, hj => by cases hj
  | m, .comment s, hm, hs, j, hj => by cases hj
  | m, .pi t d, hm, hs, j, hj => by cases hj

theorem cleanupList_small {K : Nat} : ∀ (m : NsMap) (ns : List Node), (∀ d ∈ m, declSize d ≤ K) → (∀ i ∈ infosOfAll ns, SmallNames K i) →
    ∀ i ∈ infosOfAll (cleanupList m ns), SmallInfo K i
  | m, [], hm, hs, j, hj => by cases hj
  | m, n :: ns, hm, hs, j, hj => by
    rw [cleanupList, infosOfAll] at hj
    rcases List.mem_append.mp hj with hj | hj
    · exact cleanup_small m n hm (fun i hi => hs i (by rw [infosOfAll]; exact List.mem_append_left _ hi)) j hj
    · exact cleanupList_small m ns hm (fun i hi => hs i (by rw [infosOfAll]; exact List.mem_append_right _ hi)) j hj
end

/-- What is parsed is no larger than what was read, and its namespaces are as short. -/
theorem strippedRoot_small {K : Nat} {root r : Node} (h : strippedRoot root = .ok r) (hs : root.size ≤ K) (hi : ∀ i ∈ infosOf root, SmallInfo K i) :
    r.size ≤ root.size ∧ ∀ i ∈ infosOf r, SmallInfo K i := by
  unfold strippedRoot at h
  split at h
  · unfold stripNamespace at h
    split at h
    · cases h
    · rename_i r' hr
      cases h
      refine ⟨Nat.le_trans (cleanup_size [] r') (stripTags_size _ _ hr), ?_⟩
      exact cleanup_small [] r' (by intro d hd; cases hd) (stripTags_names _ _ hr (small_names root hi hs))
  · cases h
    exact ⟨Nat.le_refl _, hi⟩

/-- The tree of a document is no larger than its text. -/
theorem readDoc_size {text : Str} {d : Doc} (h : readDoc text = some d) : d.root.size ≤ text.length := by
  unfold readDoc at h
  split at h
  · cases h
  · rename_i dc xs hx
    split at h
    · cases h
    · rename_i ns hn
      split at h
      · cases h
      · rename_i r hr
        cases h
        have := readRaw_size hx
        have := resolveList_size _ _ _ hn
        have := firstElem_size _ _ hr
        dsimp only
        omega

end ReqIF
