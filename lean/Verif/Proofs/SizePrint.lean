import Verif.Proofs.SizeRead
import Verif.Proofs.ParseInv
import Verif.Proofs.Escape
import Verif.Model.Unparser
/-!
# Lengths of the printed pieces

Every piece printed for an element is no longer than a constant times `K` (or `K * K`) times the size of the element,
where `K` bounds the size of the whole tree and of all namespaces.
-/
namespace ReqIF
open Spec

/-- An element whose own size and namespaces are at most `K`. -/
structure Bounded (K : Nat) (n : Node) : Prop where
  le : n.size ≤ K
  infos : ∀ i ∈ infosOf n, SmallInfo K i

theorem sizeAll_mem {c : Node} : ∀ {ks : List Node}, c ∈ ks → c.size ≤ sizeAll ks
  | k :: ks, h => by
    simp only [sizeAll]
    rcases List.mem_cons.mp h with rfl | h
    · omega
    · have := sizeAll_mem h; omega

theorem infosOfAll_mem {c : Node} {i : Info} (hi : i ∈ infosOf c) : ∀ {ks : List Node}, c ∈ ks → i ∈ infosOfAll ks
  | k :: ks, h => by
    simp only [infosOfAll, List.mem_append]
    rcases List.mem_cons.mp h with rfl | h
    · exact .inl hi
    · exact .inr (infosOfAll_mem hi h)

theorem kids_size (n : Node) : sizeAll n.kids ≤ n.size := by
  cases n <;> simp [Node.kids, sizeAll, Node.size]

theorem kid_size {n c : Node} (h : c ∈ n.kids) : c.size + 1 ≤ n.size := by
  cases n with
  | elem i ks =>
    have := sizeAll_mem (show c ∈ ks from h)
    simp only [Node.size, Info.size]; omega
  | _ => cases h

theorem kid_infos {n c : Node} (h : c ∈ n.kids) : ∀ i ∈ infosOf c, i ∈ infosOf n := by
  intro i hi
  cases n with
  | elem j ks =>
    simp only [infosOf, List.mem_cons]
    exact .inr (infosOfAll_mem hi h)
  | _ => cases h

theorem Bounded.kid {K : Nat} {n c : Node} (h : Bounded K n) (hc : c ∈ n.kids) : Bounded K c :=
  ⟨by have := kid_size hc; have := h.le; omega, fun i hi => h.infos i (kid_infos hc i hi)⟩

theorem find_kid {n c : Node} {t : Str} (h : n.find t = some c) : c ∈ n.kids := List.mem_of_find?_eq_some h

theorem child_kid {n c : Node} (h : c ∈ n.children) : c ∈ n.kids := (List.mem_filter.mp h).1

theorem find_size {n c : Node} {t : Str} (h : n.find t = some c) : c.size + 1 ≤ n.size := kid_size (find_kid h)

theorem findReq_size {n c : Node} {t : Str} (h : findReq n t = .ok c) : c.size + 1 ≤ n.size ∧ c ∈ n.kids := by
  unfold findReq orAttr at h
  cases hf : n.find t with
  | none => rw [hf] at h; cases h
  | some d => rw [hf] at h; cases h; exact ⟨find_size hf, find_kid hf⟩

theorem attr?_size {n : Node} {k v : Str} (h : n.attr? k = some v) : v.length + 1 ≤ n.size := by
  cases n with
  | elem i ks =>
    simp only [Node.attr?, Node.attrs, Option.map_eq_some_iff] at h
    obtain ⟨a, ha, rfl⟩ := h
    have hm := sum_mem Attr.size (List.mem_of_find?_eq_some ha)
    simp only [Node.size, Info.size]
    simp only [Attr.size] at hm ⊢
    omega
  | _ => simp [Node.attr?, Node.attrs] at h

theorem attrReq_size {n : Node} {k v : Str} (h : attrReq n k = .ok v) : v.length + 1 ≤ n.size := by
  unfold attrReq orKey at h
  cases ha : n.attr? k with
  | none => rw [ha] at h; cases h
  | some w => rw [ha] at h; cases h; exact attr?_size ha

theorem attrReqNI_size {n : Node} {k v : Str} (h : attrReqNI n k = .ok v) : v.length + 1 ≤ n.size := by
  unfold attrReqNI orNotImpl at h
  cases ha : attrReq n k with
  | error e => rw [ha] at h; cases h
  | ok w => rw [ha] at h; cases h; exact attrReq_size ha

theorem text?_size {n : Node} {v : Str} (h : n.text? = some v) : v.length + 1 ≤ n.size := by
  cases n with
  | elem i ks =>
    cases ks with
    | nil => cases h
    | cons k ks =>
      cases k with
      | text s => cases h; simp only [Node.size, sizeAll, Info.size]; omega
      | _ => cases h
  | text s => cases h
  | comment s => cases h; simp [Node.size]
  | pi t d => cases h; simp [Node.size]

theorem fmt_text (n : Node) : (fmtOpt n.text?).length ≤ n.size + 4 := by
  cases h : n.text? with
  | none => simp [fmtOpt]
  | some v => have := text?_size h; simp only [fmtOpt]; omega

theorem child_pos {n c : Node} (h : c ∈ n.children) : 1 ≤ c.size := by
  have := (List.mem_filter.mp h).2
  cases c with
  | elem i ks => simp only [Node.size, Info.size]; omega
  | text s => simp [Node.isText] at this
  | comment s => simp [Node.size]
  | pi t d => simp [Node.size]

/-- The sizes of some trees. -/
def sumSizes (ns : List Node) : Nat := (ns.map Node.size).sum

theorem sizeAll_sum (ns : List Node) : sizeAll ns = sumSizes ns := by
  unfold sumSizes
  induction ns with
  | nil => rfl
  | cons n ns ih => simp [sizeAll, ih]

theorem children_size (n : Node) : sumSizes n.children ≤ n.size := by
  have h1 := filter_sum Node.size (fun k => !k.isText) n.kids
  have h2 := kids_size n
  rw [sizeAll_sum] at h2
  exact Nat.le_trans h1 h2

theorem children_elem_size {n : Node} (h : n.children ≠ []) : sumSizes n.children + 1 ≤ n.size := by
  cases n with
  | elem i ks =>
    have h1 := filter_sum Node.size (fun k => !k.isText) ks
    simp only [Node.size, Info.size, sizeAll_sum, Node.children, Node.kids, sumSizes] at h1 ⊢
    omega
  | _ => exact absurd rfl h

theorem childTags_size (n : Node) : (childTags n).length ≤ n.size := by
  have h : n.children.length ≤ sumSizes n.children := by
    have : ∀ c ∈ n.children, 1 ≤ c.size := fun c hc => child_pos hc
    revert this
    unfold sumSizes
    generalize n.children = l
    intro h
    induction l with
    | nil => simp
    | cons c l ih =>
      have h1 := h c (by simp)
      have h2 := ih (fun d hd => h d (by simp [hd]))
      simp only [List.length_cons, List.map_cons, List.sum_cons]; omega
  simp only [childTags, List.length_map]
  exact Nat.le_trans h (children_size n)

/-! ## Escaping -/

theorem flatMap_length {f : Char → Str} {k : Nat} (h : ∀ c, (f c).length ≤ k) (s : Str) : (s.flatMap f).length ≤ k * s.length := by
  induction s with
  | nil => simp
  | cons c s ih =>
    have := h c
    simp only [List.flatMap_cons, List.length_append, List.length_cons, Nat.mul_add]; omega

theorem lxmlEscape_length (s : Str) : (lxmlEscapeForHtml s).length ≤ 6 * s.length := by
  rw [lxmlEscape_eq]
  refine flatMap_length (fun c => ?_) s
  unfold escChar
  repeat' split
  all_goals simp

theorem htmlEscape_length (s : Str) : (htmlEscape s).length ≤ 6 * s.length := by
  rw [htmlEscape_eq]
  refine flatMap_length (fun c => ?_) s
  unfold htmlEscChar
  repeat' split
  all_goals simp

theorem titleEscape_length (s : Str) : (lxmlEscapeTitle s).length ≤ 6 * s.length := by
  unfold lxmlEscapeTitle
  rw [replaceChar_eq_flatMap]
  refine flatMap_length (fun c => ?_) s
  repeat' split
  all_goals simp

theorem id_length (s : Str) : (id s : Str).length ≤ 6 * s.length := by simp only [id]; omega

theorem spaces_len (n : Nat) : (spaces n).length = n := by simp [spaces]

theorem attrOut_len (n v : Str) : (attrOut n v).length = n.length + v.length + 4 := by
  simp [attrOut]; omega

/-- What an optional field may hold. -/
def AtMost (w : Nat) (o : Option Str) : Prop := ∀ v, o = some v → v.length ≤ w

theorem AtMost.attr (n : Node) (k : Str) : AtMost n.size (n.attr? k) := fun _ h => by have := attr?_size h; omega

theorem AtMost.text (n : Node) : AtMost n.size n.text? := fun _ h => by have := text?_size h; omega

theorem AtMost.mono {v w : Nat} {o : Option Str} (h : AtMost v o) (hw : v ≤ w) : AtMost w o := fun x hx => Nat.le_trans (h x hx) hw

theorem AtMost.fmt {w : Nat} {o : Option Str} (h : AtMost w o) : (fmtOpt o).length ≤ w + 4 := by
  cases o with
  | none => simp [fmtOpt]
  | some v => have := h v rfl; simp only [fmtOpt]; omega

theorem attrOpt_len {f : Str → Str} (hf : ∀ s, (f s).length ≤ 6 * s.length) (n : Str) {o : Option Str} {w : Nat} (h : AtMost w o) :
    (attrOpt n f o).length ≤ n.length + 6 * w + 4 := by
  cases o with
  | none => simp [attrOpt]
  | some v => have := h v rfl; have := hf v; simp only [attrOpt, attrOut_len]; omega

theorem attrTruthy_len {f : Str → Str} (hf : ∀ s, (f s).length ≤ 6 * s.length) (n : Str) {o : Option Str} {w : Nat} (h : AtMost w o) :
    (attrTruthy n f o).length ≤ n.length + 6 * w + 4 := by
  cases o with
  | none => simp [attrTruthy]
  | some v =>
    have := h v rfl; have := hf v; simp only [attrTruthy]; split
    · simp
    · rw [attrOut_len]; omega

theorem attrBool_len (n : Str) (o : Option Bool) : (attrBool n o).length ≤ n.length + 9 := by
  cases o with
  | none => simp [attrBool]
  | some v => simp only [attrBool, attrOut_len]; cases v <;> simp [boolOut]

theorem lineElem_len (i : Nat) (t s : Str) : (lineElem i t s).length = i + 2 * t.length + s.length + 6 := by
  simp [lineElem, spaces_len]; omega

theorem lineOpen_len (i : Nat) (t : Str) : (lineOpen i t).length = i + t.length + 3 := by
  simp [lineOpen, spaces_len]; omega

theorem lineClose_len (i : Nat) (t : Str) : (lineClose i t).length = i + t.length + 4 := by
  simp [lineClose, spaces_len]; omega

/-! ## Loops -/

theorem concat_len {α : Type} {f : α → Py Str} {B : Nat} : ∀ {xs : List α} {out : Str}, concatPy f xs = .ok out →
    (∀ x ∈ xs, ∀ s, f x = .ok s → s.length ≤ B) → out.length ≤ xs.length * B
  | [], out, h, _ => by cases h; simp
  | x :: xs, out, h, hb => by
    simp only [concatPy] at h
    cases hf : f x with
    | error e => rw [hf] at h; cases h
    | ok s =>
      rw [hf] at h
      cases hc : concatPy f xs with
      | error e => simp only [hc] at h; cases h
      | ok t =>
        simp only [hc] at h
        cases h
        have h1 := hb x (by simp) s hf
        have h2 := concat_len hc (fun y hy => hb y (by simp [hy]))
        simp only [List.length_append, List.length_cons, Nat.add_mul]; omega

/-- Items read from elements and printed: the text is bounded by the sum of the sizes. -/
theorem items_len {α : Type} {p : Node → Py α} {u : α → Py Str} {C : Nat} : ∀ {xs : List Node} {ys : List α} {out : Str},
    mapPy p xs = .ok ys → concatPy u ys = .ok out →
    (∀ x ∈ xs, ∀ y s, p x = .ok y → u y = .ok s → s.length ≤ C * x.size) → out.length ≤ C * sumSizes xs
  | [], ys, out, h, hu, _ => by cases h; cases hu; simp
  | x :: xs, ys, out, h, hu, hb => by
    simp only [mapPy] at h
    cases hf : p x with
    | error e => rw [hf] at h; cases h
    | ok y =>
      rw [hf] at h
      cases hm : mapPy p xs with
      | error e => simp only [hm] at h; cases h
      | ok ys' =>
        simp only [hm] at h
        cases h
        simp only [concatPy] at hu
        cases hy : u y with
        | error e => rw [hy] at hu; cases hu
        | ok s =>
          rw [hy] at hu
          cases hc : concatPy u ys' with
          | error e => simp only [hc] at hu; cases hu
          | ok t =>
            simp only [hc] at hu
            cases hu
            have h1 := hb x (by simp) y s hf hy
            have h2 := items_len hm hc (fun z hz => hb z (by simp [hz]))
            simp only [sumSizes, List.map_cons, List.sum_cons, Nat.mul_add, List.length_append] at h2 ⊢
            omega

theorem flatMap_sizes {f : Node → Str} {C : Nat} {xs : List Node} (h : ∀ x ∈ xs, (f x).length ≤ C * x.size) :
    (xs.flatMap f).length ≤ C * sumSizes xs := by
  induction xs with
  | nil => simp
  | cons x xs ih =>
    have h1 := h x (by simp)
    have h2 := ih (fun y hy => h y (by simp [hy]))
    simp only [List.flatMap_cons, sumSizes, List.map_cons, List.sum_cons, Nat.mul_add, List.length_append] at h2 ⊢
    omega

/-! ## XHTML -/

theorem key_len {K : Nat} {a : Attr} (h : ∀ u, a.ns = some u → u.length ≤ K) : a.key.length ≤ K + 2 + a.name.length := by
  unfold Attr.key clark
  cases hn : a.ns with
  | none => simp only; omega
  | some u => have := h u hn; simp; omega

theorem attrsOut_len {K : Nat} (hK : 36 ≤ K) : ∀ {as : List Attr}, (∀ a ∈ as, ∀ u, a.ns = some u → u.length ≤ K) →
    (attrsOut as).length ≤ 13 * K * (as.map Attr.size).sum
  | [], _ => by simp [attrsOut]
  | a :: as, h => by
    have h1 := key_len (h a (by simp))
    have h2 := attrsOut_len (as := as) hK (fun b hb => h b (List.mem_cons_of_mem _ hb))
    have h3 := lxmlEscape_length a.value
    simp only [attrsOut, List.length_append, List.map_cons, List.sum_cons, Nat.mul_add]
    have h4 : 13 * K + 13 * a.name.length + 13 * a.value.length ≤ 13 * K * a.size := by
      have e : a.size = 1 + (a.name.length + a.value.length) + prefixSize a.pfx := by simp only [Attr.size]; omega
      rw [e, Nat.mul_add, Nat.mul_add]
      have : 1 * (a.name.length + a.value.length) ≤ K * (a.name.length + a.value.length) := Nat.mul_le_mul_right _ (by omega)
      have e2 : 13 * K * (a.name.length + a.value.length) = 13 * (K * (a.name.length + a.value.length)) := Nat.mul_assoc _ _ _
      omega
    simp only [List.length_cons, List.length_nil]
    omega

theorem nsTagOut_len {K : Nat} {k : Option Str} (hk : AtMost K k) (f : Bool) {i : Info} (hi : SmallInfo K i) :
    (nsTagOut k f i).length ≤ K + 5 + i.name.length := by
  unfold nsTagOut
  have h1 := hk.fmt
  split
  · omega
  · split
    · simp; omega
    · unfold Info.tag clark
      cases hn : i.ns with
      | none => simp only; omega
      | some u => have := hi.1 u hn; simp; omega

theorem get?_atMost {K : Nat} {m : NsMap} (h : ∀ d ∈ m, declSize d ≤ K) (p : Option Str) : AtMost K (m.get? p) :=
  fun _ hv => get?_small h hv

theorem nsDeclOut_len {K : Nat} {i : Info} (hi : SmallInfo K i) : (nsDeclOut i).length ≤ K + 13 := by
  unfold nsDeclOut
  split
  · have := (get?_atMost hi.2.1 none).fmt
    simp; omega
  · simp

/-- An element's own part of the printed text, and its content. -/
theorem element_len {K : Nat} (hK : 36 ≤ K) {i : Info} (hi : SmallInfo K i) {own body total b : Nat} (ho : own ≤ 3 * K + 30 + 2 * i.name.length)
    (hb : body ≤ 13 * K * b) (ht : total ≤ own + (attrsOut i.attrs).length + body) : total ≤ 13 * K * (i.size + b) := by
  have h1 := attrsOut_len hK hi.2.2
  have h2 : 13 * K * (1 + i.name.length + (i.attrs.map Attr.size).sum + b) ≤ 13 * K * (i.size + b) :=
    Nat.mul_le_mul_left _ (by simp only [Info.size]; omega)
  rw [Nat.mul_add, Nat.mul_add, Nat.mul_add] at h2
  have h3 : 1 * i.name.length ≤ K * i.name.length := Nat.mul_le_mul_right _ (by omega)
  have h4 : 13 * K * i.name.length = 13 * (K * i.name.length) := Nat.mul_assoc _ _ _
  omega

theorem text_len {K : Nat} (hK : 36 ≤ K) {a n : Nat} (h : a ≤ 7 * n) : a ≤ 13 * K * n := by
  have h3 : 1 * n ≤ K * n := Nat.mul_le_mul_right _ (by omega)
  have h4 : 13 * K * n = 13 * (K * n) := Nat.mul_assoc _ _ _
  omega

mutual
theorem stringifyNsNode_len {K : Nat} (hK : 36 ≤ K) {k : Option Str} (hk : AtMost K k) {f : Bool} : ∀ (n : Node) (out : Str),
    stringifyNsNode k f n = .ok out → (∀ i ∈ infosOf n, SmallInfo K i) → out.length ≤ 13 * K * n.size
  | .text s, out, h, _ => by
    simp only [stringifyNsNode, Except.ok.injEq] at h
    subst h
    exact text_len hK (by have := lxmlEscape_length s; simp only [Node.size]; omega)
  | .comment _, out, h, _ => by simp only [stringifyNsNode] at h; cases h
  | .pi _ _, out, h, _ => by simp only [stringifyNsNode] at h; cases h
  | .elem i ks, out, h, hi => by
    have h0 : SmallInfo K i := hi i (by simp [infosOf])
    have h1 := nsTagOut_len hk f h0
    have h2 := nsDeclOut_len h0
    simp only [stringifyNsNode] at h
    split at h
    · cases hb : stringifyNsKids k f ks with
      | error e => simp only [hb] at h; cases h
      | ok body =>
        simp only [hb] at h
        cases h
        have h3 := stringifyNsKids_len hK hk ks body hb (fun j hj => hi j (by simp [infosOf, hj]))
        simp only [Node.size]
        refine element_len hK h0 (own := 2 * (nsTagOut k f i).length + (nsDeclOut i).length + 5) (by omega) h3 ?_
        simp only [List.length_append, List.length_cons, List.length_nil]; omega
    · cases h
      simp only [Node.size]
      refine element_len hK h0 (own := 2 * (nsTagOut k f i).length + (nsDeclOut i).length + 5) (body := 0) (by omega) (by omega) ?_
      simp only [List.length_append, List.length_cons, List.length_nil]; omega

theorem stringifyNsKids_len {K : Nat} (hK : 36 ≤ K) {k : Option Str} (hk : AtMost K k) {f : Bool} : ∀ (ns : List Node) (out : Str),
    stringifyNsKids k f ns = .ok out → (∀ i ∈ infosOfAll ns, SmallInfo K i) → out.length ≤ 13 * K * sizeAll ns
  | [], out, h, _ => by simp only [stringifyNsKids, Except.ok.injEq] at h; subst h; simp
  | n :: ns, out, h, hi => by
    simp only [stringifyNsKids] at h
    cases ha : stringifyNsNode k f n with
    | error e => simp only [ha] at h; cases h
    | ok a =>
      cases hb : stringifyNsKids k f ns with
      | error e => simp only [ha, hb] at h; cases h
      | ok b =>
        simp only [ha, hb] at h
        cases h
        have h1 := stringifyNsNode_len hK hk n a ha (fun j hj => hi j (by simp [infosOfAll, hj]))
        have h2 := stringifyNsKids_len hK hk ns b hb (fun j hj => hi j (by simp [infosOfAll, hj]))
        simp only [List.length_append, sizeAll, Nat.mul_add]; omega
end

theorem nodeTagOut_len {K : Nat} {i : Info} (hi : SmallInfo K i) : (nodeTagOut i).length ≤ K + 5 + i.name.length := by
  unfold nodeTagOut
  split
  · rename_i k u l hm
    have h := hi.2.1 (some k, u) (by rw [hm]; simp)
    simp only [declSize, prefixSize] at h
    split
    · simp; omega
    · omega
  · omega

theorem nodeDeclOut_len {K : Nat} {r : Bool} {i : Info} (hi : SmallInfo K i) : (nodeDeclOut r i).length ≤ K + 13 := by
  unfold nodeDeclOut
  split
  · rename_i k u l hm
    have h := hi.2.1 (k, u) (by rw [hm]; simp)
    simp only [declSize] at h
    split
    · simp; omega
    · simp
  · simp

mutual
theorem stringifyNode_len {K : Nat} (hK : 36 ≤ K) {r : Bool} : ∀ (n : Node) (out : Str),
    stringifyNode r n = .ok out → (∀ i ∈ infosOf n, SmallInfo K i) → out.length ≤ 13 * K * n.size
  | .text s, out, h, _ => by
    simp only [stringifyNode, Except.ok.injEq] at h
    subst h
    exact text_len hK (by have := lxmlEscape_length s; simp only [Node.size]; omega)
  | .comment s, out, h, _ => by
    simp only [stringifyNode, Except.ok.injEq] at h
    subst h
    exact text_len hK (by simp [Node.size]; omega)
  | .pi _ _, out, h, _ => by simp only [stringifyNode] at h; cases h
  | .elem i ks, out, h, hi => by
    have h0 : SmallInfo K i := hi i (by simp [infosOf])
    have h1 := nodeTagOut_len h0
    have h2 := nodeDeclOut_len (r := r) h0
    simp only [stringifyNode] at h
    split at h
    · cases hb : stringifyKids ks with
      | error e => simp only [hb] at h; cases h
      | ok body =>
        simp only [hb] at h
        cases h
        have h3 := stringifyKids_len hK ks body hb (fun j hj => hi j (by simp [infosOf, hj]))
        simp only [Node.size]
        refine element_len hK h0 (own := 2 * (nodeTagOut i).length + (nodeDeclOut r i).length + 5) (by omega) h3 ?_
        simp only [List.length_append, List.length_cons, List.length_nil]; omega
    · cases h
      simp only [Node.size]
      refine element_len hK h0 (own := 2 * (nodeTagOut i).length + (nodeDeclOut r i).length + 5) (body := 0) (by omega) (by omega) ?_
      simp only [List.length_append, List.length_cons, List.length_nil]; omega

theorem stringifyKids_len {K : Nat} (hK : 36 ≤ K) : ∀ (ns : List Node) (out : Str),
    stringifyKids ns = .ok out → (∀ i ∈ infosOfAll ns, SmallInfo K i) → out.length ≤ 13 * K * sizeAll ns
  | [], out, h, _ => by simp only [stringifyKids, Except.ok.injEq] at h; subst h; simp
  | n :: ns, out, h, hi => by
    simp only [stringifyKids] at h
    cases ha : stringifyNode false n with
    | error e => simp only [ha] at h; cases h
    | ok a =>
      cases hb : stringifyKids ns with
      | error e => simp only [ha, hb] at h; cases h
      | ok b =>
        simp only [ha, hb] at h
        cases h
        have h1 := stringifyNode_len hK n a ha (fun j hj => hi j (by simp [infosOfAll, hj]))
        have h2 := stringifyKids_len hK ns b hb (fun j hj => hi j (by simp [infosOfAll, hj]))
        simp only [List.length_append, sizeAll, Nat.mul_add]; omega
end

theorem childrenGo_len {K : Nat} (hK : 36 ≤ K) : ∀ (ns : List Node) (out : Str),
    stringifyChildrenGo ns = .ok out → (∀ i ∈ infosOfAll ns, SmallInfo K i) → out.length ≤ 13 * K * sizeAll ns
  | [], out, h, _ => by simp only [stringifyChildrenGo, Except.ok.injEq] at h; subst h; simp
  | n :: ns, out, h, hi => by
    have step : ∀ a b, stringifyChildrenGo ns = .ok b → a.length ≤ 13 * K * n.size → (a ++ b : Str).length ≤ 13 * K * sizeAll (n :: ns) := by
      intro a b hb ha
      have h2 := childrenGo_len hK ns b hb (fun j hj => hi j (by simp [infosOfAll, hj]))
      simp only [List.length_append, sizeAll, Nat.mul_add]; omega
    cases hb : stringifyChildrenGo ns with
    | error e =>
      cases n with
      | text t => simp only [stringifyChildrenGo, hb] at h; cases h
      | elem i ks => simp only [stringifyChildrenGo, hb] at h; revert h; cases stringifyNode true (.elem i ks) <;> intro h <;> cases h
      | comment s => simp only [stringifyChildrenGo, hb] at h; revert h; cases stringifyNode true (.comment s) <;> intro h <;> cases h
      | pi s t => simp only [stringifyChildrenGo, hb] at h; revert h; cases stringifyNode true (.pi s t) <;> intro h <;> cases h
    | ok b =>
      have fin : ∀ m : Node, m = n → (∀ t, m ≠ .text t) → out.length ≤ 13 * K * sizeAll (n :: ns) := by
        intro m hm ht
        subst hm
        rw [stringifyChildrenGo.eq_3 _ _ (fun t e => ht t e)] at h
        cases ha : stringifyNode true m with
        | error e => simp only [ha] at h; cases h
        | ok a =>
          simp only [ha, hb] at h
          cases h
          exact step a b hb (stringifyNode_len hK m a ha (fun j hj => hi j (by simp [infosOfAll, hj])))
      cases n with
      | text t =>
        simp only [stringifyChildrenGo, hb] at h
        cases h
        refine step (lxmlEscapeForHtml t ++ t) b hb (text_len hK ?_)
        have := lxmlEscape_length t
        simp only [List.length_append, Node.size]; omega
      | elem i ks => exact fin _ rfl (fun t e => by cases e)
      | comment s => exact fin _ rfl (fun t e => by cases e)
      | pi s t => exact fin _ rfl (fun t e => by cases e)

theorem infos_kids {n : Node} {P : Info → Prop} (h : ∀ i ∈ infosOf n, P i) : ∀ i ∈ infosOfAll n.kids, P i := by
  cases n with
  | elem i ks => exact fun j hj => h j (by simp only [infosOf, List.mem_cons]; exact .inr hj)
  | _ => intro j hj; simp [Node.kids, infosOfAll] at hj

theorem stringifyChildren_len {K : Nat} (hK : 36 ≤ K) {n : Node} {out : Str} (h : stringifyChildren n = .ok out)
    (hi : ∀ i ∈ infosOf n, SmallInfo K i) : out.length ≤ 13 * K * n.size := by
  have hs := Nat.mul_le_mul_left (13 * K) (kids_size n)
  have hi := infos_kids hi
  refine Nat.le_trans ?_ hs
  unfold stringifyChildren at h
  split at h
  · rename_i t ks hk
    rw [hk] at hi ⊢
    cases hb : stringifyChildrenGo ks with
    | error e => simp only [hb] at h; cases h
    | ok b =>
      simp only [hb] at h
      cases h
      have h1 := childrenGo_len hK ks b hb (fun j hj => hi j (by simp only [infosOfAll, List.mem_append]; exact .inr hj))
      have h2 := text_len hK (a := t.length) (n := t.length) (by omega)
      simp only [List.length_append, sizeAll, Node.size, Nat.mul_add]; omega
  · exact childrenGo_len hK _ _ h hi

theorem namespacedChildren_len {K : Nat} (hK : 36 ≤ K) {n : Node} {out : Str} (h : stringifyNamespacedChildren n = .ok out)
    (hb : Bounded K n) : out.length ≤ 13 * K * n.size := by
  unfold stringifyNamespacedChildren at h
  split at h
  · cases h
  · refine Nat.le_trans (stringifyNsKids_len hK ?_ _ _ h (infos_kids hb.infos)) (Nat.mul_le_mul_left (13 * K) (kids_size n))
    intro v hv
    cases n with
    | elem i ks =>
      have h0 := (hb.infos i (by simp [infosOf])).2.1
      simp only [Node.nsmap] at hv
      cases hm : i.nsmap with
      | nil => rw [hm] at hv; cases hv
      | cons d m =>
        rw [hm] at hv
        have := h0 d (by rw [hm]; simp)
        simp only [NsMap.firstKey] at hv
        simp only [declSize, hv, prefixSize] at this
        omega
    | _ => cases hv

end ReqIF
