import Verif.Proofs.SizeParts
import Verif.Props.C77
import Verif.Proofs.Unindent
import Verif.Proofs.XsdStrip
/-!
# The length of a printed document
-/
namespace ReqIF
open Spec

/-! ## Hierarchies and specifications -/

/-- What a parsed hierarchy node tells about its element. -/
theorem hierarchy_fields {level : Nat} {n : Node} {h : Hierarchy} (hp : parseHierarchy level n = .ok h) :
    h.info.level = level ∧ h.info.identifier.length + 1 ≤ n.size ∧ AtMost n.size h.info.specObject ∧ AtMost n.size h.info.lastChange ∧
      AtMost n.size h.info.longName := by
  cases n with
  | text t => cases hp
  | comment t => cases hp
  | pi a b => cases hp
  | elem i ks =>
    rw [parseHierarchy] at hp
    dsimp only at hp
    split at hp
    · split at hp
      · cases hp
      · rename_i idn hid
        split at hp
        · cases hp
        · rename_i o ho
          split at hp
          · cases hp
          · rename_i r hr
            split at hp
            · cases hp
              exact ⟨rfl, attrReqNI_size hid, text_find ho hr, AtMost.attr _ _, AtMost.attr _ _⟩
            · cases hp
            · cases hp
              exact ⟨rfl, attrReqNI_size hid, text_find ho hr, AtMost.attr _ _, AtMost.attr _ _⟩
    · cases hp

theorem hierarchies_concat : ∀ hs : List Hierarchy, unparseHierarchies hs = concatPy unparseHierarchy hs
  | [] => by simp only [unparseHierarchies, concatPy]
  | h :: hs => by
    simp only [unparseHierarchies, concatPy, hierarchies_concat hs]
    cases unparseHierarchy h with
    | error e => rfl
    | ok a => dsimp only; cases concatPy unparseHierarchy hs <;> rfl

theorem baseLevel_le {h : Hierarchy} {b : Nat} (hb : h.baseLevel = .ok b) : b ≤ 8 + 4 * h.info.level := by
  unfold Hierarchy.baseLevel at hb
  split at hb
  · cases hb; omega
  · cases hb

theorem hierarchyHead_len {w base : Nat} {i : HInfo} (h1 : i.identifier.length ≤ w) (h2 : AtMost w i.lastChange) (h3 : AtMost w i.longName) :
    (unparseHierarchyHead base i).length ≤ base + 120 + 13 * w := by
  have e1 := attrTruthy_len id_length c!"LAST-CHANGE" h2
  have e2 := attrTruthy_len id_length c!"LONG-NAME" h3
  have e3 := attrBool_len c!"IS-EDITABLE" i.editable
  have e4 := attrBool_len c!"IS-TABLE-INTERNAL" i.isTableInternal
  simp only [unparseHierarchyHead, List.length_append, attrOut_len, spaces_len, List.length_cons, List.length_nil] at e1 e2 e3 e4 ⊢
  omega

theorem hierarchyObject_len {w base : Nat} {i : HInfo} (h1 : AtMost w i.specObject) :
    (unparseHierarchyObject base i).length ≤ 3 * base + 80 + w := by
  have e1 := h1.fmt
  simp only [unparseHierarchyObject, List.length_append, lineOpen_len, lineClose_len, lineElem_len, List.length_cons, List.length_nil]
  omega

theorem hierarchy_len {M : Nat} (hM : 36 ≤ M) : ∀ (k : Nat) (n : Node) (level : Nat) (h : Hierarchy) (s : Str), n.size ≤ k → level + n.size ≤ M →
    parseHierarchy level n = .ok h → unparseHierarchy h = .ok s → s.length ≤ 44 * M * n.size
  | 0, n, level, h, s, hk, _, hp, _ => by have := (hierarchy_fields hp).2.1; omega
  | k + 1, n, level, h, s, hk, hl, hp, hu => by
    obtain ⟨f1, f2, f3, f4, f5⟩ := hierarchy_fields hp
    have hone : 44 * M * (1 + (n.size - 1)) = 44 * M * n.size := by congr 1; omega
    rw [← hone, Nat.mul_add]
    rcases parseHierarchy_inv hp with ⟨-, i, rfl⟩ | ⟨c, cs, i, hc, hm, rfl, -⟩
    · simp only [Hierarchy.info] at f1 f2 f3 f4 f5
      simp only [unparseHierarchy] at hu
      split at hu
      · cases hu
      · rename_i base hb
        cases hu
        have b1 := baseLevel_le hb
        simp only [Hierarchy.info] at b1
        have e1 := hierarchyHead_len (base := base) (i := i) (w := n.size) (by omega) f4 f5
        have e2 := hierarchyObject_len (base := base) (i := i) f3
        simp only [List.length_append, lineClose_len, List.length_cons, List.length_nil]
        omega
    · simp only [Hierarchy.info] at f1 f2 f3 f4 f5
      simp only [unparseHierarchy] at hu
      split at hu
      · cases hu
      · rename_i base hb
        split at hu
        · cases hu
        · rename_i body hbody
          cases hu
          have b1 := baseLevel_le hb
          simp only [Hierarchy.info] at b1
          have e1 := hierarchyHead_len (base := base) (i := i) (w := n.size) (by omega) f4 f5
          have e2 := hierarchyObject_len (base := base) (i := i) f3
          have hcs := find_size hc
          have e3 : body.length ≤ 44 * M * sumSizes c.children := by
            rw [hierarchies_concat] at hbody
            refine items_len hm hbody (fun x hx y t hpx hux => ?_)
            have := kid_size (child_kid hx)
            exact hierarchy_len hM k x (level + 1) y t (by omega) (by omega) hpx hux
          have e4 : 44 * M * sumSizes c.children ≤ 44 * M * (n.size - 1) :=
            Nat.mul_le_mul_left _ (by have := children_size c; omega)
          have e5 : (if cs.isEmpty && i.isSelfClosed then spaces (base + 2) ++ c!"<CHILDREN/>\n"
              else lineOpen (base + 2) c!"CHILDREN" ++ body ++ lineClose (base + 2) c!"CHILDREN" : Str).length ≤ 2 * base + 40 + body.length := by
            split <;> (simp only [List.length_append, spaces_len, lineOpen_len, lineClose_len, List.length_cons, List.length_nil]; omega)
          generalize (if cs.isEmpty && i.isSelfClosed then spaces (base + 2) ++ c!"<CHILDREN/>\n"
              else lineOpen (base + 2) c!"CHILDREN" ++ body ++ lineClose (base + 2) c!"CHILDREN" : Str) = ch at e5 ⊢
          split <;> (simp only [List.length_append, lineClose_len, List.length_cons, List.length_nil]; omega)

theorem findLast_kid {n c : Node} {t : Str} (h : findLast n t = some c) : c ∈ n.kids := by
  unfold findLast at h
  have := List.mem_of_getLast? h
  exact child_kid (List.mem_filter.mp this).1

theorem specification_len {K : Nat} (hK : 36 ≤ K) {x : Node} (hb : Bounded K x) {sp : Specification} {s : Str}
    (h : parseSpecification x = .ok sp) (hu : unparseSpecification sp = .ok s) : s.length ≤ 47 * (K * (K * x.size)) := by
  have hs := scale hK x.size
  have hs2 := scale hK (K * x.size)
  unfold parseSpecification at h
  obtain ⟨_, -, h⟩ := py_bind_inv h
  obtain ⟨_, -, h⟩ := py_bind_inv h
  obtain ⟨id', hid, h⟩ := py_bind_inv h
  obtain ⟨ch, hch, h⟩ := py_bind_inv h
  obtain ⟨vs, hv, h⟩ := py_bind_inv h
  rw [py_pure] at h
  cases h
  have hid := attrReqNI_size hid
  unfold unparseSpecification at hu
  obtain ⟨body, h2, hu⟩ := py_bind_inv hu
  rw [py_pure] at hu
  cases hu
  have h3 : body.length ≤ 46 * (K * (K * x.size)) := by
    refine loop_len hb.le (childTags_size x) (concat_len h2 (fun t _ u hc => ?_))
    unfold unparseSpecificationChild at hc
    split at hc
    · cases hc
      have hr := optRef_atMost x c!"TYPE" c!"SPECIFICATION-TYPE-REF"
      split
      · simp
      · rename_i v hv
        have := hr v hv
        split
        · simp
        · simp only [List.length_append, lineOpen_len, lineClose_len, lineElem_len, List.length_cons, List.length_nil]
          omega
    split at hc
    · split at hc
      · cases hc; simp
      · rename_i hs hhs
        obtain ⟨bd, hbd, hc⟩ := py_bind_inv hc
        rw [py_pure] at hc
        cases hc
        dsimp only at hhs
        rw [hhs] at hch
        split at hch
        · cases hch
        · rename_i c hcl
          obtain ⟨l, hl, hch⟩ := py_bind_inv hch
          rw [py_pure] at hch
          cases hch
          have hk := findLast_kid hcl
          have hks := kid_size hk
          rw [hierarchies_concat] at hbd
          have e3 : bd.length ≤ 44 * K * sumSizes c.children := by
            refine items_len hl hbd (fun y hy z t hpy huz => ?_)
            have := kid_size (child_kid hy)
            have := hb.le
            exact hierarchy_len hK y.size y 1 z t (Nat.le_refl _) (by omega) hpy huz
          have e4 : 44 * K * sumSizes c.children ≤ 44 * K * x.size :=
            Nat.mul_le_mul_left _ (by have := children_size c; omega)
          have e5 : 44 * K * x.size = 44 * (K * x.size) := Nat.mul_assoc _ _ _
          simp only [List.length_append, lineOpen_len, lineClose_len, List.length_cons, List.length_nil]
          omega
    split at hc
    · have := values_len hK (by omega) (values_find hb) hv (.inl hc)
      omega
    · cases hc; simp
  have e1 := attrOpt_len lxmlEscape_length c!"DESC" (AtMost.attr x c!"DESC")
  have e2 := attrOpt_len id_length c!"LAST-CHANGE" (AtMost.attr x c!"LAST-CHANGE")
  have e3 := attrOpt_len lxmlEscape_length c!"LONG-NAME" (AtMost.attr x c!"LONG-NAME")
  simp only [List.length_append, lineClose_len, attrOut_len, spaces_len, List.length_cons, List.length_nil] at e1 e2 e3 ⊢
  omega

/-! ## The content -/

/-- The text of a list is bounded by the size of the element it was read from. -/
theorem container_len {α : Type} {C w : Nat} {x : Node} {tag : Str} {p : Node → Py (Option α)} {f : α → Py Str} {items : Option (List α)} {out : Str}
    (ht : tag.length ≤ 30) (hw : x.size ≤ w)
    (hp : parsedItems x tag (filterMapPy p) = .ok items)
    (hu : unparseContainer (none : Option (Callback Unit)) tag f items () = (.ok out, ()))
    (hb : ∀ c, x.find tag = some c → ∀ y ∈ c.children, ∀ a s, p y = .ok (some a) → f a = .ok s → s.length ≤ C * y.size) :
    out.length ≤ 80 + C * w := by
  have items_len' : ∀ (ys : List Node) (as : List α) (t : Str), filterMapPy p ys = .ok as → joinPy (as.map f) = .ok t →
      (∀ y ∈ ys, ∀ a s, p y = .ok (some a) → f a = .ok s → s.length ≤ C * y.size) → t.length ≤ C * sumSizes ys := by
    intro ys
    induction ys with
    | nil => intro as t h1 h2 _; cases h1; cases h2; simp
    | cons y ys ih =>
      intro as t h1 h2 h3
      simp only [filterMapPy] at h1
      cases hy : p y with
      | error e => simp only [hy] at h1; cases h1
      | ok o =>
        cases hys : filterMapPy p ys with
        | error e => simp only [hy, hys] at h1; cases h1
        | ok as' =>
          simp only [hy, hys] at h1
          cases h1
          have ih' := ih as'
          simp only [sumSizes, List.map_cons, List.sum_cons, Nat.mul_add] at ih' ⊢
          cases o with
          | none =>
            have := ih' t hys h2 (fun z hz => h3 z (by simp [hz]))
            omega
          | some a =>
            simp only [Option.toList_some, List.singleton_append, List.map_cons] at h2
            cases hf : f a with
            | error e => rw [hf] at h2; cases h2
            | ok s =>
              rw [hf] at h2
              simp only [joinPy] at h2
              cases hj : joinPy (as'.map f) with
              | error e => simp only [hj] at h2; cases h2
              | ok u =>
                simp only [hj] at h2
                cases h2
                have h4 := ih' u hys hj (fun z hz => h3 z (by simp [hz]))
                have h5 := h3 y (by simp) a s hy hf
                simp only [List.length_append]; omega
  rw [unparseContainer_join] at hu
  have hu := congrArg Prod.fst hu
  dsimp only at hu
  unfold parsedItems at hp
  split at hp
  · cases hp
    cases hu
    simp
  · rename_i c hc
    split at hp
    · cases hp
    · rename_i as has
      cases hp
      dsimp only at hu
      rw [List.append_assoc, List.singleton_append] at hu
      simp only [joinPy, joinPy_append] at hu
      cases hj : joinPy (as.map f) with
      | error e => simp only [hj] at hu; cases hu
      | ok u =>
        simp only [hj] at hu
        cases hu
        have h4 := items_len' c.children as u has hj (hb c hc)
        have h5 : C * sumSizes c.children ≤ C * w := Nat.mul_le_mul_left _ (by have := children_size c; have := find_size hc; omega)
        simp only [List.length_append, List.append_nil, lineOpen_len, lineClose_len]
        omega

theorem mapPy_some {α : Type} {p : Node → Py α} : ∀ {ys : List Node} {as : List α}, mapPy p ys = .ok as →
    filterMapPy (fun y => match p y with | .error e => .error e | .ok a => .ok (some a)) ys = .ok as
  | [], as, h => by cases h; rfl
  | y :: ys, as, h => by
    simp only [mapPy] at h
    cases hy : p y with
    | error e => simp only [hy] at h; cases h
    | ok a =>
      cases hys : mapPy p ys with
      | error e => simp only [hy, hys] at h; cases h
      | ok as' =>
        simp only [hy, hys] at h
        cases h
        simp only [filterMapPy, hy, mapPy_some hys]
        rfl

/-- The same for lists whose every element gives an item. -/
theorem container_len_all {α : Type} {C w : Nat} {x : Node} {tag : Str} {p : Node → Py α} {f : α → Py Str} {items : Option (List α)} {out : Str}
    (ht : tag.length ≤ 30) (hw : x.size ≤ w)
    (hp : parsedItems x tag (mapPy p) = .ok items)
    (hu : unparseContainer (none : Option (Callback Unit)) tag f items () = (.ok out, ()))
    (hb : ∀ c, x.find tag = some c → ∀ y ∈ c.children, ∀ a s, p y = .ok a → f a = .ok s → s.length ≤ C * y.size) :
    out.length ≤ 80 + C * w := by
  refine container_len (p := fun y => match p y with | .error e => .error e | .ok a => .ok (some a)) ht hw ?_ hu ?_
  · unfold parsedItems at hp ⊢
    split at hp
    · exact hp
    · split at hp
      · cases hp
      · rename_i hm
        rw [mapPy_some hm]
        exact hp
  · intro c hc y hy a s h1 h2
    refine hb c hc y hy a s ?_ h2
    cases hpy : p y with
    | error e => simp only [hpy] at h1; cases h1
    | ok b => simp only [hpy] at h1; cases h1; rfl

theorem goodRelations_filter : ∀ {ys : List Node} {rs : List (Except MissingTag SpecRelation)}, mapPy relationItem ys = .ok rs →
    filterMapPy (fun y => match relationItem y with | .error e => .error e | .ok (.ok r) => .ok (some r) | .ok (.error _) => .ok none) ys = .ok (goodRelations rs)
  | [], rs, h => by cases h; rfl
  | y :: ys, rs, h => by
    simp only [mapPy] at h
    cases hy : relationItem y with
    | error e => simp only [hy] at h; cases h
    | ok a =>
      cases hys : mapPy relationItem ys with
      | error e => simp only [hy, hys] at h; cases h
      | ok rs' =>
        simp only [hy, hys] at h
        cases h
        simp only [filterMapPy, hy, goodRelations_filter hys]
        cases a <;> rfl

/-- The text of the content. -/
theorem content_len {K : Nat} (hK : 36 ≤ K) {x : Node} (hb : Bounded K x) {c : Content} {l : Lookup} {errs : List MissingTag} {out : Str}
    (h : (parseContent (none : Option (Callback Unit)) x ()).1 = .ok (c, l, errs))
    (hu : unparseContent (none : Option (Callback Unit)) c () = (.ok out, ())) : out.length ≤ 600 + 140 * (K * (K * K)) := by
  obtain ⟨rels, p1, p2, p3, p4, p5, p6, hrel, -, -⟩ := parseContent_inv h
  have hw := hb.le
  unfold unparseContent at hu
  obtain ⟨a, s1, h1, hu⟩ := M.bind_inv hu
  obtain ⟨b, s2, h2, hu⟩ := M.bind_inv hu
  obtain ⟨o, s3, h3, hu⟩ := M.bind_inv hu
  obtain ⟨r, s4, h4, hu⟩ := M.bind_inv hu
  obtain ⟨sp, s5, h5, hu⟩ := M.bind_inv hu
  obtain ⟨g, s6, h6, hu⟩ := M.bind_inv hu
  have hu := congrArg Prod.fst hu
  simp only [M.pure, Except.ok.injEq] at hu
  have sub : ∀ {t : Str} {e y : Node}, x.find t = some e → y ∈ e.children → Bounded K y :=
    fun he hy => (hb.kid (find_kid he)).kid (child_kid hy)
  have q1 : a.length ≤ 80 + 40 * K * K := container_len_all (by decide) hw p1 h1 (fun e he y hy a s hp hs => by
    cases hs; rw [Nat.mul_assoc]; exact dataType_len hK hp)
  have q2 : b.length ≤ 80 + 32 * (K * K) * K := container_len (by decide) hw p2 h2 (fun e he y hy a s hp hs => by
    have := specType_len hK (sub he hy) hp hs
    simpa only [Nat.mul_assoc] using this)
  have q3 : o.length ≤ 80 + 28 * (K * K) * K := container_len (by decide) hw p5 h3 (fun e he y hy a s hp hs => by
    unfold objectItem someItem at hp
    split at hp
    · cases hp
    · split at hp
      · cases hp
      · rename_i ho
        cases hp
        have := object_len hK (sub he hy) ho hs
        simpa only [Nat.mul_assoc] using this)
  have q4 : r.length ≤ 80 + 28 * (K * K) * K := by
    refine container_len (by decide) hw (p := fun y => match relationItem y with
      | .error e => .error e | .ok (.ok r) => .ok (some r) | .ok (.error _) => .ok none) ?_ h4 ?_
    · rw [hrel]
      unfold parsedItems at p4 ⊢
      split at p4
      · cases p4; rfl
      · split at p4
        · cases p4
        · rename_i hm
          cases p4
          rw [goodRelations_filter hm]
          rfl
    · intro e he y hy a s hp hs
      unfold relationItem at hp
      cases hr : parseSpecRelation y with
      | error e => simp only [hr] at hp; cases hp
      | ok q =>
        cases q with
        | ok a' =>
          simp only [hr] at hp
          cases hp
          have := relation_len hK (sub he hy) hr hs
          simpa only [Nat.mul_assoc] using this
        | error m =>
          simp only [hr] at hp
          cases hn : stringifyNode false m.node with
          | error e => simp only [hn] at hp; cases hp
          | ok t => simp only [hn] at hp; cases hp
  have q5 : sp.length ≤ 80 + 47 * (K * K) * K := container_len_all (by decide) hw p3 h5 (fun e he y hy a s hp hs => by
    have := specification_len hK (sub he hy) hp hs
    simpa only [Nat.mul_assoc] using this)
  have q6 : g.length ≤ 80 + 40 * K * K := container_len_all (by decide) hw p6 h6 (fun e he y hy a s hp hs => by
    cases hs; rw [Nat.mul_assoc]; exact group_len hK hp)
  have e1 : 40 * K * K = 40 * (K * K) := Nat.mul_assoc _ _ _
  have e2 : ∀ n : Nat, n * (K * K) * K = n * (K * (K * K)) := fun n => by simp only [Nat.mul_assoc]
  have e3 := scale hK (K * K)
  rw [e2] at q2 q3 q4 q5
  rw [← hu]
  simp only [List.length_append, lineOpen_len, lineClose_len, List.length_cons, List.length_nil]
  omega

/-! ## The root tag -/

theorem serAttrChar_length (c : Char) : (serAttrChar c).length ≤ 10 := by
  unfold serAttrChar
  repeat' split
  all_goals try simp
  have h : (Nat.toDigits 10 c.toNat).length ≤ 7 := by
    rw [Nat.length_toDigits_le_iff (by omega) (by omega)]
    have := c.valid
    have h1 : c.toNat < 1114112 := by
      rcases this with h | h
      · exact Nat.lt_trans h (by decide)
      · exact h.2
    exact Nat.lt_trans h1 (by decide)
  omega

theorem serAttr_length (s : Str) : (serAttr s).length ≤ 10 * s.length := by
  unfold serAttr
  rw [← List.flatMap_def]
  exact flatMap_length serAttrChar_length s

theorem serDecl_length (d : Option Str × Str) : (serDecl d).length ≤ 12 * declSize d := by
  have := serAttr_length d.2
  unfold serDecl declSize
  cases d.1 with
  | none => simp only [prefixSize, List.length_append, List.length_cons, List.length_nil]; omega
  | some p => simp only [prefixSize, List.length_append, List.length_cons, List.length_nil]; omega

theorem flatten_length {α : Type} {f : α → Str} {g : α → Nat} {C : Nat} (h : ∀ l : List α, ∀ a ∈ l, (f a).length ≤ C * g a) (l : List α) :
    (l.map f).flatten.length ≤ C * (l.map g).sum := by
  induction l with
  | nil => simp
  | cons a l ih =>
    have := h (a :: l) a (by simp)
    simp only [List.map_cons, List.flatten_cons, List.length_append, List.sum_cons, Nat.mul_add]; omega

theorem qnameOut_len {K : Nat} {p : Option Str} (h : AtMost K p) (l : Str) : (qnameOut p l).length ≤ K + 1 + l.length := by
  cases p with
  | none => simp only [qnameOut]; omega
  | some v => have := h v rfl; simp [qnameOut]; omega

theorem prefix_atMost {K : Nat} {m : NsMap} (hm : ∀ d ∈ m, declSize d ≤ K) {q : Option Str × Str → Bool} :
    AtMost K (match m.find? q with | some d => d.1 | none => none) := by
  cases hf : m.find? q with
  | none => exact AtMost.none _
  | some d =>
    intro v hv
    have := hm d (List.mem_of_find?_eq_some hf)
    simp only at hv
    simp only [declSize, hv, prefixSize] at this
    omega

theorem attrPrefix_atMost {K : Nat} (hK : 36 ≤ K) {m : NsMap} (hm : ∀ d ∈ m, declSize d ≤ K) (u : Str) : AtMost K (attrPrefixFor m u) := by
  unfold attrPrefixFor
  split
  · exact atMost_some (Nat.le_trans (by decide) hK)
  · exact prefix_atMost hm

theorem serRootAttr_len {K : Nat} (hK : 36 ≤ K) {m : NsMap} (hm : ∀ d ∈ m, declSize d ≤ K) (a : Attr) : (serRootAttr m a).length ≤ 13 * K * a.size := by
  have h1 := serAttr_length a.value
  have h2 : (serRootAttr m a).length ≤ K + 6 + a.name.length + 10 * a.value.length := by
    unfold serRootAttr
    have hp : AtMost K (match a.ns with | none => none | some u => attrPrefixFor m u) := by
      cases a.ns with
      | none => exact AtMost.none _
      | some u => exact attrPrefix_atMost hK hm u
    have := qnameOut_len hp a.name
    simp only [List.length_append, List.length_cons, List.length_nil]
    refine Nat.le_trans (Nat.add_le_add_right (Nat.add_le_add_right (Nat.add_le_add_right (Nat.add_le_add_left this _) _) _) _) ?_
    omega
  have e : a.size = 1 + (a.name.length + a.value.length) + prefixSize a.pfx := by simp only [Attr.size]; omega
  rw [e, Nat.mul_add, Nat.mul_add]
  have : 1 * (a.name.length + a.value.length) ≤ K * (a.name.length + a.value.length) := Nat.mul_le_mul_right _ (by omega)
  have e2 : 13 * K * (a.name.length + a.value.length) = 13 * (K * (a.name.length + a.value.length)) := Nat.mul_assoc _ _ _
  omega

theorem replace_shorter (old s : Str) : (replaceStr old [] s).length ≤ s.length := (unrun_go_sub old s 0).length_le

theorem rootTag_len {K : Nat} (hK : 36 ≤ K) {i : Info} (hi : SmallInfo K i) (hm : i.nsmap = i.nsdefs) : (rootTagDump i).length ≤ 13 * (K * i.size) := by
  unfold rootTagDump
  dsimp only
  refine Nat.le_trans (strip_shorter _) (Nat.le_trans (replace_shorter _ _) ?_)
  have hp : AtMost K (match i.ns with | none => none | some u => prefixFor i.nsmap u) := by
    cases i.ns with
    | none => exact AtMost.none _
    | some u => exact prefix_atMost hi.2.1
  have h1 := qnameOut_len hp i.name
  have h2 : (i.nsmap.map serDecl).flatten.length ≤ 12 * (i.nsmap.map declSize).sum := flatten_length (fun _ d _ => serDecl_length d) _
  have h3 : (i.attrs.map (serRootAttr i.nsmap)).flatten.length ≤ 13 * K * (i.attrs.map Attr.size).sum :=
    flatten_length (fun _ a _ => serRootAttr_len hK hi.2.1 a) _
  rw [hm] at h2
  have h4 : 13 * K * (1 + i.name.length + (i.attrs.map Attr.size).sum + (i.nsdefs.map declSize).sum) ≤ 13 * K * i.size :=
    Nat.mul_le_mul_left _ (by simp only [Info.size]; omega)
  rw [Nat.mul_add, Nat.mul_add, Nat.mul_add] at h4
  have h5 : 1 * i.name.length ≤ K * i.name.length := Nat.mul_le_mul_right _ (by omega)
  have h6 : 13 * K * i.name.length = 13 * (K * i.name.length) := Nat.mul_assoc _ _ _
  have h7 := scale hK (i.nsdefs.map declSize).sum
  have h8 : 13 * K * (i.nsdefs.map declSize).sum = 13 * (K * (i.nsdefs.map declSize).sum) := Nat.mul_assoc _ _ _
  rw [← Nat.mul_assoc 13 K i.size]
  rw [← hm] at h2
  generalize (i.nsmap.map serDecl).flatten = X at h2 ⊢
  generalize (i.attrs.map (serRootAttr i.nsmap)).flatten = Y at h3 ⊢
  rw [hm] at h2
  generalize hq : qnameOut (match i.ns with | none => none | some u => prefixFor i.nsmap u) i.name = Q at h1
  simp only [List.length_append, List.length_cons, List.length_nil]
  omega

theorem firstElem_scoped {m : NsMap} : ∀ (ns : List Node) (r : Node), firstElem ns = some r → Xsd.ScopedAll m ns → ∃ i ks, r = .elem i ks ∧ i.nsmap = NsMap.push i.nsdefs m
  | [], r, h, _ => by rw [firstElem] at h; cases h
  | .elem i ks :: ns, r, h, hs => by
    rw [firstElem] at h; cases h
    rw [Xsd.ScopedAll, Xsd.ScopedIn] at hs
    exact ⟨i, ks, rfl, hs.1.2.1⟩
  | .text s :: ns, r, h, hs => by
    rw [Xsd.ScopedAll] at hs
    exact firstElem_scoped ns r (by rw [firstElem] at h; exact h; intros; rename_i e; cases e) hs.2
  | .comment s :: ns, r, h, hs => by
    rw [Xsd.ScopedAll] at hs
    exact firstElem_scoped ns r (by rw [firstElem] at h; exact h; intros; rename_i e; cases e) hs.2
  | .pi s t :: ns, r, h, hs => by
    rw [Xsd.ScopedAll] at hs
    exact firstElem_scoped ns r (by rw [firstElem] at h; exact h; intros; rename_i e; cases e) hs.2

theorem readDoc_rootMap {text : Str} {d : Doc} (h : readDoc text = some d) : ∃ i ks, d.root = .elem i ks ∧ i.nsmap = i.nsdefs := by
  unfold readDoc at h
  split at h
  · cases h
  · split at h
    · cases h
    · rename_i ns hn
      split at h
      · cases h
      · rename_i r hr
        cases h
        obtain ⟨i, ks, h1, h2⟩ := firstElem_scoped (m := []) ns r hr (Xsd.resolveList_scoped _ _ _ hn)
        exact ⟨i, ks, h1, by rw [h2]; simp [NsMap.push]⟩

/-! ## The document -/

theorem joinSpace_length : ∀ l : List Str, (joinSpace l).length ≤ (l.map (fun s => s.length + 1)).sum
  | [] => by simp [joinSpace]
  | [x] => by simp [joinSpace]
  | x :: y :: l => by
    have := joinSpace_length (y :: l)
    simp only [joinSpace, List.length_append, List.map_cons, List.sum_cons, List.length_cons, List.length_nil] at this ⊢
    omega

theorem component_length {w : Nat} {o : Option Str} (h : AtMost w o) {n : Str} (hn : n.length ≤ 30) :
    ((component n o).map (fun s => s.length + 1)).sum ≤ 40 + w := by
  cases o with
  | none => simp [component]
  | some v => have := h v rfl; simp [component]; omega

/-- The root tag of a document without the original tag. -/
theorem namespaceTag_len {w : Nat} {a c : Option Str} (ha : AtMost w a) (hc : AtMost w c) {tag : Str}
    (h : unparseNamespaceInfo (NamespaceInfo.empty a c) = .ok tag) : tag.length ≤ 100 + 2 * w := by
  have e : unparseNamespaceInfo (NamespaceInfo.empty a c) = if (namespaceComponents (NamespaceInfo.empty a c)).length > 0 then
      .ok (c!"<REQ-IF " ++ joinSpace (namespaceComponents (NamespaceInfo.empty a c)) ++ c!">\n") else .error .assertion := rfl
  rw [e] at h
  by_cases hp : (namespaceComponents (NamespaceInfo.empty a c)).length > 0
  · rw [if_pos hp] at h
    cases h
    have e1 := component_length ha (n := c!"xmlns") (by decide)
    have e2 := component_length hc (n := c!"xmlns:configuration") (by decide)
    have e3 := joinSpace_length (namespaceComponents (NamespaceInfo.empty a c))
    have e4 : namespaceComponents (NamespaceInfo.empty a c) = component c!"xmlns" a ++ component c!"xmlns:configuration" c := by
      simp [namespaceComponents, NamespaceInfo.empty, component]
    rw [e4, List.map_append, List.sum_append] at e3
    rw [e4]
    simp only [List.length_append, List.length_cons, List.length_nil]
    omega
  · rw [if_neg hp] at h; cases h

/-- The parts a printed document consists of. -/
theorem unparse_inv {b : Bundle} {out : Str} (h : unparse b = .ok out) : ∃ tag hdr core, unparseNamespaceInfo b.namespaceInfo = .ok tag ∧
    optPy unparseHeader b.header = .ok hdr ∧ unparseCore (none : Option (Callback Unit)) b.coreContent () = (.ok core, ()) ∧
    out.length ≤ 150 + tag.length + (hdr.getD []).length + core.length := by
  unfold unparse at h
  have h : ∃ s, unparseM (none : Option (Callback Unit)) b () = (.ok out, s) := ⟨_, by rw [← h]⟩
  obtain ⟨s, h⟩ := h
  unfold unparseM at h
  obtain ⟨tag, s1, h1, h⟩ := M.bind_inv h
  obtain ⟨hdr, s2, h2, h⟩ := M.bind_inv h
  obtain ⟨core, s3, h3, h⟩ := M.bind_inv h
  simp only [M.pure, Prod.mk.injEq, Except.ok.injEq] at h
  simp only [M.lift, Prod.mk.injEq] at h1 h2
  refine ⟨tag, hdr, core, h1.1, h2.1, h3, ?_⟩
  rw [← h.1]
  have := ite_len b.toolExtensionsTagExists (lineOpen 2 c!"TOOL-EXTENSIONS" ++ lineClose 2 c!"TOOL-EXTENSIONS") []
  simp only [xmlDeclLine, List.length_append, lineOpen_len, lineClose_len, List.length_cons, List.length_nil] at this ⊢
  omega

/-- The text of a document that has been read. -/
theorem document_len {text : Str} {b : Bundle} {out : Str} (h : parseString text = .ok b) (hu : unparse b = .ok out) {K : Nat}
    (hK : K = text.length + 36) : out.length ≤ 150 * (K * (K * K)) := by
  have hk : 36 ≤ K := by omega
  have c0 := scale hk 1
  have c1 := scale hk K
  have c2 := scale hk (K * K)
  obtain ⟨tag, hdr, core, u1, u2, u3, hlen⟩ := unparse_inv hu
  unfold parseString at h
  have h : ∃ s, parseFromString (none : Option (Callback Unit)) text () = (.ok b, s) := ⟨_, by rw [← h]⟩
  obtain ⟨s, h⟩ := h
  unfold parseFromString at h
  split at h
  · simp [M.lift] at h
  · cases hd : readDoc text with
    | none => rw [hd] at h; simp [M.lift] at h
    | some d =>
      rw [hd] at h
      dsimp only at h
      have hsm := readDoc_small hd
      rw [← hK] at hsm
      have hsz := readDoc_size hd
      obtain ⟨ri, rk, hri, hns⟩ := readDoc_rootMap hd
      have hris : SmallInfo K ri := hsm ri (by rw [hri]; simp [infosOf])
      have hnm : ∀ d' ∈ d.root.nsmap, declSize d' ≤ K := by rw [hri]; exact hris.2.1
      unfold parseReqif at h
      obtain ⟨root, s1, h1, h⟩ := M.bind_inv h
      simp only [M.lift, Prod.mk.injEq] at h1
      obtain ⟨hr1, hr2⟩ := strippedRoot_small h1.1 (K := K) (by omega) hsm
      have hb : Bounded K root := ⟨by omega, hr2⟩
      split at h
      · split at h
        · simp only [M.pure, Prod.mk.injEq, Except.ok.injEq] at h
          rw [← h.1] at u1 u2 u3
          simp only [Bundle.createEmpty, optPy, Except.ok.injEq] at u2
          simp only [Bundle.createEmpty, unparseCore, M.pure, Prod.mk.injEq, Except.ok.injEq] at u3
          rw [← u2, ← u3.1] at hlen
          have := namespaceTag_len (w := K) (get?_atMost hnm none) (get?_atMost hnm (some c!"configuration")) u1
          simp only [Option.getD_none, List.length_nil] at hlen
          omega
        · obtain ⟨hh, s2, h2, h⟩ := M.bind_inv h
          obtain ⟨r, s3, h3, h⟩ := M.bind_inv h
          simp only [M.lift, Prod.mk.injEq] at h2
          simp only [M.pure, Prod.mk.injEq, Except.ok.injEq] at h
          rw [← h.1] at u1 u2 u3
          dsimp only at u1 u2 u3
          -- the root tag
          have t1 : tag.length ≤ 13 * (K * K) + 1 := by
            simp only [unparseNamespaceInfo, namespaceInfoOf, Except.ok.injEq] at u1
            rw [← u1, hri]
            have := rootTag_len hk hris hns
            have hsz' : K * ri.size ≤ K * K := Nat.mul_le_mul_left _ (by
              rw [hri] at hsz; simp only [Node.size] at hsz; omega)
            simp only [tagDumpOf, List.length_append, List.length_cons, List.length_nil]; omega
          -- the header
          have t2 : (hdr.getD []).length ≤ 700 * K := by
            cases hf : root.find c!"THE-HEADER" with
            | none =>
              rw [hf] at h2
              simp only [optPy, Except.ok.injEq] at h2
              rw [← h2.1] at u2
              simp only [optPy, Except.ok.injEq] at u2
              rw [← u2]; simp
            | some hn =>
              rw [hf] at h2
              simp only [optPy] at h2
              cases hp : parseHeader hn with
              | error e => simp only [hp] at h2; cases h2.1
              | ok q =>
                simp only [hp, Except.ok.injEq] at h2
                rw [← h2.1] at u2
                simp only [optPy] at u2
                cases hq : unparseHeader q with
                | error e => simp only [hq] at u2; cases u2
                | ok t =>
                  simp only [hq, Except.ok.injEq] at u2
                  rw [← u2]
                  have a1 := header_len hp hq
                  have a2 := find_size hf
                  have a3 := hb.le
                  simp only [Option.getD_some]; omega
          -- the content
          have t3 : core.length ≤ 700 + 140 * (K * (K * K)) := by
            unfold parseCore at h3
            cases hcc : root.find c!"CORE-CONTENT" with
            | none =>
              rw [hcc] at h3
              simp only [M.pure, Prod.mk.injEq, Except.ok.injEq] at h3
              rw [← h3.1] at u3
              simp only [unparseCore, M.pure, Prod.mk.injEq, Except.ok.injEq] at u3
              rw [← u3.1]; simp only [List.length_nil]; omega
            | some cc =>
              rw [hcc] at h3
              dsimp only at h3
              cases hx : cc.find c!"REQ-IF-CONTENT" with
              | none =>
                rw [hx] at h3
                simp only [M.pure, Prod.mk.injEq, Except.ok.injEq] at h3
                rw [← h3.1] at u3
                simp only [unparseCore, M.pure, Prod.mk.injEq, Except.ok.injEq] at u3
                rw [← u3.1]
                simp only [List.length_append, lineOpen_len, lineClose_len, List.length_cons, List.length_nil]; omega
              | some x =>
                rw [hx] at h3
                dsimp only at h3
                obtain ⟨q, s4, h4, h3⟩ := M.bind_inv h3
                simp only [M.pure, Prod.mk.injEq, Except.ok.injEq] at h3
                rw [← h3.1] at u3
                obtain ⟨body, s5, h5, u3⟩ := M.bind_inv u3
                simp only [M.pure, Prod.mk.injEq, Except.ok.injEq] at u3
                rw [← u3.1]
                obtain ⟨qc, ql, qe⟩ := q
                have := content_len hk ((hb.kid (find_kid hcc)).kid (find_kid hx)) (c := qc) (l := ql) (errs := qe) (out := body)
                  (by rw [h4]) (by rw [h5])
                simp only [List.length_append, lineOpen_len, lineClose_len, List.length_cons, List.length_nil]; omega
          omega
      · simp [M.lift] at h

end ReqIF
