import Verif.Spec.Moved
import Verif.Proofs.ParseInv
import Verif.Proofs.Hierarchy
/-!
# Proofs about moving a part of a hierarchy
-/
namespace ReqIF.Moved
open Spec

/-! ## Reading -/

mutual
theorem hierarchy_deeper (k l : Nat) (n : Node) : parseHierarchy (l + k) n = pyMap (deeper k) (parseHierarchy l n) :=
  match n with
  | .elem i ks => by
    simp only [parseHierarchy]
    split
    · cases attrReqNI (Node.elem i ks) c!"IDENTIFIER" with
      | error e => rfl
      | ok identifier =>
        dsimp only
        cases (Node.elem i ks).find c!"OBJECT" with
        | none => rfl
        | some o =>
          dsimp only
          cases o.find c!"SPEC-OBJECT-REF" with
          | none => rfl
          | some r =>
            dsimp only
            rw [show l + k + 1 = l + 1 + k by omega, first_deeper k (l + 1) ks]
            cases parseFirstChildren (l + 1) ks with
            | none => rfl
            | some q =>
              cases q with
              | error e => rfl
              | ok q => rfl
    · rfl
  | .text _ => rfl
  | .comment _ => rfl
  | .pi _ _ => rfl

theorem first_deeper (k l : Nat) (ns : List Node) :
    parseFirstChildren (l + k) ns = (parseFirstChildren l ns).map (pyMap fun r => (r.1, deeperAll k r.2)) :=
  match ns with
  | [] => rfl
  | .elem i ks :: ns => by
    simp only [parseFirstChildren]
    split
    · rw [hierarchies_deeper k l ks]
      cases parseHierarchies l ks with
      | error e => rfl
      | ok cs => rfl
    · exact first_deeper k l ns
  | .text _ :: ns => by simp only [parseFirstChildren]; exact first_deeper k l ns
  | .comment _ :: ns => by simp only [parseFirstChildren]; exact first_deeper k l ns
  | .pi _ _ :: ns => by simp only [parseFirstChildren]; exact first_deeper k l ns

theorem hierarchies_deeper (k l : Nat) (ns : List Node) :
    parseHierarchies (l + k) ns = pyMap (deeperAll k) (parseHierarchies l ns) :=
  match ns with
  | [] => rfl
  | .text _ :: ns => by simp only [parseHierarchies]; exact hierarchies_deeper k l ns
  | .elem i ks :: ns => by
    simp only [parseHierarchies]
    rw [hierarchy_deeper k l (.elem i ks), hierarchies_deeper k l ns]
    cases parseHierarchy l (.elem i ks) with
    | error e => rfl
    | ok h => cases parseHierarchies l ns <;> rfl
  | .comment _ :: ns => rfl
  | .pi _ _ :: ns => rfl
end

/-! ## The element a node remembers -/

/-- Parsing the element a node remembers, at the level of the node, gives the node. -/
def Remembers (l : Nat) (n : Hierarchy) : Prop :=
  l ≤ n.info.level ∧ ∃ y, n.info.xmlNode = some y ∧ parseHierarchy n.info.level y = .ok n

theorem Remembers.weaken {l l' : Nat} {n : Hierarchy} (h : Remembers l n) (hl : l' ≤ l) : Remembers l' n :=
  ⟨Nat.le_trans hl h.1, h.2⟩

mutual
theorem hierarchy_remembers (l : Nat) (x : Node) (h : Hierarchy) (hp : parseHierarchy l x = .ok h) :
    ∀ n ∈ preorder h, Remembers l n := by
  match x with
  | .elem i ks =>
    have hp0 := hp
    simp only [parseHierarchy] at hp
    split at hp
    · split at hp
      · cases hp
      · split at hp
        · cases hp
        · split at hp
          · cases hp
          · split at hp
            · cases hp
              intro n hn
              simp only [preorder, List.mem_singleton] at hn
              subst hn
              exact ⟨Nat.le_refl _, _, rfl, hp0⟩
            · cases hp
            · rename_i hc
              cases hp
              intro n hn
              simp only [preorder, List.mem_cons] at hn
              rcases hn with rfl | hn
              · exact ⟨Nat.le_refl _, _, rfl, hp0⟩
              · exact (first_remembers (l + 1) ks _ _ hc n hn).weaken (by omega)
    · cases hp
  | .text _ => cases hp
  | .comment _ => cases hp
  | .pi _ _ => cases hp

theorem first_remembers (l : Nat) (ns : List Node) (sc : Bool) (hs : List Hierarchy)
    (hp : parseFirstChildren l ns = some (.ok (sc, hs))) : ∀ n ∈ preorderList hs, Remembers l n := by
  match ns with
  | [] => cases hp
  | .elem i ks :: ns =>
    simp only [parseFirstChildren] at hp
    split at hp
    · split at hp
      · cases hp
      · rename_i hc
        cases hp
        exact hierarchies_remember l ks _ hc
    · exact first_remembers l ns sc hs hp
  | .text _ :: ns => exact first_remembers l ns sc hs (by simpa [parseFirstChildren] using hp)
  | .comment _ :: ns => exact first_remembers l ns sc hs (by simpa [parseFirstChildren] using hp)
  | .pi _ _ :: ns => exact first_remembers l ns sc hs (by simpa [parseFirstChildren] using hp)

theorem hierarchies_remember (l : Nat) (ns : List Node) (hs : List Hierarchy)
    (hp : parseHierarchies l ns = .ok hs) : ∀ n ∈ preorderList hs, Remembers l n := by
  match ns with
  | [] => cases hp; intro n hn; cases hn
  | .text _ :: ns => exact hierarchies_remember l ns hs (by simpa [parseHierarchies] using hp)
  | .elem i ks :: ns =>
    simp only [parseHierarchies] at hp
    split at hp
    · cases hp
    · rename_i h1
      split at hp
      · cases hp
      · rename_i h2
        cases hp
        intro n hn
        simp only [preorderList, List.mem_append] at hn
        rcases hn with hn | hn
        · exact hierarchy_remembers l _ _ h1 n hn
        · exact hierarchies_remember l ns _ h2 n hn
  | .comment _ :: ns => simp [parseHierarchies, parseHierarchy] at hp
  | .pi _ _ :: ns => simp [parseHierarchies, parseHierarchy] at hp
end

theorem preorderList_mem {hs : List Hierarchy} {n : Hierarchy} (h : n ∈ preorderList hs) : ∃ y ∈ hs, n ∈ preorder y := by
  induction hs with
  | nil => cases h
  | cons y ys ih =>
    simp only [preorderList, List.mem_append] at h
    rcases h with h | h
    · exact ⟨y, by simp, h⟩
    · obtain ⟨z, h1, h2⟩ := ih h
      exact ⟨z, by simp [h1], h2⟩

theorem specification_remembers {x : Node} {s : Specification} (h : parseSpecification x = .ok s) :
    ∀ n ∈ preorderList (s.children.getD []), Remembers 1 n := by
  unfold parseSpecification at h
  obtain ⟨_, _, h⟩ := py_bind_inv h
  obtain ⟨_, _, h⟩ := py_bind_inv h
  obtain ⟨_, _, h⟩ := py_bind_inv h
  obtain ⟨ch, hch, h⟩ := py_bind_inv h
  obtain ⟨_, _, h⟩ := py_bind_inv h
  cases h
  dsimp only
  split at hch
  · cases hch; intro n hn; cases hn
  · obtain ⟨hs, h1, h2⟩ := py_bind_inv hch
    cases h2
    intro n hn
    obtain ⟨y, hy, hn⟩ := preorderList_mem hn
    obtain ⟨x, _, hx⟩ := mapPy_mem h1 hy
    exact hierarchy_remembers 1 x y hx n hn

/-! ## The parts -/

theorem parseHierarchies_get {l : Nat} {ns : List Node} {hs : List Hierarchy} (h : parseHierarchies l ns = .ok hs) (j : Nat) :
    (((ns.filter (fun k => !k.isText))[j]?).map (parseHierarchy l)) = (hs[j]?).map .ok := by
  induction ns generalizing hs j with
  | nil => cases h; rfl
  | cons n ns ih =>
    cases n with
    | text s => exact ih (by simpa [parseHierarchies] using h) j
    | elem i ks =>
      simp only [parseHierarchies] at h
      split at h
      · cases h
      · rename_i h1
        split at h
        · cases h
        · rename_i h2
          cases h
          cases j with
          | zero => simp [Node.isText, h1]
          | succ j => simpa [Node.isText] using ih h2 j
    | comment s => simp [parseHierarchies, parseHierarchy] at h
    | pi a b => simp [parseHierarchies, parseHierarchy] at h

theorem first_find (l : Nat) (i : Info) (ks : List Node) :
    (parseFirstChildren l ks).map (pyMap Prod.snd) =
      ((Node.elem i ks).find c!"CHILDREN").map (fun c => parseHierarchies l c.kids) := by
  induction ks with
  | nil => rfl
  | cons n ns ih =>
    simp only [Node.find, Node.kids] at ih
    cases n with
    | elem j ks =>
      by_cases h : (Node.elem j ks).tag = .name c!"CHILDREN"
      · simp only [parseFirstChildren, if_pos h, Node.find, Node.kids, List.find?_cons, h, Node.isText]
        simp only [Bool.not_false, beq_self_eq_true, Bool.and_self, Option.map_some, Node.kids]
        cases parseHierarchies l ks <;> rfl
      · have hb : ((Node.elem j ks).tag == Tag.name c!"CHILDREN") = false := by simpa using h
        simp only [parseFirstChildren, if_neg h, Node.find, Node.kids, List.find?_cons, hb, Bool.and_false]
        exact ih
    | text s => simpa [parseFirstChildren, Node.find, Node.kids, List.find?_cons, Node.isText] using ih
    | comment s => simpa [parseFirstChildren, Node.find, Node.kids, List.find?_cons, Node.isText, Node.tag] using ih
    | pi a b => simpa [parseFirstChildren, Node.find, Node.kids, List.find?_cons, Node.isText, Node.tag] using ih

/-- The children of a parsed node, and those of its element. -/
theorem children_parsed {l : Nat} {x : Node} {h : Hierarchy} (hp : parseHierarchy l x = .ok h) :
    (x.find c!"CHILDREN" = none ∧ h.children = none) ∨
    ∃ c cs, x.find c!"CHILDREN" = some c ∧ h.children = some cs ∧ parseHierarchies (l + 1) c.kids = .ok cs := by
  cases x with
  | elem i ks =>
    have hf := first_find (l + 1) i ks
    simp only [parseHierarchy] at hp
    split at hp
    · split at hp
      · cases hp
      · split at hp
        · cases hp
        · split at hp
          · cases hp
          · split at hp
            · rename_i hn
              cases hp
              rw [hn] at hf
              refine .inl ⟨?_, rfl⟩
              cases h : (Node.elem i ks).find c!"CHILDREN" with
              | none => rfl
              | some c => rw [h] at hf; cases hf
            · cases hp
            · rename_i hn
              cases hp
              rw [hn] at hf
              cases h : (Node.elem i ks).find c!"CHILDREN" with
              | none => rw [h] at hf; cases hf
              | some c =>
                rw [h] at hf
                exact .inr ⟨c, _, rfl, rfl, (Option.some.inj hf).symm⟩
    · cases hp
  | text _ => cases hp
  | comment _ => cases hp
  | pi _ _ => cases hp

theorem part_parsed (p : List Nat) {l : Nat} {x : Node} {h : Hierarchy} (hp : parseHierarchy l x = .ok h) :
    (elementAt p x).map (parseHierarchy (l + p.length)) = (partAt p h).map .ok := by
  induction p generalizing l x h with
  | nil => simp only [elementAt, partAt, Option.map_some, List.length_nil, Nat.add_zero, hp]
  | cons j p ih =>
    simp only [elementAt, partAt]
    rcases children_parsed hp with ⟨h1, h2⟩ | ⟨c, cs, h1, h2, h3⟩
    · rw [h1, h2]; rfl
    · rw [h1, h2]
      simp only [Option.bind_some]
      have hg := parseHierarchies_get h3 j
      have e : c.children = c.kids.filter (fun k => !k.isText) := rfl
      rw [e]
      cases ha : (c.kids.filter (fun k => !k.isText))[j]? with
      | none =>
        rw [ha] at hg
        cases hb : cs[j]? with
        | none => rfl
        | some g => rw [hb] at hg; cases hg
      | some y =>
        rw [ha] at hg
        cases hb : cs[j]? with
        | none => rw [hb] at hg; cases hg
        | some g =>
          rw [hb] at hg
          have := ih (Option.some.inj hg)
          simpa [show l + (p.length + 1) = l + 1 + p.length by omega] using this

/-! ## Writing -/

/-- The first text becomes the second when lines are moved. -/
def Shift (k : Nat) (s t : Str) : Prop := ∀ r, pushed k (s ++ r) = t ++ pushed k r

theorem Shift.nil (k : Nat) : Shift k [] [] := fun _ => rfl

theorem Shift.append {k : Nat} {s t s' t' : Str} (h : Shift k s t) (h' : Shift k s' t') : Shift k (s ++ s') (t ++ t') := by
  intro r
  rw [List.append_assoc, h, h', List.append_assoc]

theorem Shift.eq {k : Nat} {s t : Str} (h : Shift k s t) : pushed k s = t := by
  have := h []
  simpa [pushed, pushedFrom] using this

theorem rest_of_line (k : Nat) (a r : Str) (h : '\n' ∉ a) : pushedFrom k false (a ++ '\n' :: r) = a ++ '\n' :: pushed k r := by
  induction a with
  | nil => rfl
  | cons c a ih =>
    have hc : (c == '\n') = false := by
      simp only [beq_eq_false_iff_ne, ne_eq]
      rintro rfl
      exact h (by simp)
    simp only [List.cons_append, pushedFrom, hc]
    rw [ih (fun hm => h (by simp [hm]))]
    rfl

theorem Shift.line (k n : Nat) (a : Str) (h : '\n' ∉ a) :
    Shift k (spaces n ++ '<' :: (a ++ c!"\n")) (spaces (n + k) ++ '<' :: (a ++ c!"\n")) := by
  intro r
  have hs : spaces n ++ '<' :: (a ++ c!"\n") ++ r = (spaces n ++ '<' :: a) ++ '\n' :: r := by
    simp [List.append_assoc]
  rw [hs]
  have hn : '\n' ∉ spaces n ++ '<' :: a := by
    simp only [List.mem_append, List.mem_cons, not_or]
    refine ⟨?_, by decide, h⟩
    intro hm
    have := List.eq_of_mem_replicate hm
    exact absurd this (by decide)
  have ht : spaces (n + k) = List.replicate k ' ' ++ spaces n := by
    rw [Nat.add_comm]; simp [spaces, List.replicate_append_replicate]
  rw [ht]
  generalize hb : spaces n ++ '<' :: a = b at hn
  have hb' : List.replicate k ' ' ++ spaces n ++ '<' :: (a ++ c!"\n") ++ pushed k r =
      List.replicate k ' ' ++ (b ++ '\n' :: pushed k r) := by
    rw [← hb]; simp [List.append_assoc]
  rw [hb']
  cases b with
  | nil => simp at hb
  | cons c b =>
    have hc : (c == '\n') = false := by
      simp only [beq_eq_false_iff_ne, ne_eq]
      rintro rfl
      exact hn (by simp)
    show (List.replicate k ' ') ++ c :: pushedFrom k (c == '\n') (b ++ '\n' :: r) = _
    rw [hc, rest_of_line k b r (fun hm => hn (by simp [hm]))]
    rfl

theorem Shift.lineOpen (k n : Nat) (tag : Str) (h : '\n' ∉ tag) :
    Shift k (ReqIF.lineOpen n tag) (ReqIF.lineOpen (n + k) tag) := by
  have := Shift.line k n (tag ++ c!">") (by simp [h])
  simpa [ReqIF.lineOpen] using this

theorem Shift.lineClose (k n : Nat) (tag : Str) (h : '\n' ∉ tag) :
    Shift k (ReqIF.lineClose n tag) (ReqIF.lineClose (n + k) tag) := by
  have := Shift.line k n (c!"/" ++ tag ++ c!">") (by simp [h])
  simpa [ReqIF.lineClose] using this

theorem Shift.lineElem (k n : Nat) (tag text : Str) (h : '\n' ∉ tag) (ht : '\n' ∉ text) :
    Shift k (ReqIF.lineElem n tag text) (ReqIF.lineElem (n + k) tag text) := by
  have := Shift.line k n (tag ++ c!">" ++ text ++ c!"</" ++ tag ++ c!">") (by simp [h, ht])
  simpa [ReqIF.lineElem] using this

theorem fmtOpt_break {o : Option Str} (h : '\n' ∉ o.getD []) : '\n' ∉ fmtOpt o := by
  cases o with
  | none => decide
  | some s => exact h

theorem truthy_break {name : Str} {o : Option Str} (hn : '\n' ∉ name) (h : '\n' ∉ o.getD []) : '\n' ∉ attrTruthy name id o := by
  cases o with
  | none => simp [attrTruthy]
  | some s =>
    have h : '\n' ∉ s := h
    simp only [attrTruthy]
    split
    · simp
    · simp [attrOut, hn, h]

theorem bool_break {name : Str} {o : Option Bool} (hn : '\n' ∉ name) : '\n' ∉ attrBool name o := by
  cases o with
  | none => simp [attrBool]
  | some b => cases b <;> simp [attrBool, attrOut, boolOut, hn]

theorem Shift.object (k n : Nat) (i : HInfo) (h : OneLined i) :
    Shift k (unparseHierarchyObject n i) (unparseHierarchyObject (n + k) i) := by
  unfold unparseHierarchyObject
  rw [show n + k + 2 = n + 2 + k by omega, show n + k + 4 = n + 4 + k by omega]
  exact ((Shift.lineOpen k (n + 2) _ (by decide)).append (Shift.lineElem k (n + 4) _ _ (by decide) (fmtOpt_break h.2.1))).append
    (Shift.lineClose k (n + 2) _ (by decide))

theorem Shift.head (k n : Nat) (i : HInfo) (h : OneLined i) :
    Shift k (unparseHierarchyHead n i) (unparseHierarchyHead (n + k) i) := by
  have hid : '\n' ∉ attrOut c!"IDENTIFIER" i.identifier := by simp [attrOut, h.1]
  have := Shift.line k n (c!"SPEC-HIERARCHY" ++ (attrOut c!"IDENTIFIER" i.identifier ++ (attrBool c!"IS-EDITABLE" i.editable ++
    (attrBool c!"IS-TABLE-INTERNAL" i.isTableInternal ++ (attrTruthy c!"LAST-CHANGE" id i.lastChange ++
    (attrTruthy c!"LONG-NAME" id i.longName ++ c!">")))))) (by
      simp only [List.mem_append, not_or]
      exact ⟨by decide, hid, bool_break (by decide), bool_break (by decide), truthy_break (by decide) h.2.2.1,
        truthy_break (by decide) h.2.2.2, by decide⟩)
  simpa [unparseHierarchyHead] using this

theorem deeperAll_isEmpty (k : Nat) (hs : List Hierarchy) : (deeperAll k hs).isEmpty = hs.isEmpty := by
  cases hs <;> rfl

theorem base_pos {h : Hierarchy} (hl : h.info.level > 0) : h.baseLevel = .ok (12 + (h.info.level - 1) * 4) := if_pos hl

theorem head_level (m n : Nat) (i : HInfo) : unparseHierarchyHead m { i with level := n } = unparseHierarchyHead m i := rfl

theorem object_level (m n : Nat) (i : HInfo) : unparseHierarchyObject m { i with level := n } = unparseHierarchyObject m i := rfl

theorem base_neg {h : Hierarchy} (hl : ¬ h.info.level > 0) : h.baseLevel = .error .assertion := if_neg hl

/-- The text of a node with a list of children. -/
def nodeText (m : Nat) (i : HInfo) (e : Bool) (body : Str) : Str :=
  unparseHierarchyHead m i ++
    (if i.refThenChildrenOrder then unparseHierarchyObject m i ++
        (if e && i.isSelfClosed then spaces (m + 2) ++ c!"<CHILDREN/>\n"
          else lineOpen (m + 2) c!"CHILDREN" ++ body ++ lineClose (m + 2) c!"CHILDREN")
      else (if e && i.isSelfClosed then spaces (m + 2) ++ c!"<CHILDREN/>\n"
          else lineOpen (m + 2) c!"CHILDREN" ++ body ++ lineClose (m + 2) c!"CHILDREN") ++ unparseHierarchyObject m i) ++
    lineClose m c!"SPEC-HIERARCHY"

theorem node_unparsed {i : HInfo} {cs : List Hierarchy} {body : Str} (hl : i.level > 0) (hb : unparseHierarchies cs = .ok body) :
    unparseHierarchy (.node i cs) = .ok (nodeText (12 + (i.level - 1) * 4) i cs.isEmpty body) := by
  simp only [unparseHierarchy]
  rw [base_pos (h := .node i cs) hl, hb]
  rfl

theorem nodeText_level (m n : Nat) (i : HInfo) (e : Bool) (body : Str) :
    nodeText m { i with level := n } e body = nodeText m i e body := rfl

theorem Shift.kids (k m : Nat) (b : Bool) {body body' : Str} (h : Shift k body body') :
    Shift k (if b then spaces (m + 2) ++ c!"<CHILDREN/>\n"
          else ReqIF.lineOpen (m + 2) c!"CHILDREN" ++ body ++ ReqIF.lineClose (m + 2) c!"CHILDREN")
      (if b then spaces (m + k + 2) ++ c!"<CHILDREN/>\n"
          else ReqIF.lineOpen (m + k + 2) c!"CHILDREN" ++ body' ++ ReqIF.lineClose (m + k + 2) c!"CHILDREN") := by
  rw [show m + k + 2 = m + 2 + k by omega]
  cases b with
  | true => exact Shift.line _ _ c!"CHILDREN/>" (by decide)
  | false => exact ((Shift.lineOpen _ _ _ (by decide)).append h).append (Shift.lineClose _ _ _ (by decide))

theorem Shift.either {k : Nat} (b : Bool) {s t s' t' : Str} (h : Shift k s t) (h' : Shift k s' t') :
    Shift k (if b then s else s') (if b then t else t') := by
  cases b with
  | true => exact h
  | false => exact h'

theorem Shift.nodeText (k m : Nat) (i : HInfo) (e : Bool) {body body' : Str} (hi : OneLined i) (h : Shift k body body') :
    Shift k (Moved.nodeText m i e body) (Moved.nodeText (m + k) i e body') := by
  unfold Moved.nodeText
  exact ((Shift.head k m i hi).append (Shift.either _ ((Shift.object k m i hi).append (Shift.kids k m _ h))
    ((Shift.kids k m _ h).append (Shift.object k m i hi)))).append (Shift.lineClose k m _ (by decide))

mutual
theorem hierarchy_pushed (k : Nat) (h : Hierarchy) (s : Str) (hs : unparseHierarchy h = .ok s)
    (ho : ∀ n ∈ preorder h, OneLined n.info) : ∃ t, unparseHierarchy (deeper k h) = .ok t ∧ Shift (4 * k) s t :=
  match h with
  | .leaf i => by
    have hi : OneLined i := ho (.leaf i) (by simp [preorder])
    simp only [unparseHierarchy] at hs
    by_cases hl : i.level > 0
    · rw [base_pos (h := .leaf i) hl] at hs
      cases hs
      have e : (Hierarchy.leaf { i with level := i.level + k }).baseLevel = .ok (12 + (i.level - 1) * 4 + 4 * k) := by
        rw [base_pos (h := .leaf { i with level := i.level + k }) (show i.level + k > 0 by omega)]
        exact congrArg Except.ok (show 12 + (i.level + k - 1) * 4 = _ by omega)
      simp only [deeper, unparseHierarchy, e, head_level, object_level]
      exact ⟨_, rfl, ((Shift.head _ _ i hi).append (Shift.object _ _ i hi)).append (Shift.lineClose _ _ _ (by decide))⟩
    · rw [base_neg (h := .leaf i) hl] at hs
      cases hs
  | .node i cs => by
    have hi : OneLined i := ho (.node i cs) (by simp [preorder])
    by_cases hl : i.level > 0
    · cases hb : unparseHierarchies cs with
      | error e =>
        simp only [unparseHierarchy] at hs
        rw [base_pos (h := .node i cs) hl, hb] at hs
        cases hs
      | ok body =>
        rw [node_unparsed hl hb] at hs
        cases hs
        obtain ⟨body', h1, h2⟩ := hierarchies_pushed k cs body hb (fun n hn => ho n (by simp [preorder, hn]))
        refine ⟨_, node_unparsed (i := { i with level := i.level + k }) (show i.level + k > 0 by omega) h1, ?_⟩
        rw [nodeText_level, deeperAll_isEmpty]
        have e : 12 + (i.level + k - 1) * 4 = 12 + (i.level - 1) * 4 + 4 * k := by omega
        show Shift _ _ (Moved.nodeText (12 + (i.level + k - 1) * 4) i cs.isEmpty body')
        rw [e]
        exact Shift.nodeText _ _ i _ hi h2
    · simp only [unparseHierarchy] at hs
      rw [base_neg (h := .node i cs) hl] at hs
      cases hs

theorem hierarchies_pushed (k : Nat) (hs : List Hierarchy) (s : Str) (h : unparseHierarchies hs = .ok s)
    (ho : ∀ n ∈ preorderList hs, OneLined n.info) : ∃ t, unparseHierarchies (deeperAll k hs) = .ok t ∧ Shift (4 * k) s t :=
  match hs with
  | [] => by cases h; exact ⟨[], rfl, Shift.nil _⟩
  | x :: xs => by
    simp only [unparseHierarchies] at h
    cases h1 : unparseHierarchy x with
    | error e => rw [h1] at h; cases h
    | ok a =>
      rw [h1] at h
      dsimp only at h
      cases h2 : unparseHierarchies xs with
      | error e => rw [h2] at h; cases h
      | ok b =>
        rw [h2] at h
        cases h
        obtain ⟨a', e1, f1⟩ := hierarchy_pushed k x a h1 (fun n hn => ho n (by simp [preorderList, hn]))
        obtain ⟨b', e2, f2⟩ := hierarchies_pushed k xs b h2 (fun n hn => ho n (by simp [preorderList, hn]))
        simp only [deeperAll, unparseHierarchies, e1, e2]
        exact ⟨_, rfl, f1.append f2⟩
end

end ReqIF.Moved
