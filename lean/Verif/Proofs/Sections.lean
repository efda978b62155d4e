import Verif.Spec.Sections
import Verif.Proofs.Hierarchy
/-!
# The conversion iteration with arbitrary choices of sections
-/
namespace ReqIF.Sections
open ReqIF.Spec

/-- The levels of the sections on a way that starts at `level`, deepest first. -/
def secs (level : Int) : List Bool → List Int
  | [] => []
  | b :: t => secs (level + 1) t ++ (if b then [level] else [])

theorem secs_length (level : Int) (l : List Bool) : (secs level l).length ≤ l.length := by
  induction l generalizing level with
  | nil => simp [secs]
  | cons b t ih =>
    have := ih (level + 1)
    cases b <;> simp [secs] <;> omega

theorem noGap_false {l : List Bool} (h : NoGap (false :: l)) (level : Int) : secs level l = [] := by
  induction l generalizing level with
  | nil => rfl
  | cons b t ih =>
    unfold NoGap at h
    simp only [List.pairwise_cons] at h
    have hb : b = false := by
      cases b with
      | false => rfl
      | true => have := h.1 true (by simp) rfl; cases this
    subst hb
    have := ih (show NoGap (false :: t) from by
      unfold NoGap; simp only [List.pairwise_cons]
      exact ⟨fun a ha => h.1 a (by simp [ha]), h.2.2⟩) (level + 1)
    simp [secs, this]

theorem noGap_tail {b : Bool} {l : List Bool} (h : NoGap (b :: l)) : NoGap l := by
  unfold NoGap at h; exact (List.pairwise_cons.1 h).2

/-- Deepest section of a way: its level, from the number of sections. -/
theorem secs_top_noGap {l : List Bool} (h : NoGap l) (level : Int) :
    ∀ x t, secs level l = x :: t → x = level + t.length := by
  induction l generalizing level with
  | nil => intro x t h; cases h
  | cons b l ih =>
    intro x t hx
    cases b with
    | false =>
      simp only [secs, noGap_false h] at hx
      cases hx
    | true =>
      simp only [secs, if_true] at hx
      cases hs : secs (level + 1) l with
      | nil =>
        rw [hs] at hx
        cases hx
        simp
      | cons y u =>
        rw [hs] at hx
        have := ih (noGap_tail h) (level + 1) y u hs
        cases hx
        simp
        omega

theorem secs_top_ge (l : List Bool) (level : Int) :
    ∀ x t, secs level l = x :: t → level + t.length ≤ x := by
  induction l generalizing level with
  | nil => intro x t h; cases h
  | cons b l ih =>
    intro x t hx
    cases hs : secs (level + 1) l with
    | nil =>
      cases b with
      | false => simp [secs, hs] at hx
      | true =>
        simp only [secs, hs, if_true] at hx
        cases hx
        simp
    | cons y u =>
      have := ih (level + 1) y u hs
      cases b with
      | false =>
        simp only [secs, hs, Bool.false_eq_true, if_false, List.append_nil] at hx
        cases hx
        omega
      | true =>
        simp only [secs, hs, if_true] at hx
        cases hx
        simp
        omega

/-- With a gap, the deepest section is deeper than the number of sections says. -/
theorem secs_top_gap {l : List Bool} (h : ¬ NoGap l) (level : Int) :
    ∃ x t, secs level l = x :: t ∧ level + t.length < x := by
  induction l generalizing level with
  | nil => exact absurd (show NoGap [] from List.Pairwise.nil) h
  | cons b l ih =>
    by_cases hl : NoGap l
    · cases b with
      | true =>
        exact absurd (show NoGap (true :: l) from List.pairwise_cons.2 ⟨fun _ _ _ => rfl, hl⟩) h
      | false =>
        cases hs : secs (level + 1) l with
        | nil =>
          exfalso
          apply h
          refine List.pairwise_cons.2 ⟨fun a ha hat => ?_, hl⟩
          subst hat
          exfalso
          clear h hl ih
          induction l generalizing level with
          | nil => cases ha
          | cons c l ih =>
            simp only [secs, List.append_eq_nil_iff] at hs
            rcases List.mem_cons.1 ha with h | h
            · subst h; simp at hs
            · exact ih (level + 1) hs.1 h
        | cons y u =>
          have := secs_top_ge l (level + 1) y u hs
          exact ⟨y, u, by simp [secs, hs], by omega⟩
    · obtain ⟨x, t, h1, h2⟩ := ih hl (level + 1)
      cases b with
      | false => exact ⟨x, t, by simp [secs, h1], by omega⟩
      | true =>
        refine ⟨x, t ++ [level], by simp [secs, h1], ?_⟩
        simp only [List.length_append, List.length_cons, List.length_nil]
        omega

variable {σ ν : Type}

/-- What happens at the head of the loop before the callback runs. -/
def arrive (getLevel : ν → Int) (level : Nat) (st : List ν) : Py (List ν) :=
  match stackTop st with
  | .error e => .error e
  | .ok top => leaveSections (level : Int) (getLevel top) st

theorem loop_arrive {getLevel : ν → Int} {f : Hierarchy → ν → M σ (ν × Bool)} {stk : List ν} {sec : ν}
    {st : List ν} {h : Hierarchy} {rest : List Hierarchy} {s : σ}
    (ha : arrive getLevel h.info.level stk = .ok (sec :: st)) :
    convertLoop getLevel f stk (h :: rest) s =
      (M.bind (f h sec) fun r => convertLoop getLevel f (if r.2 then r.1 :: sec :: st else sec :: st) rest) s := by
  unfold arrive at ha
  cases hs : stackTop stk with
  | error e => rw [hs] at ha; cases ha
  | ok top =>
    rw [hs] at ha
    have h3 : stackTop (sec :: st) = .ok sec := rfl
    simp only [convertLoop, M.bind, M.lift, hs, ha, h3]

theorem arrive_self {getLevel : ν → Int} {level : Nat} {sec : ν} {st : List ν}
    (h : getLevel sec < (level : Int)) : arrive getLevel level (sec :: st) = .ok (sec :: st) := by
  simp only [arrive, stackTop, leaveSections]
  rw [if_neg (by omega)]

theorem arrive_noGap {getLevel : ν → Int} {level : Nat} {sec : ν} {st ext : List ν} {l : List Bool}
    (h : getLevel sec < (level : Int)) (hl : NoGap l) (he : ext.map getLevel = secs level l) :
    arrive getLevel level (ext ++ sec :: st) = .ok (sec :: st) := by
  cases ext with
  | nil => exact arrive_self h
  | cons n t =>
    have ht := secs_top_noGap hl (level : Int) (getLevel n) (t.map getLevel) (by rw [← he]; rfl)
    rw [List.length_map] at ht
    simp only [arrive, List.cons_append, stackTop, leaveSections]
    rw [if_pos (by omega)]
    have h2 : (getLevel n - (level : Int) + 1).toNat = (n :: t).length := by
      simp only [List.length_cons]; omega
    rw [h2]
    exact popN_append (n :: t) (sec :: st)

/-! ## Without gaps every node gets its section -/

variable {getLevel : ν → Int} {f : Hierarchy → ν → M σ (ν × Bool)} {isSection : Hierarchy → Bool}

/-- The loop follows the recursion `spec`, and leaves the sections `l` on the stack. -/
def Follows (getLevel : ν → Int) (f : Hierarchy → ν → M σ (ν × Bool)) (stk st : List ν)
    (work rest : List Hierarchy) (spec : M σ (List ν)) (l : List Int) (s : σ) : Prop :=
  match spec s with
  | (.error e, s') => convertLoop getLevel f stk (work ++ rest) s = (.error e, s')
  | (.ok ext', s') =>
    convertLoop getLevel f stk (work ++ rest) s = convertLoop getLevel f (ext' ++ st) rest s' ∧
    ext'.map getLevel = l

theorem wayLast_cons (h : Hierarchy) (hs : List Hierarchy) :
    wayLast isSection (h :: hs) = if hs.isEmpty then way isSection h else wayLast isSection hs := by
  cases hs <;> rfl

mutual
theorem follows_tree (hf : Answers getLevel f isSection) (level : Nat) (h : Hierarchy)
    (hlev : LevelsFrom level h) (hcl : Closed isSection h)
    (stk : List ν) (sec : ν) (st : List ν) (rest : List Hierarchy) (s : σ)
    (hsec : getLevel sec < (level : Int))
    (ha : arrive getLevel level stk = .ok (sec :: st)) :
    Follows getLevel f stk (sec :: st) (preorder h) rest (convertTreeX f sec h)
      (secs level (way isSection h)) s := by
  have hl : h.info.level = level := by cases h <;> first | exact hlev | exact hlev.1
  have hstep := fun rest => loop_arrive (getLevel := getLevel) (f := f) (h := h) (rest := rest) (s := s)
    (by rw [hl]; exact ha)
  match h, hlev, hcl, hl, hstep with
  | .leaf i, hlev, hcl, hl, hstep =>
    simp only [Follows, convertTreeX, preorder, M.bind, M.pure, List.singleton_append]
    rw [hstep]
    simp only [M.bind]
    cases hfs : f (.leaf i) sec s with
    | mk r s' =>
      cases r with
      | error e => rfl
      | ok r =>
        obtain ⟨n, b⟩ := r
        obtain ⟨hb, hn⟩ := hf _ _ _ _ _ _ hfs
        cases b with
        | false => exact ⟨rfl, by simp [way, secs, ← hb]⟩
        | true => exact ⟨rfl, by simp [way, secs, ← hb, hn rfl, hl]⟩
  | .node i cs, hlev, hcl, hl, hstep =>
    simp only [Follows, convertTreeX, preorder, M.bind, M.pure, List.cons_append]
    rw [hstep]
    simp only [M.bind]
    cases hfs : f (.node i cs) sec s with
    | mk r s' =>
      cases r with
      | error e => rfl
      | ok r =>
        obtain ⟨n, b⟩ := r
        obtain ⟨hb, hn⟩ := hf _ _ _ _ _ _ hfs
        cases b with
        | false =>
          have ih := follows_forest hf (level + 1) cs hlev.2 hcl [] [] sec st rest s'
            (by omega) (fun _ => List.Pairwise.nil) rfl
          simp only [Follows, List.nil_append] at ih
          dsimp only
          simp only [Bool.false_eq_true, if_false]
          cases hc : convertForestX f sec [] cs s' with
          | mk r' s'' =>
            rw [hc] at ih
            cases r' with
            | error e => exact ih
            | ok ext' =>
              obtain ⟨h1, h2⟩ := ih
              refine ⟨h1, ?_⟩
              rw [h2]
              cases cs <;> simp [way, secs, wayLast, ← hb]
        | true =>
          have hn' : getLevel n = (level : Int) := by rw [hn rfl, hl]
          have ih := follows_forest hf (level + 1) cs hlev.2 hcl [] [] n (sec :: st) rest s'
            (by omega) (fun _ => List.Pairwise.nil) rfl
          simp only [Follows, List.nil_append] at ih
          dsimp only
          simp only [if_true]
          cases hc : convertForestX f n [] cs s' with
          | mk r' s'' =>
            rw [hc] at ih
            cases r' with
            | error e => exact ih
            | ok ext' =>
              obtain ⟨h1, h2⟩ := ih
              refine ⟨by rw [h1]; simp, ?_⟩
              rw [List.map_append, h2]
              cases cs <;> simp [way, secs, wayLast, ← hb, hn']

theorem follows_forest (hf : Answers getLevel f isSection) (level : Nat) (hs : List Hierarchy)
    (hlev : LevelsFromList level hs) (hcl : ClosedList isSection hs)
    (l : List Bool) (ext : List ν) (sec : ν) (st : List ν) (rest : List Hierarchy) (s : σ)
    (hsec : getLevel sec < (level : Int)) (hl : hs ≠ [] → NoGap l) (he : ext.map getLevel = secs level l) :
    Follows getLevel f (ext ++ sec :: st) (sec :: st) (preorderList hs) rest (convertForestX f sec ext hs)
      (secs level (if hs.isEmpty then l else wayLast isSection hs)) s := by
  match hs, hlev, hcl, hl with
  | [], _, _, _ => exact ⟨rfl, he⟩
  | h :: hs, hlev, hcl, hl =>
    have ih1 := follows_tree hf level h hlev.1 hcl.1 (ext ++ sec :: st) sec st (preorderList hs ++ rest) s hsec
      (arrive_noGap hsec (hl (by simp)) he)
    simp only [Follows, convertForestX, preorderList, M.bind, List.append_assoc] at ih1 ⊢
    cases hc : convertTreeX f sec h s with
    | mk r s' =>
      rw [hc] at ih1
      cases r with
      | error e => exact ih1
      | ok ext' =>
        obtain ⟨h1, h2⟩ := ih1
        dsimp only
        have ih2 := follows_forest hf level hs hlev.2 hcl.2.2 (way isSection h) ext' sec st rest s' hsec hcl.2.1 h2
        simp only [Follows] at ih2
        rw [h1]
        cases hd : convertForestX f sec ext' hs s' with
        | mk r' s'' =>
          rw [hd] at ih2
          cases r' with
          | error e => exact ih2
          | ok ext2 =>
            refine ⟨ih2.1, ?_⟩
            rw [ih2.2]
            simp only [List.isEmpty_cons, Bool.false_eq_true, if_false, wayLast_cons]
end

theorem loop_follows (hf : Answers getLevel f isSection) (hs : List Hierarchy)
    (hlev : LevelsFromList 1 hs) (hcl : ClosedList isSection hs) (root : ν) (hroot : getLevel root = 0) (s : σ) :
    convertLoop getLevel f [root] (preorderList hs) s = convertForest f root hs s := by
  have h := follows_forest hf 1 hs hlev hcl [] [] root [] [] s (by omega) (fun _ => List.Pairwise.nil) rfl
  simp only [Follows, List.nil_append, List.append_nil] at h
  have h2 := convertForestX_eq (f := f) root [] hs s
  simp only [M.bind, M.pure] at h2
  rw [← h2]
  cases hc : convertForestX f root [] hs s with
  | mk r s' =>
    rw [hc] at h
    cases r with
    | error e => exact h
    | ok ext' => exact h.1

/-! ## With a gap some node does not get its section -/

mutual
/-- The sections the nodes of a tree lie in, in the order of the visit. -/
def given (isSection : Hierarchy → Bool) (sec : Int) : Hierarchy → List Int
  | .leaf _ => [sec]
  | .node i cs => sec :: givenList isSection (if isSection (.node i cs) then (i.level : Int) else sec) cs

def givenList (isSection : Hierarchy → Bool) (sec : Int) : List Hierarchy → List Int
  | [] => []
  | h :: hs => given isSection sec h ++ givenList isSection sec hs
end

mutual
theorem convertTree_given (sec : Int) (h : Hierarchy) (log : List Int) :
    convertTree (noting isSection) sec h log = (.ok (), log ++ given isSection sec h) := by
  match h with
  | .leaf i => rfl
  | .node i cs =>
    simp only [convertTree, noting, M.bind, given]
    rw [convertForest_given]
    simp [Hierarchy.info]

theorem convertForest_given (sec : Int) (hs : List Hierarchy) (log : List Int) :
    convertForest (noting isSection) sec hs log = (.ok (), log ++ givenList isSection sec hs) := by
  match hs with
  | [] => simp [convertForest, M.pure, givenList]
  | h :: hs =>
    simp only [convertForest, M.bind, convertTree_given sec h log, givenList]
    rw [convertForest_given]
    simp
end

/-- The notes only grow. -/
theorem loop_grows (stk : List Int) (hs : List Hierarchy) (log : List Int) :
    ∃ more, (convertLoop id (noting isSection) stk hs log).2 = log ++ more := by
  induction hs generalizing stk log with
  | nil => exact ⟨[], by simp [convertLoop, M.pure]⟩
  | cons h hs ih =>
    simp only [convertLoop, M.bind, M.lift]
    cases stackTop stk with
    | error e => exact ⟨[], by simp⟩
    | ok top =>
      dsimp only
      cases leaveSections (h.info.level : Int) (id top) stk with
      | error e => exact ⟨[], by simp⟩
      | ok st' =>
        dsimp only
        cases stackTop st' with
        | error e => exact ⟨[], by simp⟩
        | ok sec =>
          simp only [noting]
          obtain ⟨more, hm⟩ := ih (if isSection h then (h.info.level : Int) :: st' else st') (log ++ [sec])
          exact ⟨sec :: more, by simp only [hm]; simp⟩

theorem popN_members (n : Nat) (st st' : List ν) (h : popN n st = .ok st') : ∀ x ∈ st', x ∈ st := by
  induction n generalizing st with
  | zero => cases h; exact fun _ h => h
  | succ n ih =>
    cases st with
    | nil => cases h
    | cons a st => exact fun x hx => List.mem_cons_of_mem _ (ih st h x hx)

theorem popN_more (a b : List ν) (n : Nat) (h : a.length ≤ n) :
    popN n (a ++ b) = popN (n - a.length) b := by
  induction a generalizing n with
  | nil => rfl
  | cons x a ih =>
    cases n with
    | zero => simp at h
    | succ n =>
      simp only [List.cons_append, popN]
      rw [ih n (by simpa using h)]
      congr 1
      simp only [List.length_cons]
      omega

/-- If the callback is called with the right section, nothing was wrong on the way. -/
theorem right_section {level : Nat} {sec : Int} {st : List Int} {l : List Bool} {h : Hierarchy}
    {rest : List Hierarchy} {log more : List Int}
    (hl : h.info.level = level) (hsec : sec < (level : Int)) (hst : ∀ x ∈ st, x < sec)
    (hok : (convertLoop id (noting isSection) (secs level l ++ sec :: st) (h :: rest) log).1 = .ok ())
    (hlog : log ++ sec :: more <+: (convertLoop id (noting isSection) (secs level l ++ sec :: st) (h :: rest) log).2) :
    NoGap l ∧ arrive id level (secs level l ++ sec :: st) = .ok (sec :: st) := by
  by_cases hg : NoGap l
  · exact ⟨hg, arrive_noGap (getLevel := id) hsec hg (by simp)⟩
  · exfalso
    obtain ⟨x, t, h1, h2⟩ := secs_top_gap hg (level : Int)
    rw [h1] at hok hlog
    have htop : stackTop (x :: t ++ sec :: st) = .ok x := rfl
    simp only [convertLoop, M.bind, M.lift, htop, hl] at hok hlog
    have hlv : leaveSections (level : Int) (id x) (x :: t ++ sec :: st) =
        popN ((x - (level : Int) + 1).toNat - (x :: t).length) (sec :: st) := by
      unfold leaveSections
      rw [if_pos (by simp only [id]; omega)]
      exact popN_more _ _ _ (by simp only [List.length_cons, id]; omega)
    obtain ⟨k, hk⟩ : ∃ k, (x - (level : Int) + 1).toNat - (x :: t).length = k + 1 :=
      ⟨(x - (level : Int) + 1).toNat - (x :: t).length - 1, by simp only [List.length_cons]; omega⟩
    rw [hlv, hk] at hok hlog
    simp only [popN] at hok hlog
    cases hp : popN k st with
    | error e => rw [hp] at hok; cases hok
    | ok st' =>
      rw [hp] at hok hlog
      dsimp only at hok hlog
      cases st' with
      | nil => cases hok
      | cons y st' =>
        have hy := hst y (popN_members k st _ hp y (by simp))
        simp only [stackTop, noting] at hlog
        obtain ⟨m, hm⟩ := loop_grows (isSection := isSection)
          (if isSection h then (h.info.level : Int) :: y :: st' else y :: st') rest (log ++ [y])
        rw [hm] at hlog
        rw [List.append_assoc, List.prefix_append_right_inj] at hlog
        simp only [List.singleton_append, List.cons_prefix_cons] at hlog
        omega

mutual
theorem closed_tree (level : Nat) (h : Hierarchy) (hlev : LevelsFrom level h)
    (stk : List Int) (sec : Int) (st : List Int) (rest : List Hierarchy) (log : List Int)
    (hsec : sec < (level : Int)) (hst : ∀ x ∈ st, x < sec)
    (ha : arrive id level stk = .ok (sec :: st))
    (hok : (convertLoop id (noting isSection) stk (preorder h ++ rest) log).1 = .ok ())
    (hlog : log ++ given isSection sec h <+: (convertLoop id (noting isSection) stk (preorder h ++ rest) log).2) :
    Closed isSection h ∧ convertLoop id (noting isSection) stk (preorder h ++ rest) log =
      convertLoop id (noting isSection) (secs level (way isSection h) ++ sec :: st) rest
        (log ++ given isSection sec h) := by
  have hl : h.info.level = level := by cases h <;> first | exact hlev | exact hlev.1
  have hstep := fun rest => loop_arrive (getLevel := id) (f := noting isSection) (h := h) (rest := rest) (s := log)
    (by rw [hl]; exact ha)
  match h, hlev, hl, hstep with
  | .leaf i, hlev, hl, hstep =>
    refine ⟨trivial, ?_⟩
    simp only [preorder, List.singleton_append, given]
    rw [hstep]
    simp only [M.bind, noting, way, secs]
    cases isSection (.leaf i) <;> simp [hl]
  | .node i cs, hlev, hl, hstep =>
    simp only [preorder, List.cons_append, given] at hok hlog ⊢
    rw [hstep] at hok hlog ⊢
    simp only [M.bind, noting] at hok hlog ⊢
    have hil : (i.level : Int) = level := by rw [hlev.1]
    cases hb : isSection (.node i cs) with
    | false =>
      simp only [hb, Bool.false_eq_true, if_false] at hok hlog ⊢
      have ih := closed_forest (level + 1) cs hlev.2 [] sec st rest (log ++ [sec]) (by omega) hst hok
        (by simpa [secs] using hlog)
      refine ⟨ih.2.1, ?_⟩
      have h2 := ih.2.2
      simp only [secs, List.nil_append] at h2
      rw [h2]
      cases cs <;> simp [way, secs, wayLast, hb]
    | true =>
      simp only [hb, if_true, hl] at hok hlog ⊢
      rw [hil] at hlog ⊢
      have ih := closed_forest (level + 1) cs hlev.2 [] (level : Int) (sec :: st) rest (log ++ [sec]) (by omega)
        (fun x hx => by
          rcases List.mem_cons.1 hx with h | h
          · omega
          · have := hst x h; omega) hok
        (by simpa [secs] using hlog)
      refine ⟨ih.2.1, ?_⟩
      have h2 := ih.2.2
      simp only [secs, List.nil_append] at h2
      rw [h2]
      cases cs <;> simp [way, secs, wayLast, hb]

theorem closed_forest (level : Nat) (hs : List Hierarchy) (hlev : LevelsFromList level hs)
    (l : List Bool) (sec : Int) (st : List Int) (rest : List Hierarchy) (log : List Int)
    (hsec : sec < (level : Int)) (hst : ∀ x ∈ st, x < sec)
    (hok : (convertLoop id (noting isSection) (secs level l ++ sec :: st) (preorderList hs ++ rest) log).1 = .ok ())
    (hlog : log ++ givenList isSection sec hs <+:
      (convertLoop id (noting isSection) (secs level l ++ sec :: st) (preorderList hs ++ rest) log).2) :
    (hs ≠ [] → NoGap l) ∧ ClosedList isSection hs ∧
    convertLoop id (noting isSection) (secs level l ++ sec :: st) (preorderList hs ++ rest) log =
      convertLoop id (noting isSection) (secs level (if hs.isEmpty then l else wayLast isSection hs) ++ sec :: st)
        rest (log ++ givenList isSection sec hs) := by
  match hs, hlev with
  | [], _ => exact ⟨fun h => absurd rfl h, trivial, by simp [preorderList, givenList]⟩
  | h :: hs, hlev =>
    have hl : h.info.level = level := by
      cases h <;> first | exact hlev.1 | exact hlev.1.1
    obtain ⟨work, hw⟩ : ∃ work, preorder h = h :: work := by cases h <;> exact ⟨_, rfl⟩
    obtain ⟨g, hg⟩ : ∃ g, given isSection sec h = sec :: g := by cases h <;> exact ⟨_, rfl⟩
    simp only [preorderList, givenList, List.append_assoc] at hok hlog ⊢
    have hr := right_section (isSection := isSection) (l := l) (rest := work ++ (preorderList hs ++ rest))
      (log := log) (more := g ++ givenList isSection sec hs) hl hsec hst
      (by rw [hw] at hok; exact hok) (by rw [hw, hg] at hlog; exact hlog)
    have ih1 := closed_tree level h hlev.1 _ sec st (preorderList hs ++ rest) log hsec hst hr.2 hok
      (List.IsPrefix.trans (by rw [← List.append_assoc]; exact List.prefix_append _ _) hlog)
    rw [ih1.2] at hok hlog ⊢
    have ih2 := closed_forest level hs hlev.2 (way isSection h) sec st rest (log ++ given isSection sec h)
      hsec hst hok (by simpa using hlog)
    refine ⟨fun _ => hr.1, ⟨ih1.1, ih2.1, ih2.2.1⟩, ?_⟩
    rw [ih2.2.2]
    simp only [List.isEmpty_cons, Bool.false_eq_true, if_false, wayLast_cons, List.append_assoc]
end

theorem loop_closed (hs : List Hierarchy) (hlev : LevelsFromList 1 hs)
    (h : convertLoop id (noting isSection) [(0 : Int)] (preorderList hs) [] =
      convertForest (noting isSection) (0 : Int) hs []) : ClosedList isSection hs := by
  rw [convertForest_given] at h
  have := closed_forest (isSection := isSection) 1 hs hlev [] 0 [] [] [] (by omega) (by simp)
    (by simp only [secs, List.nil_append, List.append_nil]; rw [h])
    (by simp only [secs, List.nil_append, List.append_nil]; rw [h]; simp)
  exact this.2.1

/-! ## Sections that all hang below sections leave no gap -/

mutual
theorem way_members (h : Hierarchy) : ∀ b ∈ way isSection h, ∃ x ∈ preorder h, isSection x = b := by
  match h with
  | .leaf i => intro b hb; exact ⟨.leaf i, by simp [preorder], by simpa [way, eq_comm] using hb⟩
  | .node i cs =>
    intro b hb
    rcases List.mem_cons.1 (show b ∈ isSection (.node i cs) :: wayLast isSection cs from hb) with h | h
    · exact ⟨.node i cs, by simp [preorder], h.symm⟩
    · obtain ⟨x, hx, hxb⟩ := wayLast_members cs b h
      exact ⟨x, by simp [preorder, hx], hxb⟩

theorem wayLast_members (hs : List Hierarchy) : ∀ b ∈ wayLast isSection hs, ∃ x ∈ preorderList hs, isSection x = b := by
  match hs with
  | [] => intro b hb; cases hb
  | [h] =>
    intro b hb
    obtain ⟨x, hx, hxb⟩ := way_members h b hb
    exact ⟨x, by simp [preorderList, hx], hxb⟩
  | h :: h' :: hs =>
    intro b hb
    obtain ⟨x, hx, hxb⟩ := wayLast_members (h' :: hs) b hb
    exact ⟨x, List.mem_append_right _ hx, hxb⟩
end

mutual
theorem onTop_noGap (h : Hierarchy) (ht : SectionsOnTop isSection h) :
    NoGap (way isSection h) ∧ Closed isSection h := by
  match h, ht with
  | .leaf i, _ => exact ⟨List.pairwise_singleton _ _, trivial⟩
  | .node i cs, ht =>
    have ih := onTop_list cs ht.2
    refine ⟨List.pairwise_cons.2 ⟨fun b hb hbt => ?_, ih.1⟩, ih.2⟩
    obtain ⟨x, hx, hxb⟩ := wayLast_members cs b hb
    cases hc : isSection (.node i cs) with
    | true => rfl
    | false => rw [ht.1 hc x hx] at hxb; rw [← hxb] at hbt; exact hbt

theorem onTop_list (hs : List Hierarchy) (ht : SectionsOnTopList isSection hs) :
    NoGap (wayLast isSection hs) ∧ ClosedList isSection hs := by
  match hs, ht with
  | [], _ => exact ⟨List.Pairwise.nil, trivial⟩
  | [h], ht =>
    have ih := onTop_noGap h ht.1
    exact ⟨ih.1, ih.2, fun h => absurd rfl h, trivial⟩
  | h :: h' :: hs, ht =>
    have ih := onTop_noGap h ht.1
    have ih2 := onTop_list (h' :: hs) ht.2
    exact ⟨ih2.1, ih.2, fun _ => ih.1, ih2.2⟩
end

end ReqIF.Sections
