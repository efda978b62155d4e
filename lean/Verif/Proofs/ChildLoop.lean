import Verif.Proofs.Survive
/-!
# Loops over child tags

Several unparsers print their children in the order of the tags the element was
read from.  `childLoop` relates what such a loop prints to the nodes it shows.
-/
namespace ReqIF
open Spec

/-- What printing one tag gives: nothing, or one node with that tag. -/
def Piece (Γ : Ctx) (g : Tag → Py Str) (node : Tag → Option Node) (use : Tag → Bool) (t : Tag) : Prop :=
  ∃ x, g t = .ok x ∧
    ((node t = none ∧ x = [] ∧ use t = false) ∨ ∃ n, node t = some n ∧ n.tag = t ∧ Shows Γ (use t) x [n])

theorem childLoop {Γ : Ctx} {g : Tag → Py Str} {node : Tag → Option Node} {use : Tag → Bool} (ts : List Tag)
    (h : ∀ t ∈ ts, Piece Γ g node use t) :
    ∃ body, concatPy g ts = .ok body ∧ Shows Γ (ts.any use) body (ts.filterMap node) ∧
      (ts.filterMap node).map Node.tag = ts.filter (fun t => (node t).isSome) := by
  induction ts with
  | nil => exact ⟨[], rfl, Shows.nil Γ, rfl⟩
  | cons t ts ih =>
    obtain ⟨body, h1, h2, h3⟩ := ih (fun t ht => h t (by simp [ht]))
    obtain ⟨x, hx, hp⟩ := h t (by simp)
    refine ⟨x ++ body, ?_, ?_, ?_⟩
    · simp only [concatPy, hx, h1]
    · rcases hp with ⟨hn, rfl, hu⟩ | ⟨n, hn, -, hs⟩
      · simpa [List.filterMap_cons, hn, hu] using h2
      · have := hs.append h2
        simpa [List.filterMap_cons, hn] using this
    · rcases hp with ⟨hn, -, -⟩ | ⟨n, hn, ht, -⟩
      · simp [List.filterMap_cons, List.filter_cons, hn, h3]
      · simp [List.filterMap_cons, List.filter_cons, hn, h3, ht]

/-- The first node with a tag. -/
theorem find_loop {node : Tag → Option Node} {ts : List Tag} (h : ∀ t ∈ ts, ∀ n, node t = some n → n.tag = t) (t : Tag) :
    (ts.filterMap node).find? (fun k => k.tag == t) = if t ∈ ts then node t else none := by
  induction ts with
  | nil => rfl
  | cons a ts ih =>
    have ih := ih (fun b hb => h b (by simp [hb]))
    cases hn : node a with
    | none =>
      rw [List.filterMap_cons, hn]
      dsimp only
      rw [ih]
      by_cases e : t = a
      · subst e; simp [hn]
      · simp [e]
    | some n =>
      have ha := h a (by simp) n hn
      rw [List.filterMap_cons, hn]
      dsimp only
      rw [List.find?_cons, ha]
      by_cases e : t = a
      · subst e; simp [hn]
      · have e' : (a == t) = false := by simpa using fun he => e he.symm
        rw [e', ih]
        simp [e]

/-- The last node with a tag. -/
theorem findLast_loop {node : Tag → Option Node} {ts : List Tag} (h : ∀ t ∈ ts, ∀ n, node t = some n → n.tag = t) (t : Tag) :
    ((ts.filterMap node).filter (fun k => k.tag == t)).getLast? = if t ∈ ts then node t else none := by
  have key : (ts.filterMap node).filter (fun k => k.tag == t) = (ts.filter (· == t)).filterMap node := by
    induction ts with
    | nil => rfl
    | cons a ts ih =>
      have ih := ih (fun b hb => h b (by simp [hb]))
      cases hn : node a with
      | none =>
        rw [List.filterMap_cons, hn]
        dsimp only
        rw [ih, List.filter_cons]
        split
        · rw [List.filterMap_cons, hn]
        · rfl
      | some n =>
        have ha := h a (by simp) n hn
        rw [List.filterMap_cons, hn]
        dsimp only
        rw [List.filter_cons, ha, ih, List.filter_cons]
        split
        · rw [List.filterMap_cons, hn]
        · rfl
  rw [key]
  have rep : ts.filter (· == t) = List.replicate (ts.count t) t := List.filter_beq t
  rw [rep]
  by_cases hm : t ∈ ts
  · rw [if_pos hm]
    have : 0 < ts.count t := List.count_pos_iff.2 hm
    obtain ⟨k, hk⟩ := Nat.exists_eq_succ_of_ne_zero (Nat.pos_iff_ne_zero.1 this)
    rw [hk]
    cases hn : node t with
    | none =>
      have : ∀ m, (List.replicate m t).filterMap node = [] := by
        intro m
        rw [List.filterMap_eq_nil_iff]
        intro a ha
        rw [List.eq_of_mem_replicate ha, hn]
      rw [this]; rfl
    | some n =>
      have : ∀ m, (List.replicate m t).filterMap node = List.replicate m n := by
        intro m
        induction m with
        | zero => rfl
        | succ m ih => rw [List.replicate_succ, List.filterMap_cons, hn]; dsimp only; rw [ih, List.replicate_succ]
      rw [this, List.getLast?_replicate]
      simp
  · rw [if_neg hm, List.count_eq_zero.2 hm]
    rfl

/-- Printing again in the order of what was printed. -/
theorem concat_filter {g g' : Tag → Py Str} {P : Tag → Bool} (ts : List Tag)
    (h : ∀ t ∈ ts, (P t = true → g' t = g t) ∧ (P t = false → g t = .ok [])) :
    concatPy g' (ts.filter P) = concatPy g ts := by
  induction ts with
  | nil => rfl
  | cons t ts ih =>
    have ih := ih (fun t ht => h t (by simp [ht]))
    obtain ⟨h1, h2⟩ := h t (by simp)
    rw [List.filter_cons]
    cases hp : P t with
    | true =>
      simp only [if_true, concatPy, h1 hp, ih]
    | false =>
      simp only [Bool.false_eq_true, if_false, concatPy, h2 hp, ih]
      cases concatPy g ts <;> rfl

theorem any_use {ts : List Tag} {t : Tag} {b : Bool} (h : t ∈ ts) : ts.any (fun x => if x = t then b else false) = b := by
  cases b with
  | false => simp
  | true =>
    rw [List.any_eq_true]
    exact ⟨t, h, by simp⟩

/-- Dropping an empty value changes nothing where empty values are not printed. -/
theorem attrTruthy_dropEmpty (name : Str) (f : Str → Str) (o : Option Str) : attrTruthy name f (dropEmpty o) = attrTruthy name f o := by
  cases o with
  | none => rfl
  | some v => cases v <;> rfl

theorem AttrsRead.optHtml (n : Str) {o : Option Str} (h : Opt HtmlAttr o) : AttrsRead (optA n htmlEscape o) (optA n id o) :=
  .opt n fun v hv => attrRaw_html (h v hv)

end ReqIF
