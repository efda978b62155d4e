import Verif.Model.Commands
import Verif.Spec.Path
/-!
# `os.path.dirname` is the directory part
-/
namespace ReqIF
open Spec

theorem dropWhile_name {name rest : Str} (hn : '/' ∉ name) (hr : ∀ c, rest.head? = some c → c = '/') :
    (name ++ rest).dropWhile (fun c => c != '/') = rest := by
  induction name with
  | nil =>
    cases rest with
    | nil => rfl
    | cons c r =>
      have : c = '/' := hr c rfl
      subst this
      rfl
  | cons a name ih =>
    have ha : a ≠ '/' := fun e => hn (by simp [e])
    rw [List.cons_append, List.dropWhile_cons, if_pos (by simpa using ha)]
    exact ih (fun h => hn (by simp [h]))

theorem dropWhile_slashes {slashes rest : Str} (hs : ∀ c ∈ slashes, c = '/') (hr : ∀ c, rest.head? = some c → c ≠ '/') :
    (slashes ++ rest).dropWhile (fun c => c == '/') = rest := by
  induction slashes with
  | nil =>
    cases rest with
    | nil => rfl
    | cons c r =>
      rw [List.nil_append, List.dropWhile_cons, if_neg (by simpa using hr c rfl)]
  | cons a s ih =>
    have ha : a = '/' := hs a (by simp)
    rw [List.cons_append, List.dropWhile_cons, if_pos (by simpa using ha)]
    exact ih (fun c hc => hs c (by simp [hc]))

theorem split_at_slash (p : Str) (P : Char → Bool) : ∃ a b, p = a ++ b ∧ (∀ c ∈ b, P c = true) ∧ (∀ c, a.reverse.head? = some c → P c = false) := by
  refine ⟨(p.reverse.dropWhile P).reverse, (p.reverse.takeWhile P).reverse, ?_, ?_, ?_⟩
  · rw [← List.reverse_append, List.takeWhile_append_dropWhile, List.reverse_reverse]
  · intro c hc
    rw [List.mem_reverse] at hc
    have := List.all_takeWhile (p := P) (l := p.reverse)
    rw [List.all_eq_true] at this
    exact this c hc
  · intro c hc
    rw [List.reverse_reverse] at hc
    have := List.head?_dropWhile_not P p.reverse
    rw [hc] at this
    simpa using this

theorem dirName_of {p d : Str} (h : DirectoryPart p d) : dirName p = d := by
  unfold dirName
  cases h with
  | here hn =>
    have e := dropWhile_name (name := p.reverse) (rest := []) (by simpa using hn) (by simp)
    rw [List.append_nil] at e
    rw [e]
    rfl
  | @root slashes name h1 h2 h3 =>
    have e := dropWhile_name (name := name.reverse) (rest := d.reverse) (by simpa using h3)
      (fun c hc => h2 c (by have := List.mem_of_mem_head? hc; simpa using this))
    rw [List.reverse_append, e, List.reverse_reverse]
    dsimp only
    rw [if_pos (by simpa using h2)]
  | @below d slashes name c h0 h1 h2 h3 =>
    have e := dropWhile_name (name := name.reverse) (rest := (d ++ [c] ++ slashes).reverse) (by simpa using h3) (by
      intro x hx
      rw [List.reverse_append] at hx
      cases hs : slashes.reverse with
      | nil => exact absurd (by simpa using hs) h1
      | cons a s =>
        rw [hs] at hx
        simp at hx
        subst hx
        exact h2 a (by rw [← List.mem_reverse, hs]; simp))
    rw [List.reverse_append, e, List.reverse_reverse]
    dsimp only
    rw [if_neg (by simp [h0]), List.reverse_append, dropWhile_slashes (by simpa using h2) (by simp [h0]), List.reverse_reverse]

theorem part_exists (p : Str) : ∃ d, DirectoryPart p d := by
  obtain ⟨a, name, rfl, hn, ha⟩ := split_at_slash p (fun c => c != '/')
  have hn' : '/' ∉ name := fun h => by simpa using hn _ h
  obtain ⟨d, slashes, rfl, hs, hd⟩ := split_at_slash a (fun c => c == '/')
  have hs' : ∀ c ∈ slashes, c = '/' := fun c hc => by simpa using hs c hc
  rcases List.eq_nil_or_concat d with rfl | ⟨d', c, rfl⟩
  · rw [List.nil_append]
    cases slashes with
    | nil => exact ⟨_, .here hn'⟩
    | cons x xs => exact ⟨_, .root (by simp) hs' hn'⟩
  · rw [List.concat_eq_append] at *
    have hc : c ≠ '/' := by simpa using hd c (by simp)
    refine ⟨_, .below hc (fun e => ?_) hs' hn'⟩
    subst e
    have := ha c (by simp)
    exact hc (by simpa using this)

/-- **C59**: `os.path.dirname` as modelled gives the directory part, and there is just one. -/
theorem dirName_iff {p d : Str} : dirName p = d ↔ DirectoryPart p d := by
  constructor
  · rintro rfl
    obtain ⟨d, h⟩ := part_exists p
    rw [dirName_of h]
    exact h
  · exact dirName_of

theorem outputDirOk_false {os : OsEnv} {output : Str} : outputDirOk os output = false ↔
    ∃ d, DirectoryPart output d ∧ d ≠ [] ∧ os.isDir d = false := by
  have e : outputDirOk os output = false ↔ dirName output ≠ [] ∧ os.isDir (dirName output) = false := by
    unfold outputDirOk
    cases dirName output <;> simp
  rw [e]
  constructor
  · intro h
    exact ⟨_, dirName_iff.1 rfl, h⟩
  · rintro ⟨d, h, h'⟩
    rw [dirName_of h]
    exact h'

end ReqIF
