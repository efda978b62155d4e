import Verif.Proofs.Depth
import Verif.Proofs.OutputFine
import Verif.Props.C71
/-! What is written for a document is not deeper than the document. -/
namespace ReqIF.Xsd
open Spec

mutual
theorem treeOf_height : ∀ x : Node, treeHeight (treeOf x) = height x
  | .text _ => rfl
  | .comment _ => rfl
  | .pi _ _ => rfl
  | .elem i ks => by rw [treeOf, treeHeight, height, treesOf_height ks]

theorem treesOf_height : ∀ xs : List Node, treesHeight (treesOf xs) = heightAll xs
  | [] => rfl
  | x :: xs => by rw [treesOf, treesHeight, heightAll, treeOf_height x, treesOf_height xs]
end

/-- What an element no deeper than `n` says. -/
def Fits : Nat → Said → Prop
  | n, .text name _ _ => name = [] ∨ 1 ≤ n
  | n, .xhtml _ _ ts => treesHeight ts + 1 ≤ n
  | 0, _ => False
  | n + 1, .list _ _ ks => ∀ s ∈ ks, Fits n s
  | n + 1, .record _ _ f => ∀ k, ∀ s ∈ f k, Fits n s

theorem fits_text {n : Nat} {name : Str} {f : Str → Option Str} {t : Option Str} : Fits n (.text name f t) ↔ (name = [] ∨ 1 ≤ n) := by
  cases n <;> exact Iff.rfl

theorem fits_xhtml {n : Nat} {name : Str} {f : Str → Option Str} {ts : List XTree} : Fits n (.xhtml name f ts) ↔ treesHeight ts + 1 ≤ n := by
  cases n <;> exact Iff.rfl

mutual
theorem height_fits : ∀ (x : Node) (n : Nat), height x ≤ n → Fits n (said x)
  | .text _, n, h => by rw [said] <;> first | (rw [fits_text]; exact .inl rfl) | simp
  | .comment _, n, h => by rw [said] <;> first | (rw [fits_text]; exact .inl rfl) | simp
  | .pi _ _, n, h => by rw [said] <;> first | (rw [fits_text]; exact .inl rfl) | simp
  | .elem i ks, n, h => by
    rw [height] at h
    obtain ⟨m, rfl⟩ : ∃ m, n = m + 1 := ⟨n - 1, by omega⟩
    have hk := heights_fit ks m (by omega)
    rw [said]
    split
    · rw [fits_xhtml, treesOf_height]; exact h
    · split
      · rw [fits_text]; exact .inr (by omega)
      · split
        · exact hk
        · intro k s hs
          exact hk s (List.mem_filter.mp hs).1

theorem heights_fit : ∀ (xs : List Node) (n : Nat), heightAll xs ≤ n → ∀ s ∈ saidAll xs, Fits n s
  | [], n, h => by intro s hs; cases hs
  | x :: xs, n, h => by
    rw [heightAll] at h
    have h1 := height_fits x n (by omega)
    have h2 := heights_fit xs n (by omega)
    intro s hs
    cases x with
    | text t => exact h2 s hs
    | _ =>
      rcases List.mem_cons.mp hs with rfl | hs
      · exact h1
      · exact h2 s hs
end

mutual
theorem fits_height {M : NsMap} {p : Str} : ∀ (x : Node) (n : Nat), Laid M p x → Node.inReqif x = true → Fits n (said x) → height x ≤ n
  | .text _, n, _, _, h => by rw [height]; omega; all_goals simp
  | .comment _, n, _, hr, h => by cases hr
  | .pi _ _, n, _, hr, h => by cases hr
  | .elem i ks, n, hl, hr, h => by
    rw [Laid] at hl
    obtain ⟨-, -, -, -, hf, hk⟩ := hl
    have hp : i.pfx.isSome = false := by
      have : i.pfx.isNone = true := hr
      cases hi : i.pfx with
      | none => rfl
      | some q => rw [hi] at this; cases this
    unfold NodeFits at hf
    rw [hp, Bool.false_or] at hf
    rw [said] at h
    rw [height]
    split at h
    · rw [fits_xhtml, treesOf_height] at h; exact h
    · rename_i hx
      rw [if_neg hx] at hf
      split at h
      · rename_i ht
        rw [if_pos ht] at hf
        rw [fits_text] at h
        have hn : 1 ≤ n := by
          rcases h with h | h
          · rw [h] at ht; exact absurd ht (by decide)
          · exact h
        rcases hf with rfl | ⟨v, rfl⟩
        · rw [heightAll]; omega
        · simp only [heightAll, height]; omega
      · rename_i ht
        rw [if_neg ht] at hf
        cases n with
        | zero => split at h <;> exact h.elim
        | succ m =>
          have hall : ∀ s ∈ saidAll ks, Fits m s := by
            split at h
            · exact h
            · intro s hs
              exact h s.name s (List.mem_filter.mpr ⟨hs, by simp⟩)
          have := fits_heights ks m hk hf.1 hall
          omega

theorem fits_heights {M : NsMap} {p : Str} : ∀ (xs : List Node) (n : Nat), LaidAll M p xs → xs.all Node.inReqif = true →
    (∀ s ∈ saidAll xs, Fits n s) → heightAll xs ≤ n
  | [], n, _, _, h => by rw [heightAll]; omega
  | x :: xs, n, hl, hr, h => by
    rw [LaidAll] at hl
    rw [List.all_cons, Bool.and_eq_true] at hr
    rw [heightAll]
    cases x with
    | text t =>
      have := fits_heights xs n hl.2 hr.2 h
      simp only [height]
      omega
    | comment t => cases hr.1
    | pi a b => cases hr.1
    | elem i ks =>
      have h1 := fits_height (.elem i ks) n hl.1 hr.1 (h _ (by rw [saidAll]; simp; simp))
      have h2 := fits_heights xs n hl.2 hr.2 (fun s hs => h s (by rw [saidAll]; exact List.mem_cons_of_mem _ hs; simp))
      omega
end

theorem heightAll_append (xs ys : List Node) : heightAll (xs ++ ys) = max (heightAll xs) (heightAll ys) := by
  induction xs with
  | nil => simp [heightAll]
  | cons x xs ih => simp only [List.cons_append, heightAll, ih]; omega

theorem heightAll_le {xs : List Node} {n : Nat} (h : ∀ x ∈ xs, height x ≤ n) : heightAll xs ≤ n := by
  induction xs with
  | nil => rw [heightAll]; omega
  | cons x xs ih =>
    rw [heightAll]
    have h1 := h x (by simp)
    have h2 := ih (fun y hy => h y (by simp [hy]))
    omega

theorem firstOnly_mem : ∀ {xs : List Node} {x : Node}, x ∈ firstOnly xs → x ∈ xs
  | [], x, h => by cases h
  | .elem i ks :: r, x, h => by
    rw [firstOnly] at h
    rcases List.mem_cons.mp h with rfl | h
    · simp
    · exact List.mem_cons_of_mem _ (List.mem_filter.mp h).1
  | .text s :: r, x, h => by
    rw [firstOnly] at h
    · rcases List.mem_cons.mp h with rfl | h
      · simp
      · exact List.mem_cons_of_mem _ (firstOnly_mem h)
    · simp
  | .comment s :: r, x, h => by
    rw [firstOnly] at h
    · rcases List.mem_cons.mp h with rfl | h
      · simp
      · exact List.mem_cons_of_mem _ (firstOnly_mem h)
    · simp
  | .pi a b :: r, x, h => by
    rw [firstOnly] at h
    · rcases List.mem_cons.mp h with rfl | h
      · simp
      · exact List.mem_cons_of_mem _ (firstOnly_mem h)
    · simp

mutual
theorem written_height : ∀ (x : Node) (t : TypeName), height (written t x) ≤ height x
  | .text _, t => by rw [written]; exact Nat.le_refl _; simp
  | .comment _, t => by rw [written]; exact Nat.le_refl _; simp
  | .pi _ _, t => by rw [written]; exact Nat.le_refl _; simp
  | .elem i ks, t => by
    have h := writtenAll_height ks t
    rw [written, height, height]
    split
    · have : heightAll (firstOnly (writtenAll t ks)) ≤ heightAll (writtenAll t ks) :=
        heightAll_le (fun x hx => height_kid (firstOnly_mem hx))
      omega
    · omega

theorem writtenAll_height : ∀ (xs : List Node) (t : TypeName), heightAll (writtenAll t xs) ≤ heightAll xs
  | [], t => by rw [writtenAll]; exact Nat.le_refl _
  | .elem i ks :: r, t => by
    have h := writtenAll_height r t
    rw [writtenAll, heightAll_append, heightAll]
    have h' := fun t' => written_height (.elem i ks) t'
    cases (schema .lenient t).model.typeOf i.name with
    | none => simp only [heightAll]; omega
    | some t' =>
      have := h' t'
      dsimp only
      split <;> simp only [heightAll] <;> omega
  | .text _ :: r, t => by
    have h := writtenAll_height r t
    rw [writtenAll, heightAll, heightAll]
    · omega
    · simp
  | .comment _ :: r, t => by
    have h := writtenAll_height r t
    rw [writtenAll, heightAll, heightAll]
    · omega
    · simp
  | .pi _ _ :: r, t => by
    have h := writtenAll_height r t
    rw [writtenAll, heightAll, heightAll]
    · omega
    · simp
end

/-- What is written for a plain document is not deeper than it. -/
theorem plain_height {text : Str} {doc : Doc} {p : Str} (hr : readDoc text = some doc) (hv : validRoot .lenient doc.root = true)
    (hs : noSpecials doc.root = true) (hp : plainDocument p doc.root = true) (hk : childNames doc.root.kids ≠ []) :
    ∃ b out d, parseString text = .ok b ∧ unparse b = .ok out ∧ readDoc out = some d ∧ height d.root ≤ height doc.root := by
  obtain ⟨b, as, i, ks, hroot, h1, h2, -, -, -, -, X, K, r, hparts⟩ := plain_parts hr hv hs hp hk
  obtain ⟨out, d, b', g1, g2, ⟨j, ls, g3, -, -, ⟨-, -, g6⟩, r', g7, g8⟩, -⟩ := bundle_survives h2
  refine ⟨b, out, d, h1, g1, g2, ?_⟩
  have hsame : saidInside d.root = saidInside (writtenRoot doc.root) := by rw [← said_strippedRoot g7, g8, ← bundle_said hparts hs]
  rw [g3, hroot] at hsame ⊢
  rw [height, height]
  have hsame : byName (saidAll ls) = byName (saidAll (writtenAll .reqIf ks)) := hsame
  have := fits_heights ls (heightAll ks) g6.laid g6.plain (fun s hs' => by
    have hm : s ∈ byName (saidAll ls) s.name := List.mem_filter.mpr ⟨hs', by simp⟩
    rw [hsame] at hm
    exact heights_fit _ _ (writtenAll_height ks .reqIf) s (List.mem_filter.mp hm).1)
  omega

end ReqIF.Xsd
