import Verif.Proofs.SaidItems
/-!
# Items that survive writing and reading

`Survives`: an item is printed as one element, read back as an item that says the
same and is printed the same way.
-/
namespace ReqIF
open Spec

/-- `f` and `g` say what has to agree: `f` of the item read, `g` of the item written. -/
def Survives {α γ : Type} (Γ : Ctx) (u : Bool) (Q : Node → Prop) (print : α → Py Str) (parse : Node → Py α)
    (f g : α → γ) (x : α) : Prop :=
  ∃ t n x', print x = .ok t ∧ Shows Γ u t [n] ∧ Q n ∧ parse n = .ok x' ∧ f x' = g x ∧ print x' = .ok t

/-- The same for a list of items. -/
theorem survive_list {α γ : Type} {Γ : Ctx} {use : α → Bool} {Q : Node → Prop} {F : α → Xsd.Said} {print : α → Py Str}
    {parse : Node → Py α} {f g : α → γ} (xs : List α)
    (h : ∀ x ∈ xs, Survives Γ (use x) (fun n => Q n ∧ Xsd.said n = F x) print parse f g x) :
    ∃ t ns xs', concatPy print xs = .ok t ∧ Shows Γ (xs.any use) t ns ∧ (∀ n ∈ ns, Q n) ∧ mapPy parse ns = .ok xs' ∧
      xs'.map f = xs.map g ∧ concatPy print xs' = .ok t ∧ ns.map Xsd.said = xs.map F := by
  induction xs with
  | nil => exact ⟨[], [], [], rfl, Shows.nil Γ, by simp, rfl, rfl, rfl, rfl⟩
  | cons x xs ih =>
    obtain ⟨t, n, x', h1, h2, ⟨h3, h7⟩, h4, h5, h6⟩ := h x (by simp)
    obtain ⟨ts, ns, xs', i1, i2, i3, i4, i5, i6, i7⟩ := ih (fun y hy => h y (by simp [hy]))
    refine ⟨t ++ ts, n :: ns, x' :: xs', ?_, ?_, ?_, ?_, ?_, ?_, ?_⟩
    · simp only [concatPy, h1, i1]
    · have := h2.append i2
      simpa using this
    · intro m hm
      rcases List.mem_cons.1 hm with rfl | hm
      · exact h3
      · exact i3 m hm
    · simp only [mapPy, h4, i4]
    · simp [h5, i5]
    · simp only [concatPy, h6, i6]
    · simp [h7, i7]

/-- A reference element with its container. -/
theorem Shows.ref {Γ : Ctx} (k l : Nat) {outer inner : Str} (ho : blockTag outer = true) (hi : textTag inner = true)
    {o : Option Str} (h : PlainElem o) :
    ∃ d r, IsEl d outer [] [r] ∧ IsEl r inner [] [] ∧ r.text? = o ∧
      Shows Γ false (lineOpen k outer ++ lineElem l inner (fmtOpt o) ++ lineClose k outer) [d] := by
  obtain ⟨v, rfl, hne, hp⟩ := h
  obtain ⟨r, r1, r2, r3⟩ := Shows.plainLeaf (Γ := Γ) l hi hne hp
  obtain ⟨d, d1, -, d2⟩ := Shows.block k ho r3
  exact ⟨d, r, d1, r1, r2, d2⟩

theorem find_one {n c : Node} {tag t : Str} {vs : List (Str × Str)} (h : IsEl n tag vs [c]) (hc : c.tag = .name t) :
    n.find t = some c := by
  rw [find_eq, h.children]
  simp [hc]

theorem isElem_notComment {n : Node} {tag : Str} (h : n.tag = .name tag) : isCommentNode n = false := by
  unfold isCommentNode
  rw [h]
  rfl

/-- What the context of a document gives. -/
theorem IsCtx.spec {as : List (Str × Str)} {p : Str} {u : Bool} {Γ : Ctx} (h : IsCtx as p u Γ) (hr : RootAttrs as) :
    Γ.Clean ∧ ∀ text cs, Shows Γ u text cs → ReadsAs as text cs := by
  obtain ⟨i, h1, rfl⟩ := h
  obtain ⟨ri, hri⟩ := rootTag_of hr
  have : ri = i := by
    have := hri.res
    rw [h1] at this
    cases this; rfl
  subst this
  exact ⟨rootCtx_clean hri p u, fun text cs hs => readsAs_of_shows hri hs⟩

theorem isCtx_exists {as : List (Str × Str)} (hr : RootAttrs as) (p : Str) (u : Bool) : ∃ Γ, IsCtx as p u Γ := by
  obtain ⟨-, i, h, -⟩ := hr
  exact ⟨_, i, h, rfl⟩

end ReqIF
