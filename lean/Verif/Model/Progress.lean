import Verif.Model.Util
/-!
# `progress.py`
-/
namespace ReqIF

/-- A progress callback: it gets the section, the number of items done and the
total, may change a state of any type and may raise. -/
abbrev Callback (σ : Type) := Str → Nat → Nat → M σ Unit

/-- `if progress is not None: progress(section, done, total)` -/
def notify {σ : Type} (progress : Option (Callback σ)) (sec : Str) (done total : Nat) : M σ Unit :=
  match progress with
  | none => M.pure ()
  | some p => p sec done total

/-- The loop of `trackedLoop` from item number `k` on. -/
def trackedGo {σ α β : Type} (progress : Option (Callback σ)) (sec : Str) (total : Nat)
    (body : β → α → Py β) : Nat → β → List α → M σ β
  | _, b, [] => M.pure b
  | k, b, x :: xs =>
    M.bind (M.lift (body b x)) (fun b' =>
    M.bind (notify progress sec (k + 1) total) (fun _ =>
    trackedGo progress sec total body (k + 1) b' xs))

/-- `progress.py` 37-53, `track_progress`, together with the loop that consumes it:
`for x in track_progress(items, sec, progress): b = body(b, x)`.
The generator calls the callback when the consumer asks for the next item, that is
after the loop body ended normally (also by `continue`); if the body raises, the
callback is not called for this item. -/
def trackedLoop {σ α β : Type} (progress : Option (Callback σ)) (sec : Str)
    (body : β → α → Py β) (b : β) (items : List α) : M σ β :=
  trackedGo progress sec items.length body 0 b items

end ReqIF
