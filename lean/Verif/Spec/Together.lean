import Verif.Spec.Cli
import Verif.Model.Together
/-!
# Runs that have nothing to do with each other
-/
namespace ReqIF.Spec

/-- A call of one of the commands over files. -/
structure FileCall where
  command : FileCommand
  input : Str
  output : Str

/-- The output of one call is neither the output nor the input of another.  Paths may be
different names of one file, and a call may have its own input as output. -/
def Independent {ι : Type} (place : Str → Nat) (calls : ι → FileCall) : Prop :=
  ∀ p q, p ≠ q → place (calls p).output ≠ place (calls q).output ∧ place (calls p).output ≠ place (calls q).input

end ReqIF.Spec
