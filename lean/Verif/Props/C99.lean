import Verif.Proofs.SizeDoc
import Verif.Proofs.Growth
/-!
# C99: The size of what is written
-/
namespace ReqIF
open Growth

/-- **C99.** What is written for a document that has been read is never longer than the cube of the length of the
document, up to constants: no document makes the output explode. -/
theorem C99_bound {text : Str} {b : Bundle} {out : Str} (h : parseString text = .ok b) (hu : unparse b = .ok out) :
    out.length ≤ 150 * (text.length + 36) ^ 3 := by
  have := document_len h hu rfl
  rw [show (text.length + 36) ^ 3 = (text.length + 36) * ((text.length + 36) * (text.length + 36)) by
    rw [Nat.pow_succ, Nat.pow_succ, Nat.pow_one, Nat.mul_assoc]]
  exact this

/-- **C99.** The exponent cannot be improved: there are documents, of every length, whose output is as long as the cube
of their length, up to constants.  (The specification has `n` empty `CHILDREN` elements before one with nested
hierarchies; the hierarchies are printed for each of them.) -/
theorem C99_cubic (n : Nat) : ∃ text b out, parseString text = .ok b ∧ unparse b = .ok out ∧
    text.length ≤ 121 * n + 310 ∧ n ^ 3 ≤ out.length := by
  obtain ⟨b, out, h1, h2, h3⟩ := growing_written n n
  refine ⟨(growing n n).render, b, out, h1, h2, ?_, ?_⟩
  · have := growing_length n n; omega
  · refine Nat.le_trans ?_ h3
    rw [Nat.pow_succ, Nat.pow_succ, Nat.pow_one, Nat.mul_assoc]
    exact Nat.mul_le_mul_right _ (by omega)

/-- **C99.** With one `CHILDREN` element in each place, hierarchies nested without indentation are written with a length
that is the square of theirs, up to constants. -/
theorem C99_quadratic (n : Nat) : ∃ b out, parseString (growing n 0).render = .ok b ∧ unparse b = .ok out ∧
    (growing n 0).render.length ≤ 110 * n + 310 ∧ n ^ 2 ≤ out.length := by
  obtain ⟨b, out, h1, h2, h3⟩ := growing_written n 0
  refine ⟨b, out, h1, h2, ?_, ?_⟩
  · have := growing_length n 0; omega
  · rw [Nat.pow_succ, Nat.pow_one]; omega

/-- Non-vacuity: a document of this kind. -/
example : (growing 1 1).render = c!"<REQ-IF><CORE-CONTENT><REQ-IF-CONTENT><SPECIFICATIONS><SPECIFICATION IDENTIFIER=\"s\"><CHILDREN/><CHILDREN><SPEC-HIERARCHY IDENTIFIER=\"h\"><OBJECT><SPEC-OBJECT-REF/></OBJECT><CHILDREN><SPEC-HIERARCHY IDENTIFIER=\"h\"><OBJECT><SPEC-OBJECT-REF/></OBJECT></SPEC-HIERARCHY></CHILDREN></SPEC-HIERARCHY></CHILDREN></SPECIFICATION></SPECIFICATIONS></REQ-IF-CONTENT></CORE-CONTENT></REQ-IF>" := by
  decide +kernel

/-- Non-vacuity: it is read and written. -/
example : ∃ b out, parseString (growing 1 1).render = .ok b ∧ unparse b = .ok out ∧ out.length ≤ 150 * ((growing 1 1).render.length + 36) ^ 3 := by
  obtain ⟨b, out, h1, h2, -⟩ := growing_written 1 1
  exact ⟨b, out, h1, h2, C99_bound h1 h2⟩

end ReqIF
