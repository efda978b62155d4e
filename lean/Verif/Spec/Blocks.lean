import Verif.Model.Util
/-!
# Printed elements as blocks of text

`Block k t p`: the text `p` is one element `t`, indented by `k` spaces, with opening and
closing tag on lines of their own, or an empty-element tag on one line.
`InOrder k t shown order p`: the text `p` is the element `t` with one block for each tag
of `order` that is `shown`, in this order.
-/
namespace ReqIF.Spec

def Block (k : Nat) (t p : Str) : Prop :=
  p = List.replicate k ' ' ++ '<' :: t ++ c!"/>\n" ∨
  ∃ body, p = List.replicate k ' ' ++ '<' :: t ++ c!">\n" ++ body ++ List.replicate k ' ' ++ c!"</" ++ t ++ c!">\n"

def InOrder (k : Nat) (t : Str) (shown : Tag → Bool) (order : List Tag) (p : Str) : Prop :=
  ∃ (attrs : Str) (blocks : List Str),
    p = List.replicate k ' ' ++ '<' :: t ++ attrs ++ c!">\n" ++ blocks.flatten ++ List.replicate k ' ' ++ c!"</" ++ t ++ c!">\n" ∧
    blocks.length = (order.filter shown).length ∧
    ∀ (i : Nat) (b : Str) (x : Tag), blocks[i]? = some b → (order.filter shown)[i]? = some x → ∃ nm, x = .name nm ∧ Block (k + 2) nm b

end ReqIF.Spec
