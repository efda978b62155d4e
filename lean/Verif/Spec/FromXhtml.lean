import Verif.Spec.Format
import Verif.Model.Parser
/-!
# A tree without namespaces, spread over lines

`unqualified n` is the tree `n` with the bare names of the elements and without namespaces.
`Spread n n'`: `n'` is `n` up to line ends and indentation between nodes, and those only where
`n` has no text at all: an element with text keeps its content exactly, to the last leaf.
-/
namespace ReqIF.Spec

mutual
def unqualified : Node → Node
  | .elem i ks => .elem ⟨none, none, i.name, [], [], i.attrs⟩ (unqualifiedAll ks)
  | .text s => .text s
  | .comment s => .comment s
  | .pi t d => .pi t d

def unqualifiedAll : List Node → List Node
  | [] => []
  | n :: ns => unqualified n :: unqualifiedAll ns
end

mutual
def Spread : Node → Node → Prop
  | .elem i ks, n => ∃ ks', n = .elem i ks' ∧
      if ks = [] ∨ ks.any Node.isText = true then ks' = ks
      else (∀ k ∈ ks', k.isText = true → isSpacing k = true) ∧ SpreadAll ks (ks'.filter (fun k => !k.isText))
  | .text s, n => n = .text s
  | .comment s, n => n = .comment s
  | .pi t d, n => n = .pi t d

def SpreadAll : List Node → List Node → Prop
  | [], ns => ns = []
  | k :: ks, ns => ∃ n ns', ns = n :: ns' ∧ Spread k n ∧ SpreadAll ks ns'
end

/-- The first node is the second one or stands somewhere inside it. -/
inductive Inside : Node → Node → Prop
  | self (n : Node) : Inside n n
  | child {n k : Node} {i : Info} {ks : List Node} : k ∈ ks → Inside n k → Inside n (.elem i ks)

/-- A node of the document `text`, before or after the parser has removed the namespaces. -/
def HeldIn (text : Str) (n : Node) : Prop :=
  ∃ d, readDoc text = some d ∧ (Inside n d.root ∨ ∃ r, strippedRoot d.root = .ok r ∧ Inside n r)

/-- No attribute of this element has a namespace, except for `xml:` attributes. -/
def OwnAttrs (i : Info) : Prop := ∀ a ∈ i.attrs, a.ns = none ∨ a.pfx = some c!"xml"

end ReqIF.Spec
