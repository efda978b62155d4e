import Verif.Spec.Markup
import Verif.Model.Types
/-!
# Elements inside a document, and the attribute values of a bundle
-/
namespace ReqIF.Spec

/-- The namespace names declared inside a tree. -/
def namespaceNames (n : Node) : List Str := (infosOf n).flatMap (fun i => i.nsdefs.map (·.2))

/-- `m` is `n` or stands somewhere below it. -/
inductive Within : Node → Node → Prop
  | self (n : Node) : Within n n
  | down {n m k : Node} : Within n m → k ∈ m.kids → Within n k

mutual
/-- A tree without its namespaces (those of the attributes are kept). -/
def plainTree : Node → Node
  | .elem i ks => .elem ⟨none, none, i.name, [], [], i.attrs⟩ (plainTrees ks)
  | n => n

def plainTrees : List Node → List Node
  | [] => []
  | n :: ns => plainTree n :: plainTrees ns
end

/-- A prefix is declared by the root and in use: the root has an attribute with a namespace,
such as `xsi:schemaLocation`, or an element below it is an XHTML element with the prefix, and
no element below the root declares the prefix again. -/
def Qualified (root : Node) : Prop := ∃ i ks, root = .elem i ks ∧
  ((∃ a ∈ i.attrs, a.ns ≠ none ∧ a.ns ≠ some xmlNs) ∨
   (∃ p u, (some p, u) ∈ i.nsdefs ∧ u = c!"http://www.w3.org/1999/xhtml" ∧ (∀ j ∈ infosOfAll ks, ∀ d ∈ j.nsdefs, d.1 ≠ some p) ∧
      ∃ j ∈ infosOfAll ks, j.ns = some u ∧ j.pfx = some p))

/-- `t` is the `THE-VALUE` element, in the document with this root, of the element the
attribute value was read from. -/
def ContentIn (root : Node) (v : SpecObjectAttribute) (t : Node) : Prop :=
  ∃ x n, Within root x ∧ v.xmlNode = some n ∧ plainTree n = plainTree x ∧ t ∈ x.kids ∧ ∃ i ks, t = .elem i ks ∧ i.name = c!"THE-VALUE"

/-- No attribute in a tree has a prefix other than `xml`, and none is called `xml:xmlns`. -/
def UnprefixedAttributes (t : Node) : Prop :=
  ∀ i ∈ infosOf t, ∀ a ∈ i.attrs, a.ns = none ∨ a.pfx = some c!"xml" ∧ a.name ≠ c!"xmlns"

/-- The attribute values of a bundle: those of its spec objects, of its relations and of its specifications. -/
def attributeValues (b : Bundle) : List SpecObjectAttribute :=
  match b.coreContent with
  | some (some c) => (c.specObjects.getD []).flatMap (fun o => o.attributes) ++
      (c.specRelations.getD []).flatMap (fun r => r.valuesAttribute.toList) ++
      (c.specifications.getD []).flatMap (fun s => s.values.getD [])
  | _ => []

end ReqIF.Spec
