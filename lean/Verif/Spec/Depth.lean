import Verif.Spec.RoundTrip
/-!
# How deep documents and hierarchies are

libxml2 refuses documents whose elements are nested deeper than a limit (about 256, or 2048 in newer versions); Python
refuses calls nested deeper than a limit (about 1000).
-/
namespace ReqIF.Spec

mutual
/-- How deep the elements of a tree are nested. -/
def height : Node → Nat
  | .elem _ ks => heightAll ks + 1
  | _ => 0

def heightAll : List Node → Nat
  | [] => 0
  | n :: ns => max (height n) (heightAll ns)
end

/-- The reader with a limit on the nesting of elements. -/
def readLimited (limit : Nat) (text : Str) : Option Doc :=
  match readDoc text with
  | none => none
  | some d => if height d.root ≤ limit then some d else none

mutual
/-- How many levels a hierarchy has. -/
def levels : Hierarchy → Nat
  | .leaf _ => 1
  | .node _ cs => levelsAll cs + 1

def levelsAll : List Hierarchy → Nat
  | [] => 0
  | h :: hs => max (levels h) (levelsAll hs)
end

mutual
/-- How deep XHTML content is nested. -/
def treeHeight : XTree → Nat
  | .elem _ _ ks => treesHeight ks + 1
  | .text _ => 0

def treesHeight : List XTree → Nat
  | [] => 0
  | t :: ts => max (treeHeight t) (treesHeight ts)
end

/-- XHTML content, with the prefix `p`, that is nested at most `k` deep. -/
def ShallowXhtml (p : Str) (k : Nat) (v : Str) : Prop :=
  isNCName p = true ∧ ∃ ts, AllWF ts ∧ noAdjacentText ts = true ∧ v = printAll p ts ∧ treesHeight ts ≤ k

def ShallowValue (p : Str) (k : Nat) (a : SpecObjectAttribute) : Prop :=
  ∀ v, a.type = .xhtml → a.value = .str v → ShallowXhtml p k v

def ShallowDefault (p : Str) (k : Nat) (a : SpecAttributeDefinition) : Prop :=
  ∀ v, a.type = .xhtml → a.defaultValue = some (.str v) → ShallowXhtml p k v

/-- All XHTML content is nested at most `k` deep, and the hierarchies have at most `l` levels. -/
structure Shallow (p : Str) (k l : Nat) (c : Content) : Prop where
  defaults : ∀ t ∈ c.specTypes.getD [], ∀ a ∈ (SpecType.definitions t).getD [], ShallowDefault p k a
  objects : ∀ o ∈ c.specObjects.getD [], ∀ a ∈ o.attributes, ShallowValue p k a
  relations : ∀ r ∈ c.specRelations.getD [], ∀ a, r.valuesAttribute = some a → ShallowValue p k a
  specifications : ∀ s ∈ c.specifications.getD [], ∀ a ∈ s.values.getD [], ShallowValue p k a
  hierarchies : ∀ s ∈ c.specifications.getD [], ∀ y ∈ s.children.getD [], levels y ≤ l

end ReqIF.Spec
