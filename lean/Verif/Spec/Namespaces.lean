import Verif.Spec.Grammar
/-!
# Namespaces in XML

What the qualified names of a document mean (Namespaces in XML 1.0).  `Named m x n`: where the
declarations `m` are in scope, the element (or other node) `x` of the grammar has
the expanded names of `n`.

Nothing here says how names are looked up: a declaration in scope is a member of `m`.
-/
namespace ReqIF.Grammar

/-- The names that are bound to `xml` and `xmlns` (section 3). -/
def xmlUri : Str := c!"http://www.w3.org/XML/1998/namespace"
def xmlnsUri : Str := c!"http://www.w3.org/2000/xmlns/"

/-- The attribute name `xmlns` declares the default namespace, `xmlns:p` the prefix `p`. -/
inductive Declares : Str → Option Str → Prop
  | default : Declares c!"xmlns" none
  | prefixed {p : Str} : Declares (c!"xmlns:" ++ p) (some p)

/-- The attributes of a tag are declarations and others; both in the order of the tag. -/
inductive Sorted : List (Str × Str) → List (Option Str × Str) → List (Str × Str) → Prop
  | none : Sorted [] [] []
  | decl {n u : Str} {p : Option Str} {as bs : List (Str × Str)} {ds : List (Option Str × Str)} :
      Declares n p → Sorted as ds bs → Sorted ((n, u) :: as) ((p, u) :: ds) bs
  | other {n v : Str} {as bs : List (Str × Str)} {ds : List (Option Str × Str)} :
      (¬ ∃ p, Declares n p) → Sorted as ds bs → Sorted ((n, v) :: as) ds ((n, v) :: bs)

/-- Section 3 and section 2.2: what may be declared.  The prefix `xmlns` may not; `xml` only as what it
is, and nothing else as that; a prefix may not be undeclared. -/
def Allowed (d : Option Str × Str) : Prop :=
  d.1 ≠ some c!"xmlns" ∧ d.2 ≠ xmlnsUri ∧ (d.1 = some c!"xml" ↔ d.2 = xmlUri) ∧ (d.2 = [] → d.1 = none)

/-- What a prefix stands for. -/
def Bound (m : List (Option Str × Str)) (p u : Str) : Prop :=
  (p = c!"xml" ∧ u = xmlUri) ∨ (p ≠ c!"xml" ∧ (some p, u) ∈ m)

/-- Element names, section 6: the default namespace applies. -/
inductive ElemName (m : List (Option Str × Str)) : Str → Option Str → Option Str → Str → Prop
  | free {l : Str} : ':' ∉ l → (∀ u, (none, u) ∈ m → u = []) → ElemName m l none none l
  | default {l u : Str} : ':' ∉ l → (none, u) ∈ m → u ≠ [] → ElemName m l (some u) none l
  | prefixed {p l u : Str} : ':' ∉ p → Bound m p u → ElemName m (p ++ c!":" ++ l) (some u) (some p) l

/-- Attribute names, section 6: the default namespace does not apply. -/
inductive AttrName (m : List (Option Str × Str)) : Str → Option Str → Option Str → Str → Prop
  | free {l : Str} : ':' ∉ l → AttrName m l none none l
  | prefixed {p l u : Str} : ':' ∉ p → Bound m p u → AttrName m (p ++ c!":" ++ l) (some u) (some p) l

inductive AttrNames (m : List (Option Str × Str)) : List (Str × Str) → List Attr → Prop
  | none : AttrNames m [] []
  | more {n v l : Str} {ns pfx : Option Str} {as : List (Str × Str)} {xs : List Attr} :
      AttrName m n ns pfx l → AttrNames m as xs → AttrNames m ((n, v) :: as) (⟨ns, pfx, l, v⟩ :: xs)

/-- Declarations in scope inside an element that declares `own`, where `m` is in scope: its own,
and those it does not replace. -/
def inside (own m : List (Option Str × Str)) : List (Option Str × Str) :=
  own ++ m.filter (fun d => !(own.map (·.1)).contains d.1)

mutual
/-- Names of a node and of everything in it.  No attribute is given twice (XML 1.0, section 3.1;
Namespaces in XML, section 6.3).  A declaration of `xml` is not recorded. -/
inductive Named : List (Option Str × Str) → Xml → Node → Prop
  | elem {m ds : List (Option Str × Str)} {name l : Str} {attrs as : List (Str × Str)} {kids : List Xml} {ns pfx : Option Str} {xs : List Attr}
      {ks : List Node} :
      (attrs.map (·.1)).Nodup → Sorted attrs ds as → (∀ d ∈ ds, Allowed d) →
      ElemName (inside (ds.filter (fun d => d.1 != some c!"xml")) m) name ns pfx l →
      AttrNames (inside (ds.filter (fun d => d.1 != some c!"xml")) m) as xs → (xs.map (fun a => (a.ns, a.name))).Nodup →
      NamedAll (inside (ds.filter (fun d => d.1 != some c!"xml")) m) kids ks →
      Named m (.elem name attrs kids)
        (.elem ⟨ns, pfx, l, ds.filter (fun d => d.1 != some c!"xml"), inside (ds.filter (fun d => d.1 != some c!"xml")) m, xs⟩ ks)
  | text {m : List (Option Str × Str)} {s : Str} : Named m (.text s) (.text s)
  | comment {m : List (Option Str × Str)} {s : Str} : Named m (.comment s) (.comment s)
  | inst {m : List (Option Str × Str)} {t d : Str} : Named m (.pi t d) (.pi t d)

inductive NamedAll : List (Option Str × Str) → List Xml → List Node → Prop
  | none {m : List (Option Str × Str)} : NamedAll m [] []
  | more {m : List (Option Str × Str)} {x : Xml} {n : Node} {xs : List Xml} {ns : List Node} :
      Named m x n → NamedAll m xs ns → NamedAll m (x :: xs) (n :: ns)
end


/-- The text is a namespace-well-formed XML document; `decl`: whether it has an XML declaration, and
its encoding; `nodes`: what stands at the top level; `root`: its only element. -/
def WellFormed (s : Str) (decl : Option (Option Str)) (nodes : List Node) (root : Node) : Prop :=
  (∃ ks, File s decl ks ∧ NamedAll [] ks nodes) ∧ root ∈ nodes ∧ ∃ i ks, root = .elem i ks

end ReqIF.Grammar
