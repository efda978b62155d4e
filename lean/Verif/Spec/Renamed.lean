import Verif.Xml.Tree
import Verif.Model.Lxml
/-!
# Documents that differ in namespaces and prefixes

`Renamed free x x'`: the trees `x` and `x'` are the same but for the namespaces and prefixes of elements
outside XHTML, and for the declarations of the prefixes for which `free` is true.  XHTML elements and
attributes do not use these prefixes.  (`free none` stands for the default namespace.)
-/
namespace ReqIF.Spec
open ReqIF

/-- Is the element in the XHTML namespace? -/
def inXhtml (i : Info) : Bool := containsStr xhtmlNs i.tag

/-- Two lists of declarations that are the same but for the free prefixes. -/
def SameDecls (free : Option Str → Bool) (ds ds' : NsMap) : Prop :=
  ds.filter (fun d => !free d.1) = ds'.filter (fun d => !free d.1)

mutual
/-- The same tree but for namespaces and prefixes. -/
inductive Renamed (free : Option Str → Bool) : Node → Node → Prop
  | text (s : Str) : Renamed free (.text s) (.text s)
  | comment (s : Str) : Renamed free (.comment s) (.comment s)
  | pi (t d : Str) : Renamed free (.pi t d) (.pi t d)
  | elem {i j : Info} {ks ls : List Node} (hi : inXhtml i = false) (hj : inXhtml j = false) (name : i.name = j.name)
      (attrs : i.attrs = j.attrs) (used : ∀ a ∈ i.attrs, a.ns ≠ none → free a.pfx = false)
      (decls : SameDecls free i.nsdefs j.nsdefs) (kids : RenamedKids free ks ls) : Renamed free (.elem i ks) (.elem j ls)
  | xhtml {i : Info} {m : NsMap} {ks ls : List Node} (hi : inXhtml i = true) (hp : free i.pfx = false)
      (used : ∀ a ∈ i.attrs, a.ns ≠ none → free a.pfx = false) (kids : RenamedKids free ks ls) :
      Renamed free (.elem i ks) (.elem { i with nsmap := m } ls)

/-- The same for the children of an element, one by one. -/
inductive RenamedKids (free : Option Str → Bool) : List Node → List Node → Prop
  | nil : RenamedKids free [] []
  | cons {k k' : Node} {ks ks' : List Node} (h : Renamed free k k') (hk : RenamedKids free ks ks') :
      RenamedKids free (k :: ks) (k' :: ks')
end

/-- Does the root declare a default namespace? -/
def declaresDefault (n : Node) : Prop := ∃ u, n.nsmap.get? none = some u

end ReqIF.Spec
