import Verif.Xml.Reader
/-!
# Namespaces

Resolution of prefixes (libxml2), the namespace map lxml shows, the removal of
unused declarations (`etree.cleanup_namespaces`) and subtree copies
(`copy.deepcopy` of an element).
-/
namespace ReqIF

def xmlNs : Str := c!"http://www.w3.org/XML/1998/namespace"
def xmlnsNs : Str := c!"http://www.w3.org/2000/xmlns/"

/-- URI bound to a prefix. -/
def NsMap.get? (m : NsMap) (p : Option Str) : Option Str :=
  (m.find? (fun d => d.1 == p)).map (·.2)

/-- Own declarations, then the inherited ones that are not shadowed (lxml's `nsmap`). -/
def NsMap.push (own inherited : NsMap) : NsMap :=
  own ++ inherited.filter (fun d => !own.any (fun e => e.1 == d.1))

/-- The prefix an attribute named `an` declares, if it is a declaration. -/
def declaredPrefix (an : Str) : Option (Option Str) :=
  if an = c!"xmlns" then some none
  else match splitQName an with
    | (some p, l) => if p = c!"xmlns" then some (some l) else none
    | _ => none

/-- Namespace declarations among the attributes, in order. -/
def declsOf (attrs : List (Str × Str)) : NsMap :=
  attrs.filterMap (fun a => (declaredPrefix a.1).map (fun p => (p, a.2)))

/-- Attributes that are not declarations. -/
def plainOf (attrs : List (Str × Str)) : List (Str × Str) :=
  attrs.filter (fun a => (declaredPrefix a.1).isNone)

/-- Constraints of "Namespaces in XML" on one declaration. -/
def declOk (d : Option Str × Str) : Bool :=
  match d.1 with
  | none => d.2 != xmlNs && d.2 != xmlnsNs
  | some p => p != c!"xmlns" && !d.2.isEmpty && d.2 != xmlnsNs && ((p == c!"xml") == (d.2 == xmlNs))

/-- Declarations libxml2 stores (a redundant declaration of `xml` is skipped). -/
def storedDecls (ds : NsMap) : NsMap := ds.filter (fun d => d.1 != some c!"xml")

/-- Resolves an element name. -/
def resolveElemName (m : NsMap) (q : Str) : Option (Option Str × Option Str × Str) :=
  match splitQName q with
  | (none, l) =>
    match m.get? none with
    | none => some (none, none, l)
    | some u => if u.isEmpty then some (none, none, l) else some (some u, none, l)
  | (some p, l) =>
    if p = c!"xml" then some (some xmlNs, some p, l)
    else match m.get? (some p) with
      | none => none
      | some u => some (some u, some p, l)

/-- Resolves an attribute (the default namespace does not apply). -/
def resolveAttr (m : NsMap) (a : Str × Str) : Option Attr :=
  match splitQName a.1 with
  | (none, l) => some ⟨none, none, l, a.2⟩
  | (some p, l) =>
    if p = c!"xml" then some ⟨some xmlNs, some p, l, a.2⟩
    else match m.get? (some p) with
      | none => none
      | some u => some ⟨some u, some p, l, a.2⟩

def resolveAttrs (m : NsMap) : List (Str × Str) → Option (List Attr)
  | [] => some []
  | a :: as =>
    match resolveAttr m a, resolveAttrs m as with
    | some x, some xs => some (x :: xs)
    | _, _ => none

/-- No element of the list occurs twice. -/
def noDup {α : Type} [DecidableEq α] : List α → Bool
  | [] => true
  | a :: as => !as.contains a && noDup as

/-- Resolves the start tag of an element in the scope `m` of its parent. -/
def resolveInfo (m : NsMap) (name : Str) (attrs : List (Str × Str)) : Option Info :=
  let ds := declsOf attrs
  if noDup (attrs.map (·.1)) && ds.all declOk then
    let own := storedDecls ds
    let m' := NsMap.push own m
    match resolveElemName m' name, resolveAttrs m' (plainOf attrs) with
    | some (ns, pfx, l), some as =>
      if noDup (as.map (fun a => (a.ns, a.name))) then some ⟨ns, pfx, l, own, m', as⟩ else none
    | _, _ => none
  else none

mutual
/-- Resolves a tree in the scope `m`. -/
def resolve (m : NsMap) : Xml → Option Node
  | .elem name attrs kids =>
    match resolveInfo m name attrs with
    | none => none
    | some i =>
      match resolveList i.nsmap kids with
      | none => none
      | some ks => some (.elem i ks)
  | .text s => some (.text s)
  | .comment s => some (.comment s)
  | .pi t d => some (.pi t d)

def resolveList (m : NsMap) : List Xml → Option (List Node)
  | [] => some []
  | x :: xs =>
    match resolve m x, resolveList m xs with
    | some n, some ns => some (n :: ns)
    | _, _ => none
end

/-- The first element of a list of nodes. -/
def firstElem : List Node → Option Node
  | [] => none
  | .elem i ks :: _ => some (.elem i ks)
  | _ :: ns => firstElem ns

/-- A parsed document: `etree.parse(...)`. -/
structure Doc where
  decl : Option Decl
  /-- all top-level nodes -/
  nodes : List Node
  root : Node

/-- `etree.parse(io.BytesIO(bytes(content, "UTF-8")))`; `none` is `XMLSyntaxError`. -/
def readDoc (s : Str) : Option Doc :=
  match readRaw s with
  | none => none
  | some (d, xs) =>
    match resolveList [] xs with
    | none => none
    | some ns =>
      match firstElem ns with
      | none => none
      | some r => some ⟨d, ns, r⟩

/-! ## Removal of unused declarations -/

/-- Does this element itself (name or attributes) use prefix `p`? -/
def Info.usesPfx (p : Option Str) (i : Info) : Bool :=
  (i.ns.isSome && i.pfx == p) || i.attrs.any (fun a => a.ns.isSome && a.pfx == p)

/-- Does this element declare prefix `p`? -/
def Info.declares (p : Option Str) (i : Info) : Bool := i.nsdefs.any (fun d => d.1 == p)

mutual
/-- Does the subtree use a declaration of `p` made on its root or above it?
(`inner = true`: the node is below the declaring element, so a declaration of
`p` on the node itself hides the outer one.) -/
def Node.usesPfx (p : Option Str) (inner : Bool) : Node → Bool
  | .elem i ks => !(inner && i.declares p) && (i.usesPfx p || usesPfxList p ks)
  | _ => false

def usesPfxList (p : Option Str) : List Node → Bool
  | [] => false
  | n :: ns => n.usesPfx p true || usesPfxList p ns
end

mutual
/-- `etree.cleanup_namespaces`: drops declarations nothing refers to.  `m` is
the namespace map of the parent after the cleanup. -/
def cleanup (m : NsMap) : Node → Node
  | .elem i ks =>
    let own := i.nsdefs.filter (fun d => Node.usesPfx d.1 false (.elem i ks))
    let m' := NsMap.push own m
    .elem { i with nsdefs := own, nsmap := m' } (cleanupList m' ks)
  | n => n

def cleanupList (m : NsMap) : List Node → List Node
  | [] => []
  | n :: ns => cleanup m n :: cleanupList m ns
end

/-! ## Copy of a subtree -/

/-- The prefixes of an element name and attributes, in the order libxml2 visits
them when copying (element first; `xml` is never declared). -/
def Info.neededPfx (i : Info) : List (Option Str) :=
  (if i.ns.isSome then [i.pfx] else []) ++ (i.attrs.filter (fun a => a.ns.isSome)).map (·.pfx)

mutual
/-- Prefixes the subtree needs from outside (not declared between the copied
root and the use), in document order, possibly repeated. -/
def Node.outerPfx (declared : List (Option Str)) : Node → List (Option Str)
  | .elem i ks =>
    let d := i.nsdefs.map (·.1) ++ declared
    (i.neededPfx.filter (fun p => !d.contains p && p != some c!"xml")) ++ outerPfxList d ks
  | _ => []

def outerPfxList (declared : List (Option Str)) : List Node → List (Option Str)
  | [] => []
  | n :: ns => n.outerPfx declared ++ outerPfxList declared ns
end

/-- `copy.deepcopy(element)`: the copy has no parent; declarations it needs from
outside are added to its root, in order of first need. -/
def Node.detach : Node → Node
  | .elem i ks =>
    let need := ((Node.elem i ks).outerPfx []).eraseDups
    let extra : NsMap := need.filterMap (fun p => (NsMap.get? i.nsmap p).map (fun u => (p, u)))
    .elem { i with nsdefs := i.nsdefs ++ extra, nsmap := i.nsdefs ++ extra } ks
  | n => n

end ReqIF
