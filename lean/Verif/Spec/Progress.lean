import Verif.Model.Archive
/-!
# Specification of progress reporting

A call of the callback is a value; `runCalls p calls s` is the state after the
callback `p` got these calls one after the other and nothing else.
-/
namespace ReqIF.Spec

/-- One call: section, items done, items in total. -/
structure Call where
  section_ : Str
  done : Nat
  total : Nat
  deriving DecidableEq, Repr

/-- The calls for `n` of `total` items of a section: (1, total), (2, total), ... (n, total). -/
def callsUpTo (sec : Str) (n total : Nat) : List Call :=
  (List.range n).map (fun j => ⟨sec, j + 1, total⟩)

/-- The calls for a complete section. -/
def sectionCalls (sec : Str) (total : Nat) : List Call := callsUpTo sec total total

variable {σ : Type}

/-- The callback's effect on its state when it gets these calls in this order. -/
def runCalls (p : Callback σ) : List Call → σ → σ
  | [], s => s
  | c :: cs, s => runCalls p cs (p c.section_ c.done c.total s).2

/-- The callback never raises. -/
def NonRaising (p : Callback σ) : Prop := ∀ sec done total s, (p sec done total s).1 = .ok ()

/-- The callback that records its calls, newest first. -/
def recorder : Callback (List Call) := fun sec done total log => (.ok (), ⟨sec, done, total⟩ :: log)

/-! ## Parsing a document -/

/-- The containers in the order the parser reads them. -/
def parseOrder : List Str :=
  [c!"DATATYPES", c!"SPEC-TYPES", c!"SPECIFICATIONS", c!"SPEC-RELATIONS", c!"SPEC-OBJECTS",
   c!"SPEC-RELATION-GROUPS"]

/-- The `REQ-IF-CONTENT` element of a (namespace-free) root. -/
def contentOf (root : Node) : Option Node :=
  (root.find c!"CORE-CONTENT").bind (fun c => c.find c!"REQ-IF-CONTENT")

/-- The direct children (elements and comments) of a container of the content;
none if the container is absent. -/
def itemsOf (content : Node) (tag : Str) : List Node :=
  match content.find tag with
  | none => []
  | some c => c.children

/-- All calls for a content element: one per child of each container. -/
def contentCalls (content : Node) : List Call :=
  parseOrder.flatMap (fun tag => sectionCalls tag (itemsOf content tag).length)

/-- All calls for a document. -/
def docCalls (root : Node) : List Call :=
  match contentOf root with
  | none => []
  | some c => contentCalls c

/-- Can this child of the container `tag` be parsed? -/
def itemParses (tag : Str) (x : Node) : Bool :=
  if tag = c!"DATATYPES" then (parseDataType x).isOk
  else if tag = c!"SPEC-TYPES" then (parseSpecType x).isOk
  else if tag = c!"SPECIFICATIONS" then (parseSpecification x).isOk
  else if tag = c!"SPEC-RELATIONS" then
    match parseSpecRelation x with
    | .ok (.ok _) => true
    | .ok (.error e) => (stringifyNode false e.node).isOk
    | .error _ => false
  else if tag = c!"SPEC-OBJECTS" then isCommentNode x || (parseSpecObject x).isOk
  else (parseRelationGroup x).isOk

/-- The sections of a content with, for each child, whether it can be parsed. -/
def parseSections (content : Node) : List (Str × List Bool) :=
  parseOrder.map (fun tag => (tag, (itemsOf content tag).map (itemParses tag)))

/-- The calls until the first item that fails: all items of the sections before,
and the items before it in its own section. -/
def callsUntilFailure : List (Str × List Bool) → List Call
  | [] => []
  | (sec, items) :: rest =>
    if items.all (fun ok => ok) then sectionCalls sec items.length ++ callsUntilFailure rest
    else callsUpTo sec (items.takeWhile (fun ok => ok)).length items.length

/-! ## Unparsing -/

/-- The call sequence for the printed containers of a content, in printing order. -/
def printCalls (c : Content) : List Call :=
  let sec {α : Type} (tag : Str) (l : Option (List α)) : List Call := sectionCalls tag (l.getD []).length
  sec c!"DATATYPES" c.dataTypes ++ sec c!"SPEC-TYPES" c.specTypes ++
  sec c!"SPEC-OBJECTS" c.specObjects ++ sec c!"SPEC-RELATIONS" c.specRelations ++
  sec c!"SPECIFICATIONS" c.specifications ++ sec c!"SPEC-RELATION-GROUPS" c.specRelationGroups

/-- The printed sections with, for each item, whether it can be printed. -/
def printSections (c : Content) : List (Str × List Bool) :=
  [ (c!"DATATYPES", (c.dataTypes.getD []).map (fun _ => true)),
    (c!"SPEC-TYPES", (c.specTypes.getD []).map (fun x => (unparseSpecType x).isOk)),
    (c!"SPEC-OBJECTS", (c.specObjects.getD []).map (fun x => (unparseSpecObject x).isOk)),
    (c!"SPEC-RELATIONS", (c.specRelations.getD []).map (fun x => (unparseSpecRelation x).isOk)),
    (c!"SPECIFICATIONS", (c.specifications.getD []).map (fun x => (unparseSpecification x).isOk)),
    (c!"SPEC-RELATION-GROUPS", (c.specRelationGroups.getD []).map (fun _ => true)) ]

/-- The call sequence for a bundle. -/
def bundleCalls (b : Bundle) : List Call :=
  match b.coreContent with
  | some (some c) => printCalls c
  | _ => []

/-! ## Archives -/

/-- One call per member, with the member's name as section. -/
def memberCalls (names : List Str) : List Call :=
  names.zipIdx.map (fun p => ⟨p.1, p.2 + 1, names.length⟩)

/-- Can this member be read (and, if it is a ReqIF file, parsed)? -/
def memberReads (ar : Archive) (name : Str) : Bool := (memberStep ar ⟨[], []⟩ name).isOk

end ReqIF.Spec
