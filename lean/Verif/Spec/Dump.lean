import Verif.Model.Dump
import Verif.Spec.Hierarchy
/-!
# Specification of the dump page

The page is looked at the way a reader of the HTML sees it: as the sequence of its
level-one headings and table cells, with their texts.
-/
namespace ReqIF.Spec

/-- The text before the first occurrence of `pat` and the text after it. -/
def breakAt (pat : Str) : Str → Option (Str × Str)
  | [] => none
  | c :: s =>
    if pat.isPrefixOf (c :: s) then some ([], (c :: s).drop pat.length)
    else (breakAt pat s).map fun p => (c :: p.1, p.2)

theorem breakAt_length {pat s : Str} {p : Str × Str} (h : breakAt pat s = some p) :
    p.2.length ≤ s.length := by
  induction s generalizing p with
  | nil => cases h
  | cons c s ih =>
    unfold breakAt at h
    split at h
    · cases h; simp
    · cases hs : breakAt pat s with
      | none => rw [hs] at h; cases h
      | some q =>
        rw [hs] at h
        cases h
        have := ih hs
        simp only [List.length_cons]
        omega

/-- The elements whose contents are read. -/
def shownTags : List Str := [c!"h1", c!"td"]

/-- The headings and table cells of a page in order, each with its content without the
white space around it.  The content reaches up to the first end tag. -/
def elements : Str → List (Str × Str)
  | [] => []
  | c :: s =>
    match shownTags.find? (fun t => (c!"<" ++ t).isPrefixOf (c :: s)) with
    | none => elements s
    | some t =>
      match h1 : breakAt c!">" s with
      | none => []
      | some (_, inner) =>
        match h2 : breakAt (c!"</" ++ t ++ c!">") inner with
        | none => []
        | some (content, rest) => (t, strip content) :: elements rest
termination_by s => s.length
decreasing_by
  · simp
  · have h3 := breakAt_length h1
    have h4 := breakAt_length h2
    simp only [List.length_cons] at *
    omega

def heading (s : Str) : Str × Str := (c!"h1", strip s)
def cell (s : Str) : Str × Str := (c!"td", strip s)

/-- What the page shows of the header. -/
def headerCells : Option Header → List (Str × Str)
  | none => []
  | some h => [cell c!"TITLE:", cell (fmtOpt h.title), cell c!"CREATION-TIME:",
      cell (fmtOpt h.creationTime)]

/-- What it shows of a data type or a spec type. -/
def identifierCells (i : Str) : List (Str × Str) := [cell c!"TITLE:", cell i]

/-- An item of a list of enumeration values. -/
def listItem (repr : Str → Str) : Option Str → Str
  | none => c!"None"
  | some s => repr s

/-- The items after the first one. -/
def moreItems (repr : Str → Str) : List (Option Str) → Str
  | [] => []
  | x :: l => c!", " ++ listItem repr x ++ moreItems repr l

/-- The text of a value: the value, or the list of the enumeration values in brackets, separated
by commas. -/
def shownValue (repr : Str → Str) : AttrValue → Str
  | .str s => s
  | .list [] => c!"[]"
  | .list (x :: l) => c!"[" ++ listItem repr x ++ moreItems repr l ++ c!"]"

/-- What it shows of an object: its type, its identifier, and its values with their
definitions. -/
def objectCells (repr : Str → Str) (o : SpecObject) : List (Str × Str) :=
  [cell c!"&lt;SPEC-OBJECT&gt;", cell c!"&lt;SPEC-OBJECT-TYPE&gt;", cell (fmtOpt o.specObjectType),
    cell c!"IDENTIFIER", cell o.identifier, cell c!"&lt;VALUES&gt;"] ++
  o.attributes.flatMap fun a =>
    [cell (fmtOpt a.definitionRef), cell (shownValue repr a.value)]

/-- The objects a list of trees refers to, in document order; a reference that leads
nowhere is left out. -/
def referredObjects (l : Lookup) (hs : List Hierarchy) : List SpecObject :=
  (preorderList hs).filterMap fun h => h.info.specObject.bind l.specObjects.get?

/-- What the page shows of a specification: its name, and the objects of its tree. -/
def specificationCells (repr : Str → Str) (l : Lookup) (s : Specification) : List (Str × Str) :=
  heading (fmtOpt s.longName) ::
    (referredObjects l (s.children.getD [])).flatMap (objectCells repr)

/-- What it shows of the content. -/
def contentCells (repr : Str → Str) (l : Lookup) : Option (Option Content) → List (Str × Str)
  | some (some c) =>
    (c.dataTypes.getD []).flatMap (fun d => identifierCells d.identifier) ++
    (c.specTypes.getD []).flatMap (fun t => identifierCells t.identifier) ++
    (c.specifications.getD []).flatMap (specificationCells repr l)
  | _ => []

/-- The whole page. -/
def pageCells (repr : Str → Str) (b : Bundle) : List (Str × Str) :=
  heading c!"&lt;REQ-IF&gt;" :: (headerCells b.header ++ contentCells repr b.lookup b.coreContent)

/-- A string that can stand in a table cell. -/
def CellSafe (s : Str) : Prop := containsStr c!"</td>" s = false

instance : DecidablePred CellSafe := fun _ => inferInstanceAs (Decidable (_ = _))

/-- Nothing the page shows contains the end tag of the element it stands in. -/
structure PageSafe (repr : Str → Str) (b : Bundle) : Prop where
  header : ∀ h, b.header = some h → CellSafe (fmtOpt h.title) ∧ CellSafe (fmtOpt h.creationTime)
  dataTypes : ∀ c ds, b.coreContent = some (some c) → c.dataTypes = some ds →
    ∀ d ∈ ds, CellSafe d.identifier
  specTypes : ∀ c ts, b.coreContent = some (some c) → c.specTypes = some ts →
    ∀ t ∈ ts, CellSafe t.identifier
  titles : ∀ c ss, b.coreContent = some (some c) → c.specifications = some ss →
    ∀ s ∈ ss, containsStr c!"</h1>" (fmtOpt s.longName) = false
  objects : ∀ c ss, b.coreContent = some (some c) → c.specifications = some ss →
    ∀ s ∈ ss, ∀ o ∈ referredObjects b.lookup (s.children.getD []),
      CellSafe (fmtOpt o.specObjectType) ∧ CellSafe o.identifier ∧
      ∀ a ∈ o.attributes, CellSafe (fmtOpt a.definitionRef) ∧
        CellSafe (shownValue repr a.value)

/-- The bundle has the lists the page goes through, and every node of every tree refers to
an object. -/
def Dumpable (b : Bundle) : Prop :=
  ∀ c, b.coreContent = some (some c) →
    c.dataTypes ≠ none ∧ c.specTypes ≠ none ∧
    ∃ ss, c.specifications = some ss ∧
      ∀ s ∈ ss, ∀ hs, s.children = some hs → ∀ h ∈ preorderList hs,
        ∃ r o, h.info.specObject = some r ∧ b.lookup.specObjects.get? r = some o

end ReqIF.Spec
