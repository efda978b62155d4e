import Verif.Spec.Dump
import Verif.Spec.Grammar
/-!
# Specification of the dump page as a document

The page is looked at as a tree: the nodes of its headings and table cells, wherever they stand.
-/
namespace ReqIF.Spec
open ReqIF.Grammar

/-- The first line of the page, which is not part of the grammar of `Spec/Grammar`. -/
def doctype : Str := c!"<!DOCTYPE html>\n"

/-- A string that is content of an element ([43] of XML 1.0): text with escaped characters, and elements that
are closed.  It has no carriage return, which a reader would take for a line end. -/
def WellFormedContent (s : Str) : Prop := '\r' ∉ s ∧ ∃ ks, Grammar.Content s ks

mutual
/-- The headings and table cells of a tree in order, with their nodes; what stands inside of one
of them belongs to it. -/
def shownCells : Xml → List (Str × List Xml)
  | .elem n _ ks => if n ∈ shownTags then [(n, ks)] else allShownCells ks
  | _ => []

def allShownCells : List Xml → List (Str × List Xml)
  | [] => []
  | x :: xs => shownCells x ++ allShownCells xs
end

/-- The nodes are those of the string, with white space around it. -/
def NodesOf (s : Str) (ks : List Xml) : Prop := ∃ a b, OptSpace a ∧ OptSpace b ∧ Grammar.Content (a ++ s ++ b) ks

/-- The cells have the given strings, one by one. -/
inductive CellsShow : List (Str × Str) → List (Str × List Xml) → Prop
  | none : CellsShow [] []
  | more {t s : Str} {ks : List Xml} {l : List (Str × Str)} {m : List (Str × List Xml)} :
      NodesOf s ks → CellsShow l m → CellsShow ((t, s) :: l) ((t, ks) :: m)

def td (s : Str) : Str × Str := (c!"td", s)

/-- The strings of the header. -/
def headerStrings : Option Header → List (Str × Str)
  | none => []
  | some h => [td c!"TITLE:", td (fmtOpt h.title), td c!"CREATION-TIME:", td (fmtOpt h.creationTime)]

/-- The strings of an object: its type, its identifier, and its values with their definitions. -/
def objectStrings (repr : Str → Str) (o : SpecObject) : List (Str × Str) :=
  [td c!"&lt;SPEC-OBJECT&gt;", td c!"&lt;SPEC-OBJECT-TYPE&gt;", td (fmtOpt o.specObjectType),
    td c!"IDENTIFIER", td o.identifier, td c!"&lt;VALUES&gt;"] ++
  o.attributes.flatMap fun a => [td (fmtOpt a.definitionRef), td (shownValue repr a.value)]

/-- The strings of a specification: its name, and the objects of its tree. -/
def specificationStrings (repr : Str → Str) (l : Lookup) (s : Specification) : List (Str × Str) :=
  (c!"h1", fmtOpt s.longName) :: (referredObjects l (s.children.getD [])).flatMap (objectStrings repr)

/-- The strings of the content. -/
def contentStrings (repr : Str → Str) (l : Lookup) : Option (Option Content) → List (Str × Str)
  | some (some c) =>
    (c.dataTypes.getD []).flatMap (fun d => [td c!"TITLE:", td d.identifier]) ++
    (c.specTypes.getD []).flatMap (fun t => [td c!"TITLE:", td t.identifier]) ++
    (c.specifications.getD []).flatMap (specificationStrings repr l)
  | _ => []

/-- What the page shows of a bundle, in order: the strings of its headings and table cells. -/
def pageStrings (repr : Str → Str) (b : Bundle) : List (Str × Str) :=
  (c!"h1", c!"&lt;REQ-IF&gt;") :: (headerStrings b.header ++ contentStrings repr b.lookup b.coreContent)

end ReqIF.Spec
