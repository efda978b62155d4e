import Verif.Model.Cells
/-!
# Edits of spec objects, without references

The same calls on plain lists.  The dictionaries are not there: what they would find is the last
item with the key, among the items that were there when the dictionary was made.
-/
namespace ReqIF.Cells

/-- The objects, each with the number of attributes it was created with; and the number of objects that were parsed. -/
structure Lists where
  objects : List (SpecObject × Nat)
  parsed : Nat

/-- The position of the last item with a property. -/
def lastAt {α : Type} (p : α → Bool) : List α → Option Nat
  | [] => none
  | x :: l => match lastAt p l with
    | some i => some (i + 1)
    | none => if p x then some 0 else none

/-- The position of the last parsed object with an identifier. -/
def Lists.find (s : Lists) (ref : Str) : Option Nat := lastAt (fun e => e.1.identifier == ref) (s.objects.take s.parsed)

/-- The position of the last attribute with a reference, among those an object was created with. -/
def attributeAt (e : SpecObject × Nat) (key : Option Str) : Option Nat :=
  lastAt (fun a => a.definitionRef == key) (e.1.attributes.take e.2)

/-- One attribute with another value. -/
def withValue (o : SpecObject) (j : Nat) (value : AttrValue) : SpecObject :=
  { o with attributes := o.attributes.modify j fun a => { a with value := value } }

/-- One object changed. -/
def Lists.change (s : Lists) (i : Nat) (f : SpecObject → SpecObject) : Lists :=
  { s with objects := s.objects.modify i fun e => (f e.1, e.2) }

/-- The result of a call and the lists after it. -/
def Lists.step (s : Lists) : Call → Py Unit × Lists
  | .setValue ref key value =>
    match s.find ref with
    | none => (.error .keyError, s)
    | some i =>
      match (s.objects[i]?).bind (attributeAt · key) with
      | none => (.error .keyError, s)
      | some j => (.ok (), s.change i (withValue · j value))
  | .setValueAt i j value =>
    match (s.objects[i]?).bind (fun e => e.1.attributes[j]?) with
    | none => (.error .indexError, s)
    | some _ => (.ok (), s.change i (withValue · j value))
  | .setName ref name =>
    match s.find ref with
    | none => (.error .keyError, s)
    | some i => (.ok (), s.change i fun o => { o with longName := name })
  | .append ref a =>
    match s.find ref with
    | none => (.error .keyError, s)
    | some i => (.ok (), s.change i fun o => { o with attributes := o.attributes ++ [a] })
  | .appendObject o => (.ok (), { s with objects := s.objects ++ [(o, o.attributes.length)] })

/-- The results of some calls and the lists after them. -/
def Lists.run (s : Lists) : List Call → List (Py Unit) × Lists
  | [] => ([], s)
  | c :: cs => let r := s.step c; let rs := r.2.run cs; (r.1 :: rs.1, rs.2)

/-- The lists after parsing. -/
def readLists (os : List SpecObject) : Lists := ⟨os.map fun o => (o, o.attributes.length), os.length⟩

end ReqIF.Cells
