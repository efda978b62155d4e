import Verif.Model.Bundle
/-!
# Spec objects and their attributes as mutable objects: `models/reqif_spec_object.py`, `object_lookup.py`

In the other modules a spec object is a record.  In Python the list `spec_objects` and the lookup of a bundle refer to
the same objects, and so do the list `attributes` and the dictionary `attribute_map` of an object.  Here objects and
attributes are cells, and addresses are numbers in the order of creation.  An attribute object is in the
list of one spec object only.
-/
namespace ReqIF.Cells

/-- A `ReqIFSpecObject`: its fields, the list `attributes` (not in `base`) and `attribute_map`. -/
structure ObjectCell where
  base : SpecObject
  attributes : List Nat
  map : Dict (Option Str) Nat

/-- All attributes, all objects, the list `spec_objects` and the dictionary `spec_objects_lookup`. -/
structure Heap where
  attrs : List SpecObjectAttribute
  objects : List ObjectCell
  listed : List Nat
  lookup : Dict Str Nat

/-- `reqif_spec_object.py` 28-49, the constructor, given new attribute objects. -/
def Heap.create (h : Heap) (o : SpecObject) : Nat × Heap :=
  let addresses := List.range' h.attrs.length o.attributes.length
  (h.objects.length,
    { h with
      attrs := h.attrs ++ o.attributes
      objects := h.objects ++ [⟨{ o with attributes := [] }, addresses,
        (addresses.zip o.attributes).foldl (fun m e => m.set e.2.definitionRef e.1) []⟩] })

/-- `parser.py` 359-361: an object is created, put into the list and entered in the lookup. -/
def Heap.parsed (h : Heap) (o : SpecObject) : Heap :=
  let r := h.create o
  { r.2 with listed := r.2.listed ++ [r.1], lookup := r.2.lookup.set o.identifier r.1 }

/-- The objects after parsing. -/
def load (os : List SpecObject) : Heap := os.foldl Heap.parsed ⟨[], [], [], []⟩

/-- What a user does with the objects of a bundle. -/
inductive Call
  /-- `bundle.lookup.get_spec_object_by_ref(ref).attribute_map[key].value = value` -/
  | setValue (ref : Str) (key : Option Str) (value : AttrValue)
  /-- `spec_objects[i].attributes[j].value = value` -/
  | setValueAt (i j : Nat) (value : AttrValue)
  /-- `bundle.lookup.get_spec_object_by_ref(ref).long_name = name` -/
  | setName (ref : Str) (name : Option Str)
  /-- `bundle.lookup.get_spec_object_by_ref(ref).attributes.append(SpecObjectAttribute(...))` -/
  | append (ref : Str) (a : SpecObjectAttribute)
  /-- `spec_objects.append(ReqIFSpecObject(...))` -/
  | appendObject (o : SpecObject)

/-- `object.attributes[j].value = value`, the attribute given by its address. -/
def Heap.assign (h : Heap) (x : Nat) (value : AttrValue) : Heap :=
  { h with attrs := h.attrs.modify x fun a => { a with value := value } }

/-- The result of a call and the cells after it.  `object_lookup.py` 39-40: `KeyError` for an unknown reference. -/
def Heap.step (h : Heap) : Call → Py Unit × Heap
  | .setValue ref key value =>
    match h.lookup.get? ref with
    | none => (.error .keyError, h)
    | some o =>
      match h.objects[o]? with
      | none => (.error .attributeError, h)
      | some c =>
        match c.map.get? key with
        | none => (.error .keyError, h)
        | some x => (.ok (), h.assign x value)
  | .setValueAt i j value =>
    match h.listed[i]? with
    | none => (.error .indexError, h)
    | some o =>
      match h.objects[o]? with
      | none => (.error .attributeError, h)
      | some c =>
        match c.attributes[j]? with
        | none => (.error .indexError, h)
        | some x => (.ok (), h.assign x value)
  | .setName ref name =>
    match h.lookup.get? ref with
    | none => (.error .keyError, h)
    | some o => (.ok (), { h with objects := h.objects.modify o fun c => { c with base := { c.base with longName := name } } })
  | .append ref a =>
    match h.lookup.get? ref with
    | none => (.error .keyError, h)
    | some o => (.ok (), { h with
        attrs := h.attrs ++ [a]
        objects := h.objects.modify o fun c => { c with attributes := c.attributes ++ [h.attrs.length] } })
  | .appendObject o => (.ok (), { (h.create o).2 with listed := h.listed ++ [(h.create o).1] })

/-- The results of some calls and the cells after them. -/
def Heap.run (h : Heap) : List Call → List (Py Unit) × Heap
  | [] => ([], h)
  | c :: cs => let r := h.step c; let rs := r.2.run cs; (r.1 :: rs.1, rs.2)

/-- An object with its attributes, as the unparser finds it. -/
def Heap.object (h : Heap) (o : Nat) : Option SpecObject :=
  (h.objects[o]?).map fun c => { c.base with attributes := c.attributes.filterMap fun x => h.attrs[x]? }

/-- The list of objects, as the unparser finds it. -/
def Heap.view (h : Heap) : List SpecObject := h.listed.filterMap h.object

end ReqIF.Cells
