import Verif.Model.Specification
import Verif.Proofs.Read
/-! The printed attributes of a tag as a list of names and printed values. -/
namespace ReqIF

/-- An attribute that is printed if the value is there. -/
def optA (name : Str) (f : Str → Str) (o : Option Str) : List (Str × Str) :=
  (o.map (fun v => (name, f v))).toList

/-- An attribute that is printed if the value is there and not empty. -/
def truthyA (name : Str) (f : Str → Str) (o : Option Str) : List (Str × Str) :=
  optA name f (o.filter (fun v => !v.isEmpty))

/-- A printed flag. -/
def boolA (name : Str) (o : Option Bool) : List (Str × Str) :=
  (o.map (fun b => (name, boolOut b))).toList

theorem attrsText_nil : attrsText [] = [] := rfl

theorem attrsText_cons (n v : Str) (as : List (Str × Str)) :
    attrsText ((n, v) :: as) = attrOut n v ++ attrsText as := by
  simp only [attrsText, List.flatMap_cons, attrOut]
  simp

theorem attrsText_append (a b : List (Str × Str)) : attrsText (a ++ b) = attrsText a ++ attrsText b := by
  simp [attrsText]

theorem attrsText_one (n v : Str) : attrsText [(n, v)] = attrOut n v := by
  rw [attrsText_cons, attrsText_nil, List.append_nil]

theorem attrsText_optA (n : Str) (f : Str → Str) (o : Option Str) :
    attrsText (optA n f o) = attrOpt n f o := by
  cases o with
  | none => rfl
  | some v => exact attrsText_one n (f v)

theorem attrsText_truthyA (n : Str) (f : Str → Str) (o : Option Str) :
    attrsText (truthyA n f o) = attrTruthy n f o := by
  unfold truthyA
  rw [attrsText_optA]
  cases o with
  | none => rfl
  | some v =>
    cases v with
    | nil => rfl
    | cons c v => rfl

theorem attrsText_boolA (n : Str) (o : Option Bool) : attrsText (boolA n o) = attrBool n o := by
  cases o with
  | none => rfl
  | some b => exact attrsText_one n (boolOut b)

/-- The attributes of a printed attribute definition. -/
def definitionAttrs (a : SpecAttributeDefinition) : List (Str × Str) :=
  optA c!"DESC" lxmlEscapeForHtml a.description ++
  [(c!"IDENTIFIER", a.identifier)] ++
  boolA c!"IS-EDITABLE" a.editable ++
  truthyA c!"LAST-CHANGE" id a.lastChange ++
  optA c!"LONG-NAME" lxmlEscapeForHtml a.longName ++
  boolA c!"MULTI-VALUED" a.multiValued

theorem definitionAttrs_text (a : SpecAttributeDefinition) : attrsText (definitionAttrs a) =
    attrOpt c!"DESC" lxmlEscapeForHtml a.description ++
    attrOut c!"IDENTIFIER" a.identifier ++
    attrBool c!"IS-EDITABLE" a.editable ++
    attrTruthy c!"LAST-CHANGE" id a.lastChange ++
    attrOpt c!"LONG-NAME" lxmlEscapeForHtml a.longName ++
    attrBool c!"MULTI-VALUED" a.multiValued := by
  simp only [definitionAttrs, attrsText_append, attrsText_optA, attrsText_truthyA, attrsText_boolA, attrsText_one]

/-- The attributes of a printed hierarchy node. -/
def hierarchyAttrs (i : HInfo) : List (Str × Str) :=
  [(c!"IDENTIFIER", i.identifier)] ++
  boolA c!"IS-EDITABLE" i.editable ++
  boolA c!"IS-TABLE-INTERNAL" i.isTableInternal ++
  truthyA c!"LAST-CHANGE" id i.lastChange ++
  truthyA c!"LONG-NAME" id i.longName

theorem hierarchyHead_eq (base : Nat) (i : HInfo) : unparseHierarchyHead base i =
    spaces base ++ c!"<SPEC-HIERARCHY" ++ attrsText (hierarchyAttrs i) ++ c!">\n" := by
  simp only [unparseHierarchyHead, hierarchyAttrs, attrsText_append, attrsText_truthyA, attrsText_boolA, attrsText_one,
    List.append_assoc]

end ReqIF
