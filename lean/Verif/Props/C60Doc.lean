import Verif.Proofs.Comments
import Verif.Proofs.NodeEq
/-!
# C60 for whole documents
-/
namespace ReqIF
open Spec

/-- **C60**: two documents that are the same but for comments among spec types, spec
objects and attribute values are parsed to the same bundle (apart from the source elements it
remembers), or both fail with the same exception. -/
theorem C60_document (s s' : Str) (d d' : Doc) (hs : readDoc s = some d) (hs' : readDoc s' = some d')
    (hd : d.decl = d'.decl) (ht : tidy .root d.root = tidy .root d'.root) :
    (∃ b b', parseString s = .ok b ∧ parseString s' = .ok b' ∧ withoutSources b = withoutSources b') ∨
    ∃ e, parseString s = .error e ∧ parseString s' = .error e := by
  have h := alike_document hd (alike_of_tidy ht)
  rw [← parseString_ofDoc hs, ← parseString_ofDoc hs'] at h
  revert h
  generalize parseString s = a
  generalize parseString s' = b
  intro h
  cases a with
  | error e => cases b with
    | error e' => cases h; exact .inr ⟨e, rfl, rfl⟩
    | ok _ => cases h
  | ok a => cases b with
    | error _ => cases h
    | ok b =>
      refine .inl ⟨a, b, rfl, rfl, ?_⟩
      rw [← withoutSources_shell a, ← withoutSources_shell b]
      exact congrArg withoutSources (Except.ok.inj h)

/-- **C60**: what is written afterwards is the same, too: the comments are gone. -/
theorem C60_written (s s' : Str) (d d' : Doc) (hs : readDoc s = some d) (hs' : readDoc s' = some d')
    (hd : d.decl = d'.decl) (ht : tidy .root d.root = tidy .root d'.root) (b b' : Bundle)
    (hb : parseString s = .ok b) (hb' : parseString s' = .ok b') : unparse b = unparse b' := by
  have h := alike_document hd (alike_of_tidy ht)
  rw [← parseString_ofDoc hs, ← parseString_ofDoc hs', hb, hb'] at h
  rw [← unparse_shell b, ← unparse_shell b']
  exact congrArg unparse (Except.ok.inj h)

/-! ## A concrete case -/

/-- A document with notes among spec types, spec objects and attribute values. -/
def notedDoc (note : Str) : Str := c!"<REQ-IF xmlns=\"u\"><CORE-CONTENT><REQ-IF-CONTENT><SPEC-TYPES>" ++ note ++
  c!"<SPEC-OBJECT-TYPE IDENTIFIER=\"t\"/></SPEC-TYPES><SPEC-OBJECTS>" ++ note ++
  c!"<SPEC-OBJECT IDENTIFIER=\"o\"><VALUES>" ++ note ++
  c!"<ATTRIBUTE-VALUE-STRING THE-VALUE=\"v\"><DEFINITION><ATTRIBUTE-DEFINITION-STRING-REF>d" ++
  c!"</ATTRIBUTE-DEFINITION-STRING-REF></DEFINITION></ATTRIBUTE-VALUE-STRING></VALUES><TYPE>" ++
  c!"<SPEC-OBJECT-TYPE-REF>t</SPEC-OBJECT-TYPE-REF></TYPE></SPEC-OBJECT></SPEC-OBJECTS>" ++
  c!"</REQ-IF-CONTENT></CORE-CONTENT></REQ-IF>"

/-- An element of the document below. -/
def noted (name : Str) (attrs : List (Str × Str)) (kids : List Node) : Node :=
  .elem ⟨some c!"u", none, name, [], [(none, c!"u")], attrs.map (fun a => ⟨none, none, a.1, a.2⟩)⟩ kids

/-- The tree of the document. -/
def notedTree (note : List Node) : Node :=
  .elem ⟨some c!"u", none, c!"REQ-IF", [(none, c!"u")], [(none, c!"u")], []⟩ [
    noted c!"CORE-CONTENT" [] [noted c!"REQ-IF-CONTENT" [] [
      noted c!"SPEC-TYPES" [] (note ++ [noted c!"SPEC-OBJECT-TYPE" [(c!"IDENTIFIER", c!"t")] []]),
      noted c!"SPEC-OBJECTS" [] (note ++ [noted c!"SPEC-OBJECT" [(c!"IDENTIFIER", c!"o")] [
        noted c!"VALUES" [] (note ++ [noted c!"ATTRIBUTE-VALUE-STRING" [(c!"THE-VALUE", c!"v")] [
          noted c!"DEFINITION" [] [noted c!"ATTRIBUTE-DEFINITION-STRING-REF" [] [.text c!"d"]]]]),
        noted c!"TYPE" [] [noted c!"SPEC-OBJECT-TYPE-REF" [] [.text c!"t"]]]])]]]

set_option maxRecDepth 20000 in
theorem notedDoc_read : readDoc (notedDoc []) = some ⟨none, [notedTree []], notedTree []⟩ :=
  isRootOnly_eq (by decide +kernel)

set_option maxRecDepth 20000 in
theorem notedDoc_read2 : readDoc (notedDoc c!" <!-- a --> <!-- b -->") =
    some ⟨none, [notedTree [.text c!" ", .comment c!" a ", .text c!" ", .comment c!" b "]],
      notedTree [.text c!" ", .comment c!" a ", .text c!" ", .comment c!" b "]⟩ :=
  isRootOnly_eq (by decide +kernel)

/-- The numbers of spec types, spec objects and values read. -/
def countsRead (s : Str) : Option (Nat × Nat × Nat) :=
  match parseString s with
  | .ok b => b.coreContent.bind (Option.map fun c => ((c.specTypes.getD []).length,
      (c.specObjects.getD []).length, ((c.specObjects.getD []).flatMap (·.attributes)).length))
  | .error _ => none

example : ∃ d d', readDoc (notedDoc []) = some d ∧ readDoc (notedDoc c!" <!-- a --> <!-- b -->") = some d' ∧
    d.decl = d'.decl ∧ tidy .root d.root = tidy .root d'.root := ⟨_, _, notedDoc_read, notedDoc_read2, rfl, rfl⟩

set_option maxRecDepth 20000 in
example : countsRead (notedDoc c!" <!-- a --> <!-- b -->") = some (1, 1, 1) := by decide +kernel

end ReqIF
