import Verif.Proofs.Shuffle
import Verif.Props.C95
/-!
# C101: the order of the parts of an element

The schema does not say in which order most elements have their parts, and tools write them in different orders.
What a document means does not depend on it: two documents that differ only there are parsed to the same
bundle.  Where order carries meaning - lists of things, hierarchies, XHTML - it has to be the same.
-/
set_option linter.unusedSimpArgs false
namespace ReqIF
open Spec

/-- **C101**: two documents that are the same but for the order of the parts of elements are parsed to the
same bundle (the source elements it remembers taken with sorted parts), or both fail with the same exception. -/
theorem C101_document (s s' : Str) (d d' : Doc) (hs : readDoc s = some d) (hs' : readDoc s' = some d')
    (hd : d.decl = d'.decl) (ht : Shuffled .root d.root d'.root) :
    (∃ b b', parseString s = .ok b ∧ parseString s' = .ok b' ∧ unshuffledBundle b = unshuffledBundle b' ∧
      sourceless b = sourceless b') ∨
    ∃ e, parseString s = .error e ∧ parseString s' = .error e := by
  rcases shuffle_tolerant.documents_ hs hs' hd ht.same_ with ⟨b, b', h1, h2, h3⟩ | h
  · exact .inl ⟨b, b', h1, h2, h3, sourceless_by h3⟩
  · exact .inr h

/-- The result of reading a tree does not depend on what a tolerated change changes, apart from source elements. -/
theorem Tolerant.sourceless_ {φ : Part → Node → Node} (H : Tolerant φ) {d d' : Doc} (hd : d.decl = d'.decl)
    (ht : φ .root d.root = φ .root d'.root) :
    pyMap sourceless (parseReqif (none : Option (Callback Unit)) d ()).1 =
      pyMap sourceless (parseReqif (none : Option (Callback Unit)) d' ()).1 := by
  have h1 := H.document_ (d := d) (d' := { d with root := φ .root d.root }) rfl rfl
  have h2 := H.document_ (d := d') (d' := { d with root := φ .root d.root }) hd.symm ht
  rw [h1] at h2
  revert h2
  generalize (parseReqif (none : Option (Callback Unit)) d ()).1 = a
  generalize (parseReqif (none : Option (Callback Unit)) d' ()).1 = b
  intro h
  cases a <;> cases b <;> simp only [pyMap, Except.ok.injEq, Except.error.injEq, reduceCtorEq] at h ⊢
  · exact h
  · exact sourceless_by h

/-- **C101**, with C87 and C92: the same for documents that differ in the order of attributes, in the order of
parts and in the text between elements. -/
theorem C101_layout (s s' : Str) (d d' : Doc) (x y : Node) (hs : readDoc s = some d) (hs' : readDoc s' = some d')
    (hd : d.decl = d'.decl) (hr : Reordered .root d.root x) (hx : Shuffled .root x y)
    (ht : unspaced .root y = unspaced .root d'.root) :
    (∃ b b', parseString s = .ok b ∧ parseString s' = .ok b' ∧ sourceless b = sourceless b') ∨
    ∃ e, parseString s = .error e ∧ parseString s' = .error e := by
  have h1 := order_harmless.tolerant.sourceless_ (d := d) (d' := { d with root := x }) rfl (hr.same_ (readDoc_sane hs).1)
  have h2 := shuffle_tolerant.sourceless_ (d := { d with root := x }) (d' := { d with root := y }) rfl hx.same_
  have h3 := spacing_harmless.tolerant.sourceless_ (d := { d with root := y }) (d' := d') hd ht
  have h := h1.trans (h2.trans h3)
  rw [← parseString_ofDoc hs, ← parseString_ofDoc hs'] at h
  revert h
  generalize parseString s = a
  generalize parseString s' = b
  intro h
  cases a with
  | error e => cases b with
    | error e' => cases h; exact .inr ⟨e, rfl, rfl⟩
    | ok _ => cases h
  | ok a => cases b with
    | error _ => cases h
    | ok b => exact .inl ⟨a, b, rfl, rfl, Except.ok.inj h⟩

/-- **C101**, with C95: such documents have the same page and the same issues in the validation. -/
theorem C101_shown (s s' : Str) (d d' : Doc) (x y : Node) (hs : readDoc s = some d) (hs' : readDoc s' = some d')
    (hd : d.decl = d'.decl) (hr : Reordered .root d.root x) (hx : Shuffled .root x y)
    (ht : unspaced .root y = unspaced .root d'.root) : ShownAlike s s' := by
  rcases C101_layout s s' d d' x y hs hs' hd hr hx ht with ⟨b, b', h1, h2, h3⟩ | ⟨e, h1, h2⟩
  · have g := congrArg view h3
    have g' := congrArg (fun b => b.exceptions.map unquotedTag) h3
    unfold sourceless at g g'
    rw [(view_by _ _).1, (view_by _ _).1] at g
    rw [(view_by _ _).2, (view_by _ _).2] at g'
    exact shown_ok h1 h2 g g'
  · exact shown_error h1 h2

/-! ## Concrete cases -/

/-- One after the other. -/
def turned (t : Bool) (a b : Str) : Str := if t then b ++ a else a ++ b

/-- A document in two orders. -/
def turnedDoc (t : Bool) : Str :=
  c!"<REQ-IF xmlns=\"u\">" ++ turned t
    (c!"<THE-HEADER><REQ-IF-HEADER IDENTIFIER=\"i\">" ++ turned t c!"<COMMENT>c</COMMENT>" c!"<TITLE>t</TITLE>" ++ c!"</REQ-IF-HEADER></THE-HEADER>")
    (c!"<CORE-CONTENT><REQ-IF-CONTENT><SPEC-OBJECTS><SPEC-OBJECT IDENTIFIER=\"o\">" ++ turned t
      (c!"<VALUES><ATTRIBUTE-VALUE-ENUMERATION>" ++ turned t
        c!"<VALUES><ENUM-VALUE-REF>v</ENUM-VALUE-REF></VALUES>"
        c!"<DEFINITION><ATTRIBUTE-DEFINITION-ENUMERATION-REF>d</ATTRIBUTE-DEFINITION-ENUMERATION-REF></DEFINITION>" ++
        c!"</ATTRIBUTE-VALUE-ENUMERATION></VALUES>")
      c!"<TYPE><SPEC-OBJECT-TYPE-REF>t</SPEC-OBJECT-TYPE-REF></TYPE>" ++
      c!"</SPEC-OBJECT></SPEC-OBJECTS></REQ-IF-CONTENT></CORE-CONTENT>") ++
  c!"</REQ-IF>"

/-- Two elements, one after the other. -/
def turnedKids (t : Bool) (a b : Node) : List Node := if t then [b, a] else [a, b]

/-- Its tree. -/
def turnedTree (t : Bool) : Node :=
  .elem ⟨some c!"u", none, c!"REQ-IF", [(none, c!"u")], [(none, c!"u")], []⟩ (turnedKids t
    (noted c!"THE-HEADER" [] [noted c!"REQ-IF-HEADER" [(c!"IDENTIFIER", c!"i")] (turnedKids t
      (noted c!"COMMENT" [] [.text c!"c"]) (noted c!"TITLE" [] [.text c!"t"]))])
    (noted c!"CORE-CONTENT" [] [noted c!"REQ-IF-CONTENT" [] [
      noted c!"SPEC-OBJECTS" [] [noted c!"SPEC-OBJECT" [(c!"IDENTIFIER", c!"o")] (turnedKids t
        (noted c!"VALUES" [] [noted c!"ATTRIBUTE-VALUE-ENUMERATION" [] (turnedKids t
          (noted c!"VALUES" [] [noted c!"ENUM-VALUE-REF" [] [.text c!"v"]])
          (noted c!"DEFINITION" [] [noted c!"ATTRIBUTE-DEFINITION-ENUMERATION-REF" [] [.text c!"d"]]))])
        (noted c!"TYPE" [] [noted c!"SPEC-OBJECT-TYPE-REF" [] [.text c!"t"]]))]]]))

set_option maxRecDepth 20000 in
theorem turnedDoc_read : readDoc (turnedDoc false) = some ⟨none, [turnedTree false], turnedTree false⟩ :=
  isRootOnly_eq (by decide +kernel)

set_option maxRecDepth 20000 in
theorem turnedDoc_read2 : readDoc (turnedDoc true) = some ⟨none, [turnedTree true], turnedTree true⟩ :=
  isRootOnly_eq (by decide +kernel)

theorem turned_same {a b : Node} (h : localName a ≠ localName b) : SameByName (turnedKids false a b) (turnedKids true a b) := by
  intro name
  simp only [turnedKids, Bool.false_eq_true, if_false, if_true, List.filter_cons, List.filter_nil]
  by_cases h1 : localName a = name <;> by_cases h2 : localName b = name <;> simp_all

theorem turned_kids {p : Part} {a b a' b' : Node} (h1 : Shuffled (p.inner (localName a)) a a')
    (h2 : Shuffled (p.inner (localName b)) b b') : ShuffledKids p (turnedKids false a b) (turnedKids false a' b') :=
  .cons h1 (.cons h2 (.nil _))

theorem noted_shuffled {p : Part} {name : Str} {as : List (Str × Str)} {ks ks' : List Node} (hp : p ≠ .fixed)
    (hk : ShuffledKids p ks ks') : Shuffled p (noted name as ks) (noted name as ks') := .listed hp hk

theorem turned_shuffled {p : Part} {i : Info} {a b a' b' : Node} (hp : p ≠ .fixed)
    (ho : p.inOrder i.name = false) (h1 : Shuffled (p.inner (localName a)) a a') (h2 : Shuffled (p.inner (localName b)) b b')
    (hn : localName a' ≠ localName b') : Shuffled p (.elem i (turnedKids false a b)) (.elem i (turnedKids true a' b')) :=
  .free hp ho (turned_kids h1 h2) (turned_same hn)

theorem turnedTree_shuffled : Shuffled .root (turnedTree false) (turnedTree true) := by
  refine turned_shuffled (by decide) (by decide) ?_ ?_ (by decide)
  · refine noted_shuffled (by decide) (.cons ?_ (.nil _))
    exact turned_shuffled (by decide) (by decide) (.same _ _) (.same _ _) (by decide)
  · refine noted_shuffled (by decide) (.cons ?_ (.nil _))
    refine noted_shuffled (by decide) (.cons ?_ (.nil _))
    refine noted_shuffled (by decide) (.cons ?_ (.nil _))
    refine turned_shuffled (by decide) (by decide) ?_ (.same _ _) (by decide)
    refine noted_shuffled (by decide) (.cons ?_ (.nil _))
    exact turned_shuffled (by decide) (by decide) (.same _ _) (.same _ _) (by decide)

/-- The hypotheses of `C101_document` are met: the parts of the document, of the header, of a spec object and of a
value in two orders. -/
example : ∃ d d', readDoc (turnedDoc false) = some d ∧ readDoc (turnedDoc true) = some d' ∧ d.decl = d'.decl ∧
    Shuffled .root d.root d'.root :=
  ⟨_, _, turnedDoc_read, turnedDoc_read2, rfl, turnedTree_shuffled⟩

/-- Those of `C101_layout` and `C101_shown`. -/
example : ∃ d d' x y, readDoc (turnedDoc false) = some d ∧ readDoc (turnedDoc true) = some d' ∧ d.decl = d'.decl ∧
    Reordered .root d.root x ∧ Shuffled .root x y ∧ unspaced .root y = unspaced .root d'.root :=
  ⟨_, _, _, _, turnedDoc_read, turnedDoc_read2, rfl, .same _ _, turnedTree_shuffled, rfl⟩

set_option maxRecDepth 20000 in
/-- Both are read. -/
theorem C101_read : stringsRead (turnedDoc false) = some [.list [some c!"v"]] ∧ stringsRead (turnedDoc true) = some [.list [some c!"v"]] := by
  constructor
  · decide +kernel
  · decide +kernel

set_option maxRecDepth 20000 in
/-- What is written follows the order in which a document was read: the texts differ. -/
theorem C101_written : passedText (turnedDoc false) ≠ passedText (turnedDoc true) := by
  decide +kernel

/-- A hierarchy in two orders. -/
def turnedHierarchy (t : Bool) : Str :=
  c!"<REQ-IF xmlns=\"u\"><CORE-CONTENT><REQ-IF-CONTENT><SPECIFICATIONS><SPECIFICATION IDENTIFIER=\"s\"><CHILDREN>" ++
  c!"<SPEC-HIERARCHY IDENTIFIER=\"h\">" ++ turned t c!"<OBJECT><SPEC-OBJECT-REF>o</SPEC-OBJECT-REF></OBJECT>"
    (c!"<CHILDREN><SPEC-HIERARCHY IDENTIFIER=\"k\"><OBJECT><SPEC-OBJECT-REF>p</SPEC-OBJECT-REF></OBJECT></SPEC-HIERARCHY></CHILDREN>") ++
  c!"</SPEC-HIERARCHY></CHILDREN></SPECIFICATION></SPECIFICATIONS></REQ-IF-CONTENT></CORE-CONTENT></REQ-IF>"

/-- The order of the parts of the uppermost hierarchy nodes. -/
def ordersRead (s : Str) : Option (List Bool) :=
  match parseString s with
  | .ok b => b.coreContent.bind (Option.map fun c =>
      ((c.specifications.getD []).flatMap (·.children.getD [])).map (·.info.refThenChildrenOrder))
  | .error _ => none

set_option maxRecDepth 20000 in
/-- What C101 excludes: a hierarchy node remembers whether its object comes before its children. -/
theorem C101_hierarchy : ordersRead (turnedHierarchy false) = some [true] ∧ ordersRead (turnedHierarchy true) = some [false] := by
  constructor
  · decide +kernel
  · decide +kernel

end ReqIF
