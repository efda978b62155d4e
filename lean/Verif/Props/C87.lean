import Verif.Proofs.Spacing
import Verif.Props.C67
import Verif.Props.C60Doc
/-!
# C87: indentation

Line breaks and indentation between elements do not matter: two documents that differ only
there are parsed to the same bundle and written the same.  So the format command does not change
what is read, unless there is XHTML content.
-/
set_option linter.unusedSimpArgs false
namespace ReqIF
open Spec

/-- **C87**: two documents that are the same but for the text between elements are parsed to
the same bundle (the source elements it remembers taken without this text), which is written the
same; or both fail with the same exception. -/
theorem C87_document (s s' : Str) (d d' : Doc) (hs : readDoc s = some d) (hs' : readDoc s' = some d')
    (hd : d.decl = d'.decl) (ht : unspaced .root d.root = unspaced .root d'.root) :
    (∃ b b', parseString s = .ok b ∧ parseString s' = .ok b' ∧ unspacedBundle b = unspacedBundle b' ∧
      unparse b = unparse b') ∨
    ∃ e, parseString s = .error e ∧ parseString s' = .error e := by
  have h1 := unspaced_document (d := d) (d' := { d with root := unspaced .root d.root }) rfl rfl
  have h2 := unspaced_document (d := d') (d' := { d with root := unspaced .root d.root }) hd.symm ht
  rw [h1, ← parseString_ofDoc hs, ← parseString_ofDoc hs'] at h2
  revert h2
  generalize parseString s = a
  generalize parseString s' = b
  intro h
  cases a with
  | error e => cases b with
    | error e' => cases h; exact .inr ⟨e, rfl, rfl⟩
    | ok _ => cases h
  | ok a => cases b with
    | error _ => cases h
    | ok b =>
      have h := Except.ok.inj h
      refine .inl ⟨a, b, rfl, rfl, h, ?_⟩
      rw [← unparse_unspaced a, ← unparse_unspaced b, h]

/-! ## The declaration -/

theorem undeclared_document (d d' : Doc) (hr : d.root = d'.root) :
    pyMap undeclared (parseReqif (none : Option (Callback Unit)) d ()).1 =
      pyMap undeclared (parseReqif (none : Option (Callback Unit)) d' ()).1 := by
  unfold parseReqif
  simp only [M.bind, M.lift, hr]
  cases strippedRoot d'.root with
  | error e => rfl
  | ok r =>
    dsimp only
    split
    · split
      · rfl
      · cases optPy parseHeader (r.find c!"THE-HEADER") with
        | error e => rfl
        | ok hdr =>
          simp only [M.bind, M.pure]
          rw [parseCore_state r]
          cases (parseCore (none : Option (Callback Unit)) r ()).1 with
          | error e => rfl
          | ok r => simp only [pyMap, undeclared, namespaceInfoOf, hr]
    · rfl

theorem unparse_undeclared (b : Bundle) : unparse (undeclared b) = unparse b := rfl

/-! ## Formatting -/

mutual
theorem core_localName (n : Node) : localName (core n) = localName n :=
  match n with
  | .elem i ks => by
    simp only [core]
    split
    · rfl
    · split <;> rfl
  | .text _ => rfl
  | .comment _ => rfl
  | .pi _ _ => rfl
end

theorem coreAll_allText (ks : List Node) : (coreAll ks).all Node.isText = ks.all Node.isText := by
  induction ks with
  | nil => rfl
  | cons k ks ih => simp only [coreAll, List.all_cons, Format.core_isText, ih]

theorem filtered_allText {ks : List Node} (h : ks.all Node.isText = false) :
    ((coreAll ks).filter (fun k => !isSpacing k)).all Node.isText = false := by
  rw [← coreAll_allText] at h
  revert h
  generalize coreAll ks = l
  intro h
  rw [List.all_eq_false] at h ⊢
  obtain ⟨k, hk, hn⟩ := h
  refine ⟨k, List.mem_filter.2 ⟨hk, ?_⟩, hn⟩
  cases k <;> simp [Node.isText, isSpacing] at hn ⊢

theorem unspacedKids_filter (p : Part) (ks : List Node) :
    unspacedKids p (ks.filter (fun k => !isSpacing k)) = unspacedKids p ks := by
  induction ks with
  | nil => rfl
  | cons k ks ih =>
    rw [List.filter_cons]
    cases h : isSpacing k with
    | true =>
      have : k.isText = true := by cases k <;> simp [isSpacing] at h; rfl
      simp only [Bool.not_true, Bool.false_eq_true, if_false, ih, unspacedKids, this, if_true]
    | false => simp only [Bool.not_false, if_true, unspacedKids, ih]

theorem onlyTextsKids_filter (p : Part) (ks : List Node) :
    onlyTextsKids p (ks.filter (fun k => !isSpacing k)) = onlyTextsKids p ks := by
  induction ks with
  | nil => rfl
  | cons k ks ih =>
    rw [List.filter_cons]
    cases h : isSpacing k with
    | true =>
      have : ∀ q, onlyTexts q k = true := by intro q; cases k <;> simp [isSpacing] at h; rfl
      simp only [Bool.not_true, Bool.false_eq_true, if_false, ih, onlyTextsKids, this, Bool.true_and]
    | false => simp only [Bool.not_false, if_true, onlyTextsKids, ih]

theorem onlyTextsKids_texts (p : Part) (ks : List Node) (h : ks.all Node.isText = true) : onlyTextsKids p ks = true := by
  induction ks with
  | nil => rfl
  | cons k ks ih =>
    simp only [List.all_cons, Bool.and_eq_true] at h
    have : ∀ q, onlyTexts q k = true := by intro q; cases k <;> simp [Node.isText] at h; rfl
    simp only [onlyTextsKids, this, ih h.2, Bool.and_self]

mutual
theorem onlyTexts_core (p : Part) (n : Node) : onlyTexts p (core n) = onlyTexts p n :=
  match n with
  | .elem i ks => by
    simp only [core]
    split
    · rfl
    · rename_i h
      have h : ks.all Node.isText = false := by simpa using h
      split
      · simp only [onlyTexts, coreAll_allText, onlyTexts_coreAll p ks]
      · simp only [onlyTexts, filtered_allText h, onlyTextsKids_filter, onlyTexts_coreAll p ks, h]
  | .text _ => rfl
  | .comment _ => rfl
  | .pi _ _ => rfl

theorem onlyTexts_coreAll (p : Part) (ks : List Node) : onlyTextsKids p (coreAll ks) = onlyTextsKids p ks :=
  match ks with
  | [] => rfl
  | k :: ks => by
    simp only [coreAll, onlyTextsKids, core_localName, onlyTexts_core _ k, onlyTexts_coreAll p ks]
end

mutual
theorem unspaced_of_core (p : Part) (n : Node) (h : onlyTexts p n = true) : unspaced p (core n) = unspaced p n :=
  match n with
  | .elem i ks => by
    simp only [core]
    split
    · rfl
    · rename_i ht
      have ht : ks.all Node.isText = false := by simpa using ht
      have hp : ¬ (p = .fixed ∨ p = .word) := by
        rintro (rfl | rfl) <;> simp [onlyTexts, ht] at h
      simp only [onlyTexts, if_neg hp] at h
      have hp' : p ≠ .fixed ∧ p ≠ .word := not_or.mp hp
      split
      · simp only [unspaced, coreAll_allText, ht, hp'.1, hp'.2, Bool.false_eq_true, or_self, if_false, unspacedKids_of_core p ks h]
      · simp only [unspaced, filtered_allText ht, ht, hp'.1, hp'.2, Bool.false_eq_true, or_self, if_false, unspacedKids_filter,
          unspacedKids_of_core p ks h]
  | .text _ => rfl
  | .comment _ => rfl
  | .pi _ _ => rfl

theorem unspacedKids_of_core (p : Part) (ks : List Node) (h : onlyTextsKids p ks = true) :
    unspacedKids p (coreAll ks) = unspacedKids p ks :=
  match ks with
  | [] => rfl
  | k :: ks => by
    simp only [onlyTextsKids, Bool.and_eq_true] at h
    simp only [coreAll, unspacedKids, Format.core_isText, core_localName, unspaced_of_core _ k h.1, unspacedKids_of_core p ks h.2]
end

/-- **C87**, the format command: a document without XHTML content is formatted to one that is
parsed to the same bundle, apart from what is remembered of the XML declaration and of the text
between elements, and written the same; or both fail with the same exception. -/
theorem C87_format (keep : List Nat → Bool) (text : Str) (d : Doc) (h : readDoc text = some d)
    (ha : asciiMarkupAll d.nodes = true) (hn : noEmptyTextAll d.nodes = true) (hx : onlyTexts .root d.root = true) :
    ∃ out, Format.formatText keep text = some out ∧
      ((∃ b b', parseString text = .ok b ∧ parseString out = .ok b' ∧
          unspacedBundle (undeclared b) = unspacedBundle (undeclared b') ∧ unparse b = unparse b') ∨
        ∃ e, parseString text = .error e ∧ parseString out = .error e) := by
  obtain ⟨out, d', h1, _, h3, _, _, h6⟩ := Format.C67_content keep text d h ha hn
  refine ⟨out, h1, ?_⟩
  have hx' : onlyTexts .root d'.root = true := by rw [← onlyTexts_core, h6, onlyTexts_core]; exact hx
  have ht : unspaced .root d'.root = unspaced .root d.root := by
    rw [← unspaced_of_core _ _ hx, ← unspaced_of_core _ _ hx', h6]
  have e1 := unspaced_document (d := d) (d' := { d with root := unspaced .root d.root }) rfl rfl
  have e2 := unspaced_document (d := d') (d' := { d' with root := unspaced .root d'.root }) rfl rfl
  have e3 := undeclared_document { d with root := unspaced .root d.root } { d' with root := unspaced .root d'.root } ht.symm
  rw [e1, e2, ← parseString_ofDoc h, ← parseString_ofDoc h3] at e3
  revert e3
  generalize parseString text = a
  generalize parseString out = b
  intro h
  cases a with
  | error e => cases b with
    | error e' => cases h; exact .inr ⟨e, rfl, rfl⟩
    | ok _ => cases h
  | ok a => cases b with
    | error _ => cases h
    | ok b =>
      have h := Except.ok.inj h
      refine .inl ⟨a, b, rfl, rfl, h, ?_⟩
      rw [← unparse_unspaced a, ← unparse_unspaced b, ← unparse_undeclared (unspacedBundle a),
        ← unparse_undeclared (unspacedBundle b), h]

/-! ## Concrete cases -/

/-- A document with the given text between its elements. -/
def spacedDoc (w : Str) : Str :=
  c!"<REQ-IF xmlns=\"u\">" ++ w ++ c!"<THE-HEADER>" ++ w ++ c!"<REQ-IF-HEADER IDENTIFIER=\"h\">" ++ w ++ c!"<TITLE>x y</TITLE>" ++ w ++
  c!"</REQ-IF-HEADER>" ++ w ++ c!"</THE-HEADER>" ++ w ++ c!"<CORE-CONTENT>" ++ w ++ c!"<REQ-IF-CONTENT>" ++ w ++ c!"<SPEC-OBJECTS>" ++ w ++
  c!"<SPEC-OBJECT IDENTIFIER=\"o\">" ++ w ++ c!"<VALUES>" ++ w ++ c!"<ATTRIBUTE-VALUE-STRING THE-VALUE=\"v\">" ++ w ++
  c!"<DEFINITION>" ++ w ++ c!"<ATTRIBUTE-DEFINITION-STRING-REF>d</ATTRIBUTE-DEFINITION-STRING-REF>" ++ w ++ c!"</DEFINITION>" ++ w ++
  c!"</ATTRIBUTE-VALUE-STRING>" ++ w ++ c!"</VALUES>" ++ w ++ c!"<TYPE>" ++ w ++ c!"<SPEC-OBJECT-TYPE-REF>t</SPEC-OBJECT-TYPE-REF>" ++ w ++
  c!"</TYPE>" ++ w ++ c!"</SPEC-OBJECT>" ++ w ++ c!"</SPEC-OBJECTS>" ++ w ++ c!"</REQ-IF-CONTENT>" ++ w ++ c!"</CORE-CONTENT>" ++ w ++
  c!"</REQ-IF>"

/-- Its tree. -/
def spacedTree (w : List Node) : Node :=
  .elem ⟨some c!"u", none, c!"REQ-IF", [(none, c!"u")], [(none, c!"u")], []⟩ (
    w ++ [noted c!"THE-HEADER" [] (w ++ [noted c!"REQ-IF-HEADER" [(c!"IDENTIFIER", c!"h")]
      (w ++ [noted c!"TITLE" [] [.text c!"x y"]] ++ w)] ++ w)] ++ w ++
    [noted c!"CORE-CONTENT" [] (w ++ [noted c!"REQ-IF-CONTENT" [] (w ++ [
      noted c!"SPEC-OBJECTS" [] (w ++ [noted c!"SPEC-OBJECT" [(c!"IDENTIFIER", c!"o")] (w ++ [
        noted c!"VALUES" [] (w ++ [noted c!"ATTRIBUTE-VALUE-STRING" [(c!"THE-VALUE", c!"v")] (w ++ [
          noted c!"DEFINITION" [] (w ++ [noted c!"ATTRIBUTE-DEFINITION-STRING-REF" [] [.text c!"d"]] ++ w)] ++ w)] ++ w)] ++ w ++ [
        noted c!"TYPE" [] (w ++ [noted c!"SPEC-OBJECT-TYPE-REF" [] [.text c!"t"]] ++ w)] ++ w)] ++ w)] ++ w)] ++ w)] ++ w)

set_option maxRecDepth 20000 in
theorem spacedDoc_read : readDoc (spacedDoc []) = some ⟨none, [spacedTree []], spacedTree []⟩ :=
  isRootOnly_eq (by decide +kernel)

set_option maxRecDepth 20000 in
theorem spacedDoc_read2 : readDoc (spacedDoc c!"\n  ") =
    some ⟨none, [spacedTree [.text c!"\n  "]], spacedTree [.text c!"\n  "]⟩ :=
  isRootOnly_eq (by decide +kernel)

/-- The hypotheses of `C87_document` are met: a document on one line, and the same with a line
break and spaces at every place. -/
example : ∃ d d', readDoc (spacedDoc []) = some d ∧ readDoc (spacedDoc c!"\n  ") = some d' ∧
    d.decl = d'.decl ∧ unspaced .root d.root = unspaced .root d'.root := ⟨_, _, spacedDoc_read, spacedDoc_read2, rfl, rfl⟩

/-- The values of the spec objects of a document. -/
def stringsRead (s : Str) : Option (List AttrValue) :=
  match parseString s with
  | .ok b => b.coreContent.bind (Option.map fun c => ((c.specObjects.getD []).flatMap (·.attributes)).map (·.value))
  | .error _ => none

set_option maxRecDepth 20000 in
example : stringsRead (spacedDoc c!"\n  ") = some [.str c!"v"] := by decide +kernel

/-- The hypotheses of `C87_format` are met. -/
example : ∃ d, readDoc (spacedDoc []) = some d ∧ asciiMarkupAll d.nodes = true ∧ noEmptyTextAll d.nodes = true ∧
    onlyTexts .root d.root = true := ⟨_, spacedDoc_read, rfl, rfl, rfl⟩

/-- A document with an XHTML value. -/
def spacedValueDoc (value : Str) : Str :=
  c!"<REQ-IF xmlns=\"u\" xmlns:h=\"http://www.w3.org/1999/xhtml\"><CORE-CONTENT><REQ-IF-CONTENT><SPEC-OBJECTS>" ++
  c!"<SPEC-OBJECT IDENTIFIER=\"o\"><VALUES><ATTRIBUTE-VALUE-XHTML><DEFINITION><ATTRIBUTE-DEFINITION-XHTML-REF>d" ++
  c!"</ATTRIBUTE-DEFINITION-XHTML-REF></DEFINITION><THE-VALUE>" ++ value ++ c!"</THE-VALUE></ATTRIBUTE-VALUE-XHTML></VALUES>" ++
  c!"<TYPE><SPEC-OBJECT-TYPE-REF>t</SPEC-OBJECT-TYPE-REF></TYPE></SPEC-OBJECT></SPEC-OBJECTS></REQ-IF-CONTENT>" ++
  c!"</CORE-CONTENT></REQ-IF>"

set_option maxRecDepth 20000 in
/-- What `C87_format` excludes: in XHTML content formatting adds line breaks and spaces, and
these become part of the value. -/
theorem C87_xhtml : stringsRead (spacedValueDoc c!"<h:b>a</h:b><h:i>b</h:i>") = some [.str c!"<h:b>a</h:b><h:i>b</h:i>"] ∧
    (Format.formatText (fun _ => false) (spacedValueDoc c!"<h:b>a</h:b><h:i>b</h:i>")).bind stringsRead =
      some [.str c!"\n                <h:b>a</h:b>\n                <h:i>b</h:i>\n              "] := by
  constructor
  · decide +kernel
  · decide +kernel

/-- A document with a reference, and the reference read. -/
def spacedRefDoc (ref : Str) : Str :=
  c!"<REQ-IF><CORE-CONTENT><REQ-IF-CONTENT><SPEC-OBJECTS><SPEC-OBJECT IDENTIFIER=\"o\"><TYPE><SPEC-OBJECT-TYPE-REF>" ++ ref ++
  c!"</SPEC-OBJECT-TYPE-REF></TYPE></SPEC-OBJECT></SPEC-OBJECTS></REQ-IF-CONTENT></CORE-CONTENT></REQ-IF>"

def refsRead (s : Str) : Option (List (Option Str)) :=
  match parseString s with
  | .ok b => b.coreContent.bind (Option.map fun c => (c.specObjects.getD []).map (·.specObjectType))
  | .error _ => none

set_option maxRecDepth 20000 in
/-- Text in an element without children is not spacing: a reference is read with it. -/
theorem C87_reference : refsRead (spacedRefDoc c!"t") = some [some c!"t"] ∧
    refsRead (spacedRefDoc c!"\n  t\n") = some [some c!"\n  t\n"] := by
  constructor
  · decide +kernel
  · decide +kernel

end ReqIF
