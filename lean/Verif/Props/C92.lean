import Verif.Proofs.Reorder
import Verif.Props.C87
/-!
# C92: the order of attributes

The order in which elements give their attributes does not matter: two documents that differ only there
are parsed to the same bundle and written the same, as XML demands.  The same for documents that
differ in indentation as well.
-/
set_option linter.unusedSimpArgs false
namespace ReqIF
open Spec

/-- **C92**: two documents that are the same but for the order of attributes, below the root element and outside
XHTML content, are parsed to the same bundle (the source elements it remembers taken with sorted
attributes), which is written the same; or both fail with the same exception. -/
theorem C92_document (s s' : Str) (d d' : Doc) (hs : readDoc s = some d) (hs' : readDoc s' = some d')
    (hd : d.decl = d'.decl) (ht : Reordered .root d.root d'.root) :
    (∃ b b', parseString s = .ok b ∧ parseString s' = .ok b' ∧ orderedBundle b = orderedBundle b' ∧
      unparse b = unparse b') ∨
    ∃ e, parseString s = .error e ∧ parseString s' = .error e :=
  order_harmless.documents_ hs hs' hd (ht.same_ (readDoc_sane hs).1)

/-- **C92**, with C87: the same for documents that are laid out differently, in the order of attributes and in the
text between elements. -/
theorem C92_layout (s s' : Str) (d d' : Doc) (x : Node) (hs : readDoc s = some d) (hs' : readDoc s' = some d')
    (hd : d.decl = d'.decl) (hr : Reordered .root d.root x) (ht : unspaced .root x = unspaced .root d'.root) :
    (∃ b b', parseString s = .ok b ∧ parseString s' = .ok b' ∧
      orderedBundle (unspacedBundle b) = orderedBundle (unspacedBundle b') ∧ unparse b = unparse b') ∨
    ∃ e, parseString s = .error e ∧ parseString s' = .error e := by
  have e : ordered .root (unspaced .root d.root) = ordered .root (unspaced .root d'.root) := by
    rw [ordered_unspaced, hr.same_ (readDoc_sane hs).1, ← ordered_unspaced, ht]
  have h1 := order_harmless.document_ (d := { d with root := unspaced .root d.root })
    (d' := { d with root := ordered .root (unspaced .root d.root) }) rfl rfl
  have h2 := order_harmless.document_ (d := { d' with root := unspaced .root d'.root })
    (d' := { d with root := ordered .root (unspaced .root d.root) }) hd.symm e
  rw [unspaced_document (d := d) (d' := { d with root := unspaced .root d.root }) rfl rfl] at h1
  rw [unspaced_document (d := d') (d' := { d' with root := unspaced .root d'.root }) rfl rfl] at h2
  rw [h1, ← parseString_ofDoc hs, ← parseString_ofDoc hs'] at h2
  revert h2
  generalize parseString s = a
  generalize parseString s' = b
  intro h
  cases a with
  | error e => cases b with
    | error e' => cases h; exact .inr ⟨e, rfl, rfl⟩
    | ok _ => cases h
  | ok a => cases b with
    | error _ => cases h
    | ok b =>
      have h : orderedBundle (unspacedBundle a) = orderedBundle (unspacedBundle b) := Except.ok.inj h
      refine .inl ⟨a, b, rfl, rfl, h, ?_⟩
      rw [← unparse_unspaced a, ← unparse_unspaced b, ← order_harmless.unparse_ (unspacedBundle a),
        ← order_harmless.unparse_ (unspacedBundle b)]
      exact congrArg unparse h

/-! ## Concrete cases -/

/-- A document with two texts where attributes may be given. -/
def attributedDoc (o v : Str) : Str :=
  c!"<REQ-IF xmlns=\"u\"><CORE-CONTENT><REQ-IF-CONTENT><SPEC-OBJECTS><SPEC-OBJECT " ++ o ++
  c!"><VALUES><ATTRIBUTE-VALUE-STRING " ++ v ++ c!"><DEFINITION><ATTRIBUTE-DEFINITION-STRING-REF>d" ++
  c!"</ATTRIBUTE-DEFINITION-STRING-REF></DEFINITION></ATTRIBUTE-VALUE-STRING></VALUES><TYPE>" ++
  c!"<SPEC-OBJECT-TYPE-REF>t</SPEC-OBJECT-TYPE-REF></TYPE></SPEC-OBJECT></SPEC-OBJECTS></REQ-IF-CONTENT>" ++
  c!"</CORE-CONTENT></REQ-IF>"

/-- Its tree. -/
def attributedTree (o v : List (Str × Str)) : Node :=
  .elem ⟨some c!"u", none, c!"REQ-IF", [(none, c!"u")], [(none, c!"u")], []⟩ [
    noted c!"CORE-CONTENT" [] [noted c!"REQ-IF-CONTENT" [] [
      noted c!"SPEC-OBJECTS" [] [noted c!"SPEC-OBJECT" o [
        noted c!"VALUES" [] [noted c!"ATTRIBUTE-VALUE-STRING" v [
          noted c!"DEFINITION" [] [noted c!"ATTRIBUTE-DEFINITION-STRING-REF" [] [.text c!"d"]]]],
        noted c!"TYPE" [] [noted c!"SPEC-OBJECT-TYPE-REF" [] [.text c!"t"]]]]]]]

set_option maxRecDepth 20000 in
theorem attributedDoc_read : readDoc (attributedDoc c!"IDENTIFIER=\"o\" LONG-NAME=\"n\" LAST-CHANGE=\"c\"" c!"THE-VALUE=\"v\" X=\"y\"") =
    some ⟨none, [attributedTree [(c!"IDENTIFIER", c!"o"), (c!"LONG-NAME", c!"n"), (c!"LAST-CHANGE", c!"c")]
      [(c!"THE-VALUE", c!"v"), (c!"X", c!"y")]], attributedTree [(c!"IDENTIFIER", c!"o"), (c!"LONG-NAME", c!"n"), (c!"LAST-CHANGE", c!"c")]
      [(c!"THE-VALUE", c!"v"), (c!"X", c!"y")]⟩ :=
  isRootOnly_eq (by decide +kernel)

set_option maxRecDepth 20000 in
theorem attributedDoc_read2 : readDoc (attributedDoc c!"LONG-NAME=\"n\" IDENTIFIER=\"o\" LAST-CHANGE=\"c\"" c!"X=\"y\" THE-VALUE=\"v\"") =
    some ⟨none, [attributedTree [(c!"LONG-NAME", c!"n"), (c!"IDENTIFIER", c!"o"), (c!"LAST-CHANGE", c!"c")]
      [(c!"X", c!"y"), (c!"THE-VALUE", c!"v")]], attributedTree [(c!"LONG-NAME", c!"n"), (c!"IDENTIFIER", c!"o"), (c!"LAST-CHANGE", c!"c")]
      [(c!"X", c!"y"), (c!"THE-VALUE", c!"v")]⟩ :=
  isRootOnly_eq (by decide +kernel)

theorem noted_reordered {p : Part} {name : Str} {as as' : List (Str × Str)} {ks ks' ls ls' : List Node} (hp : p.inner name ≠ .fixed)
    (hr : p.inner name ≠ .root) (h : as.Perm as') (hk : ReorderedKids (p.inner name) ks ks') (hl : ReorderedKids p ls ls') :
    ReorderedKids p (noted name as ks :: ls) (noted name as' ks' :: ls') :=
  .cons (Reordered.elem (i := ⟨some c!"u", none, name, [], [(none, c!"u")], as.map (fun a : Str × Str => ⟨none, none, a.1, a.2⟩)⟩)
    (attrs := as'.map (fun a : Str × Str => ⟨none, none, a.1, a.2⟩)) hp (fun e => absurd e hr) (h.map _) hk) hl

theorem attributedTree_reordered {o o' v v' : List (Str × Str)} (ho : o.Perm o') (hv : v.Perm v') :
    Reordered .root (attributedTree o v) (attributedTree o' v') := by
  refine Reordered.elem (i := ⟨some c!"u", none, c!"REQ-IF", [(none, c!"u")], [(none, c!"u")], []⟩) (by decide) (fun _ => rfl) (.refl _) ?_
  refine noted_reordered (by decide) (by decide) (.refl _) ?_ (.nil _)
  refine noted_reordered (by decide) (by decide) (.refl _) ?_ (.nil _)
  refine noted_reordered (by decide) (by decide) (.refl _) ?_ (.nil _)
  refine noted_reordered (by decide) (by decide) ho ?_ (.nil _)
  refine noted_reordered (by decide) (by decide) (.refl _) ?_ (.cons (.same _ _) (.nil _))
  exact noted_reordered (by decide) (by decide) hv (.cons (.same _ _) (.nil _)) (.nil _)

/-- The hypotheses of `C92_document` are met: the attributes of a spec object and of a value in two orders. -/
example : ∃ d d', readDoc (attributedDoc c!"IDENTIFIER=\"o\" LONG-NAME=\"n\" LAST-CHANGE=\"c\"" c!"THE-VALUE=\"v\" X=\"y\"") = some d ∧
    readDoc (attributedDoc c!"LONG-NAME=\"n\" IDENTIFIER=\"o\" LAST-CHANGE=\"c\"" c!"X=\"y\" THE-VALUE=\"v\"") = some d' ∧
    d.decl = d'.decl ∧ Reordered .root d.root d'.root :=
  ⟨_, _, attributedDoc_read, attributedDoc_read2, rfl, attributedTree_reordered (.swap _ _ _) (.swap _ _ _)⟩

/-- The hypotheses of `C92_layout` are met. -/
example : ∃ d d' x, readDoc (attributedDoc c!"IDENTIFIER=\"o\" LONG-NAME=\"n\" LAST-CHANGE=\"c\"" c!"THE-VALUE=\"v\" X=\"y\"") = some d ∧
    readDoc (attributedDoc c!"LONG-NAME=\"n\" IDENTIFIER=\"o\" LAST-CHANGE=\"c\"" c!"X=\"y\" THE-VALUE=\"v\"") = some d' ∧
    d.decl = d'.decl ∧ Reordered .root d.root x ∧ unspaced .root x = unspaced .root d'.root :=
  ⟨_, _, _, attributedDoc_read, attributedDoc_read2, rfl, attributedTree_reordered (.swap _ _ _) (.swap _ _ _), rfl⟩

set_option maxRecDepth 20000 in
example : stringsRead (attributedDoc c!"LONG-NAME=\"n\" IDENTIFIER=\"o\" LAST-CHANGE=\"c\"" c!"X=\"y\" THE-VALUE=\"v\"") = some [.str c!"v"] := by
  decide +kernel

set_option maxRecDepth 20000 in
/-- What C92 excludes: an XHTML value is a text, and keeps the attributes in the order in which they are given. -/
theorem C92_xhtml : stringsRead (spacedValueDoc c!"<h:b x=\"1\" y=\"2\"/>") = some [.str c!"<h:b x=\"1\" y=\"2\"/>"] ∧
    stringsRead (spacedValueDoc c!"<h:b y=\"2\" x=\"1\"/>") = some [.str c!"<h:b y=\"2\" x=\"1\"/>"] := by
  constructor
  · decide +kernel
  · decide +kernel

/-- The text written for a document. -/
def passedText (s : Str) : Option Str :=
  match parseString s with
  | .ok b => match unparse b with
    | .ok out => some out
    | .error _ => none
  | .error _ => none

set_option maxRecDepth 20000 in
/-- The root element is written as it was read, with the attributes in the same order. -/
theorem C92_root : passedText c!"<REQ-IF x=\"1\" y=\"2\"><TOOL-EXTENSIONS/></REQ-IF>" ≠
    passedText c!"<REQ-IF y=\"2\" x=\"1\"><TOOL-EXTENSIONS/></REQ-IF>" := by
  decide +kernel

end ReqIF
