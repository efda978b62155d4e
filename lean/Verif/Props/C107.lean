import Verif.Proofs.Decorate
import Verif.Props.C101
import Verif.Props.C92
/-!
# C107: attributes that ReqIF does not have

Tools add attributes of their own.  Those in no namespace and with a name that ReqIF does not use are
ignored, on all elements below the root and outside XHTML content: the bundle, the text written
for it and what the commands show are the same with and without them.
-/
set_option linter.unusedSimpArgs false
namespace ReqIF
open Spec

/-- **C107**: two documents that are the same but for unknown attributes are parsed to the same bundle (the
source elements it remembers taken without unknown attributes), which is written the same; or both fail with the
same exception. -/
theorem C107_document (s s' : Str) (d d' : Doc) (hs : readDoc s = some d) (hs' : readDoc s' = some d')
    (hd : d.decl = d'.decl) (ht : Decorated .root d.root d'.root) :
    (∃ b b', parseString s = .ok b ∧ parseString s' = .ok b' ∧ sourceless b = sourceless b' ∧
      bundleBy undecorated b = bundleBy undecorated b' ∧ unparse b = unparse b') ∨
    ∃ e, parseString s = .error e ∧ parseString s' = .error e := by
  rcases decoration_harmless.documents_ hs hs' hd ht.same_ with ⟨b, b', h1, h2, h3, h4⟩ | h
  · exact .inl ⟨b, b', h1, h2, sourceless_by h3, h3, h4⟩
  · exact .inr h

/-- **C107**, with C87, C92 and C101: the same for documents that differ in unknown attributes, in the order of
attributes, in the order of parts and in the text between elements. -/
theorem C107_layout (s s' : Str) (d d' : Doc) (w x y : Node) (hs : readDoc s = some d) (hs' : readDoc s' = some d')
    (hd : d.decl = d'.decl) (hr : Reordered .root d.root w) (hw : Decorated .root w x) (hx : Shuffled .root x y)
    (ht : unspaced .root y = unspaced .root d'.root) :
    (∃ b b', parseString s = .ok b ∧ parseString s' = .ok b' ∧ sourceless b = sourceless b') ∨
    ∃ e, parseString s = .error e ∧ parseString s' = .error e := by
  have h1 := order_harmless.tolerant.sourceless_ (d := d) (d' := { d with root := w }) rfl (hr.same_ (readDoc_sane hs).1)
  have h0 := decoration_harmless.tolerant.sourceless_ (d := { d with root := w }) (d' := { d with root := x }) rfl hw.same_
  have h2 := shuffle_tolerant.sourceless_ (d := { d with root := x }) (d' := { d with root := y }) rfl hx.same_
  have h3 := spacing_harmless.tolerant.sourceless_ (d := { d with root := y }) (d' := d') hd ht
  have h := h1.trans (h0.trans (h2.trans h3))
  rw [← parseString_ofDoc hs, ← parseString_ofDoc hs'] at h
  revert h
  generalize parseString s = a
  generalize parseString s' = b
  intro h
  cases a with
  | error e => cases b with
    | error e' => cases h; exact .inr ⟨e, rfl, rfl⟩
    | ok _ => cases h
  | ok a => cases b with
    | error _ => cases h
    | ok b => exact .inl ⟨a, b, rfl, rfl, Except.ok.inj h⟩

/-- **C107**, with C95: such documents have the same page and the same issues in the validation. -/
theorem C107_shown (s s' : Str) (d d' : Doc) (w x y : Node) (hs : readDoc s = some d) (hs' : readDoc s' = some d')
    (hd : d.decl = d'.decl) (hr : Reordered .root d.root w) (hw : Decorated .root w x) (hx : Shuffled .root x y)
    (ht : unspaced .root y = unspaced .root d'.root) : ShownAlike s s' := by
  rcases C107_layout s s' d d' w x y hs hs' hd hr hw hx ht with ⟨b, b', h1, h2, h3⟩ | ⟨e, h1, h2⟩
  · have g := congrArg view h3
    have g' := congrArg (fun b => b.exceptions.map unquotedTag) h3
    unfold sourceless at g g'
    rw [(view_by _ _).1, (view_by _ _).1] at g
    rw [(view_by _ _).2, (view_by _ _).2] at g'
    exact shown_ok h1 h2 g g'
  · exact shown_error h1 h2

/-- The text that passthrough writes does not have the unknown attributes: it is the one written for the document
without them. -/
theorem C107_dropped (s s' : Str) (d d' : Doc) (hs : readDoc s = some d) (hs' : readDoc s' = some d')
    (hd : d.decl = d'.decl) (ht : Decorated .root d.root d'.root) : passedText s = passedText s' := by
  rcases C107_document s s' d d' hs hs' hd ht with ⟨b, b', h1, h2, -, -, h3⟩ | ⟨e, h1, h2⟩
  · simp only [passedText, h1, h2, h3]
  · simp only [passedText, h1, h2]

/-! ## Concrete cases -/

set_option maxRecDepth 20000 in
theorem decoratedDoc_read : readDoc (attributedDoc c!"IDENTIFIER=\"o\" ID=\"1\"" c!"THE-VALUE=\"v\" X=\"y\"") =
    some ⟨none, [attributedTree [(c!"IDENTIFIER", c!"o"), (c!"ID", c!"1")] [(c!"THE-VALUE", c!"v"), (c!"X", c!"y")]],
      attributedTree [(c!"IDENTIFIER", c!"o"), (c!"ID", c!"1")] [(c!"THE-VALUE", c!"v"), (c!"X", c!"y")]⟩ :=
  isRootOnly_eq (by decide +kernel)

set_option maxRecDepth 20000 in
theorem decoratedDoc_read2 : readDoc (attributedDoc c!"IDENTIFIER=\"o\"" c!"identifier=\"z\" THE-VALUE=\"v\"") =
    some ⟨none, [attributedTree [(c!"IDENTIFIER", c!"o")] [(c!"identifier", c!"z"), (c!"THE-VALUE", c!"v")]],
      attributedTree [(c!"IDENTIFIER", c!"o")] [(c!"identifier", c!"z"), (c!"THE-VALUE", c!"v")]⟩ :=
  isRootOnly_eq (by decide +kernel)

/-- The attributes in no namespace. -/
def notedAttrs (as : List (Str × Str)) : List Attr := as.map (fun a => ⟨none, none, a.1, a.2⟩)

theorem noted_decorated {p : Part} {name : Str} {as as' : List (Str × Str)} {ks ks' ls ls' : List Node} (hp : p.inner name ≠ .fixed)
    (hr : p.inner name ≠ .root) (h : (notedAttrs as).filter isReadAttr = (notedAttrs as').filter isReadAttr)
    (hk : DecoratedKids (p.inner name) ks ks') (hl : DecoratedKids p ls ls') :
    DecoratedKids p (noted name as ks :: ls) (noted name as' ks' :: ls') :=
  .cons (Decorated.elem (i := ⟨some c!"u", none, name, [], [(none, c!"u")], notedAttrs as⟩)
    (attrs := notedAttrs as') hp (fun e => absurd e hr) h hk) hl

theorem attributedTree_decorated {o o' v v' : List (Str × Str)}
    (ho : (notedAttrs o).filter isReadAttr = (notedAttrs o').filter isReadAttr)
    (hv : (notedAttrs v).filter isReadAttr = (notedAttrs v').filter isReadAttr) :
    Decorated .root (attributedTree o v) (attributedTree o' v') := by
  refine Decorated.elem (i := ⟨some c!"u", none, c!"REQ-IF", [(none, c!"u")], [(none, c!"u")], []⟩) (by decide) (fun _ => rfl) rfl ?_
  refine noted_decorated (by decide) (by decide) rfl ?_ (.nil _)
  refine noted_decorated (by decide) (by decide) rfl ?_ (.nil _)
  refine noted_decorated (by decide) (by decide) rfl ?_ (.nil _)
  refine noted_decorated (by decide) (by decide) ho ?_ (.nil _)
  refine noted_decorated (by decide) (by decide) rfl ?_ (.cons (.same _ _) (.nil _))
  exact noted_decorated (by decide) (by decide) hv (.cons (.same _ _) (.nil _)) (.nil _)

/-- The hypotheses of `C107_document` and `C107_dropped` are met: a spec object and a value with unknown attributes,
different ones in the two documents. -/
example : ∃ d d', readDoc (attributedDoc c!"IDENTIFIER=\"o\" ID=\"1\"" c!"THE-VALUE=\"v\" X=\"y\"") = some d ∧
    readDoc (attributedDoc c!"IDENTIFIER=\"o\"" c!"identifier=\"z\" THE-VALUE=\"v\"") = some d' ∧
    d.decl = d'.decl ∧ Decorated .root d.root d'.root :=
  ⟨_, _, decoratedDoc_read, decoratedDoc_read2, rfl, attributedTree_decorated (by decide) (by decide)⟩

/-- Unknown attributes may also be on a reference and on a field of the header. -/
example : DecoratedKids .flat [noted c!"SPEC-OBJECT-TYPE-REF" [] [.text c!"t"]]
      [noted c!"SPEC-OBJECT-TYPE-REF" [(c!"X", c!"1")] [.text c!"t"]] ∧
    DecoratedKids .fields [noted c!"TITLE" [] [.text c!"t"]] [noted c!"TITLE" [(c!"X", c!"1")] [.text c!"t"]] :=
  ⟨noted_decorated (by decide) (by decide) (by decide) (.cons (.same _ _) (.nil _)) (.nil _),
   noted_decorated (by decide) (by decide) (by decide) (.cons (.same _ _) (.nil _)) (.nil _)⟩

/-- Those of `C107_layout` and `C107_shown`. -/
example : ∃ d d' w x y, readDoc (attributedDoc c!"IDENTIFIER=\"o\" ID=\"1\"" c!"THE-VALUE=\"v\" X=\"y\"") = some d ∧
    readDoc (attributedDoc c!"IDENTIFIER=\"o\"" c!"identifier=\"z\" THE-VALUE=\"v\"") = some d' ∧
    d.decl = d'.decl ∧ Reordered .root d.root w ∧ Decorated .root w x ∧ Shuffled .root x y ∧
    unspaced .root y = unspaced .root d'.root :=
  ⟨_, _, _, _, _, decoratedDoc_read, decoratedDoc_read2, rfl, .same _ _,
    attributedTree_decorated (by decide) (by decide), .same _ _, rfl⟩

set_option maxRecDepth 20000 in
/-- Both are read and written. -/
theorem C107_read : stringsRead (attributedDoc c!"IDENTIFIER=\"o\" ID=\"1\"" c!"THE-VALUE=\"v\" X=\"y\"") = some [.str c!"v"] ∧
    (passedText (attributedDoc c!"IDENTIFIER=\"o\" ID=\"1\"" c!"THE-VALUE=\"v\" X=\"y\"")).isSome = true := by
  constructor
  · decide +kernel
  · decide +kernel

set_option maxRecDepth 20000 in
/-- Names are taken with their case: another spelling of a name that is read is an unknown name, and the attribute
is then missing. -/
theorem C107_case : stringsRead (attributedDoc c!"IDENTIFIER=\"o\"" c!"the-value=\"v\"") = none := by
  decide +kernel

end ReqIF
