import Verif.Proofs.Renamed
import Verif.Props.C92
import Verif.Props.C24_26
/-!
# C93: namespaces and prefixes

In a document with a default namespace the namespaces and prefixes of ReqIF elements do not matter: documents that
differ only there are parsed to the same bundle, but for what is remembered of the root element, and
are written the same but for the root's tag.  A document that uses a prefix and declares no default namespace is refused.
-/
set_option linter.unusedSimpArgs false
namespace ReqIF
open Spec

theorem renamed_reqif {free : Option Str → Bool} {d d' : Doc} (h : Renamed free d.root d'.root)
    (hn : declaresDefault d.root) (hn' : declaresDefault d'.root) (he : ∃ i ks, d.root = .elem i ks) :
    (∃ b b', (parseReqif (none : Option (Callback Unit)) d ()).1 = .ok b ∧ (parseReqif (none : Option (Callback Unit)) d' ()).1 = .ok b' ∧
      b' = { b with namespaceInfo := b'.namespaceInfo } ∧
      (d.root.len ≠ 0 → (∃ t, b.namespaceInfo.originalReqifTagDump = some t) ∧ ∃ t, b'.namespaceInfo.originalReqifTagDump = some t)) ∨
    ∃ e, (parseReqif (none : Option (Callback Unit)) d ()).1 = .error e ∧ (parseReqif (none : Option (Callback Unit)) d' ()).1 = .error e := by
  have hs := h.stripped_ hn hn'
  unfold parseReqif
  simp only [M.bind, M.lift, ← hs]
  cases hr : strippedRoot d.root with
  | error e => exact .inr ⟨e, rfl, rfl⟩
  | ok r =>
    dsimp only
    by_cases ht : r.tag = .name c!"REQ-IF"
    · rw [if_pos ht, if_pos ht]
      by_cases hl : r.len = 0
      · rw [if_pos hl, if_pos hl]
        refine .inl ⟨_, _, rfl, rfl, rfl, fun hc => ?_⟩
        rw [strippedRoot_len hr he] at hl
        exact absurd hl hc
      · rw [if_neg hl, if_neg hl]
        cases optPy parseHeader (r.find c!"THE-HEADER") with
        | error e => exact .inr ⟨e, rfl, rfl⟩
        | ok hdr =>
          simp only [M.bind, M.pure]
          rw [parseCore_state r]
          cases (parseCore (none : Option (Callback Unit)) r ()).1 with
          | error e => exact .inr ⟨e, rfl, rfl⟩
          | ok r => exact .inl ⟨_, _, rfl, rfl, rfl, fun _ => ⟨⟨_, rfl⟩, _, rfl⟩⟩
    · rw [if_neg ht, if_neg ht]
      exact .inr ⟨_, rfl, rfl⟩

/-- What `unparse` prints after the tag of the root. -/
theorem unparse_tag (b : Bundle) : ∃ rest : Py Str, ∀ i t, i.originalReqifTagDump = some t →
    unparse { b with namespaceInfo := i } = pyMap (fun r => xmlDeclLine ++ t ++ c!"\n" ++ r) rest := by
  refine ⟨match optPy unparseHeader b.header with
    | .error e => .error e
    | .ok header => match (unparseCore (none : Option (Callback Unit)) b.coreContent ()).1 with
      | .error e => .error e
      | .ok core => .ok (header.getD [] ++ core ++
        (if b.toolExtensionsTagExists then lineOpen 2 c!"TOOL-EXTENSIONS" ++ lineClose 2 c!"TOOL-EXTENSIONS" else []) ++ c!"</REQ-IF>\n"), ?_⟩
  intro i t h
  simp only [unparse, unparseM, unparseNamespaceInfo, h, M.bind, M.lift]
  cases optPy unparseHeader b.header with
  | error e => rfl
  | ok header =>
    dsimp only
    rw [show unparseCore (none : Option (Callback Unit)) b.coreContent () =
      ((unparseCore (none : Option (Callback Unit)) b.coreContent ()).1, ()) from rfl]
    cases (unparseCore (none : Option (Callback Unit)) b.coreContent ()).1 with
    | error e => rfl
    | ok core =>
      simp only [M.pure, pyMap, List.append_assoc]

/-- **C93**: two documents with default namespaces that are the same but for namespaces and prefixes outside XHTML
are parsed to bundles that are the same but for what is remembered of the root element, and what is written for them is
the same but for the root's start tag; or both fail with the same exception. -/
theorem C93_prefixes (free : Option Str → Bool) (s s' : Str) (d d' : Doc) (hs : readDoc s = some d) (hs' : readDoc s' = some d')
    (hn : declaresDefault d.root) (hn' : declaresDefault d'.root) (hr : Renamed free d.root d'.root) :
    (∃ b b', parseString s = .ok b ∧ parseString s' = .ok b' ∧ b' = { b with namespaceInfo := b'.namespaceInfo } ∧
      (d.root.children ≠ [] → ∃ t t' rest, b.namespaceInfo.originalReqifTagDump = some t ∧
        b'.namespaceInfo.originalReqifTagDump = some t' ∧
        unparse b = pyMap (fun r => xmlDeclLine ++ t ++ c!"\n" ++ r) rest ∧
        unparse b' = pyMap (fun r => xmlDeclLine ++ t' ++ c!"\n" ++ r) rest)) ∨
    ∃ e, parseString s = .error e ∧ parseString s' = .error e := by
  rw [parseString_ofDoc hs, parseString_ofDoc hs']
  rcases renamed_reqif hr hn hn' (readDoc_root hs) with ⟨b, b', h1, h2, h3, h4⟩ | ⟨e, h1, h2⟩
  · refine .inl ⟨b, b', h1, h2, h3, fun hc => ?_⟩
    obtain ⟨⟨t, ht⟩, t', ht'⟩ := h4 (by simpa [Node.len] using hc)
    obtain ⟨rest, hrest⟩ := unparse_tag b
    refine ⟨t, t', rest, ht, ht', hrest b.namespaceInfo t ht, ?_⟩
    rw [h3]
    exact hrest b'.namespaceInfo t' ht'
  · exact .inr ⟨e, h1, h2⟩

/-- **C93**: if the root elements and the declarations are the same as well, the two documents cannot be told apart. -/
theorem C93_same_root (free : Option Str → Bool) (s s' : Str) (d d' : Doc) (hs : readDoc s = some d) (hs' : readDoc s' = some d')
    (hd : d.decl = d'.decl) (i : Info) (ks ls : List Node) (hi : d.root = .elem i ks) (hi' : d'.root = .elem i ls)
    (hn : declaresDefault d.root) (hr : Renamed free d.root d'.root) : parseString s = parseString s' := by
  have hn' : declaresDefault d'.root := by
    rw [hi'] at *
    rw [hi] at hn
    exact hn
  have e := hr.stripped_ hn hn'
  rw [parseString_ofDoc hs, parseString_ofDoc hs']
  unfold parseReqif namespaceInfoOf
  rw [e, hd]
  have h1 : d.root.nsmap = d'.root.nsmap := by rw [hi, hi']; rfl
  have h2 : tagDumpOf d.root = tagDumpOf d'.root := by rw [hi, hi']; rfl
  rw [h1, h2]

/-- **C93**: a document whose root is in a namespace, by a prefix, and that declares no default namespace is refused as
not being ReqIF. -/
theorem C93_refused (s : Str) (d : Doc) (hs : readDoc s = some d) (i : Info) (ks : List Node) (hi : d.root = .elem i ks)
    (u : Str) (hu : i.ns = some u) (hn : d.root.nsmap.get? none = none) :
    parseString s = .error (.xmlParsing (.wrongRoot (clark (some u) i.name))) := by
  rw [parseString_ofDoc hs]
  unfold parseReqif
  have ht : d.root.tag = .name (clark (some u) i.name) := by rw [hi, ← hu]; rfl
  have : ¬ d.root.tag = .name c!"REQ-IF" := by
    rw [ht]
    intro e
    simp [clark] at e
  simp only [strippedRoot, hn, M.bind, M.lift]
  rw [if_neg this, ht]
  rfl

/-! ## Concrete cases -/

/-- A document with a prefix before the names of ReqIF elements, declared as given. -/
def prefixedDoc (decls p : Str) : Str :=
  c!"<REQ-IF xmlns=\"u\" xmlns:h=\"http://www.w3.org/1999/xhtml\"><" ++ p ++ c!"CORE-CONTENT" ++ decls ++ c!"><" ++ p ++
  c!"REQ-IF-CONTENT><" ++ p ++ c!"SPEC-OBJECTS><" ++ p ++
  c!"SPEC-OBJECT IDENTIFIER=\"o\"><VALUES><ATTRIBUTE-VALUE-XHTML><DEFINITION><ATTRIBUTE-DEFINITION-XHTML-REF>d" ++
  c!"</ATTRIBUTE-DEFINITION-XHTML-REF></DEFINITION><THE-VALUE><h:b>x</h:b></THE-VALUE></ATTRIBUTE-VALUE-XHTML></VALUES>" ++
  c!"<TYPE><SPEC-OBJECT-TYPE-REF>t</SPEC-OBJECT-TYPE-REF></TYPE></" ++ p ++ c!"SPEC-OBJECT></" ++ p ++ c!"SPEC-OBJECTS></" ++ p ++
  c!"REQ-IF-CONTENT></" ++ p ++ c!"CORE-CONTENT></REQ-IF>"

/-- Elements of its tree: with the namespace `u` and without prefix, or with the given namespace and prefix. -/
def prefixedTree (defs m : NsMap) (ns pfx : Option Str) : Node :=
  let x : Str := c!"http://www.w3.org/1999/xhtml"
  let m0 : NsMap := [(none, c!"u"), (some c!"h", x)]
  let r (name : Str) (attrs : List Attr) (ks : List Node) : Node := .elem ⟨ns, pfx, name, [], m, attrs⟩ ks
  let o (name : Str) (ks : List Node) : Node := .elem ⟨some c!"u", none, name, [], m, []⟩ ks
  .elem ⟨some c!"u", none, c!"REQ-IF", m0, m0, []⟩ [
    .elem ⟨ns, pfx, c!"CORE-CONTENT", defs, m, []⟩ [r c!"REQ-IF-CONTENT" [] [r c!"SPEC-OBJECTS" [] [
      r c!"SPEC-OBJECT" [⟨none, none, c!"IDENTIFIER", c!"o"⟩] [
        o c!"VALUES" [o c!"ATTRIBUTE-VALUE-XHTML" [
          o c!"DEFINITION" [o c!"ATTRIBUTE-DEFINITION-XHTML-REF" [.text c!"d"]],
          o c!"THE-VALUE" [.elem ⟨some x, some c!"h", c!"b", [], m, []⟩ [.text c!"x"]]]],
        o c!"TYPE" [o c!"SPEC-OBJECT-TYPE-REF" [.text c!"t"]]]]]]]

/-- The tree without prefixes. -/
def unprefixedTree : Node :=
  prefixedTree [] [(none, c!"u"), (some c!"h", c!"http://www.w3.org/1999/xhtml")] (some c!"u") none

/-- The tree with the prefix `r`, for another namespace. -/
def otherTree : Node :=
  prefixedTree [(some c!"r", c!"v")] (NsMap.push [(some c!"r", c!"v")] [(none, c!"u"), (some c!"h", c!"http://www.w3.org/1999/xhtml")])
    (some c!"v") (some c!"r")

set_option maxRecDepth 20000 in
theorem unprefixed_read : readDoc (prefixedDoc [] []) = some ⟨none, [unprefixedTree], unprefixedTree⟩ :=
  isRootOnly_eq (by decide +kernel)

set_option maxRecDepth 20000 in
theorem other_read : readDoc (prefixedDoc c!" xmlns:r=\"v\"" c!"r:") = some ⟨none, [otherTree], otherTree⟩ :=
  isRootOnly_eq (by decide +kernel)

theorem other_renamed : Renamed (fun p => p == some c!"r") unprefixedTree otherTree := by
  have h : ∀ {i j : Info} {ks ls : List Node}, inXhtml i = false → inXhtml j = false → i.name = j.name →
      i.attrs = j.attrs → i.attrs.all (fun a => a.ns.isNone) = true → SameDecls (fun p => p == some c!"r") i.nsdefs j.nsdefs →
      RenamedKids (fun p => p == some c!"r") ks ls → Renamed (fun p => p == some c!"r") (.elem i ks) (.elem j ls) := by
    intro i j ks ls h1 h2 h3 h4 h5 h6 h7
    refine .elem h1 h2 h3 h4 ?_ h6 h7
    intro a ha hn
    rw [List.all_eq_true] at h5
    have := h5 a ha
    rw [Option.isNone_iff_eq_none] at this
    exact absurd this hn
  unfold unprefixedTree otherTree prefixedTree
  refine h (by decide) (by decide) rfl rfl rfl rfl (.cons ?_ .nil)
  refine h (by decide) (by decide) rfl rfl rfl rfl (.cons ?_ .nil)
  refine h (by decide) (by decide) rfl rfl rfl rfl (.cons ?_ .nil)
  refine h (by decide) (by decide) rfl rfl rfl rfl (.cons ?_ .nil)
  refine h (by decide) (by decide) rfl rfl rfl rfl (.cons ?_ (.cons ?_ .nil))
  · refine h (by decide) (by decide) rfl rfl rfl rfl (.cons ?_ .nil)
    refine h (by decide) (by decide) rfl rfl rfl rfl (.cons ?_ (.cons ?_ .nil))
    · refine h (by decide) (by decide) rfl rfl rfl rfl (.cons ?_ .nil)
      exact h (by decide) (by decide) rfl rfl rfl rfl (.cons (.text _) .nil)
    · refine h (by decide) (by decide) rfl rfl rfl rfl (.cons ?_ .nil)
      exact .xhtml (i := ⟨some c!"http://www.w3.org/1999/xhtml", some c!"h", c!"b", [], _, []⟩) (by decide) (by decide)
        (by intro a ha; cases ha) (.cons (.text _) .nil)
  · refine h (by decide) (by decide) rfl rfl rfl rfl (.cons ?_ .nil)
    exact h (by decide) (by decide) rfl rfl rfl rfl (.cons (.text _) .nil)

/-- The hypotheses of `C93_prefixes` and `C93_same_root` are met: a document without prefixes for ReqIF elements and one
with the prefix `r`, for another namespace, in some places. -/
example : ∃ d d' i ks ls, readDoc (prefixedDoc [] []) = some d ∧ readDoc (prefixedDoc c!" xmlns:r=\"v\"" c!"r:") = some d' ∧
    d.decl = d'.decl ∧ d.root = .elem i ks ∧ d'.root = .elem i ls ∧ declaresDefault d.root ∧ declaresDefault d'.root ∧
    Renamed (fun p => p == some c!"r") d.root d'.root :=
  ⟨_, _, _, _, _, unprefixed_read, other_read, rfl, rfl, rfl, ⟨_, rfl⟩, ⟨_, rfl⟩, other_renamed⟩

set_option maxRecDepth 20000 in
example : stringsRead (prefixedDoc c!" xmlns:r=\"v\"" c!"r:") = some [.str c!"<h:b>x</h:b>"] := by decide +kernel

/-- A ReqIF document with a prefix throughout. -/
def onlyPrefixed : Str := c!"<r:REQ-IF xmlns:r=\"http://www.omg.org/spec/ReqIF/20110401/reqif.xsd\"><r:TOOL-EXTENSIONS/></r:REQ-IF>"

/-- Its tree. -/
def onlyPrefixedTree : Node :=
  let u : Str := c!"http://www.omg.org/spec/ReqIF/20110401/reqif.xsd"
  .elem ⟨some u, some c!"r", c!"REQ-IF", [(some c!"r", u)], [(some c!"r", u)], []⟩
    [.elem ⟨some u, some c!"r", c!"TOOL-EXTENSIONS", [], [(some c!"r", u)], []⟩ []]

set_option maxRecDepth 20000 in
theorem onlyPrefixed_read : readDoc onlyPrefixed = some ⟨none, [onlyPrefixedTree], onlyPrefixedTree⟩ :=
  isRootOnly_eq (by decide +kernel)

/-- The hypotheses of `C93_refused` are met. -/
example : ∃ d i ks u, readDoc onlyPrefixed = some d ∧ d.root = .elem i ks ∧ i.ns = some u ∧ d.root.nsmap.get? none = none :=
  ⟨_, _, _, _, onlyPrefixed_read, rfl, rfl, rfl⟩

set_option maxRecDepth 20000 in
/-- **C93**, finding: a root with a prefix, next to a default namespace other than its own (here: that of XHTML), is read, but
the document written for it is not well-formed: its start tag is printed with an end tag. -/
theorem C93_malformed :
    passedText c!"<r:REQ-IF xmlns=\"http://www.w3.org/1999/xhtml\" xmlns:r=\"u\"><r:TOOL-EXTENSIONS/></r:REQ-IF>" =
      some (c!"<?xml version=\"1.0\" encoding=\"UTF-8\"?>\n<r:REQ-IF xmlns=\"http://www.w3.org/1999/xhtml\" xmlns:r=\"u\">" ++
        c!"</r:REQ-IF>\n  <TOOL-EXTENSIONS>\n  </TOOL-EXTENSIONS>\n</REQ-IF>\n") ∧
    (readDoc (c!"<?xml version=\"1.0\" encoding=\"UTF-8\"?>\n<r:REQ-IF xmlns=\"http://www.w3.org/1999/xhtml\" xmlns:r=\"u\">" ++
        c!"</r:REQ-IF>\n  <TOOL-EXTENSIONS>\n  </TOOL-EXTENSIONS>\n</REQ-IF>\n")).isNone = true := by
  constructor
  · decide +kernel
  · decide +kernel

end ReqIF
