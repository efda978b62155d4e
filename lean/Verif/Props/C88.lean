import Verif.Proofs.Skeleton
import Verif.Proofs.ReadSane
import Verif.Props.C61_62
/-!
# C88: which documents are read

Exactly which documents are parsed without an exception, as a list of requirements on the
document; what is not in the list does not matter.
-/
namespace ReqIF
open Spec Accept

/-- **C88**: a text is parsed without an exception exactly if it is a well-formed document, its
namespaces can be removed (see `C88_namespaces`), and the tree meets the requirements. -/
theorem C88_read (text : Str) : (∃ b, parseString text = .ok b) ↔
    ∃ d r, readDoc text = some d ∧ strippedRoot d.root = .ok r ∧ RootOk r := by
  cases hd : readDoc text with
  | none =>
    simp only [reduceCtorEq, false_and, exists_false, iff_false, not_exists]
    intro b hb
    unfold parseString parseFromString at hb
    rw [hd] at hb
    split at hb <;> cases hb
  | some d =>
    rw [parseString_ofDoc hd]
    simp only [Option.some.injEq, exists_and_left, exists_eq_left']
    exact document_ok d

/-- **C88**, namespaces: they cannot be removed only if the root declares a default namespace and
there is a processing instruction inside the document. -/
theorem C88_namespaces (n : Node) : (∃ r, strippedRoot n = .ok r) ↔ hasDefaultNs n = false ∨ hasPI n = false :=
  stripped_ok n

mutual
theorem seen_strip : ∀ (n n' : Node), n.Sane → stripTags false n = .ok n' → ∀ m, Seen n (cleanup m n')
  | .text s, n', _, h, m => by cases h; exact .text s
  | .comment s, n', _, h, m => by cases h; exact .comment s
  | .pi a b, n', _, h, m => by cases h
  | .elem i ks, n', hs, h, m => by
    obtain ⟨hi, -, hk⟩ := (show i.Sane ∧ noTextTwice ks = true ∧ SaneNodes ks from by simpa only [Node.Sane] using hs)
    simp only [stripTags] at h
    cases hks : stripTagsList false ks with
    | error e => rw [hks] at h; cases h
    | ok ks' =>
      rw [hks] at h
      simp only [Bool.not_false, Bool.true_and] at h
      have hx : containsStr xhtmlNs i.tag = true ↔ ∃ u, i.ns = some u ∧ Xhtml u := by
        unfold Info.tag
        cases hn : i.ns with
        | none => simp [clark, xhtmlNs_notIn_ncname hi.name]
        | some u =>
          rw [containsStr_clark (by decide) (by decide) (by decide), xhtmlNs_notIn_ncname hi.name, Bool.or_false, containsStr_iff]
          simp [Xhtml, xhtmlNs]
      split at h
      · rename_i hc
        cases h
        simp only [cleanup]
        exact .elem rfl rfl (.inl ⟨hx.1 hc, rfl⟩) (seen_strips ks ks' hk hks _)
      · rename_i hc
        cases h
        simp only [cleanup]
        exact .elem rfl rfl (.inr ⟨fun u hu hxu => hc (hx.2 ⟨u, hu, hxu⟩), rfl⟩) (seen_strips ks ks' hk hks _)

theorem seen_strips : ∀ (ns ns' : List Node), SaneNodes ns → stripTagsList false ns = .ok ns' → ∀ m, SeenAll ns (cleanupList m ns')
  | [], ns', _, h, m => by cases h; exact .nil
  | n :: ns, ns', hs, h, m => by
    obtain ⟨h1, h2⟩ := (show n.Sane ∧ SaneNodes ns from by simpa only [SaneNodes] using hs)
    simp only [stripTagsList] at h
    cases hn : stripTags false n with
    | error e => rw [hn] at h; cases h
    | ok n' =>
      cases hns : stripTagsList false ns with
      | error e => rw [hn, hns] at h; cases h
      | ok ms =>
        rw [hn, hns] at h
        cases h
        exact .cons (seen_strip n n' h1 hn m) (seen_strips ns ms h2 hns m)
end

/-- **C88**, the tree: if the root declares no default namespace, the requirements are those on
the tree of the document itself; otherwise on the same tree without the namespaces (except XHTML). -/
theorem C88_tree {text : Str} {d : Doc} {r : Node} (hd : readDoc text = some d) (h : strippedRoot d.root = .ok r) :
    hasDefaultNs d.root = false ∧ r = d.root ∨ hasDefaultNs d.root = true ∧ Seen d.root r := by
  unfold strippedRoot at h
  unfold hasDefaultNs
  cases hn : NsMap.get? d.root.nsmap none with
  | none => rw [hn] at h; cases h; exact .inl ⟨rfl, rfl⟩
  | some u =>
    rw [hn] at h
    refine .inr ⟨rfl, ?_⟩
    dsimp only at h
    unfold stripNamespace at h
    cases hs : stripTags false d.root with
    | error e => rw [hs] at h; cases h
    | ok r' =>
      rw [hs] at h
      cases h
      exact seen_strip _ _ (readDoc_sane hd).1 hs _

/-- **C88**, what does not matter: two documents that differ only in the values of attributes
(the accuracies of real data types excepted), in texts, comments and processing instructions are
both read or both refused. -/
theorem C88_values {s t : Str} {d e : Doc} (hs : readDoc s = some d) (ht : readDoc t = some e)
    (h : skeleton d.root = skeleton e.root) : (∃ b, parseString s = .ok b) ↔ ∃ b, parseString t = .ok b := by
  have key : ∀ n : Node, (∃ r, strippedRoot n = .ok r ∧ RootOk r) ↔ ∃ r, strippedRoot (skeleton n) = .ok r ∧ RootOk r := by
    intro n
    rw [skel_stripped]
    cases strippedRoot n with
    | error e => simp [pyMap]
    | ok r => simp [pyMap, skel_root]
  rw [C88_read, C88_read, hs, ht]
  simp only [Option.some.injEq, exists_and_left, exists_eq_left']
  rw [key d.root, key e.root, h]

/-! ## Concrete cases -/

/-- Is the document read? -/
def isRead (text : Str) : Bool := (parseString text).isOk

theorem isRead_iff (text : Str) : isRead text = true ↔ ∃ b, parseString text = .ok b := by
  unfold isRead
  cases parseString text <;> simp [Except.isOk, Except.toBool]

/-- A document with one spec object below a specification; the text in the place. -/
def askedDoc (hierarchy : Str) : Str :=
  c!"<REQ-IF><CORE-CONTENT><REQ-IF-CONTENT>" ++
  c!"<SPEC-OBJECTS><SPEC-OBJECT IDENTIFIER=\"o\"><TYPE><SPEC-OBJECT-TYPE-REF/></TYPE></SPEC-OBJECT></SPEC-OBJECTS>" ++
  c!"<SPECIFICATIONS><SPECIFICATION IDENTIFIER=\"s\"><CHILDREN>" ++ hierarchy ++
  c!"</CHILDREN></SPECIFICATION></SPECIFICATIONS></REQ-IF-CONTENT></CORE-CONTENT></REQ-IF>"

set_option maxRecDepth 20000 in
/-- The document is read, so its tree meets the requirements. -/
example : ∃ d r, readDoc (askedDoc c!"<SPEC-HIERARCHY IDENTIFIER=\"h\"><OBJECT><SPEC-OBJECT-REF/></OBJECT></SPEC-HIERARCHY>") = some d ∧
    strippedRoot d.root = .ok r ∧ RootOk r :=
  (C88_read _).1 ((isRead_iff _).1 (by decide +kernel))

set_option maxRecDepth 20000 in
/-- Without the identifier of the hierarchy it is refused, so the requirements are not met. -/
example : ¬ ∃ d r, readDoc (askedDoc c!"<SPEC-HIERARCHY><OBJECT><SPEC-OBJECT-REF/></OBJECT></SPEC-HIERARCHY>") = some d ∧
    strippedRoot d.root = .ok r ∧ RootOk r := by
  rw [← C88_read, ← isRead_iff]
  decide +kernel

/-- Trees without namespaces, for the examples. -/
def nodeOf (name : Str) (attrs : List Attr) (kids : List Node) : Node := .elem ⟨none, none, name, [], [], attrs⟩ kids

/-- The requirements, checked by hand on a small tree: a root with a header and a specification
type. -/
example : RootOk (nodeOf c!"REQ-IF" [] [
    nodeOf c!"THE-HEADER" [] [nodeOf c!"REQ-IF-HEADER" [⟨none, none, c!"IDENTIFIER", c!"h"⟩] []],
    nodeOf c!"CORE-CONTENT" [] [nodeOf c!"REQ-IF-CONTENT" [] [nodeOf c!"SPEC-TYPES" [] [
      .comment c!"types",
      nodeOf c!"SPECIFICATION-TYPE" [⟨none, none, c!"IDENTIFIER", c!"t"⟩, ⟨none, none, c!"LAST-CHANGE", []⟩] []]]]]) := by
  refine ⟨rfl, ?_, ?_⟩
  · intro c hc
    cases hc
    exact ⟨_, rfl, _, rfl⟩
  · intro c hc x hx
    cases hc
    cases hx
    refine ⟨(by intro c hc; cases hc), ?_, (by intro c hc; cases hc), (by intro c hc; cases hc), (by intro c hc; cases hc), (by intro c hc; cases hc)⟩
    intro c hc k hk
    cases hc
    rcases List.mem_cons.1 hk with rfl | hk
    · exact .inl rfl
    · rcases List.mem_cons.1 hk with rfl | hk
      · refine .inr (.inr (.inr (.inl ⟨rfl, ⟨_, rfl⟩, ⟨_, rfl⟩, ?_⟩)))
        intro c hc; cases hc
      · cases hk

set_option maxRecDepth 20000 in
/-- Two documents with the same skeleton. -/
example : ∃ d e, readDoc c!"<A B=\"1\">x</A>" = some d ∧ readDoc c!"<A B=\"2\">y</A>" = some e ∧ skeleton d.root = skeleton e.root :=
  ⟨_, _, rfl, rfl, rfl⟩

set_option maxRecDepth 20000 in
/-- The accuracy is not part of what does not matter: a number is read, other text is refused. -/
theorem C88_accuracy : isRead c!"<REQ-IF><CORE-CONTENT><REQ-IF-CONTENT><DATATYPES><DATATYPE-DEFINITION-REAL IDENTIFIER=\"r\" ACCURACY=\"3\"/></DATATYPES></REQ-IF-CONTENT></CORE-CONTENT></REQ-IF>" = true ∧
    isRead c!"<REQ-IF><CORE-CONTENT><REQ-IF-CONTENT><DATATYPES><DATATYPE-DEFINITION-REAL IDENTIFIER=\"r\" ACCURACY=\"x\"/></DATATYPES></REQ-IF-CONTENT></CORE-CONTENT></REQ-IF>" = false := by
  constructor <;> decide +kernel

end ReqIF
