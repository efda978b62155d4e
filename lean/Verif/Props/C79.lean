import Verif.Proofs.GrammarNames
import Verif.Proofs.NodeEq
import Verif.Props.C24_26
/-!
# C79: the parser accepts exactly the well-formed documents

`Grammar.WellFormed` (Spec/Grammar, Spec/Namespaces) is the definition of a well-formed document
by the productions of XML 1.0 and Namespaces in XML 1.0, without document type declaration.
-/
set_option linter.unusedSimpArgs false
namespace ReqIF.Grammar

theorem namedAll_append {m : NsMap} : ∀ {a b : List Xml} {ns : List Node}, NamedAll m (a ++ b) ns →
    ∃ n₁ n₂, ns = n₁ ++ n₂ ∧ NamedAll m a n₁ ∧ NamedAll m b n₂
  | [], b, ns, h => ⟨[], ns, rfl, .none, h⟩
  | x :: a, b, ns, h => by
    cases h with
    | more h1 h2 =>
      obtain ⟨n₁, n₂, rfl, h3, h4⟩ := namedAll_append h2
      exact ⟨_ :: n₁, n₂, rfl, .more h1 h3, h4⟩

theorem namedAll_noElem {m : NsMap} : ∀ {ks : List Xml} {ns : List Node}, (∀ n as l, Xml.elem n as l ∉ ks) → NamedAll m ks ns →
    ∀ i l, Node.elem i l ∉ ns
  | [], ns, _, h => by cases h; simp
  | x :: ks, ns, hn, h => by
    cases h with
    | more h1 h2 =>
      intro i l hm
      rcases List.mem_cons.1 hm with e | hm'
      · subst e
        cases h1 with
        | elem => exact hn _ _ _ (by simp; exact .inl ⟨rfl, rfl, rfl⟩)
      · exact namedAll_noElem (fun n as l hm => hn n as l (by simp [hm])) h2 i l hm'

theorem firstElem_one {a b : List Node} {i : Info} {ks : List Node} (ha : ∀ i l, Node.elem i l ∉ a) : firstElem (a ++ .elem i ks :: b) = some (.elem i ks) := by
  induction a with
  | nil => rfl
  | cons x a ih =>
    have ih := ih (fun i l hm => ha i l (by simp [hm]))
    cases x with
    | elem j l => exact absurd (by simp) (ha j l)
    | text s => exact ih
    | comment s => exact ih
    | pi t d => exact ih

/-- The nodes of a document: one of them is an element. -/
theorem wf_nodes {s : Str} {decl : Option (Option Str)} {ks : List Xml} {ns : List Node} (h : File s decl ks) (hn : NamedAll [] ks ns) :
    ∃ i l, firstElem ns = some (.elem i l) ∧ ∀ r, (r ∈ ns ∧ ∃ i l, r = Node.elem i l) ↔ r = .elem i l := by
  obtain ⟨u, t, _, _, hd, a, e, b, k₁, x, k₂, _, _, hm1, he, hm2, rfl⟩ := h
  obtain ⟨n₁, n', rfl, h1, h2⟩ := namedAll_append hn
  cases h2 with
  | @more _ _ n _ n₂ h3 h4 =>
    obtain ⟨nm, as, l, rfl⟩ := element_elem he
    have z1 := namedAll_noElem (misc_noElem hm1) h1
    have z2 := namedAll_noElem (misc_noElem hm2) h4
    cases h3 with
    | elem =>
      refine ⟨_, _, firstElem_one z1, ?_⟩
      intro r
      constructor
      · rintro ⟨hr, i, l', rfl⟩
        rcases List.mem_append.1 hr with hr | hr
        · exact absurd hr (z1 _ _)
        · rcases List.mem_cons.1 hr with hr | hr
          · exact hr
          · exact absurd hr (z2 _ _)
      · rintro rfl
        exact ⟨by simp, _, _, rfl⟩

theorem keys_nil : Keys [] := List.nodup_nil

/-- **C79**, the tree: a text is read exactly if it is a well-formed document, and as the tree the
grammar gives it. -/
theorem C79_tree (s : Str) (d : Doc) : readDoc s = some d ↔ WellFormed s (d.decl.map (·.encoding)) d.nodes d.root := by
  obtain ⟨decl, nodes, root⟩ := d
  constructor
  · intro h
    unfold readDoc at h
    split at h
    · cases h
    · rename_i d' xs hr
      split at h
      · cases h
      · rename_i ns hl
        split at h
        · cases h
        · rename_i r hf
          cases h
          have h1 := file_iff.1 hr
          have h2 := (named_iff keys_nil).1 hl
          obtain ⟨i, l, h3, h4⟩ := wf_nodes h1 h2
          rw [hf] at h3
          cases h3
          exact ⟨⟨xs, h1, h2⟩, (h4 _).2 rfl⟩
  · rintro ⟨⟨ks, h1, h2⟩, h3⟩
    obtain ⟨i, l, h4, h5⟩ := wf_nodes h1 h2
    have : root = .elem i l := (h5 root).1 h3
    subst this
    unfold readDoc
    rw [file_iff.2 h1]
    dsimp only
    rw [(named_iff keys_nil).2 h2]
    dsimp only
    rw [h4]

/-- **C79**, one meaning: a text is a well-formed document in at most one way. -/
theorem C79_unique {s : Str} {e e' : Option (Option Str)} {ns ns' : List Node} {r r' : Node} (h : WellFormed s e ns r) (h' : WellFormed s e' ns' r') :
    e = e' ∧ ns = ns' ∧ r = r' := by
  have key : ∀ e : Option (Option Str), (e.map Decl.mk).map (·.encoding) = e := by intro e; cases e <;> rfl
  have h1 := (C79_tree s ⟨e.map Decl.mk, ns, r⟩).2 (by rw [key]; exact h)
  have h2 := (C79_tree s ⟨e'.map Decl.mk, ns', r'⟩).2 (by rw [key]; exact h')
  rw [h1] at h2
  have := Option.some.inj h2
  refine ⟨?_, congrArg Doc.nodes this, congrArg Doc.root this⟩
  have := congrArg (fun d : Doc => d.decl.map (·.encoding)) this
  dsimp only at this
  rwa [key, key] at this

/-- Is the text a well-formed document? -/
def IsXml (s : Str) : Prop := ∃ decl nodes root, WellFormed s decl nodes root

theorem isXml_iff {s : Str} : IsXml s ↔ ∃ d, readDoc s = some d := by
  constructor
  · rintro ⟨e, ns, r, h⟩
    refine ⟨⟨e.map Decl.mk, ns, r⟩, (C79_tree _ _).2 ?_⟩
    have : (e.map Decl.mk).map (·.encoding) = e := by cases e <;> rfl
    rw [this]; exact h
  · rintro ⟨d, h⟩
    exact ⟨_, _, _, (C79_tree _ _).1 h⟩

/-- **C79**, refusal: the parser says that a text cannot be read as XML exactly if it is not empty and not a
well-formed document.  (The empty text has an error of its own.) -/
theorem C79_refused (s : Str) : parseString s = .error (.xmlParsing .notWellFormed) ↔ s ≠ [] ∧ ¬ IsXml s := by
  rw [(C24_causes s).2.1, isXml_iff]
  cases h : readDoc s <;> simp

/-- **C79**, only the tree counts: two documents with the same declaration and nodes are parsed alike, with any
progress callback, in whatever way their text is written. -/
theorem C79_same {σ : Type} {s s' : Str} {e : Option (Option Str)} {ns : List Node} {r : Node} (h : WellFormed s e ns r) (h' : WellFormed s' e ns r)
    (progress : Option (Callback σ)) : parseFromString progress s = parseFromString progress s' := by
  have key : (e.map Decl.mk).map (·.encoding) = e := by cases e <;> rfl
  have h1 := (C79_tree s ⟨e.map Decl.mk, ns, r⟩).2 (by rw [key]; exact h)
  have h2 := (C79_tree s' ⟨e.map Decl.mk, ns, r⟩).2 (by rw [key]; exact h')
  have n1 : s.length ≠ 0 := by
    intro e0
    rw [List.eq_nil_of_length_eq_zero e0] at h1
    exact absurd h1 (by simp [readDoc, readRaw, dropBom, normEol, readDecl, run, RS.start, finish, hasElem])
  have n2 : s'.length ≠ 0 := by
    intro e0
    rw [List.eq_nil_of_length_eq_zero e0] at h2
    exact absurd h2 (by simp [readDoc, readRaw, dropBom, normEol, readDecl, run, RS.start, finish, hasElem])
  unfold parseFromString
  rw [if_neg n1, if_neg n2, h1, h2]

/-! ## What is refused -/

/-- **C79**, end tags: a start tag and an end tag with another name are not a document. -/
theorem C79_end_tag {n m : Str} (hn : isQName n = true) (hm : isQName m = true) (h : n ≠ m) :
    parseString (c!"<" ++ n ++ c!"></" ++ m ++ c!">") = .error (.xmlParsing .notWellFormed) := by
  rw [C79_refused]
  refine ⟨by simp, ?_⟩
  rintro ⟨e, ns, r, ⟨ks, ⟨u, t, hu, hl, hd⟩, -⟩, -⟩
  -- no byte order mark, no line ends
  have hq : ∀ x, isQName x = true → '\r' ∉ x := by
    intro x hx hc
    exact absurd ((isQName_qchars hx).2 _ hc) (by decide)
  have hs : c!"<" ++ n ++ c!"></" ++ m ++ c!">" = u := by
    rcases hu with ⟨hu, -⟩ | hu
    · exact hu
    · exfalso
      have := congrArg List.head? hu
      simp at this
  subst hs
  have ht : t = c!"<" ++ n ++ c!"></" ++ m ++ c!">" := by
    rw [← lines_iff.1 hl]
    apply normEol_of_noCr
    simp only [List.mem_append, not_or]
    exact ⟨⟨⟨⟨by decide, hq n hn⟩, by decide⟩, hq m hm⟩, by decide⟩
  subst ht
  have hdoc : ∃ d : Option Decl, d.map (·.encoding) = e := ⟨e.map Decl.mk, by cases e <;> rfl⟩
  obtain ⟨d, rfl⟩ := hdoc
  obtain ⟨s', st, h1, h2, -⟩ := document_iff.2 hd
  -- there is no declaration
  have hs' : s' = c!"<" ++ n ++ c!"></" ++ m ++ c!">" := by
    cases n with
    | nil => exact absurd rfl (isQName_qchars hn).1
    | cons c n =>
      have hc := (isQName_qchars hn).2 c (by simp)
      have : readDecl (c!"<" ++ c :: n ++ c!"></" ++ m ++ c!">") = some (none, c!"<" ++ c :: n ++ c!"></" ++ m ++ c!">") := by
        show readDecl ('<' :: c :: _) = _
        unfold readDecl
        split
        · rename_i w s0 e
          have : c = '?' := by
            have := congrArg (fun l => l.drop 1 |>.head?) e
            simpa using this
          rw [this] at hc
          exact absurd hc (by decide)
        · rfl
      rw [this] at h1
      cases h1
      rfl
  rw [hs'] at h2
  obtain ⟨b, hb⟩ := run_tag (w := []) (buf := []) (f := ⟨[], [], []⟩) (f' := ⟨[], [], []⟩) (rest := []) hn .none optSpace_nil rfl (.inl rfl : '>' = '>' ∨ '>' = '/')
    (c!"</" ++ m ++ '>' :: [])
  have e1 : c!"<" ++ n ++ c!"></" ++ m ++ c!">" = c!"<" ++ n ++ [] ++ [] ++ '>' :: (c!"</" ++ m ++ '>' :: []) := by simp
  rw [e1] at h2
  rw [show RS.start = ⟨.text [], ⟨[], [], []⟩, []⟩ from rfl, hb,
    run_cons (s' := ⟨.text [], ⟨n, [], []⟩, [⟨[], [], []⟩]⟩) (by simp [step, isWs, openElem, hasElem]), run_close m hm] at h2
  simp [flush, closeElem, h] at h2

/-- **C79**, repeated attributes: a tag that gives an attribute twice is refused (here with the values `v`, `w`). -/
theorem C79_repeated {m : List (Option Str × Str)} {n v w : Str} {name : Str} {as bs cs : List (Str × Str)} {ks : List Xml} {x : Node} :
    ¬ Named m (.elem name (as ++ (n, v) :: bs ++ (n, w) :: cs) ks) x := by
  intro h
  cases h with
  | elem h1 =>
    simp [List.nodup_append] at h1

/-! ## Cases -/

def exampleWf : Node :=
  .elem ⟨some c!"u", none, c!"a", [(none, c!"u"), (some c!"p", c!"v")], [(none, c!"u"), (some c!"p", c!"v")],
      [⟨some c!"v", some c!"p", c!"b", c!"1&2"⟩]⟩
    [.text c!"x<y", .elem ⟨some c!"v", some c!"p", c!"c", [], [(none, c!"u"), (some c!"p", c!"v")], []⟩ [], .comment c!" z "]

set_option maxRecDepth 20000 in
theorem exampleWf_read : readDoc c!"<a xmlns=\"u\" xmlns:p=\"v\" p:b=\"1&amp;2\">x&lt;y<p:c/><!-- z --></a>" = some ⟨none, [exampleWf], exampleWf⟩ :=
  isRootOnly_eq (by decide +kernel)

set_option maxRecDepth 20000 in
theorem exampleWf_read' : readDoc c!"\r\n<a xmlns = 'u'\n xmlns:p=\"v\" p:b='1&#x26;2' ><![CDATA[x<]]>&#121;<p:c\t></p:c ><!-- z --></a >\n" =
    some ⟨none, [exampleWf], exampleWf⟩ :=
  isRootOnly_eq (by decide +kernel)

/-- Non-vacuity of `C79_tree`, `C79_unique`: a document with namespaces, references and a comment. -/
theorem exampleWf_is : WellFormed c!"<a xmlns=\"u\" xmlns:p=\"v\" p:b=\"1&amp;2\">x&lt;y<p:c/><!-- z --></a>" none [exampleWf] exampleWf :=
  (C79_tree _ _).1 exampleWf_read

/-- Non-vacuity of `C79_same`: another text of the same document. -/
example : WellFormed c!"\r\n<a xmlns = 'u'\n xmlns:p=\"v\" p:b='1&#x26;2' ><![CDATA[x<]]>&#121;<p:c\t></p:c ><!-- z --></a >\n" none [exampleWf] exampleWf :=
  (C79_tree _ _).1 exampleWf_read'

/-- Non-vacuity of `C79_refused`: in turn an element that is not closed, two roots, an attribute given twice (as such and
as the same name in the same namespace), a prefix without declaration, a declaration with two tags in it,
a `<` in an attribute, `--` in a comment, `]]>` in text, and text after the root. -/
theorem C79_refused_cases : [c!"<a>", c!"<a/><b/>", c!"<a b='1' b='2'/>", c!"<a xmlns:p='u' xmlns:q='u' p:b='1' q:b='2'/>", c!"<p:a/>",
    c!"<?xml version=\"1.0\"><b version=\"1.0\"?><a/>", c!"<a b='<'/>", c!"<a><!-- -- --></a>", c!"<a>]]></a>", c!"<a/>x"].all
      (fun s => (readDoc s).isNone) = true := by decide +kernel

example : ¬ IsXml c!"<p:a/>" := by
  rw [isXml_iff]
  rintro ⟨d, h⟩
  have := C79_refused_cases
  simp only [List.all_cons, Bool.and_eq_true] at this
  rw [h] at this
  simp at this

/-- Non-vacuity of `C79_end_tag`. -/
example : isQName c!"REQ-IF" = true ∧ isQName c!"REQ-if" = true ∧ c!"REQ-IF" ≠ c!"REQ-if" := by decide

end ReqIF.Grammar
