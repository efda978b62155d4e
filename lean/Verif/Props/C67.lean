import Verif.Proofs.FormatTree
import Verif.Props.C52_55
import Verif.Props.C58_60
/-!
# C67: the format command

Formatting a document keeps everything but white space between nodes, gives ASCII
text that is read again, and on documents without ambiguous white space gives the
same text however often it is repeated.  The negative results show what each
hypothesis excludes.
-/
set_option linter.unusedSimpArgs false
namespace ReqIF.Format
open Spec

/-- **C67**, content: the formatted document is read, and is the same as the given one
but for white space between nodes: same names, namespaces, attributes, comments and
processing instructions, same texts otherwise, in the same order.  It is ASCII.
`keep` is arbitrary: however the parser treats white space next to words. -/
theorem C67_content (keep : List Nat → Bool) (text : Str) (d : Doc) (h : readDoc text = some d)
    (ha : asciiMarkupAll d.nodes = true) (hn : noEmptyTextAll d.nodes = true) :
    ∃ out d', formatText keep text = some out ∧ (∀ c ∈ out, c.toNat < 128) ∧ readDoc out = some d' ∧
      d'.decl = some ⟨some c!"UTF-8"⟩ ∧ d'.nodes.map core = d.nodes.map core ∧ core d'.root = core d.root := by
  have hf := fineDoc_of h ha hn
  have hr : Fine [] d.root := fineAll_iff.1 hf.fine _ (by rw [hf.nodes]; simp)
  have hc : core (padded true 0 (unblank keep false [] d.root)) = core d.root := by
    rw [core_padded, core_unblank keep [] false [] d.root hr]
  refine ⟨written d.nodes (unblank keep false [] d.root), _, ?_, ?_, format_back hf keep, rfl, ?_, hc⟩
  · unfold formatText; rw [h]; rfl
  · exact toAscii_ascii _
  · have e := hf.nodes
    generalize before d.nodes = b, after d.nodes = a at e ⊢
    dsimp only
    rw [e, List.map_append, List.map_append, List.map_cons, List.map_cons, hc]

theorem before_outside {b a : List Node} {r : Node} (hb : ∀ n ∈ b, isElem n = false) (hr : isElem r = true) :
    before (b ++ r :: a) = b ∧ after (b ++ r :: a) = a := by
  induction b with
  | nil =>
    unfold before after
    rw [List.nil_append, List.takeWhile_cons, List.dropWhile_cons, hr]
    exact ⟨rfl, rfl⟩
  | cons n b ih =>
    have ih := ih (fun k hk => hb k (by simp [hk]))
    have hn := hb n (by simp)
    unfold before after at ih ⊢
    rw [List.cons_append, List.takeWhile_cons, List.dropWhile_cons, hn]
    exact ⟨by rw [← ih.1]; simp [ih.1], ih.2⟩

/-- **C67**, stability: if each element with both words and other nodes begins with words,
and no `xml:space` is used, the result does not depend on how the parser treats white
space next to words, and formatting it again changes nothing. -/
theorem C67_stable (text : Str) (d : Doc) (h : readDoc text = some d) (ha : asciiMarkupAll d.nodes = true)
    (hn : noEmptyTextAll d.nodes = true) (hw : wordsInFront d.root = true) :
    ∃ out, (∀ keep, formatText keep text = some out) ∧ ∀ keep, formatText keep out = some out := by
  have hf := fineDoc_of h ha hn
  have hr : Fine [] d.root := fineAll_iff.1 hf.fine _ (by rw [hf.nodes]; simp)
  refine ⟨written d.nodes (core d.root), ?_, ?_⟩
  · intro keep
    unfold formatText
    rw [h, Option.map_some, unblank_core keep [] d.root hw]
  · intro keep
    have hb := format_back hf keep
    have hcf := unblank_fine keep [] false [] d.root hr
    have hce := unblank_elem hf.root keep false []
    have hcc := core_unblank keep [] false [] d.root hr
    rw [unblank_core keep [] d.root hw] at hb hce hcc
    unfold formatText
    rw [hb, Option.map_some]
    dsimp only
    rw [unblank_core keep [] _ (padded_inFront 0 _ (core_inFront _ hw)), core_padded, hcc]
    obtain ⟨e1, e2⟩ := before_outside (a := after d.nodes) (fun n hn => (hf.before n hn).2) (padded_elem hce 0)
    unfold written
    rw [e1, e2]

/-- **C67**, layout: in such a document every child of an element without words is on a line of
its own, two spaces deeper than its parent (down to thirty levels). -/
theorem C67_layout (text : Str) (d : Doc) (h : readDoc text = some d) (ha : asciiMarkupAll d.nodes = true)
    (hn : noEmptyTextAll d.nodes = true) (hw : wordsInFront d.root = true) (keep : List Nat → Bool) (out : Str)
    (ho : formatText keep text = some out) : ∃ d', readDoc out = some d' ∧ laidOut 0 d'.root = true := by
  have hf := fineDoc_of h ha hn
  unfold formatText at ho
  rw [h, Option.map_some] at ho
  cases ho
  refine ⟨_, format_back hf keep, ?_⟩
  dsimp only
  rw [unblank_core keep [] d.root hw]
  exact core_laidOut 0 d.root hw

/-- **C67**, files: the command either succeeds and writes the formatted text to the output
file, and only there, or fails with an error and leaves every file as it was. -/
theorem C67_command (os : OsEnv) (keep : List Nat → Bool) (input output : Str) (fs : Files) :
    (∃ src text out, fs input = some src ∧ decodeUtf8 src = .ok text ∧ formatText keep text = some out ∧ os.openError output = none ∧
      formatCommand os keep input output fs = (.ok .success, update fs output out.utf8Encode)) ∨
    (∃ e, formatCommand os keep input output fs = (.error e, fs)) := by
  unfold formatCommand readFile
  cases hi : fs input with
  | none => right; exact ⟨_, rfl⟩
  | some src =>
    dsimp only
    cases hd : decodeUtf8 src with
    | error e => right; exact ⟨_, rfl⟩
    | ok text =>
      dsimp only
      cases ht : formatText keep text with
      | none => right; exact ⟨_, rfl⟩
      | some out =>
        dsimp only
        rcases writeFile_cases os output out.utf8Encode fs with ⟨e, h1, h2⟩ | ⟨h1, h2⟩
        · right; exact ⟨e, h2⟩
        · left; exact ⟨src, text, out, rfl, hd, ht, h1, h2⟩

/-- **C67**, when it succeeds: the input exists, is UTF-8 and well-formed, and the output can be written. -/
theorem C67_succeeds (os : OsEnv) (keep : List Nat → Bool) (input output : Str) (fs : Files) :
    (formatCommand os keep input output fs).1 = .ok .success ↔
      (∃ src text d, fs input = some src ∧ decodeUtf8 src = .ok text ∧ readDoc text = some d) ∧ os.openError output = none := by
  constructor
  · intro h
    rcases C67_command os keep input output fs with ⟨src, text, out, h1, h2, h3, h4, _⟩ | ⟨e, h1⟩
    · unfold formatText at h3
      rw [Option.map_eq_some_iff] at h3
      obtain ⟨d, h3, _⟩ := h3
      exact ⟨⟨src, text, d, h1, h2, h3⟩, h4⟩
    · rw [h1] at h; cases h
  · rintro ⟨⟨src, text, d, h1, h2, h3⟩, h4⟩
    unfold formatCommand readFile
    rw [h1]
    dsimp only
    rw [h2]
    dsimp only
    have : formatText keep text = some (written d.nodes (unblank keep false [] d.root)) := by unfold formatText; rw [h3]; rfl
    rw [this]
    dsimp only
    rcases writeFile_cases os output (written d.nodes (unblank keep false [] d.root)).utf8Encode fs with ⟨e, h5, _⟩ | ⟨_, h5⟩
    · rw [h4] at h5; cases h5
    · rw [h5]

/-- **C67**, in place: formatting a file onto itself twice is formatting it once. -/
theorem C67_twice (os : OsEnv) (k1 k2 : List Nat → Bool) (path : Str) (fs : Files) (src : ByteArray) (text : Str) (d : Doc)
    (hs : fs path = some src) (ht : decodeUtf8 src = .ok text) (h : readDoc text = some d) (ha : asciiMarkupAll d.nodes = true)
    (hn : noEmptyTextAll d.nodes = true) (hw : wordsInFront d.root = true) :
    (formatCommand os k2 path path (formatCommand os k1 path path fs).2).2 = (formatCommand os k1 path path fs).2 := by
  obtain ⟨out, h1, h2⟩ := C67_stable text d h ha hn hw
  rcases C67_command os k1 path path fs with ⟨src', text', out', e1, e2, e3, e4, e5⟩ | ⟨e, e1⟩
  · rw [hs] at e1; cases e1
    rw [ht] at e2; cases e2
    rw [h1 k1] at e3; cases e3
    rw [e5]
    dsimp only
    unfold formatCommand readFile
    have : update fs path out.utf8Encode path = some out.utf8Encode := by simp [update]
    rw [this]
    dsimp only
    rw [decodeUtf8_encode]
    dsimp only
    rw [h2 k2]
    dsimp only
    rcases writeFile_cases os path out.utf8Encode (update fs path out.utf8Encode) with ⟨e, _, e6⟩ | ⟨_, e6⟩
    · rw [e6]
    · rw [e6]
      dsimp only
      funext p
      unfold update
      split <;> rfl
  · rw [e1]
    dsimp only
    rcases C67_command os k2 path path fs with ⟨src', text', out', f1, f2, f3, f4, f5⟩ | ⟨e', f1⟩
    · have := (C67_succeeds os k1 path path fs).2 ⟨⟨src, text, d, hs, ht, h⟩, f4⟩
      rw [e1] at this
      cases this
    · rw [f1]

/-! ## Concrete documents -/

/-- A document with everything the theorems speak of. -/
def formatDoc : Str :=
  c!"<!--x--><A><B/>\n<C k=\"é&lt;\"><D>d &amp; é</D><E>words <b>bold</b> <i>more</i></E></C></A><?p q?>"

def formatOut : Str :=
  c!"<?xml version=\"1.0\" encoding=\"UTF-8\"?>\n<!--x-->\n<A>\n  <B/>\n  <C k=\"&#233;&lt;\">\n    <D>d &amp; &#233;</D>\n    <E>words <b>bold</b> <i>more</i></E>\n  </C>\n</A>\n<?p q?>\n"

/-- The hypotheses, as one test. -/
def formatOk (text : Str) : Bool :=
  match readDoc text with
  | some d => asciiMarkupAll d.nodes && noEmptyTextAll d.nodes && wordsInFront d.root
  | none => false

set_option maxRecDepth 20000 in
theorem formatDoc_ok : formatOk formatDoc = true := by decide +kernel

set_option maxRecDepth 20000 in
example : formatText (fun _ => false) formatDoc = some formatOut := by decide +kernel

/-- The hypotheses of the theorems are met by it. -/
theorem formatDoc_meets : ∃ d, readDoc formatDoc = some d ∧ asciiMarkupAll d.nodes = true ∧ noEmptyTextAll d.nodes = true ∧
    wordsInFront d.root = true := by
  have h : formatOk formatDoc = true := formatDoc_ok
  unfold formatOk at h
  split at h
  · rename_i d hd
    rw [Bool.and_eq_true, Bool.and_eq_true] at h
    exact ⟨d, hd, h.1.1, h.1.2, h.2⟩
  · cases h

/-- A disk with the document on it: formatting in place succeeds and leaves the formatted text. -/
example (os : OsEnv) (hos : os.openError c!"a" = none) (keep : List Nat → Bool) :
    (formatCommand os keep c!"a" c!"a" (fun p => if p = c!"a" then some formatDoc.utf8Encode else none)).1 = .ok .success := by
  obtain ⟨d, hd, _⟩ := formatDoc_meets
  exact (C67_succeeds os keep _ _ _).2 ⟨⟨_, _, d, rfl, decodeUtf8_encode _, hd⟩, hos⟩

/-- What a reader sees of a document. -/
def wordsRead (text : Str) : Option Str := (readDoc text).map (fun d => allText d.root)

set_option maxRecDepth 20000 in
/-- White space is added where there was none: words that touched are apart. -/
theorem C67_adds_space : wordsRead c!"<p><b>a</b><i>b</i></p>" = some c!"ab" ∧
    ((formatText (fun _ => false) c!"<p><b>a</b><i>b</i></p>").bind wordsRead) = some c!"\n  a\n  b\n" := by decide +kernel

set_option maxRecDepth 20000 in
/-- White space between inline elements may be lost: words that were apart touch. -/
theorem C67_loses_space : wordsRead c!"<p><b>a</b> <i>b</i> c</p>" = some c!"a b c" ∧
    ((formatText (fun _ => false) c!"<p><b>a</b> <i>b</i> c</p>").bind wordsRead) = some c!"ab c" := by decide +kernel

set_option maxRecDepth 20000 in
/-- A comment that is not ASCII is changed. -/
theorem C67_comment : (formatText (fun _ => false) c!"<p><!--é--></p>") =
    some c!"<?xml version=\"1.0\" encoding=\"UTF-8\"?>\n<p>\n  <!--&#233;-->\n</p>\n" := by decide +kernel

set_option maxRecDepth 20000 in
/-- A name that is not ASCII makes a document that cannot be read. -/
theorem C67_name : (readDoc c!"<é/>").isSome = true ∧
    ((formatText (fun _ => false) c!"<é/>").map (fun o => (readDoc o).isSome)) = some false := by decide +kernel

set_option maxRecDepth 20000 in
/-- An element with an empty CDATA section is printed in two ways in turn. -/
theorem C67_cdata : (formatText (fun _ => false) c!"<p><![CDATA[]]></p>") =
      some c!"<?xml version=\"1.0\" encoding=\"UTF-8\"?>\n<p></p>\n" ∧
    ((formatText (fun _ => false) c!"<p><![CDATA[]]></p>").bind (formatText (fun _ => false))) =
      some c!"<?xml version=\"1.0\" encoding=\"UTF-8\"?>\n<p/>\n" := by decide +kernel

end ReqIF.Format
