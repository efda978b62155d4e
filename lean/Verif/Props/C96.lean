import Verif.Proofs.VeilShield
import Verif.Proofs.View
import Verif.Props.C94
/-!
# C96: what is read from an anonymized document

The bundle read from an anonymized document is that of the original with the covered strings replaced.
-/
set_option linter.unusedSimpArgs false
namespace ReqIF
open Spec Xsd Accept

variable {f : Str → Str}

mutual
theorem preorder_hidden : ∀ h : Hierarchy, preorder (hiddenHierarchy h) = (preorder h).map hiddenHierarchy
  | .leaf i => rfl
  | .node i cs => by
    rw [hiddenHierarchy, preorder, preorder, List.map_cons, hiddenHierarchy, preorderList_hidden cs]

theorem preorderList_hidden : ∀ hs : List Hierarchy, preorderList (hiddenHierarchies hs) = (preorderList hs).map hiddenHierarchy
  | [] => rfl
  | h :: hs => by
    rw [hiddenHierarchies, preorderList, preorderList, List.map_append, preorder_hidden h, preorderList_hidden hs]
end

theorem dangling_hidden (os : List SpecObject) (ref : Option Str) : dangling (os.map (hiddenObject f)) ref = dangling os ref := by
  cases ref with
  | none => rfl
  | some r => simp only [dangling, List.any_map]; rfl

theorem ends_hidden (os : List SpecObject) (rs : List SpecRelation) :
    ((rs.map (hiddenRelation f)).flatMap (relationEnds (os.map (hiddenObject f)))).map unquoted =
      (rs.flatMap (relationEnds os)).map unquoted := by
  induction rs with
  | nil => rfl
  | cons r rs ih =>
    simp only [List.map_cons, List.flatMap_cons, List.map_append, ih, relationEnds, dangling_hidden]
    congr 1
    show List.map unquoted (if dangling os r.source = true then _ else _) ++ List.map unquoted (if dangling os r.target = true then _ else _) = _
    cases dangling os r.source <;> cases dangling os r.target <;> rfl

theorem refs_hidden (os : List SpecObject) (ss : List Specification) :
    ((ss.map (hiddenSpecification f)).flatMap (hierarchyRefs (os.map (hiddenObject f)))).map unquoted =
      (ss.flatMap (hierarchyRefs os)).map unquoted := by
  induction ss with
  | nil => rfl
  | cons s ss ih =>
    have hd : dangling (os.map (hiddenObject f)) = dangling os := funext (dangling_hidden os)
    have hr : (specificationView (hiddenSpecification f s)).refs = (specificationView s).refs := by
      unfold specificationView hiddenSpecification
      dsimp only
      cases s.children with
      | none => rfl
      | some hs =>
        simp only [Option.map_some, Option.getD_some, preorderList_hidden, List.map_map]
        apply List.map_congr_left
        intro h _
        cases h <;> rfl
    simp only [List.map_cons, List.flatMap_cons, List.map_append, ih, refs_eq, hd, hr]

/-- What validate finds does not depend on what is covered. -/
theorem foundIn_hidden (b : Bundle) : foundIn (hiddenBundle f b) = foundIn b := by
  unfold foundIn
  have he : (hiddenBundle f b).exceptions.map unquotedTag = b.exceptions.map unquotedTag := by
    unfold hiddenBundle
    simp only [List.map_map]
    rfl
  rw [he]
  congr 1
  unfold specRelationsOf specificationsOf specObjectsOf
  have hc : (hiddenBundle f b).coreContent = b.coreContent.map (Option.map (hiddenContent f)) := rfl
  rw [hc]
  match b.coreContent with
  | none => rfl
  | some none => rfl
  | some (some c) =>
    simp only [Option.map_some, hiddenContent, ← getD_lists, List.map_append, ends_hidden, refs_hidden]

theorem XhtmlAll.imp_ {P Q : Str → Prop} (h : ∀ s, P s → Q s) {b : Bundle} (hb : XhtmlAll P b) : XhtmlAll Q b :=
  ⟨fun a ha ht => let ⟨s, e, hs⟩ := hb.values a ha ht; ⟨s, e, h s hs⟩, fun a ha ht s e => h s (hb.defaults a ha ht s e)⟩

/-- The bundle read from the anonymized document. -/
theorem anonymized_read {hash : Str → Nat} {d e : Doc} {r : Node} {dialect : Dialect} {b b' : Bundle}
    (ht : anonymizeTree hash d.root = .ok r) (hn : d.root.nsmap.get? none = some reqifNs) (hv : validRoot dialect d.root = true)
    (her : e.root = r) (hb : (parseReqif (none : Option (Callback Unit)) d ()).1 = .ok b)
    (hb' : (parseReqif (none : Option (Callback Unit)) e ()).1 = .ok b') :
    hiddenBundle id b' = hiddenBundle (anonymizeString hash) b ∧ XhtmlAll Anonymized b' ∧ foundIn b' = foundIn b := by
  have hx := anonymizeTree_disguise ht hn
  rw [← her] at hx
  have hf := befits_root hv
  have e1 := hidden_disguised hx hn hf hb hb'
  refine ⟨e1, ?_, ?_⟩
  · refine XhtmlAll.imp_ ?_ (xhtml_disguised ?_ hx hn hf hb')
    · rintro s ⟨t, rfl⟩
      exact anonymizeString_anonymized hash t
    · rintro s ⟨t, rfl⟩
      exact escape_anonymized hash t
  · rw [← foundIn_hidden (f := id), e1, foundIn_hidden]

/-- **C96.** If a valid ReqIF document is anonymized, then what is read from the result, whatever the text it was printed
as, is what is read from the original, with each covered string replaced: STRING values and their defaults, the long names
of specifications, comment and title of the header.  XHTML values, left out of the comparison, are all anonymized strings.
And validate finds the same about relations and references. -/
theorem C96_read (hash : Str → Nat) (print : Doc → Str) (bytes : ByteArray) (text : Str)
    (h : anonymize hash print (.ok bytes) = .ok text) :
    ∃ d u r, AnonymizedTo print bytes text d u r ∧
      ∀ dialect, u = reqifNs → validRoot dialect d.root = true →
        ∀ s t e b b', decodeUtf8 bytes = .ok s → parseString (normEol s) = .ok b →
          readDoc t = some e → e.root = r → parseString t = .ok b' →
          hiddenBundle id b' = hiddenBundle (anonymizeString hash) b ∧ XhtmlAll Anonymized b' ∧ foundIn b' = foundIn b := by
  obtain ⟨d, u, r, ha, ht, -⟩ := anonymize_inv h
  refine ⟨d, u, r, ha, fun dialect hu hv s t e b b' hs hb hte her hb' => ?_⟩
  obtain ⟨s', hs', hd⟩ := ha.read
  rw [hs] at hs'
  cases hs'
  rw [parseString_ofDoc hd] at hb
  rw [parseString_ofDoc hte] at hb'
  subst hu
  exact anonymized_read ht ha.namespace_ hv her hb hb'

/-- **C96.** And it is read, if the original meets the additional requirements of the parser and has no XHTML default value. -/
theorem C96_both (hash : Str → Nat) (print : Doc → Str) (bytes : ByteArray) (text : Str)
    (h : anonymize hash print (.ok bytes) = .ok text) :
    ∃ d u r, AnonymizedTo print bytes text d u r ∧
      (u = reqifNs → validRoot .lenient d.root = true → noSpecials d.root = true → childNames d.root.kids ≠ [] → hasXhtmlDefault d.root = false →
        ∀ s t e, decodeUtf8 bytes = .ok s → readDoc t = some e → e.root = r →
          ∃ b b', parseString (normEol s) = .ok b ∧ parseString t = .ok b' ∧
            hiddenBundle id b' = hiddenBundle (anonymizeString hash) b ∧ XhtmlAll Anonymized b' ∧ foundIn b' = foundIn b) := by
  obtain ⟨d, u, r, ha, ht, -⟩ := anonymize_inv h
  refine ⟨d, u, r, ha, fun hu hv hs hk hx s t e hd hte her => ?_⟩
  obtain ⟨s', hs', hr⟩ := ha.read
  rw [hd] at hs'
  cases hs'
  subst hu
  obtain ⟨b, hb, -⟩ := document_parses (d := .lenient) (by decide) hr (by rw [ha.namespace_]; rfl) hv hs hk
  obtain ⟨b', -, hb', -⟩ := anonymized_parses ht ha.namespace_ hv hs hk hx hte her
  refine ⟨b, b', hb, hb', ?_⟩
  rw [parseString_ofDoc hr] at hb
  rw [parseString_ofDoc hte] at hb'
  exact anonymized_read ht ha.namespace_ hv her hb hb'

/-! ## Documents -/

set_option maxRecDepth 20000 in
/-- A document that is written with a prefix, beside another default namespace. -/
def clearDoc : Str :=
  c!"<r:REQ-IF xmlns:r=\"http://www.omg.org/spec/ReqIF/20110401/reqif.xsd\" xmlns=\"urn:x\">" ++
  c!"<r:THE-HEADER><r:REQ-IF-HEADER IDENTIFIER=\"h\"><r:CREATION-TIME>2021-01-01T00:00:00</r:CREATION-TIME><r:REQ-IF-TOOL-ID>t</r:REQ-IF-TOOL-ID>" ++
  c!"<r:REQ-IF-VERSION>1.0</r:REQ-IF-VERSION><r:SOURCE-TOOL-ID>s</r:SOURCE-TOOL-ID><r:TITLE>secret</r:TITLE></r:REQ-IF-HEADER></r:THE-HEADER>" ++
  c!"<r:CORE-CONTENT><r:REQ-IF-CONTENT/></r:CORE-CONTENT></r:REQ-IF>"

/-- Its tree. -/
def clearTree : Node :=
  let m : NsMap := [(some c!"r", reqifNs), (none, c!"urn:x")]
  let q (name : Str) (attrs : List Attr) (ks : List Node) : Node := .elem ⟨some reqifNs, some c!"r", name, [], m, attrs⟩ ks
  .elem ⟨some reqifNs, some c!"r", c!"REQ-IF", m, m, []⟩ [
    q c!"THE-HEADER" [] [q c!"REQ-IF-HEADER" [⟨none, none, c!"IDENTIFIER", c!"h"⟩] [
      q c!"CREATION-TIME" [] [.text c!"2021-01-01T00:00:00"], q c!"REQ-IF-TOOL-ID" [] [.text c!"t"],
      q c!"REQ-IF-VERSION" [] [.text c!"1.0"], q c!"SOURCE-TOOL-ID" [] [.text c!"s"], q c!"TITLE" [] [.text c!"secret"]]],
    q c!"CORE-CONTENT" [] [q c!"REQ-IF-CONTENT" [] []]]

set_option maxRecDepth 20000 in
theorem clearDoc_read : readDoc clearDoc = some ⟨none, [clearTree], clearTree⟩ := isRootOnly_eq (by decide +kernel)

/-- The title read from a document. -/
def titleIn (text : Str) : Option Str :=
  match parseString text with
  | .ok b => b.header.bind (·.title)
  | .error _ => none

set_option maxRecDepth 20000 in
/-- **C96**, finding: the command looks for elements in the default namespace of the document.  If that is not the one of
ReqIF, because elements are written with a prefix, a valid document that is read by the parser is anonymized without an
error, and all of it stays as it was. -/
theorem C96_clear : ∃ (s : Str) (d : Doc), readDoc s = some d ∧ validRoot .write d.root = true ∧ titleIn s = some c!"secret" ∧
    ∀ hash, anonymizeTree hash d.root = .ok d.root :=
  ⟨_, _, clearDoc_read, by decide +kernel, by decide +kernel, fun _ => rfl⟩

/-- A document with all kinds of covered strings. -/
def secretDoc : Str := xsdDoc (
  el c!"DATATYPES" [] (el c!"DATATYPE-DEFINITION-STRING" (ident c!"d" ++ c!" MAX-LENGTH=\"9\"") []) ++
  el c!"SPEC-TYPES" [] (
    el c!"SPEC-OBJECT-TYPE" (ident c!"t") (el c!"SPEC-ATTRIBUTES" [] (
      adef c!"STRING" [] (el c!"DEFAULT-VALUE" [] (avalue c!"STRING" c!" THE-VALUE=\"one\"" [])))) ++
    el c!"SPECIFICATION-TYPE" (ident c!"s") []) ++
  el c!"SPEC-OBJECTS" [] (el c!"SPEC-OBJECT" (ident c!"o") (
    el c!"VALUES" [] (avalue c!"STRING" c!" THE-VALUE=\"two\"" [] ++ avalue c!"XHTML" [] (el c!"THE-VALUE" [] c!"<h:div>three</h:div>")) ++
    el c!"TYPE" [] (el c!"SPEC-OBJECT-TYPE-REF" [] c!"t"))) ++
  el c!"SPECIFICATIONS" [] (el c!"SPECIFICATION" (ident c!"p" ++ c!" LONG-NAME=\"four\"") (
    el c!"TYPE" [] (el c!"SPECIFICATION-TYPE-REF" [] c!"s") ++
    el c!"CHILDREN" [] (el c!"SPEC-HIERARCHY" (ident c!"h1") (el c!"OBJECT" [] (el c!"SPEC-OBJECT-REF" [] c!"nobody"))))))

/-- The covered strings read from a document: title, long names, values and default values. -/
def secretsOf (b : Bundle) : List Str :=
  [(b.header.bind (·.title)).getD []] ++ (specificationsOf b).map (fun s => s.longName.getD []) ++
    (everyValue b).filterMap (fun a => match a.value with | .str s => some s | .list _ => none) ++
    (everyDefinition b).filterMap (fun a => match a.defaultValue with | some (.str s) => some s | _ => none)

/-- Those of a result of the parser, with the number of dangling references. -/
def secretsIn : Py Bundle → List Str × Nat
  | .ok b => (secretsOf b, (foundIn b).2.length)
  | .error _ => ([], 0)

/-- The same, after anonymizing. -/
def secretsAfter (hash : Str → Nat) (text : Str) : List Str × Nat :=
  match readDoc text with
  | none => ([], 0)
  | some d =>
    match anonymizeTree hash d.root with
    | .error _ => ([], 0)
    | .ok r => secretsIn (parseReqif (none : Option (Callback Unit)) (d.withRoot r) ()).1

set_option maxRecDepth 20000 in
/-- It meets the hypotheses. -/
example : canBeAnonymized secretDoc true = true ∧
    secretsIn (parseString secretDoc) = ([c!"T", c!"four", c!"two", c!"<h:div>three</h:div>", c!"one"], 1) ∧
    secretsAfter List.length secretDoc =
      ([c!"...Anonymized-1...", c!"...Anonymized-4...", c!"...Anonymized-3...", c!"...Anonymized-26...",
        c!"...Anonymized-3..."], 1) := by
  refine ⟨?_, ?_, ?_⟩ <;> decide +kernel

end ReqIF
