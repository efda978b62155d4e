import Verif.Proofs.Disguise
import Verif.Props.C88
import Verif.Props.C63
import Verif.Proofs.NodeEq
/-!
# C94: anonymized documents

Anonymizing keeps the identifiers and references of a document and its form; what it does not keep
is the form of XHTML values.
-/
namespace ReqIF
open Spec Xsd Accept

/-- **C94.** The anonymized document has the identifiers and references of the original, in the same
order; so if identifiers were unique or references had targets, it is so afterwards. -/
theorem C94_references (hash : Str → Nat) (print : Doc → Str) (bytes : ByteArray) (text : Str)
    (h : anonymize hash print (.ok bytes) = .ok text) :
    ∃ d u r, AnonymizedTo print bytes text d u r ∧ documentEntries r = documentEntries d.root ∧
      (identifiersUnique (documentEntries d.root) → identifiersUnique (documentEntries r)) ∧
      (referencesResolve (documentEntries d.root) → referencesResolve (documentEntries r)) := by
  obtain ⟨d, u, r, ha, ht, -⟩ := anonymize_inv h
  have e := documentEntries_disguised (anonymizeTree_disguise ht ha.namespace_)
  exact ⟨d, u, r, ha, e, fun h => by rw [e]; exact h, fun h => by rw [e]; exact h⟩

/-- **C94.** The anonymized document is valid if the original is, up to the content of XHTML values; and it meets the
additional requirements of parser and unparser if the original meets them and has no XHTML default value. -/
theorem C94_valid (hash : Str → Nat) (print : Doc → Str) (bytes : ByteArray) (text : Str)
    (h : anonymize hash print (.ok bytes) = .ok text) :
    ∃ d u r, AnonymizedTo print bytes text d u r ∧
      ∀ dialect, validRoot dialect d.root = true → dialect = .xsd ∨ hasXhtmlDefault d.root = false →
        validRoot dialect r = true := by
  obtain ⟨d, u, r, ha, ht, -⟩ := anonymize_inv h
  exact ⟨d, u, r, ha, fun dialect hv hd => validRoot_disguised (anonymizeTree_disguise ht ha.namespace_) hd hv⟩

/-- The anonymized document is read and can be written. -/
theorem anonymized_parses {hash : Str → Nat} {n r : Node} {u : Str} (ht : anonymizeTree hash n = .ok r) (hn : n.nsmap.get? none = some u)
    (hv : validRoot .lenient n = true) (hs : noSpecials n = true) (hk : childNames n.kids ≠ []) (hd : hasXhtmlDefault n = false)
    {t : Str} {e : Doc} (hte : readDoc t = some e) (her : e.root = r) :
    ∃ b out, parseString t = .ok b ∧ b.exceptions = [] ∧ unparse b = .ok out := by
  have hx := anonymizeTree_disguise ht hn
  have hns : (e.root.nsmap.get? none).isSome = true := by
    rw [her]
    cases hx with
    | value ks s h => simp [xhtmlValue] at h
    | header h hk => simp [Spec.headerText] at h
    | elem h hh hk => simp only [Node.nsmap, mapCovered] at hn ⊢; rw [hn]; rfl
    | _ => cases hv
  have hk' : childNames e.root.kids ≠ [] := by
    rw [her]
    cases hx with
    | value ks s h => simp [xhtmlValue] at h
    | header h hk => simp [Spec.headerText] at h
    | elem h hh hk1 => simp only [Node.kids] at hk ⊢; rw [childNames_disguised _ _ _ hk1]; exact hk
    | _ => cases hv
  obtain ⟨b, h1, h2, h3, -⟩ := document_parses (d := .lenient) (by decide) hte hns
    (by rw [her]; exact validRoot_disguised hx (.inr hd) hv) (by rw [her]; exact noSpecials_disguised _ _ _ hx hs) hk'
  obtain ⟨out, ho⟩ := h3 rfl
  exact ⟨b, out, h1, h2, ho⟩

/-- **C94.** So it is read, without collected exceptions, and can be written, whatever the text it was printed as. -/
theorem C94_read (hash : Str → Nat) (print : Doc → Str) (bytes : ByteArray) (text : Str)
    (h : anonymize hash print (.ok bytes) = .ok text) :
    ∃ d u r, AnonymizedTo print bytes text d u r ∧
      (validRoot .lenient d.root = true → noSpecials d.root = true → childNames d.root.kids ≠ [] → hasXhtmlDefault d.root = false →
        ∀ t e, readDoc t = some e → e.root = r → ∃ b out, parseString t = .ok b ∧ b.exceptions = [] ∧ unparse b = .ok out) := by
  obtain ⟨d, u, r, ha, ht, -⟩ := anonymize_inv h
  exact ⟨d, u, r, ha, fun hv hs hk hd t e hte her => anonymized_parses ht ha.namespace_ hv hs hk hd hte her⟩

/-- **C94**, the opposite: with the content of XHTML values looked at, too, a valid ReqIF document stays valid only if it
has no XHTML value: the schema requires an element `p` or `div`, anonymizing leaves a text. -/
theorem C94_contents (hash : Str → Nat) (print : Doc → Str) (bytes : ByteArray) (text : Str)
    (h : anonymize hash print (.ok bytes) = .ok text) :
    ∃ d u r, AnonymizedTo print bytes text d u r ∧
      (u = reqifNs → validWithContents d.root = true →
        (validWithContents r = true ↔ ∀ c ∈ xhtmlContents false d.root, c.1 ≠ c!"THE-VALUE")) := by
  obtain ⟨d, u, r, ha, ht, -⟩ := anonymize_inv h
  refine ⟨d, u, r, ha, fun hu hv => ?_⟩
  have hx := anonymizeTree_disguise ht ha.namespace_
  subst hu
  rw [validWithContents, Bool.and_eq_true] at hv ⊢
  rw [contents_disguised none _ _ hx false rfl, List.all_eq_true]
  have hr := validRoot_disguised hx (.inl rfl) hv.1
  refine ⟨fun h c hc => ?_, fun h => ⟨hr, fun c hc => ?_⟩⟩
  · have := h.2 c hc
    simp only [otherBlock, Bool.and_eq_true, bne_iff_ne, ne_eq] at this
    exact this.1
  · simp only [otherBlock, Bool.and_eq_true, bne_iff_ne, ne_eq]
    exact ⟨h c hc, List.all_eq_true.1 hv.2 c hc⟩

/-! ## Documents -/

/-- A document with an XHTML default value. -/
def defaultDoc (value : Str) : Str := xsdDoc (
  el c!"DATATYPES" [] (el c!"DATATYPE-DEFINITION-XHTML" (ident c!"d") []) ++
  el c!"SPEC-TYPES" [] (el c!"SPEC-OBJECT-TYPE" (ident c!"t") (el c!"SPEC-ATTRIBUTES" [] (
    el c!"ATTRIBUTE-DEFINITION-XHTML" (ident c!"a") (
      el c!"DEFAULT-VALUE" [] (avalue c!"XHTML" [] (el c!"THE-VALUE" [] value)) ++
      el c!"TYPE" [] (el c!"DATATYPE-DEFINITION-XHTML-REF" [] c!"d"))))))

/-- Its namespaces. -/
def defaultSpaces : NsMap := [(none, reqifNs), (some c!"h", xhtmlUri)]

/-- Its tree, with this title. -/
def defaultTree (title : Str) (value : List Node) : Node :=
  let q (name : Str) (attrs : List Attr) (ks : List Node) : Node := .elem ⟨some reqifNs, none, name, [], defaultSpaces, attrs⟩ ks
  let idents (s : Str) : List Attr := [⟨none, none, c!"IDENTIFIER", s⟩, ⟨none, none, c!"LAST-CHANGE", c!"2021-01-01T00:00:00"⟩]
  .elem ⟨some reqifNs, none, c!"REQ-IF", defaultSpaces, defaultSpaces, []⟩ [
    q c!"THE-HEADER" [] [q c!"REQ-IF-HEADER" [⟨none, none, c!"IDENTIFIER", c!"h"⟩] [
      q c!"CREATION-TIME" [] [.text c!"2021-01-01T00:00:00"], q c!"REQ-IF-TOOL-ID" [] [.text c!"t"],
      q c!"REQ-IF-VERSION" [] [.text c!"1.0"], q c!"SOURCE-TOOL-ID" [] [.text c!"s"], q c!"TITLE" [] [.text title]]],
    .text c!"\n",
    q c!"CORE-CONTENT" [] [q c!"REQ-IF-CONTENT" [] [
      q c!"DATATYPES" [] [q c!"DATATYPE-DEFINITION-XHTML" (idents c!"d") []],
      q c!"SPEC-TYPES" [] [q c!"SPEC-OBJECT-TYPE" (idents c!"t") [q c!"SPEC-ATTRIBUTES" [] [
        q c!"ATTRIBUTE-DEFINITION-XHTML" (idents c!"a") [
          q c!"DEFAULT-VALUE" [] [q c!"ATTRIBUTE-VALUE-XHTML" [] [
            q c!"DEFINITION" [] [q c!"ATTRIBUTE-DEFINITION-XHTML-REF" [] [.text c!"a"]],
            q c!"THE-VALUE" [] value]],
          q c!"TYPE" [] [q c!"DATATYPE-DEFINITION-XHTML-REF" [] [.text c!"d"]]]]]]]]]

/-- `<h:div>x</h:div>` -/
def divOfX : List Node := [.elem ⟨some xhtmlUri, some c!"h", c!"div", [], defaultSpaces, []⟩ [.text c!"x"]]

set_option maxRecDepth 20000 in
theorem defaultDoc_read : readDoc (defaultDoc c!"<h:div>x</h:div>") = some ⟨none, [defaultTree c!"T" divOfX], defaultTree c!"T" divOfX⟩ :=
  isRootOnly_eq (by decide +kernel)

set_option maxRecDepth 20000 in
theorem defaultDoc_masked : readDoc (defaultDoc c!"y") = some ⟨none, [defaultTree c!"T" [.text c!"y"]], defaultTree c!"T" [.text c!"y"]⟩ :=
  isRootOnly_eq (by decide +kernel)

theorem defaultTree_anonymized (hash : Str → Nat) : anonymizeTree hash (defaultTree c!"T" divOfX) =
    .ok (defaultTree (anonymizeString hash c!"T") [.text (anonymizeString hash c!"<None:div>x</None:div>")]) := rfl

set_option maxRecDepth 20000 in
/-- **C94**, finding: a document that is valid (XHTML contents and the needs of parser and unparser included) and read can
be refused after it was anonymized, whatever the hash function: without an element of XHTML the declaration of its namespace
is unused and gets lost, and the parser does not accept an XHTML default value without a namespace in force. -/
theorem C94_refused : ∃ (s : Str) (d : Doc), readDoc s = some d ∧ validWithContents d.root = true ∧ validRoot .write d.root = true ∧
    (∃ b, parseString s = .ok b) ∧
    ∀ hash, ∃ r, anonymizeTree hash d.root = .ok r ∧
      ∀ t e, readDoc t = some e → e.root = r → ¬ ∃ b, parseString t = .ok b := by
  refine ⟨_, _, defaultDoc_read, by decide +kernel, by decide +kernel, (isRead_iff _).1 (by decide +kernel), fun hash => ?_⟩
  refine ⟨_, defaultTree_anonymized hash, fun t e ht he hb => ?_⟩
  have := (C88_values ht defaultDoc_masked (by rw [he]; rfl)).1 hb
  rw [← isRead_iff] at this
  revert this
  decide +kernel

/-- The hypotheses of the other theorems are met: a document with a title, a specification and a STRING value and no
XHTML value is valid with its contents, and it is anonymized. -/
def stringDoc : Str := xsdDoc (
  el c!"DATATYPES" [] (el c!"DATATYPE-DEFINITION-STRING" (ident c!"d" ++ c!" MAX-LENGTH=\"9\"") []) ++
  el c!"SPEC-TYPES" [] (el c!"SPEC-OBJECT-TYPE" (ident c!"t") (el c!"SPEC-ATTRIBUTES" [] (
    el c!"ATTRIBUTE-DEFINITION-STRING" (ident c!"a") (el c!"TYPE" [] (el c!"DATATYPE-DEFINITION-STRING-REF" [] c!"d"))))) ++
  el c!"SPEC-OBJECTS" [] (el c!"SPEC-OBJECT" (ident c!"o") (
    el c!"VALUES" [] (avalue c!"STRING" c!" THE-VALUE=\"secret\"" []) ++ el c!"TYPE" [] (el c!"SPEC-OBJECT-TYPE-REF" [] c!"t"))))

/-- Is the document read, valid in all senses, without XHTML default value and anonymized? -/
def canBeAnonymized (text : Str) (values : Bool) : Bool :=
  match readDoc text with
  | none => false
  | some d => validWithContents d.root && validRoot .lenient d.root && noSpecials d.root && !hasXhtmlDefault d.root &&
    decide (d.root.nsmap.get? none = some reqifNs) &&
    (xhtmlContents false d.root).any (fun c => c.1 == c!"THE-VALUE") == values && decide (4 < (documentEntries d.root).length) &&
    (match anonymizeTree List.length d.root with | .ok _ => true | .error _ => false)

set_option maxRecDepth 20000 in
/-- Documents that meet the hypotheses, without and with XHTML values. -/
example : canBeAnonymized stringDoc false = true ∧
    canBeAnonymized (xsdDoc (el c!"SPEC-OBJECTS" [] (
      el c!"SPEC-OBJECT" (ident c!"o") (
        el c!"VALUES" [] (avalue c!"XHTML" [] (el c!"THE-VALUE" [] c!"<h:div>x</h:div>")) ++ el c!"TYPE" [] (el c!"SPEC-OBJECT-TYPE-REF" [] c!"t")) ++
      el c!"SPEC-OBJECT" (ident c!"p") (el c!"VALUES" [] [] ++ el c!"TYPE" [] (el c!"SPEC-OBJECT-TYPE-REF" [] c!"t"))))) true = true := by
  constructor <;> decide +kernel

end ReqIF
