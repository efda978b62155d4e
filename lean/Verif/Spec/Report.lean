import Verif.Spec.Archive
/-!
# Specification of the validation report
-/
namespace ReqIF.Spec

/-- The text about a reference that leads nowhere: which element holds it, and what it
refers to; then the element, from its start tag on. -/
def danglingLine (owner part : Str) (ref : Option Str) (fragment : Str) : Str :=
  c!"warning: semantic error: schema error: A <" ++ owner ++ c!">'s <" ++ part ++
  c!"> contains a link to a non-existing <SPEC-OBJECT>: " ++ fmtOpt ref ++
  c!"\nAffected fragment:\n<" ++ owner ++ fragment

/-- The text about a semantic issue. -/
def issueLine : SemanticIssue → Str → Str
  | .noXmlDeclaration, _ => c!"warning: semantic error: Document is missing a valid XML declaration. Every ReqIFdocument should have the following line: <?xml version=\"1.0\" encoding=\"UTF-8\"?>"
  | .notUtf8, _ => c!"warning: semantic error: ReqIF Implementation Guide recommends using UTF-8 encoding for ReqIF files. Every ReqIF document should have the following line: <?xml version=\"1.0\" encoding=\"UTF-8\"?>"
  | .relationEnd _ part ref, f => danglingLine c!"SPEC-RELATION" part ref f
  | .hierarchyRef _ ref, f => danglingLine c!"SPEC-HIERARCHY" c!"SPEC-OBJECT-REF" ref f

/-- The text about a relation without source or target. -/
def missingLine (e : MissingTag) (fragment : Str) : Str :=
  c!"warning: schema error: Tag <SPEC-RELATION> is missing a <" ++ e.tag ++
  c!"> child tag. Affected fragment:\n<SPEC-RELATION" ++ fragment

/-- The last lines: the counts, and a note unless the strict check was asked for. -/
def closingLines (xml schema semantic : Nat) (strict : Bool) : List Str :=
  (c!"Validation complete with " ++ Nat.toDigits 10 xml ++ c!" errors, " ++ Nat.toDigits 10 schema ++
    c!" schema issues found, " ++ Nat.toDigits 10 semantic ++ c!" semantic issues found.") ::
  (if strict then [] else [c!"NOTE: By default, the validation does not perform a strict check of the ReqIF schema conformance. To enable the strict conformance check, rerun the validation with --use-reqif-schema."])

/-- The text `fragment` is what follows `<owner` when the element `n` is printed. -/
def Quotes (owner : Str) (n : Option Node) (fragment : Str) : Prop :=
  ∃ x, n = some x ∧ x.tag = .name owner ∧ stringifyNode false x = .ok (c!"<" ++ owner ++ fragment)

/-- The element an issue quotes, if it is about one. -/
def issueQuotes : SemanticIssue → Str → Prop
  | .noXmlDeclaration, _ => True
  | .notUtf8, _ => True
  | .relationEnd n _ _, f => Quotes c!"SPEC-RELATION" n f
  | .hierarchyRef n _, f => Quotes c!"SPEC-HIERARCHY" n f

/-- One line for each item, made from the item and the text it quotes. -/
def LinesFor {α : Type} (line : α → Str → Str) (quotes : α → Str → Prop) (items : List α) (lines : List Str) : Prop :=
  ∃ texts : List Str, texts.length = items.length ∧ (∀ p ∈ items.zip texts, quotes p.1 p.2) ∧
    lines = List.zipWith line items texts

end ReqIF.Spec
