import Verif.Model.Parser
/-!
# `unparser.py`
-/
namespace ReqIF

/-- `f'{name}="{value}"'`, if the value is not `None`. -/
def component (name : Str) : Option Str → List Str
  | none => []
  | some v => [name ++ c!"=\"" ++ v ++ c!"\""]

/-- `unparser.py` 145-167: the components of the root tag. -/
def namespaceComponents (i : NamespaceInfo) : List Str :=
  component c!"xmlns" i.namespace ++
  component c!"xmlns:xsi" i.schemaNamespace ++
  component c!"xmlns:configuration" i.configuration ++
  component c!"xmlns:id" i.namespaceId ++
  component c!"xmlns:xhtml" i.namespaceXhtml ++
  component c!"xsi:schemaLocation" i.schemaLocation ++
  component c!"xml:lang" i.language

/-- `" ".join(xs)` -/
def joinSpace : List Str → Str
  | [] => []
  | [x] => x
  | x :: xs => x ++ c!" " ++ joinSpace xs

/-- `unparser.py` 136-174, `unparse_namespace_info`. -/
def unparseNamespaceInfo (i : NamespaceInfo) : Py Str :=
  match i.originalReqifTagDump with
  | some s => .ok (s ++ c!"\n")
  | none =>
    if (namespaceComponents i).length > 0 then
      .ok (c!"<REQ-IF " ++ joinSpace (namespaceComponents i) ++ c!">\n")
    else .error .assertion

/-- `output += f(x)` -/
def printStep {α : Type} (f : α → Py Str) (out : Str) (x : α) : Py Str :=
  match f x with
  | .error e => .error e
  | .ok s => .ok (out ++ s)

/-- `unparser.py` 51-57 and the same for the other containers: nothing if the list
is `None`. -/
def unparseContainer {σ α : Type} (progress : Option (Callback σ)) (tag : Str) (f : α → Py Str)
    (items : Option (List α)) : M σ Str :=
  match items with
  | none => M.pure []
  | some xs => M.bind (trackedLoop progress tag (printStep f) [] xs) fun body =>
    M.pure (lineOpen 6 tag ++ body ++ lineClose 6 tag)

/-- `unparser.py` 48-126: the content. -/
def unparseContent {σ : Type} (progress : Option (Callback σ)) (c : Content) : M σ Str :=
  M.bind (unparseContainer progress c!"DATATYPES" (fun d => .ok (unparseDataType d)) c.dataTypes) fun a =>
  M.bind (unparseContainer progress c!"SPEC-TYPES" unparseSpecType c.specTypes) fun b =>
  M.bind (unparseContainer progress c!"SPEC-OBJECTS" unparseSpecObject c.specObjects) fun o =>
  M.bind (unparseContainer progress c!"SPEC-RELATIONS" unparseSpecRelation c.specRelations) fun r =>
  M.bind (unparseContainer progress c!"SPECIFICATIONS" unparseSpecification c.specifications) fun s =>
  M.bind (unparseContainer progress c!"SPEC-RELATION-GROUPS"
    (fun g => .ok (unparseRelationGroup g)) c.specRelationGroups) fun g =>
  M.pure (lineOpen 4 c!"REQ-IF-CONTENT" ++ a ++ b ++ o ++ r ++ s ++ g ++ lineClose 4 c!"REQ-IF-CONTENT")

/-- `unparser.py` 45-127: the core content. -/
def unparseCore {σ : Type} (progress : Option (Callback σ)) : Option (Option Content) → M σ Str
  | none => M.pure []
  | some none => M.pure (lineOpen 2 c!"CORE-CONTENT" ++ lineClose 2 c!"CORE-CONTENT")
  | some (some c) => M.bind (unparseContent progress c) fun s =>
    M.pure (lineOpen 2 c!"CORE-CONTENT" ++ s ++ lineClose 2 c!"CORE-CONTENT")

/-- `unparser.py` 38: the XML declaration. -/
def xmlDeclLine : Str := c!"<?xml version=\"1.0\" encoding=\"UTF-8\"?>\n"

/-- `unparser.py` 33-134, `ReqIFUnparser.unparse`. -/
def unparseM {σ : Type} (progress : Option (Callback σ)) (b : Bundle) : M σ Str :=
  M.bind (M.lift (unparseNamespaceInfo b.namespaceInfo)) fun tag =>
  M.bind (M.lift (optPy unparseHeader b.header)) fun header =>
  M.bind (unparseCore progress b.coreContent) fun core =>
  M.pure (xmlDeclLine ++ tag ++ header.getD [] ++ core ++
    (if b.toolExtensionsTagExists then
      lineOpen 2 c!"TOOL-EXTENSIONS" ++ lineClose 2 c!"TOOL-EXTENSIONS" else []) ++
    c!"</REQ-IF>\n")

/-- `unparse(bundle)` without a callback. -/
def unparse (b : Bundle) : Py Str := (unparseM (none : Option (Callback Unit)) b ()).1

end ReqIF
