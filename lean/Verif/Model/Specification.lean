import Verif.Model.SpecObject
/-!
# `parsers/spec_hierarchy_parser.py`, `parsers/specification_parser.py`
-/
namespace ReqIF

/-- `attributes[key] == "true"` if the key is there, else `None`
(`spec_hierarchy_parser.py` 25-32). -/
def boolAttr (n : Node) (key : Str) : Option Bool := (n.attr? key).map (fun s => s == c!"true")

mutual
/-- `parsers/spec_hierarchy_parser.py` 10-66.  `find("CHILDREN")` is
`parseFirstChildren` on the child nodes. -/
def parseHierarchy (level : Nat) : Node → Py Hierarchy
  | .elem i ks =>
    let x := Node.elem i ks
    if x.tag = .name c!"SPEC-HIERARCHY" then
      match attrReqNI x c!"IDENTIFIER" with
      | .error e => .error e
      | .ok identifier =>
        match x.find c!"OBJECT" with
        | none => .error .attributeError
        | some o =>
          match o.find c!"SPEC-OBJECT-REF" with
          | none => .error .attributeError
          | some r =>
            let info (selfClosed : Bool) : HInfo :=
              { identifier, specObject := r.text?, level, longName := x.attr? c!"LONG-NAME",
                refThenChildrenOrder := childTags x == [.name c!"OBJECT", .name c!"CHILDREN"],
                lastChange := x.attr? c!"LAST-CHANGE", editable := boolAttr x c!"IS-EDITABLE",
                isTableInternal := boolAttr x c!"IS-TABLE-INTERNAL", isSelfClosed := selfClosed,
                xmlNode := some x }
            match parseFirstChildren (level + 1) ks with
            | none => .ok (.leaf (info false))
            | some (.error e) => .error e
            | some (.ok (selfClosed, cs)) => .ok (.node (info selfClosed) cs)
    else .error .assertion
  | _ => .error .assertion

/-- The first `CHILDREN` element of a list of nodes: is it self-closed (47-48; only
asked when it has no child nodes), and its parsed content (49-53). -/
def parseFirstChildren (level : Nat) : List Node → Option (Py (Bool × List Hierarchy))
  | [] => none
  | .elem i ks :: ns =>
    if (Node.elem i ks).tag = .name c!"CHILDREN" then
      match parseHierarchies level ks with
      | .error e => some (.error e)
      | .ok cs =>
        some (.ok ((Node.elem i ks).len == 0 && isSelfClosedTag (.elem i ks), cs))
    else parseFirstChildren level ns
  | .text _ :: ns => parseFirstChildren level ns
  | .comment _ :: ns => parseFirstChildren level ns
  | .pi _ _ :: ns => parseFirstChildren level ns

/-- All children of a `CHILDREN` element (text is not a child). -/
def parseHierarchies (level : Nat) : List Node → Py (List Hierarchy)
  | [] => .ok []
  | .text _ :: ns => parseHierarchies level ns
  | n :: ns =>
    match parseHierarchy level n with
    | .error e => .error e
    | .ok h =>
      match parseHierarchies level ns with
      | .error e => .error e
      | .ok hs => .ok (h :: hs)
end

/-- The object part of a printed hierarchy node (`spec_hierarchy_parser.py` 87-94). -/
def unparseHierarchyObject (base : Nat) (i : HInfo) : Str :=
  lineOpen (base + 2) c!"OBJECT" ++ lineElem (base + 4) c!"SPEC-OBJECT-REF" (fmtOpt i.specObject) ++
  lineClose (base + 2) c!"OBJECT"

/-- The start tag of a printed hierarchy node (`spec_hierarchy_parser.py` 70-85). -/
def unparseHierarchyHead (base : Nat) (i : HInfo) : Str :=
  spaces base ++ c!"<SPEC-HIERARCHY" ++
  attrOut c!"IDENTIFIER" i.identifier ++
  attrBool c!"IS-EDITABLE" i.editable ++
  attrBool c!"IS-TABLE-INTERNAL" i.isTableInternal ++
  attrTruthy c!"LAST-CHANGE" id i.lastChange ++
  attrTruthy c!"LONG-NAME" id i.longName ++
  c!">\n"

mutual
/-- `parsers/spec_hierarchy_parser.py` 68-119. -/
def unparseHierarchy : Hierarchy → Py Str
  | .leaf i =>
    match (Hierarchy.leaf i).baseLevel with
    | .error e => .error e
    | .ok base => .ok (unparseHierarchyHead base i ++ unparseHierarchyObject base i ++
        lineClose base c!"SPEC-HIERARCHY")
  | .node i cs =>
    match (Hierarchy.node i cs).baseLevel with
    | .error e => .error e
    | .ok base =>
      match unparseHierarchies cs with
      | .error e => .error e
      | .ok body =>
        let children :=
          if cs.isEmpty && i.isSelfClosed then spaces (base + 2) ++ c!"<CHILDREN/>\n"
          else lineOpen (base + 2) c!"CHILDREN" ++ body ++ lineClose (base + 2) c!"CHILDREN"
        .ok (unparseHierarchyHead base i ++
          (if i.refThenChildrenOrder then unparseHierarchyObject base i ++ children
           else children ++ unparseHierarchyObject base i) ++
          lineClose base c!"SPEC-HIERARCHY")

def unparseHierarchies : List Hierarchy → Py Str
  | [] => .ok []
  | h :: hs =>
    match unparseHierarchy h with
    | .error e => .error e
    | .ok a =>
      match unparseHierarchies hs with
      | .error e => .error e
      | .ok b => .ok (a ++ b)
end

/-- The last element with a tag (`specification_parser.py` 49-55: the loop overwrites). -/
def findLast (n : Node) (t : Str) : Option Node :=
  (n.children.filter (fun k => k.tag == .name t)).getLast?

/-- `parsers/specification_parser.py` 15-78. -/
def parseSpecification (x : Node) : Py Specification := do
  let isSp ← tagContains x c!"SPECIFICATION"
  pyAssert isSp
  let identifier ← attrReqNI x c!"IDENTIFIER"
  let children ← (match findLast x c!"CHILDREN" with
    | none => .ok none
    | some c => do
      let hs ← mapPy (parseHierarchy 1) c.children
      return some hs : Py (Option (List Hierarchy)))
  let values ← parseAttributeValues (x.find c!"VALUES")
  return { identifier, description := x.attr? c!"DESC", lastChange := x.attr? c!"LAST-CHANGE",
           longName := x.attr? c!"LONG-NAME", values,
           specificationType := optRef x c!"TYPE" c!"SPECIFICATION-TYPE-REF",
           children, xmlNode := some x }

/-- `parsers/specification_parser.py` 99-102: the order of the children. -/
def specificationChildTags (s : Specification) : List Tag :=
  match s.xmlNode with
  | some n => childTags n
  | none => [.name c!"TYPE", .name c!"CHILDREN", .name c!"VALUES"]

/-- `parsers/specification_parser.py` 104-123 and 128-151: one entry of the child-tag
loop (other tags are skipped). -/
def unparseSpecificationChild (s : Specification) (t : Tag) : Py Str :=
  if t = .name c!"TYPE" then
    .ok (match s.specificationType with
      | none => []
      | some v => if v.isEmpty then [] else
        lineOpen 10 c!"TYPE" ++ lineElem 12 c!"SPECIFICATION-TYPE-REF" v ++ lineClose 10 c!"TYPE")
  else if t = .name c!"CHILDREN" then
    match s.children with
    | none => .ok []
    | some hs => do
      let body ← unparseHierarchies hs
      return lineOpen 10 c!"CHILDREN" ++ body ++ lineClose 10 c!"CHILDREN"
  else if t = .name c!"VALUES" then unparseAttributeValues s.values
  else .ok []

/-- `parsers/specification_parser.py` 80-126. -/
def unparseSpecification (s : Specification) : Py Str := do
  let body ← concatPy (unparseSpecificationChild s) (specificationChildTags s)
  return spaces 8 ++ c!"<SPECIFICATION" ++
    attrOpt c!"DESC" lxmlEscapeForHtml s.description ++
    attrOut c!"IDENTIFIER" s.identifier ++
    attrOpt c!"LAST-CHANGE" id s.lastChange ++
    attrOpt c!"LONG-NAME" lxmlEscapeForHtml s.longName ++
    c!">\n" ++ body ++ lineClose 8 c!"SPECIFICATION"

end ReqIF
