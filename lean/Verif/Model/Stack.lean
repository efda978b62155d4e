import Verif.Model.Specification
/-!
# The recursive functions with a limited stack

Four functions of the library call themselves: those that read and print hierarchies and those that print XML.  Here they
are with the number of calls that Python still allows; `none` stands for `RecursionError`.  Calls of functions that do
not call themselves are left out, but for those of the printed hierarchies, where they alternate with the recursive ones.
-/
namespace ReqIF

mutual
/-- `parsers/spec_hierarchy_parser.py` 10-66 with `n` calls left. -/
def parseHierarchyIn (n level : Nat) : Node → Option (Py Hierarchy)
  | .elem i ks =>
    match n with
    | 0 => none
    | n + 1 =>
      let x := Node.elem i ks
      if x.tag = .name c!"SPEC-HIERARCHY" then
        match attrReqNI x c!"IDENTIFIER" with
        | .error e => some (.error e)
        | .ok identifier =>
          match x.find c!"OBJECT" with
          | none => some (.error .attributeError)
          | some o =>
            match o.find c!"SPEC-OBJECT-REF" with
            | none => some (.error .attributeError)
            | some r =>
              let info (selfClosed : Bool) : HInfo :=
                { identifier, specObject := r.text?, level, longName := x.attr? c!"LONG-NAME",
                  refThenChildrenOrder := childTags x == [.name c!"OBJECT", .name c!"CHILDREN"],
                  lastChange := x.attr? c!"LAST-CHANGE", editable := boolAttr x c!"IS-EDITABLE",
                  isTableInternal := boolAttr x c!"IS-TABLE-INTERNAL", isSelfClosed := selfClosed,
                  xmlNode := some x }
              match parseFirstChildrenIn n (level + 1) ks with
              | none => none
              | some none => some (.ok (.leaf (info false)))
              | some (some (.error e)) => some (.error e)
              | some (some (.ok (selfClosed, cs))) => some (.ok (.node (info selfClosed) cs))
      else some (.error .assertion)
  | _ => if n = 0 then none else some (.error .assertion)

/-- The first `CHILDREN` element (45-53). -/
def parseFirstChildrenIn (n level : Nat) : List Node → Option (Option (Py (Bool × List Hierarchy)))
  | [] => some none
  | .elem i ks :: ns =>
    if (Node.elem i ks).tag = .name c!"CHILDREN" then
      match parseHierarchiesIn n level ks with
      | none => none
      | some (.error e) => some (some (.error e))
      | some (.ok cs) => some (some (.ok ((Node.elem i ks).len == 0 && isSelfClosedTag (.elem i ks), cs)))
    else parseFirstChildrenIn n level ns
  | .text _ :: ns => parseFirstChildrenIn n level ns
  | .comment _ :: ns => parseFirstChildrenIn n level ns
  | .pi _ _ :: ns => parseFirstChildrenIn n level ns

/-- All children of a `CHILDREN` element (49-53). -/
def parseHierarchiesIn (n level : Nat) : List Node → Option (Py (List Hierarchy))
  | [] => some (.ok [])
  | .text _ :: ns => parseHierarchiesIn n level ns
  | x :: ns =>
    match parseHierarchyIn n level x with
    | none => none
    | some (.error e) => some (.error e)
    | some (.ok h) =>
      match parseHierarchiesIn n level ns with
      | none => none
      | some (.error e) => some (.error e)
      | some (.ok hs) => some (.ok (h :: hs))
end

mutual
/-- `parsers/spec_hierarchy_parser.py` 68-119 with `n` calls left.  Each level takes two: the function itself, and one of
`calculate_base_level`, `print_object` and `print_children`, the last of which goes on with the children. -/
def unparseHierarchyIn (n : Nat) : Hierarchy → Option (Py Str)
  | .leaf i =>
    match n with
    | _ + 2 => some (unparseHierarchy (.leaf i))
    | _ => none
  | .node i cs =>
    match n with
    | n + 2 =>
      match (Hierarchy.node i cs).baseLevel with
      | .error e => some (.error e)
      | .ok base =>
        match unparseHierarchiesIn n cs with
        | none => none
        | some (.error e) => some (.error e)
        | some (.ok body) =>
          let children :=
            if cs.isEmpty && i.isSelfClosed then spaces (base + 2) ++ c!"<CHILDREN/>\n"
            else lineOpen (base + 2) c!"CHILDREN" ++ body ++ lineClose (base + 2) c!"CHILDREN"
          some (.ok (unparseHierarchyHead base i ++
            (if i.refThenChildrenOrder then unparseHierarchyObject base i ++ children
             else children ++ unparseHierarchyObject base i) ++
            lineClose base c!"SPEC-HIERARCHY"))
    | _ => none

def unparseHierarchiesIn (n : Nat) : List Hierarchy → Option (Py Str)
  | [] => some (.ok [])
  | h :: hs =>
    match unparseHierarchyIn n h with
    | none => none
    | some (.error e) => some (.error e)
    | some (.ok a) =>
      match unparseHierarchiesIn n hs with
      | none => none
      | some (.error e) => some (.error e)
      | some (.ok b) => some (.ok (a ++ b))
end

mutual
/-- `helpers/lxml.py` 59-115 with `n` calls left; texts and tails are printed by the function that has the element. -/
def stringifyNsNodeIn (n : Nat) (nskey : Option Str) (forced : Bool) : Node → Option (Py Str)
  | .text s => some (.ok (lxmlEscapeForHtml s))
  | .comment _ => if n = 0 then none else some (.error .valueError)
  | .pi _ _ => if n = 0 then none else some (.error .valueError)
  | .elem i ks =>
    match n with
    | 0 => none
    | n + 1 =>
      let open_ := c!"<" ++ nsTagOut nskey forced i ++ nsDeclOut i ++ attrsOut i.attrs
      if !ks.isEmpty || isObjectTag i.tag then
        match stringifyNsKidsIn n nskey forced ks with
        | none => none
        | some (.error e) => some (.error e)
        | some (.ok body) => some (.ok (open_ ++ c!">" ++ body ++ c!"</" ++ nsTagOut nskey forced i ++ c!">"))
      else some (.ok (open_ ++ c!"/>"))

def stringifyNsKidsIn (n : Nat) (nskey : Option Str) (forced : Bool) : List Node → Option (Py Str)
  | [] => some (.ok [])
  | x :: ns =>
    match stringifyNsNodeIn n nskey forced x with
    | none => none
    | some (.error e) => some (.error e)
    | some (.ok a) =>
      match stringifyNsKidsIn n nskey forced ns with
      | none => none
      | some (.error e) => some (.error e)
      | some (.ok b) => some (.ok (a ++ b))
end

mutual
/-- `helpers/lxml.py` 125-189 with `n` calls left. -/
def stringifyNodeIn (n : Nat) (root : Bool) : Node → Option (Py Str)
  | .text s => some (.ok (lxmlEscapeForHtml s))
  | .comment s => if n = 0 then none else some (.ok (c!"<!--" ++ s ++ c!"-->"))
  | .pi _ _ => if n = 0 then none else some (.error .valueError)
  | .elem i ks =>
    match n with
    | 0 => none
    | n + 1 =>
      let open_ := c!"<" ++ nodeTagOut i ++ attrsOut i.attrs ++ nodeDeclOut root i
      if !ks.isEmpty || isObjectTag i.tag then
        match stringifyKidsIn n ks with
        | none => none
        | some (.error e) => some (.error e)
        | some (.ok body) => some (.ok (open_ ++ c!">" ++ body ++ c!"</" ++ nodeTagOut i ++ c!">"))
      else some (.ok (open_ ++ c!"/>"))

def stringifyKidsIn (n : Nat) : List Node → Option (Py Str)
  | [] => some (.ok [])
  | x :: ns =>
    match stringifyNodeIn n false x with
    | none => none
    | some (.error e) => some (.error e)
    | some (.ok a) =>
      match stringifyKidsIn n ns with
      | none => none
      | some (.error e) => some (.error e)
      | some (.ok b) => some (.ok (a ++ b))
end

end ReqIF
