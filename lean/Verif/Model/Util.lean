import Verif.Model.Types
import Verif.Model.Lxml
/-!
# Python idioms used throughout the parsers

The f-strings ` NAME="{value}"` and `{indent}<TAG>{text}</TAG>\n` occur in every
unparser; they are given names here.
-/
namespace ReqIF

/-- `[f(x) for x in xs]` where `f` may raise: stops at the first exception. -/
def mapPy {α β : Type} (f : α → Py β) : List α → Py (List β)
  | [] => .ok []
  | x :: xs =>
    match f x with
    | .error e => .error e
    | .ok y =>
      match mapPy f xs with
      | .error e => .error e
      | .ok ys => .ok (y :: ys)

/-- `output = ""; for x in xs: output += f(x)` -/
def concatPy {α : Type} (f : α → Py Str) : List α → Py Str
  | [] => .ok []
  | x :: xs =>
    match f x with
    | .error e => .error e
    | .ok y =>
      match concatPy f xs with
      | .error e => .error e
      | .ok ys => .ok (y ++ ys)

/-- `f' {name}="{value}"'` -/
def attrOut (name value : Str) : Str := c!" " ++ name ++ c!"=\"" ++ value ++ c!"\""

/-- `if x is not None: output += f' {name}="{f(x)}"'` -/
def attrOpt (name : Str) (f : Str → Str) : Option Str → Str
  | none => []
  | some v => attrOut name (f v)

/-- `if x: output += f' {name}="{f(x)}"'` (an empty string is not printed) -/
def attrTruthy (name : Str) (f : Str → Str) : Option Str → Str
  | none => []
  | some v => if v.isEmpty then [] else attrOut name (f v)

/-- `"true" if x else "false"` -/
def boolOut (b : Bool) : Str := if b then c!"true" else c!"false"

/-- `if x is not None: output += f' {name}="{"true" if x else "false"}"'` -/
def attrBool (name : Str) : Option Bool → Str
  | none => []
  | some b => attrOut name (boolOut b)

/-- `f"{spaces}<{tag}>{text}</{tag}>\n"` -/
def lineElem (indent : Nat) (tag text : Str) : Str :=
  spaces indent ++ c!"<" ++ tag ++ c!">" ++ text ++ c!"</" ++ tag ++ c!">\n"

/-- `f"{spaces}<{tag}>\n"` -/
def lineOpen (indent : Nat) (tag : Str) : Str := spaces indent ++ c!"<" ++ tag ++ c!">\n"

/-- `f"{spaces}</{tag}>\n"` -/
def lineClose (indent : Nat) (tag : Str) : Str := spaces indent ++ c!"</" ++ tag ++ c!">\n"

/-- `node.find(tag)` followed by an attribute access: `AttributeError` if there is no such child. -/
def findReq (n : Node) (tag : Str) : Py Node := orAttr (n.find tag)

/-- `node.attrib[key]` -/
def attrReq (n : Node) (key : Str) : Py Str := orKey (n.attr? key)

/-- `node[0]` -/
def firstChild (n : Node) : Py Node :=
  match n.children with
  | [] => .error .indexError
  | c :: _ => .ok c

/-- `list(map(lambda el: el.tag, list(node)))` -/
def childTags (n : Node) : List Tag := n.children.map Node.tag

/-- `sub in node.tag`: raises `TypeError` for comments and processing instructions. -/
def tagContains (n : Node) (sub : Str) : Py Bool :=
  match n.tag with
  | .name t => .ok (containsStr sub t)
  | _ => .error .typeError

/-- `node.tag is Comment` -/
def isCommentNode (n : Node) : Bool := n.tag == .comment

end ReqIF
