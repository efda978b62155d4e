import Verif.Model.Debug
/-!
# What the text of an object shows

The heap with its cycles is from `Model/Debug`.  The rest says what of it can be seen.
-/
namespace ReqIF.Debug

/-- What can be seen of a value: strings, numbers and truth values as they are, the size of a
container, the class of any other object. -/
inductive Seen
  | list (size : Nat)
  | dict (size : Nat)
  | set (size : Nat)
  | str (s : Str)
  | bool (b : Bool)
  | int (n : Int)
  | float (shown : Str)
  | bytes (bs : List UInt8)
  | object (cls : Str)
  deriving DecidableEq

/-- `None` is an object of the class `NoneType`. -/
def seen (h : Heap) : Value → Seen
  | .none => .object c!"NoneType"
  | .bool b => .bool b
  | .int n => .int n
  | .float s => .float s
  | .str s => .str s
  | .bytes bs => .bytes bs
  | .other cls => .object cls
  | .ref a =>
    match h a with
    | .object cls _ => .object cls
    | .list l => .list l.length
    | .dict l => .dict l.length
    | .set l => .set l.length

/-- A name as it may stand in Python code: letters, digits and underscores, and anything beyond ASCII. -/
def Name (s : Str) : Prop := s ≠ [] ∧ ∀ c ∈ s, c.isAlphanum = true ∨ c = '_' ∨ 128 ≤ c.toNat

/-- Values of the kinds that the classes of this package have, with texts without quotation marks. -/
def Readable : Seen → Prop
  | .str s => '"' ∉ s
  | .object cls => Name cls
  | .float _ => False
  | .bytes _ => False
  | _ => True

end ReqIF.Debug
