import Verif.Model.DataType
/-!
# `helpers/debug.py`: the texts of objects

Objects refer to each other, in cycles too, so they are cells of a heap.
-/
namespace ReqIF.Debug

abbrev Addr := Nat

/-- A Python value, as far as `auto_str` looks at it.  `float` carries its text (`repr` of a
float is not modelled); `other` is any object that is not described here, with the name of its class. -/
inductive Value
  | none
  | bool (b : Bool)
  | int (n : Int)
  | float (shown : Str)
  | str (s : Str)
  | bytes (bs : List UInt8)
  | ref (a : Addr)
  | other (cls : Str)

/-- What is at an address: an object with its class and its `__dict__` in the order of the
assignments, or a container. -/
inductive Cell
  | object (cls : Str) (fields : List (Str × Value))
  | list (items : List Value)
  | dict (items : List (Value × Value))
  | set (items : List Value)

abbrev Heap := Addr → Cell

/-- One digit of `\xhh`. -/
def hexChar (n : Nat) : Char := if n < 10 then Char.ofNat (48 + n) else Char.ofNat (87 + n)

/-- One byte in `repr(bytes)`; `q` is the quote around it. -/
def byteRepr (q : Char) (b : UInt8) : Str :=
  let n := b.toNat
  if n = 92 then c!"\\\\"
  else if n = 9 then c!"\\t"
  else if n = 10 then c!"\\n"
  else if n = 13 then c!"\\r"
  else if n = q.toNat then ['\\', q]
  else if n < 32 || 127 ≤ n then c!"\\x" ++ [hexChar (n / 16), hexChar (n % 16)]
  else [Char.ofNat n]

/-- `repr(bytes)`: double quotes only if there are single ones and no double ones in it. -/
def bytesRepr (bs : List UInt8) : Str :=
  let q := if bs.any (·.toNat == 39) && !bs.any (·.toNat == 34) then '"' else '\''
  'b' :: q :: bs.flatMap (byteRepr q) ++ [q]

/-- `f"{n}"` for a length. -/
def showNat (n : Nat) : Str := Nat.toDigits 10 n

/-- `helpers/debug.py` 39-62: the part of an item after `=`.  (The branch of lines 49-50 is reached by
sets only; the one of line 60 never, because everything is an object.) -/
def valueStr (h : Heap) : Value → Str
  | .none => c!"NoneType(...)"
  | .bool b => if b then c!"True" else c!"False"
  | .int n => fmtInt n
  | .float s => s
  | .str s => c!"\"" ++ s ++ c!"\""
  | .bytes bs => bytesRepr bs
  | .other cls => cls ++ c!"(...)"
  | .ref a =>
    match h a with
    | .object cls _ => cls ++ c!"(...)"
    | .list items => if items.length = 0 then c!"[]" else c!"[" ++ showNat items.length ++ c!" elements]"
    | .dict items => if items.length = 0 then c!"{}" else c!"{" ++ showNat items.length ++ c!" elements}"
    | .set items => c!"set(" ++ showNat items.length ++ c!" elements)"

/-- `", ".join(items)` -/
def joinItems : List Str → Str
  | [] => []
  | [i] => i
  | i :: is => i ++ c!", " ++ joinItems is

/-- `helpers/debug.py` 32-63, `auto_str`; also `str(obj)` and `repr(obj)` of a described
class (10-29).  A container has no `__dict__`. -/
def autoStr (h : Heap) (a : Addr) : Py Str :=
  match h a with
  | .object cls fields =>
    .ok (cls ++ c!"(" ++ joinItems (fields.map (fun f => f.1 ++ c!" = " ++ valueStr h f.2)) ++ c!")")
  | _ => .error .attributeError

end ReqIF.Debug
