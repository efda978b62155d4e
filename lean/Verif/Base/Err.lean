import Verif.Base.Str
/-!
# Errors and effects

Python exceptions are values.  Only the exception class is kept (and, where a
property speaks about it, its payload); message texts are not modelled.
-/
namespace ReqIF

/-- Why `ReqIFXMLParsingError` was raised. -/
inductive XmlCause
  /-- the text is empty (`parser.py` 89-92) -/
  | emptyDocument
  /-- lxml could not read the text (`parser.py` 97-98) -/
  | notWellFormed
  /-- the root tag is not `REQ-IF` (`parser.py` 143-146) -/
  | wrongRoot (tag : Str)
  deriving DecidableEq, Repr

/-- The Python exceptions the modelled code raises. -/
inductive PyErr
  | assertion
  | notImplemented
  | keyError
  | attributeError
  | indexError
  | typeError
  | valueError
  | xmlParsing (cause : XmlCause)
  /-- `ReqIFZParsingError` -/
  | reqifz
  /-- `UnicodeDecodeError` -/
  | unicode
  /-- `OSError` and its subclasses, `zipfile.BadZipFile` -/
  | io
  /-- any exception raised by third-party code or a callback -/
  | other (n : Nat)
  deriving DecidableEq, Repr

/-- Result of a Python function that may raise. -/
abbrev Py (α : Type _) := Except PyErr α

/-- `assert b` -/
def pyAssert (b : Bool) : Py Unit := if b then .ok () else .error .assertion

/-- `x.attr` where `x` may be `None`: raises `AttributeError`. -/
def orAttr {α : Type _} : Option α → Py α
  | some a => .ok a
  | none => .error .attributeError

/-- `d[key]` where the key may be absent. -/
def orKey {α : Type _} : Option α → Py α
  | some a => .ok a
  | none => .error .keyError

/-- `try: ... except Exception: raise NotImplementedError` -/
def orNotImpl {α : Type _} : Py α → Py α
  | .ok a => .ok a
  | .error _ => .error .notImplemented

/-- Computations with a user state `σ` (whatever a progress callback changes)
that may raise; the state reached is kept when an exception is raised. -/
def M (σ : Type) (α : Type) := σ → Py α × σ

namespace M
variable {σ α β : Type}

@[reducible] def pure (a : α) : M σ α := fun s => (.ok a, s)

@[reducible] def bind (m : M σ α) (f : α → M σ β) : M σ β := fun s =>
  match m s with
  | (.ok a, s') => f a s'
  | (.error e, s') => (.error e, s')

instance : Monad (M σ) where
  pure := M.pure
  bind := M.bind

/-- A Python function that does not touch the user state. -/
@[reducible] def lift (r : Py α) : M σ α := fun s => (r, s)

end M

end ReqIF
