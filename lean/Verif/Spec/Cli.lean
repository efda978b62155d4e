import Verif.Base.Str
/-!
# How the program is called

`Invokes argv c`: these arguments call this command.  `AsksHelp argv`: they ask for help.
-/
namespace ReqIF.Spec

/-- The commands that read one file and write another. -/
inductive FileCommand
  | passthrough
  | anonymize
  | dump
  | format
  deriving DecidableEq

def FileCommand.name : FileCommand → Str
  | .passthrough => c!"passthrough"
  | .anonymize => c!"anonymize"
  | .dump => c!"dump"
  | .format => c!"format"

inductive Invocation
  | files (k : FileCommand) (input output : Str)
  | validate (input : Str) (strict : Bool)
  | version

/-- `--help` or the beginning of it. -/
def LongHelp (a : Str) : Prop := c!"--h" <+: a ∧ a <+: c!"--help"

/-- An option that asks for help: `--help`, `--hel`, ..., `-h`, `-hh`, ... -/
def IsHelp (a : Str) : Prop := LongHelp a ∨ ∃ n, a = '-' :: List.replicate (n + 1) 'h'

/-- `--use-reqif-schema` or the beginning of it. -/
def SchemaOption (a : Str) : Prop := c!"--u" <+: a ∧ a <+: c!"--use-reqif-schema"

/-- An option with a value, which it does not take.  `strict`: is `--use-reqif-schema` an option? -/
def Misused (strict : Bool) (a : Str) : Prop :=
  ∃ o v, a = o ++ '=' :: v ∧ (LongHelp o ∨ strict = true ∧ SchemaOption o)

/-- All arguments but `--`, `--=x`, `-hx` and those that might be negative numbers, which versions of
Python do not treat alike. -/
def UsualArg (a : Str) : Prop :=
  a ≠ c!"--" ∧ ¬ c!"--=" <+: a ∧ (∀ rest, a = '-' :: 'h' :: rest → ∀ c ∈ rest, c = 'h') ∧
    ∀ c rest, a = '-' :: c :: rest → c.isDigit = false ∧ c ≠ '.' ∧ c.toNat ≤ 127

/-- An argument that is not an option: it does not begin with `-`, or is `-`, or it has a space. -/
def NoOption (strict : Bool) (a : Str) : Prop := (∀ rest, a ≠ '-' :: rest) ∨ a = c!"-" ∨ (' ' ∈ a ∧ UsualArg a ∧ ¬ Misused strict a)

inductive Invokes : List Str → Invocation → Prop
  | files (k : FileCommand) {i o : Str} : NoOption false i → NoOption false o → Invokes [k.name, i, o] (.files k i o)
  /-- `--use-reqif-schema` before or after the file, any number of times -/
  | validate {pre post : List Str} {i : Str} : NoOption true i → (∀ a ∈ pre, SchemaOption a) → (∀ a ∈ post, SchemaOption a) →
      Invokes (c!"validate" :: (pre ++ i :: post)) (.validate i (decide (pre ++ post ≠ [])))
  | version : Invokes [c!"version"] .version

/-- The names of all commands. -/
def commandNames : List Str :=
  [c!"passthrough", c!"anonymize", c!"dump", c!"format", c!"validate", c!"version"]

/-- Help is asked for before any command, or after the name of a command, and no option is misused before it. -/
def AsksHelp (argv : List Str) : Prop :=
  ∃ pre h post, argv = pre ++ h :: post ∧ IsHelp h ∧
    ((∀ a ∈ pre, ¬ NoOption false a ∧ ¬ Misused false a) ∨
      ∃ pre1 name pre2, pre = pre1 ++ name :: pre2 ∧ (∀ a ∈ pre1, ¬ NoOption false a ∧ ¬ Misused false a) ∧ name ∈ commandNames ∧
        ∀ a ∈ pre2, ¬ Misused (decide (name = c!"validate")) a)

end ReqIF.Spec
