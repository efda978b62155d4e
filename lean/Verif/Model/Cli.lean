import Verif.Model.Dump
import Verif.Model.Format
import Verif.Model.Validate
/-!
# The command line: `cli/cli_arg_parser.py`, `cli/main.py`, `commands/version`

The arguments are those after the program's name.  `argparse` is modelled with
abbreviated options (`--he`), options with a value they do not take (`--help=x`),
one-letter options written together (`-hh`), unknown options and arguments with
spaces.  Left out (`Spec.UsualArg`) is what differs between versions of Python: `--`, `--=x`,
`-hx` and arguments that might be negative numbers.  Messages of `argparse` are not
modelled; for the lines printed see `Model/Output`.
-/
namespace ReqIF.Cli

/-- The option of `validate`. -/
def schemaFlag : Str := c!"--use-reqif-schema"

/-- What `argparse` takes an argument for. -/
inductive ArgKind
  | positional
  /-- `-h` or `--help` -/
  | help
  /-- `--use-reqif-schema` -/
  | flag
  /-- one of these options with a value, which is an error at once -/
  | wrong
  /-- an option the parser does not know, which is an error at the end -/
  | unknown
  deriving DecidableEq

/-- The part of an argument before the first `=`. -/
def optionName (a : Str) : Str := a.takeWhile (· != '=')

/-- `argparse`, `_parse_optional`, `_get_option_tuples` and the beginning of `consume_optional`, for a
parser that has `-h`, `--help` and, if `strict`, `--use-reqif-schema`. -/
def argKind (strict : Bool) (a : Str) : ArgKind :=
  if a.head? != some '-' || a == c!"-" then .positional
  else if c!"--".isPrefixOf a then
    if (optionName a).isPrefixOf c!"--help" then if a.contains '=' then .wrong else .help
    else if strict && (optionName a).isPrefixOf schemaFlag then if a.contains '=' then .wrong else .flag
    else if a.contains ' ' then .positional else .unknown
  else if c!"-h".isPrefixOf a then .help
  else if a.contains ' ' then .positional else .unknown

/-- What a parser for one command accepts. -/
structure SubParser where
  /-- the number of positional arguments: `input_file`, then `output_file` -/
  files : Nat
  /-- is `--use-reqif-schema` an option? -/
  flag : Bool
  deriving DecidableEq

/-- `cli_arg_parser.py` 4-92: the parsers of the commands. -/
def subParser (name : Str) : Option SubParser :=
  if name = c!"passthrough" then some ⟨2, false⟩
  else if name = c!"anonymize" then some ⟨2, false⟩
  else if name = c!"dump" then some ⟨2, false⟩
  else if name = c!"format" then some ⟨2, false⟩
  else if name = c!"validate" then some ⟨1, true⟩
  else if name = c!"version" then some ⟨0, false⟩
  else none

/-- The `argparse.Namespace`: attributes that are not set are `none`. -/
structure Namespace where
  command : Str
  inputFile : Option Str
  outputFile : Option Str
  useSchema : Option Bool
  deriving DecidableEq

/-- How `parse_args` ends. -/
inductive Parsed
  /-- the help is printed, exit code 0 -/
  | help
  /-- an error is printed, exit code 2 -/
  | usage
  | args (ns : Namespace)
  deriving DecidableEq

/-- `argparse` on the arguments of a command.  `files`: positional arguments so far; `flag`: has
the option been seen?  `extras`: are there unrecognized arguments, which are an error once all
arguments have been looked at? -/
def subArgs (name : Str) (p : SubParser) (files : List Str) (flag extras : Bool) : List Str → Parsed
  | [] =>
    if files.length < p.files then .usage
    else if extras then .usage
    else .args ⟨name, files[0]?, files[1]?, if p.flag then some flag else none⟩
  | a :: rest =>
    match argKind p.flag a with
    | .positional =>
      if files.length < p.files then subArgs name p (files ++ [a]) flag extras rest
      else subArgs name p files flag true rest
    | .help => .help
    | .flag => subArgs name p files true extras rest
    | .wrong => .usage
    | .unknown => subArgs name p files flag true rest

/-- `argparse` on all arguments: the first positional one is the command, and its parser gets
all that follow. -/
def mainArgs (extras : Bool) : List Str → Parsed
  | [] => .usage
  | a :: rest =>
    match argKind false a with
    | .positional =>
      match subParser a with
      | none => .usage
      | some p => subArgs a p [] false extras rest
    | .help => .help
    | .wrong => .usage
    | _ => mainArgs true rest

/-- `cli_arg_parser.py` 182-187, `create_reqif_args_parser()`. -/
def parseArgs (argv : List Str) : Parsed := mainArgs false argv

/-- What the program sees besides its arguments and the files. -/
structure Env where
  os : OsEnv
  /-- Python's `repr` of a string (dump) -/
  repr : Str → Str
  /-- the parser's choices about white space (format) -/
  keep : List Nat → Bool
  /-- the hash and lxml's printer (anonymize) -/
  hash : Str → Nat
  print : Doc → Str
  /-- the texts of exceptions, the schema library, the root directory and the working
  directory (validate) -/
  messages : Messages
  schema : Files → Str → SchemaEnv
  root : Str
  cwd : Str

/-- How the program ends if it does not raise. -/
inductive Outcome
  | help
  | usage
  /-- a command over files -/
  | ended (e : CommandEnd)
  | validated (v : ValidateOutcome)
  /-- `commands/version/version_command.py` 7: a line is printed -/
  | version (line : Str)
  deriving DecidableEq

/-- `reqif/__init__.py` 4 -/
def versionText : Str := c!"0.0.52"

/-- The exit code.  An exception that is not caught gives 1. -/
def exitCode : Py Outcome → Nat
  | .error _ => 1
  | .ok .help => 0
  | .ok .usage => 2
  | .ok (.ended .exit1) => 1
  | .ok (.ended .success) => 0
  | .ok (.validated .noInput) => 1
  | .ok (.validated (.done r)) => r.exitCode
  | .ok (.version _) => 0

/-- A command that takes `input_file` and `output_file` (`get_..._config` and `execute`). -/
def onFiles (ns : Namespace) (run : Str → Str → M Files CommandEnd) : M Files Outcome := fun fs =>
  match ns.inputFile, ns.outputFile with
  | some i, some o =>
    match run i o fs with
    | (.error e, fs') => (.error e, fs')
    | (.ok r, fs') => (.ok (.ended r), fs')
  | _, _ => (.error .attributeError, fs)

/-- `main.py` 57-70: the command is chosen. -/
noncomputable def dispatch (env : Env) (ns : Namespace) : M Files Outcome := fun fs =>
  if ns.command = c!"passthrough" then onFiles ns (passthroughCommand env.os) fs
  else if ns.command = c!"anonymize" then onFiles ns (anonymizeCommand env.os env.hash env.print) fs
  else if ns.command = c!"dump" then
    onFiles ns (fun i o => M.bind (Dump.dumpCommand env.os env.repr i o) (fun _ => M.pure .success)) fs
  else if ns.command = c!"format" then onFiles ns (Format.formatCommand env.os env.keep) fs
  else if ns.command = c!"validate" then
    match ns.inputFile, ns.useSchema with
    | some i, some s =>
      match (validateCommand env.messages (fs i).isSome s (env.schema fs i) env.root (readFile fs i) env.cwd).1 with
      | .error e => (.error e, fs)
      | .ok v => (.ok (.validated v), fs)
    | _, _ => (.error .attributeError, fs)
  else if ns.command = c!"version" then (.ok (.version versionText), fs)
  else (.error .notImplemented, fs)

/-- `main.py` 35-70, `main`. -/
noncomputable def cliMain (env : Env) (argv : List Str) : M Files Outcome := fun fs =>
  match parseArgs argv with
  | .help => (.ok .help, fs)
  | .usage => (.ok .usage, fs)
  | .args ns => dispatch env ns fs

end ReqIF.Cli
