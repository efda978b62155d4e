import Verif.Spec.Writable
import Verif.Spec.Repack
import Verif.Spec.Path
import Verif.Spec.Dump
import Verif.Spec.FromXhtml
import Verif.Model.Commands
/-!
# Requirements for the success of the commands over files
-/
namespace ReqIF.Spec

/-- The output can be written: the file can be opened, and the directory is there if the command
looks (`checked`). -/
def OutputThere (os : OsEnv) (checked : Bool) (output : Str) : Prop :=
  os.openError output = none ∧ (checked = true → ∀ d, DirectoryPart output d → d ≠ [] → os.isDir d = true)

/-- A document that can be read and written again: it is well-formed, and its tree meets the
requirements of reading and those of writing. -/
def Passes (text : Str) : Prop :=
  ∃ d r, readDoc text = some d ∧ strippedRoot d.root = .ok r ∧ Accept.RootOk r ∧ Write.RootAgain d.root r

/-- The input file exists and is UTF-8; `text` is what it holds. -/
def Holds (fs : Files) (input text : Str) : Prop := ∃ src, fs input = some src ∧ decodeUtf8 src = .ok text

/-- An archive all of whose members can be read, and whose documents can be written again. -/
def ArchivePasses (ar : Archive) : Prop :=
  ∀ m ∈ ar, ∃ bytes, memberContent ar m.1 = some (.ok bytes) ∧
    (ReqifMember m.1 → ∃ text, decodeUtf8 bytes = .ok text ∧ Passes text)

/-- An element with this name in the namespace `u`. -/
def InSpace (u name : Str) (n : Node) : Prop := ∃ i ks, n = .elem i ks ∧ i.ns = some u ∧ i.name = name

/-- Every comment and title of a header begins with text. -/
def HeaderFilled (u : Str) (root : Node) : Prop :=
  ∀ p c, Inside p root → InSpace u c!"REQ-IF-HEADER" p → c ∈ p.kids →
    InSpace u c!"COMMENT" c ∨ InSpace u c!"TITLE" c → ∃ s rest, c.kids = .text s :: rest

/-- There are neither comments nor processing instructions in the XHTML values. -/
def ValuesPlain (u : Str) (root : Node) : Prop :=
  ∀ p c, Inside p root → InSpace u c!"ATTRIBUTE-VALUE-XHTML" p → c ∈ p.kids → InSpace u c!"THE-VALUE" c →
    Accept.hasComment c = false ∧ hasPI c = false

/-- A document that can be anonymized: it is well-formed, the root declares a default namespace,
the comments and titles in its headers have a text, and its XHTML values contain no comments and
no processing instructions. -/
def Anonymizable (text : Str) : Prop :=
  ∃ d u, readDoc text = some d ∧ d.root.nsmap.get? none = some u ∧ HeaderFilled u d.root ∧ ValuesPlain u d.root

/-- The identifier of an object of the bundle. -/
def NamesObject (b : Bundle) (ref : Option Str) : Prop := ∃ r o, ref = some r ∧ o ∈ specObjectsOf b ∧ o.identifier = r

/-- A document without issues: it can be read; unless its root is empty, it has an XML declaration,
and no other encoding than UTF-8; every relation has both ends; and the ends of the relations and
the references of the hierarchies name objects. -/
def NoIssues (text : Str) : Prop :=
  ∃ d b, readDoc text = some d ∧ parseString text = .ok b ∧ b.exceptions = [] ∧
    (d.root.children ≠ [] → ∃ decl, d.decl = some decl ∧ ∀ e, decl.encoding = some e → e = c!"UTF-8") ∧
    (∀ r ∈ specRelationsOf b, NamesObject b r.source ∧ NamesObject b r.target) ∧
    (∀ s ∈ specificationsOf b, ∀ h ∈ preorderList (s.children.getD []), NamesObject b h.info.specObject)

end ReqIF.Spec
