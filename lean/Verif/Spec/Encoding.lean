import Verif.Spec.Namespaces
/-!
# Texts whose encoding is taken for another

A text is encoded in UTF-8 and its bytes are taken for ISO-8859-1, where every byte is a character.
-/
namespace ReqIF.Spec

/-- What becomes of a character: the bytes of its UTF-8 form, each as the character with that
number.  (`String.utf8EncodeChar` is Lean's definition of UTF-8.) -/
def garbledChar (c : Char) : Str := (String.utf8EncodeChar c).map (fun b => Char.ofNat b.toNat)

def garbled (s : Str) : Str := s.flatMap garbledChar

def Ascii (s : Str) : Prop := ∀ c ∈ s, c.toNat < 128

def garbledAttr (a : Attr) : Attr := ⟨a.ns.map garbled, a.pfx, a.name, garbled a.value⟩

def garbledDecls (m : List (Option Str × Str)) : List (Option Str × Str) := m.map (fun d => (d.1, garbled d.2))

/-- All names stay; values, namespaces and texts are garbled. -/
def garbledInfo (i : Info) : Info :=
  ⟨i.ns.map garbled, i.pfx, i.name, garbledDecls i.nsdefs, garbledDecls i.nsmap, i.attrs.map garbledAttr⟩

mutual
def garbledNode : Node → Node
  | .elem i ks => .elem (garbledInfo i) (garbledNodes ks)
  | .text s => .text (garbled s)
  | .comment s => .comment (garbled s)
  | .pi t d => .pi t (garbled d)
def garbledNodes : List Node → List Node
  | [] => []
  | n :: ns => garbledNode n :: garbledNodes ns
end

/-- Names and prefixes of an element and its attributes, and prefixes it declares. -/
def infoNames (i : Info) : List Str :=
  i.name :: i.pfx.toList ++ i.attrs.flatMap (fun a => a.name :: a.pfx.toList) ++ i.nsdefs.filterMap (·.1)

mutual
/-- All names in a tree. -/
def nodeNames : Node → List Str
  | .elem i ks => infoNames i ++ nodesNames ks
  | .pi t _ => [t]
  | _ => []
def nodesNames : List Node → List Str
  | [] => []
  | n :: ns => nodeNames n ++ nodesNames ns
end

/-- The text begins (after an optional byte order mark) with an XML declaration that names an
encoding. -/
def NamesEncoding (s e : Str) : Prop :=
  ∃ u t h r, (s = u ∧ s.head? ≠ some (Char.ofNat 0xFEFF) ∨ s = Char.ofNat 0xFEFF :: u) ∧ Grammar.Lines u t ∧ t = h ++ r ∧
    Grammar.Declaration h (some e)

/-- Character references stand for ASCII characters only. -/
def AsciiReferences (s : Str) : Prop := ∀ r d, Grammar.Reference r d → Grammar.Has r s → d.toNat < 128

end ReqIF.Spec
