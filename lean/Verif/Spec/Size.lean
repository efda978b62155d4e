import Verif.Xml.Resolve
/-!
# Sizes of trees

The size of a tree counts the characters of names, attributes, namespace declarations and texts, and one for every
element, attribute, declaration, comment and processing instruction: no more than the characters of a text it is written with.
-/
namespace ReqIF

/-- A prefix with its colon. -/
def prefixSize : Option Str → Nat
  | none => 0
  | some p => p.length + 1

/-- An attribute: name, equals sign, value. -/
def Attr.size (a : Attr) : Nat := a.name.length + prefixSize a.pfx + a.value.length + 1

/-- A namespace declaration. -/
def declSize (d : Option Str × Str) : Nat := prefixSize d.1 + d.2.length + 1

/-- A start tag. -/
def Info.size (i : Info) : Nat :=
  1 + i.name.length + prefixSize i.pfx + (i.attrs.map Attr.size).sum + (i.nsdefs.map declSize).sum

mutual
/-- A tree. -/
def Node.size : Node → Nat
  | .elem i ks => i.size + sizeAll ks
  | .text s => s.length
  | .comment s => s.length + 1
  | .pi t d => t.length + d.length + 1

/-- Trees side by side. -/
def sizeAll : List Node → Nat
  | [] => 0
  | n :: ns => n.size + sizeAll ns
end

end ReqIF
