import Verif.Xml.Resolve
/-!
# What formatting a document must keep

`core` forgets the texts that are only white space, where they stand next to other
nodes in an element that does not begin with words.  Everything else of a tree
counts: names, namespaces, attributes, comments, all other texts, the order.
-/
namespace ReqIF.Spec

/-- A text of white space only. -/
def isSpacing : Node → Bool
  | .text s => s.all isWs
  | _ => false

/-- The element's content begins with a text that is not only white space. -/
def startsWithWords : List Node → Bool
  | .text s :: _ => !s.all isWs
  | _ => false

mutual
/-- The tree without the white space between nodes. -/
def core : Node → Node
  | .elem i ks =>
    if ks.all Node.isText then .elem i ks
    else if startsWithWords ks then .elem i (coreAll ks)
    else .elem i ((coreAll ks).filter (fun k => !isSpacing k))
  | n => n

def coreAll : List Node → List Node
  | [] => []
  | n :: ns => core n :: coreAll ns
end

/-- Only ASCII characters. -/
def ascii (s : Str) : Bool := s.all (fun c => decide (c.toNat < 128))

mutual
/-- Names, prefixes, comments and processing instructions are ASCII. -/
def asciiMarkup : Node → Bool
  | .elem i ks => ascii i.name && ascii (i.pfx.getD []) && i.nsdefs.all (fun d => ascii (d.1.getD [])) &&
      i.attrs.all (fun a => ascii a.name && ascii (a.pfx.getD [])) && asciiMarkupAll ks
  | .text _ => true
  | .comment s => ascii s
  | .pi t d => ascii t && ascii d

def asciiMarkupAll : List Node → Bool
  | [] => true
  | n :: ns => asciiMarkup n && asciiMarkupAll ns
end

mutual
/-- No text is empty (a CDATA section without content makes one). -/
def noEmptyText : Node → Bool
  | .elem _ ks => noEmptyTextAll ks
  | .text s => !s.isEmpty
  | _ => true

def noEmptyTextAll : List Node → Bool
  | [] => true
  | n :: ns => noEmptyText n && noEmptyTextAll ns
end

mutual
/-- No `xml:space`, and an element with both words and other nodes begins with words. -/
def wordsInFront : Node → Bool
  | .elem i ks => !i.attrs.any (fun a => a.ns == some xmlNs && a.name == c!"space") &&
      (startsWithWords ks || ks.all Node.isText || ks.all (fun k => !k.isText || isSpacing k)) && wordsInFrontAll ks
  | _ => true

def wordsInFrontAll : List Node → Bool
  | [] => true
  | n :: ns => wordsInFront n && wordsInFrontAll ns
end

/-- A line break and the indentation of a level: two spaces each, thirty levels at most. -/
def lineAt (level : Nat) : Str := '\n' :: List.replicate (2 * min level 30) ' '

mutual
/-- In an element without words each child stands on a line of its own, one level
deeper than the element; its end tag is on a line of its own too. -/
def laidOut (level : Nat) : Node → Bool
  | .elem _ ks =>
    if ks.all Node.isText then true
    else if ks.any (fun k => k.isText && !isSpacing k) then true
    else laidOutKids level ks
  | _ => true

def laidOutKids (level : Nat) : List Node → Bool
  | [.text s] => s == lineAt level
  | .text s :: k :: ks => s == lineAt (level + 1) && !k.isText && laidOut (level + 1) k && laidOutKids level ks
  | _ => false
end

mutual
/-- The texts of a tree, one after the other. -/
def allText : Node → Str
  | .elem _ ks => allTexts ks
  | .text s => s
  | _ => []

def allTexts : List Node → Str
  | [] => []
  | n :: ns => allText n ++ allTexts ns
end

end ReqIF.Spec
