import Verif.Spec.Sources
/-!
# Documents that differ in indentation

`unspaced .root x`: the tree `x` without the text between elements (in ReqIF: white space,
that is line breaks and indentation), in the elements that only hold other elements.  Elements
with a text of their own, such as references and the fields of the header, and XHTML content
are kept as they are.
-/
namespace ReqIF.Spec
open ReqIF

mutual
/-- A tree without the text between elements, in the places where it does not matter.  An
element without children stays as it is: `<A></A>` and `<A> </A>` are different. -/
def unspaced (p : Part) : Node → Node
  | .elem i ks => if p = .fixed ∨ p = .word ∨ ks.all Node.isText = true then .elem i ks else .elem i (unspacedKids p ks)
  | n => n

/-- The same for the children of an element. -/
def unspacedKids (p : Part) : List Node → List Node
  | [] => []
  | k :: ks =>
    if k.isText then unspacedKids p ks
    else unspaced (p.inner (localName k)) k :: unspacedKids p ks
end

mutual
/-- Where text counts there is nothing but text: no XHTML content. -/
def onlyTexts (p : Part) : Node → Bool
  | .elem _ ks => if p = .fixed ∨ p = .word then ks.all Node.isText else onlyTextsKids p ks
  | _ => true

def onlyTextsKids (p : Part) : List Node → Bool
  | [] => true
  | k :: ks => onlyTexts (p.inner (localName k)) k && onlyTextsKids p ks
end

/-- A bundle without what is remembered of the XML declaration. -/
def undeclared (b : Bundle) : Bundle :=
  { b with namespaceInfo := { b.namespaceInfo with doctypeIsPresent := true, encoding := c!"UTF-8" } }

/-! A bundle remembers source elements.  Two bundles are the same but for spacing if they are
the same once these elements are taken without the text between elements. -/

/-- A bundle with its source elements taken without the text between elements. -/
abbrev unspacedBundle (b : Bundle) : Bundle := bundleBy unspaced b

end ReqIF.Spec
