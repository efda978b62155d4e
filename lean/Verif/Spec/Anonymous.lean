import Verif.Spec.Anonymize
import Verif.Spec.Refs
import Verif.Spec.Plain
/-!
# Anonymized documents

What the schema says about the content of XHTML values beyond `Verif.Spec.Xsd`, and XHTML
default values.
-/
namespace ReqIF.Xsd

/-- An element `p` or `div` of XHTML. -/
def isBlockElement : Node → Bool
  | .elem i _ => i.ns == some xhtmlUri && (i.name == c!"p" || i.name == c!"div")
  | _ => false

/-- No text, or one that is white space. -/
def isSilent : Node → Bool
  | .text s => s.all isWs
  | _ => true

/-- The type `XHTML-CONTENT` (`reqif.xsd` 890-892, `driver.xsd` 197-202): one element `p` or `div`
of XHTML, and no text besides white space. -/
def isBlock (ks : List Node) : Bool :=
  (match ks.filter isElement with
    | [n] => isBlockElement n
    | _ => false) &&
  ks.all isSilent

mutual
/-- The XHTML contents of a document with the names of the elements they are in, in order.
Tool extensions are not looked at.  `inValue`: the parent is an `ATTRIBUTE-VALUE-XHTML`. -/
def xhtmlContents (inValue : Bool) : Node → List (Str × List Node)
  | .elem i ks =>
    if inValue && i.ns == some reqifNs && xhtmlNames.contains i.name then [(i.name, ks)]
    else if i.name == c!"TOOL-EXTENSIONS" then []
    else xhtmlContentsAll (i.ns == some reqifNs && i.name == c!"ATTRIBUTE-VALUE-XHTML") ks
  | _ => []

def xhtmlContentsAll (inValue : Bool) : List Node → List (Str × List Node)
  | [] => []
  | n :: ns => xhtmlContents inValue n ++ xhtmlContentsAll inValue ns
end

/-- Is the root valid, and its XHTML contents, too? -/
def validWithContents (root : Node) : Bool :=
  validRoot .xsd root && (xhtmlContents false root).all (fun c => isBlock c.2)

mutual
/-- Does an attribute definition have an XHTML default value? -/
def hasXhtmlDefault : Node → Bool
  | .elem i ks =>
    (i.name == c!"DEFAULT-VALUE" && (childNames ks).contains c!"ATTRIBUTE-VALUE-XHTML") || haveXhtmlDefault ks
  | _ => false

def haveXhtmlDefault : List Node → Bool
  | [] => false
  | n :: ns => hasXhtmlDefault n || haveXhtmlDefault ns
end

end ReqIF.Xsd
