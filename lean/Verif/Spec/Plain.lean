import Verif.Spec.Xsd
import Verif.Spec.RoundTrip
/-!
# Plain documents

Documents whose strings survive being printed: attribute values and texts need no escaping
beyond what the unparser does, namespaces are declared on the root only, and XHTML elements
are all written with one prefix.  All conditions are on the document as it is read, before
the parser sees it.
-/
namespace ReqIF.Xsd
open Spec

/-- How the unparser escapes the value of an attribute. -/
inductive Escaping
  | none | html | lxml
  deriving DecidableEq

/-- The values that survive. -/
def Escaping.keeps : Escaping → Str → Bool
  | .none, v => decide (PlainAttr v)
  | .html, v => decide (HtmlAttr v)
  | .lxml, v => decide (EscAttr v)

/-- Which attributes are escaped. -/
def escaping (t : TypeName) (name : Str) : Escaping :=
  match t with
  | .dataType k =>
    if name = c!"DESC" then .lxml
    else if name = c!"LONG-NAME" then (match k with | .integer | .real | .date => .none | _ => .lxml)
    else .none
  | .enumValue => if name = c!"LONG-NAME" then .lxml else .none
  | .specType .object => if name = c!"DESC" ∨ name = c!"LONG-NAME" then .lxml else .none
  | .specType .relation | .specType .group => if name = c!"DESC" then .html else .none
  | .definition _ _ => if name = c!"DESC" ∨ name = c!"LONG-NAME" then .lxml else .none
  | .value false .string => if name = c!"THE-VALUE" then .html else .none
  | .specRelation => if name = c!"LONG-NAME" then .html else .none
  | .specification => if name = c!"DESC" ∨ name = c!"LONG-NAME" then .lxml else .none
  | _ => .none

/-- Texts of an element: not empty, and without characters that need escaping (in titles
`&` is escaped).  The ends of a relation have a text. -/
def textFits (name : Str) (ks : List Node) : Bool :=
  ks.all (fun k => match k with
    | .text s => !s.isEmpty && (if name = c!"TITLE" then decide (TitleText s) else decide (PlainText s))
    | _ => true) && (name != c!"SPEC-OBJECT-REF" || !ks.isEmpty)

mutual
/-- XHTML: no line breaks in attribute values; texts are not empty and without carriage return. -/
def xhtmlFits : Node → Bool
  | .elem i ks => i.attrs.all (fun a => decide (EscAttr a.value)) && xhtmlFitsAll ks
  | .text s => !s.isEmpty && s.all (fun c => isXmlChar c && c != '\r')
  | _ => true

def xhtmlFitsAll : List Node → Bool
  | [] => true
  | n :: ns => xhtmlFits n && xhtmlFitsAll ns
end

/-- Is it an element? -/
def isElement : Node → Bool
  | .elem _ _ => true
  | _ => false

/-- XHTML content; without elements its text needs no escaping. -/
def contentFits (ks : List Node) : Bool :=
  xhtmlFitsAll ks && (ks.any isElement || escape (textOf ks) == textOf ks)

mutual
/-- The strings of an element of a type survive. -/
def fits (t : TypeName) : Node → Bool
  | .elem i ks => i.attrs.all (fun a => (escaping t a.name).keeps a.value) &&
      (match t with
       | .text _ => textFits i.name ks
       | .xhtmlContent _ => contentFits ks
       | _ => fitsAll t ks)
  | _ => true

def fitsAll (t : TypeName) : List Node → Bool
  | [] => true
  | .elem i ks :: r => (match (schema .lenient t).model.typeOf i.name with
      | some t' => fits t' (.elem i ks)
      | none => true) && fitsAll t r
  | _ :: r => fitsAll t r
end

mutual
/-- Namespaces are declared outside; attributes have none; XHTML elements have prefix `p`. -/
def tidy (p : Str) : Node → Bool
  | .elem i ks => i.nsdefs.isEmpty && i.attrs.all (fun a => a.ns.isNone) &&
      (!containsStr xhtmlNs i.tag || i.pfx == some p) && tidyAll p ks
  | _ => true

def tidyAll (p : Str) : List Node → Bool
  | [] => true
  | n :: ns => tidy p n && tidyAll p ns
end

mutual
/-- Does the tree hold XHTML elements? -/
def hasXhtml : Node → Bool
  | .elem i ks => (i.ns.isSome && containsStr xhtmlNs i.tag) || haveXhtml ks
  | _ => false

def haveXhtml : List Node → Bool
  | [] => false
  | n :: ns => hasXhtml n || haveXhtml ns
end

/-- Do attributes of the element use this declaration? -/
def usedByAttrs (i : Info) (d : Option Str × Str) : Bool := i.attrs.any (fun a => a.ns.isSome && a.pfx == d.1)

/-- The root is written without prefix; its namespace is not declared for a prefix before;
no other prefix is bound to the namespace of `xsi` or of an attribute. -/
def rootFits (i : Info) : Bool :=
  i.pfx.isNone && (i.nsdefs.find? (fun d => d.2 == reqifNs)).any (fun d => d.1.isNone) &&
  i.nsdefs.all (fun d => d.1.isNone || !(d.1 == some c!"xsi" || usedByAttrs i d) ||
    i.nsdefs.all (fun e => e.1.isNone || e.2 != d.2 || e.1 == d.1))

/-- The first declaration on the root that is for `p` or used by an attribute binds `p` to XHTML. -/
def xhtmlFirst (p : Str) (i : Info) : Bool :=
  i.nsdefs.find? (fun d => d.1 == some p || usedByAttrs i d) == some (some p, xhtmlUri)

/-- A plain document, whose XHTML elements are written with prefix `p`. -/
def plainDocument (p : Str) : Node → Bool
  | .elem i ks => isNCName p && p != c!"xml" && rootFits i && (!haveXhtml ks || xhtmlFirst p i) && tidyAll p ks && fitsAll .reqIf ks
  | _ => false

end ReqIF.Xsd
