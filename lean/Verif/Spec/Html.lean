import Verif.Spec.RoundTrip
import Verif.Spec.Markup
/-!
# HTML content

What an HTML parser gives: elements without namespaces, and texts.  `IsHtml t n`: the
node `n` is the element or text `t`.  `htmlText` is such content written with a prefix;
an empty `object` keeps its end tag.
-/
namespace ReqIF.Spec

mutual
def IsHtml : XTree → Node → Prop
  | .elem name attrs kids, .elem i ks => i.name = name ∧ i.ns = none ∧ i.nsmap = [] ∧
      i.attrs = attrs.map (fun a => ⟨none, none, a.1, a.2⟩) ∧ AllHtml kids ks
  | .text s, .text s' => s' = s
  | _, _ => False

def AllHtml : List XTree → List Node → Prop
  | [], [] => True
  | t :: ts, n :: ns => IsHtml t n ∧ AllHtml ts ns
  | _, _ => False
end

mutual
/-- Elements with prefix `p`, empty ones as empty tags except for `object`. -/
def XTree.html (p : Str) : XTree → Str
  | .elem name attrs kids =>
    c!"<" ++ p ++ c!":" ++ name ++ attrs.flatMap (fun a => c!" " ++ a.1 ++ c!"=\"" ++ escape a.2 ++ c!"\"") ++
    (match kids with
     | [] => if isObject name then c!"></" ++ p ++ c!":" ++ name ++ c!">" else c!"/>"
     | k :: ks => c!">" ++ k.html p ++ htmlText p ks ++ c!"</" ++ p ++ c!":" ++ name ++ c!">")
  | .text s => escape s

def htmlText (p : Str) : List XTree → Str
  | [] => []
  | t :: ts => t.html p ++ htmlText p ts
end

mutual
/-- Every `object` element has content. -/
def XTree.fullObjects : XTree → Bool
  | .elem name _ kids => (!isObject name || !kids.isEmpty) && fullObjectsAll kids
  | .text _ => true

def fullObjectsAll : List XTree → Bool
  | [] => true
  | t :: ts => t.fullObjects && fullObjectsAll ts
end

end ReqIF.Spec
