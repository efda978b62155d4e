import Verif.Xml.Resolve
/-!
# Text that survives being printed without escaping
-/
namespace ReqIF.Spec

/-- A string that an XML attribute in double quotes can hold as it is. -/
def PlainAttr (v : Str) : Prop :=
  ∀ c ∈ v, isXmlChar c = true ∧ c ≠ '<' ∧ c ≠ '&' ∧ c ≠ '"' ∧ c ≠ '\t' ∧ c ≠ '\n' ∧ c ≠ '\r'

/-- A string that element text can hold as it is. -/
def PlainText (v : Str) : Prop :=
  (∀ c ∈ v, isXmlChar c = true ∧ c ≠ '<' ∧ c ≠ '&' ∧ c ≠ '\r') ∧ containsStr c!"]]>" v = false

/-- A string that survives in an attribute when escaped by `lxml_escape_for_html`. -/
def EscAttr (v : Str) : Prop := ∀ c ∈ v, isXmlChar c = true ∧ c ≠ '\n' ∧ c ≠ '\r'

/-- A string that survives in an attribute when escaped by `html.escape`. -/
def HtmlAttr (v : Str) : Prop := ∀ c ∈ v, isXmlChar c = true ∧ c ≠ '\t' ∧ c ≠ '\n' ∧ c ≠ '\r'

/-- A string that survives as element text when only `&` is escaped. -/
def TitleText (v : Str) : Prop :=
  (∀ c ∈ v, isXmlChar c = true ∧ c ≠ '<' ∧ c ≠ '\r') ∧ containsStr c!"]]>" v = false

instance (v : Str) : Decidable (TitleText v) := inferInstanceAs (Decidable (_ ∧ _))
instance (v : Str) : Decidable (PlainAttr v) := inferInstanceAs (Decidable (∀ c ∈ v, _))
instance (v : Str) : Decidable (PlainText v) := inferInstanceAs (Decidable (_ ∧ _))
instance (v : Str) : Decidable (EscAttr v) := inferInstanceAs (Decidable (∀ c ∈ v, _))
instance (v : Str) : Decidable (HtmlAttr v) := inferInstanceAs (Decidable (∀ c ∈ v, _))

end ReqIF.Spec
