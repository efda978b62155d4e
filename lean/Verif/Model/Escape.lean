import Verif.Base.Str
/-!
# Escaping and XHTML indentation
-/
namespace ReqIF

/-- `helpers/lxml.py` 16-32, `lxml_escape_for_html`: seven replacements, one after the other. -/
def lxmlEscapeForHtml (s : Str) : Str :=
  let s := replaceChar '&' c!"&amp;" s
  let s := replaceChar '<' c!"&lt;" s
  let s := replaceChar '>' c!"&gt;" s
  let s := replaceChar '"' c!"&quot;" s
  let s := replaceChar '\'' c!"&#x27;" s
  let s := replaceChar (Char.ofNat 0xA0) c!"&#xA0;" s
  let s := replaceChar '\t' c!"&#9;" s
  s

/-- `helpers/lxml.py` 35-39, `lxml_escape_title` (also `helpers/string/escape.py` 21-25). -/
def lxmlEscapeTitle (s : Str) : Str := replaceChar '&' c!"&amp;" s

/-- `helpers/string/escape.py` 3-18, `reqif_escape`. -/
def reqifEscape (s : Str) : Str :=
  let s := replaceChar '&' c!"&amp;" s
  let s := replaceChar '<' c!"&lt;" s
  let s := replaceChar '>' c!"&gt;" s
  let s := replaceChar '"' c!"&quot;" s
  let s := replaceChar '\'' c!"&#x27;" s
  let s := replaceChar '\t' c!"&#9;" s
  s

/-- Python's `html.escape(s)` (standard library), used by
`parsers/attribute_value_parser.py` 212, `parsers/spec_relation_parser.py` 108,
`parsers/spec_types/spec_relation_type_parser.py` 48 and
`parsers/spec_types/relation_group_type_parser.py` 51. -/
def htmlEscape (s : Str) : Str :=
  let s := replaceChar '&' c!"&amp;" s
  let s := replaceChar '<' c!"&lt;" s
  let s := replaceChar '>' c!"&gt;" s
  let s := replaceChar '"' c!"&quot;" s
  let s := replaceChar '\'' c!"&#x27;" s
  s

/-- `helpers/string/xhtml_indent.py` 10-15, `reqif_indent_xhtml_string`. -/
def reqifIndentXhtmlString (s : Str) : Str :=
  replaceChar '\n' (c!"\n" ++ spaces 16) (c!"\n" ++ strip s) ++ c!"\n" ++ spaces 14

/-- `helpers/string/xhtml_indent.py` 18-19, `reqif_unindent_xhtml_string`.  The
pattern ` {16}` matches sixteen literal spaces. -/
def reqifUnindentXhtmlString (s : Str) : Str :=
  strip (replaceStr (spaces 16) [] s)

end ReqIF
