import Verif.Xml.Resolve
import Verif.Spec.Calendar
/-!
# The ReqIF schema

A small validator for the part of XML Schema that `reqif/reqif_schema/reqif.xsd`
uses, and that schema as a table.

Every document valid in the sense of XML Schema is valid here; the validator leaves
out checks: the uniqueness of identifiers, references without target, the inner structure of XHTML content (its
elements have to be in the XHTML namespace), attributes with a namespace, and the
content of tool extensions.

The table has four dialects.  `xsd` is the schema.  `parse` and `write` are the
schema with some requirements added, each marked by a comment: what the parser, and
what parser and unparser together, need besides.  `lenient` is `write` without the
requirements of the schema that neither parser nor unparser needs.
-/
namespace ReqIF.Xsd

def reqifNs : Str := c!"http://www.omg.org/spec/ReqIF/20110401/reqif.xsd"
def xhtmlUri : Str := c!"http://www.w3.org/1999/xhtml"

/-! ## Simple types -/

inductive Simple
  | string | boolean | integer | double | dateTime | id | localRef
  /-- any text but the empty one (not from the schema) -/
  | nonEmpty
  deriving DecidableEq

/-- The text without surrounding white space. -/
def trim (s : Str) : Str := ((s.dropWhile isWs).reverse.dropWhile isWs).reverse

def isDigit (c : Char) : Bool := '0' ≤ c && c ≤ '9'

/-- `[+-]?[0-9]+` -/
def isInteger : Str → Bool
  | '-' :: d => !d.isEmpty && d.all isDigit
  | '+' :: d => !d.isEmpty && d.all isDigit
  | d => !d.isEmpty && d.all isDigit

/-- Two digits that are a number in this range. -/
def inRange (a b : Char) (lo hi : Nat) : Bool :=
  isDigit a && isDigit b && lo ≤ (a.toNat - 48) * 10 + (b.toNat - 48) && (a.toNat - 48) * 10 + (b.toNat - 48) ≤ hi

/-- A zone, or none. -/
def isZone : Str → Bool
  | [] => true
  | ['Z'] => true
  | [c, a, b, ':', d, e] => (c == '+' || c == '-') && (inRange a b 0 13 && inRange d e 0 59 || [a, b, d, e] == c!"1400")
  | _ => false

/-- Fractions of a second and a zone, both of which may be missing.  `whole`: no part of a second. -/
def isRest (whole : Bool) : Str → Bool
  | '.' :: r => !(r.takeWhile isDigit).isEmpty && (!whole || (r.takeWhile isDigit).all (· == '0')) && isZone (r.dropWhile isDigit)
  | r => isZone r

/-- `YYYY-MM-DDThh:mm:ss.sss+hh:mm`: a day that exists; the day may end with 24:00:00. -/
def isMoment (s : Str) : Bool :=
  let negative := s.head? == some '-'
  let s := if negative then s.tail else s
  let year := s.takeWhile isDigit
  let leap := negative || Spec.leapYear (year.foldl (fun n c => n * 10 + (c.toNat - 48)) 0)
  4 ≤ year.length && (year.length == 4 || year.head? != some '0') && year.any (· != '0') &&
  match s.dropWhile isDigit with
  | '-' :: m1 :: m2 :: '-' :: d1 :: d2 :: 'T' :: h1 :: h2 :: ':' :: n1 :: n2 :: ':' :: s1 :: s2 :: r =>
    inRange m1 m2 1 12 && inRange d1 d2 1 (Spec.monthLength leap ((m1.toNat - 48) * 10 + (m2.toNat - 48))) &&
    (inRange h1 h2 0 23 && inRange n1 n2 0 59 && inRange s1 s2 0 59 && isRest false r ||
      [h1, h2, n1, n2, s1, s2] == c!"240000" && isRest true r)
  | _ => false

/-- Digits with at most one point among them, and at least one digit. -/
def isDecimal (s : Str) : Bool :=
  let rest := s.dropWhile isDigit
  match rest with
  | [] => !s.isEmpty
  | '.' :: d => d.all isDigit && (!(s.takeWhile isDigit).isEmpty || !d.isEmpty)
  | _ => false

/-- A number, maybe with an exponent. -/
def isFloat (s : Str) : Bool :=
  [c!"INF", c!"-INF", c!"NaN"].contains s ||
    (let s := if s.head? == some '-' || s.head? == some '+' then s.tail else s
     isDecimal (s.takeWhile (fun c => c != 'e' && c != 'E')) &&
      match s.dropWhile (fun c => c != 'e' && c != 'E') with
      | [] => true
      | _ :: e => isInteger e)

/-- Is the text in the lexical space of the type? -/
def Simple.ok : Simple → Str → Bool
  | .string, _ => true
  | .boolean, s => [c!"true", c!"false", c!"1", c!"0"].contains (trim s)
  | .integer, s => isInteger (trim s)
  | .double, s => isFloat (trim s)
  | .dateTime, s => isMoment (trim s)
  | .id, s => isNCName (trim s)
  | .localRef, s => isNCName (trim s)
  | .nonEmpty, s => !s.isEmpty

/-! ## Types -/

/-- The kinds of data types, attribute definitions and attribute values. -/
inductive Kind
  | boolean | date | enumeration | integer | real | string | xhtml
  deriving DecidableEq

def Kind.all : List Kind := [.boolean, .date, .enumeration, .integer, .real, .string, .xhtml]

def Kind.name : Kind → Str
  | .boolean => c!"BOOLEAN"
  | .date => c!"DATE"
  | .enumeration => c!"ENUMERATION"
  | .integer => c!"INTEGER"
  | .real => c!"REAL"
  | .string => c!"STRING"
  | .xhtml => c!"XHTML"

/-- The kinds whose default values name their definition when written. -/
def Kind.namesDefinition : Kind → Bool
  | .boolean | .enumeration | .xhtml => true
  | _ => false

/-- The kinds of spec types. -/
inductive SpecKind
  | group | object | relation | specification
  deriving DecidableEq

/-- The complex types of the schema, named and anonymous ones, and simple content. -/
inductive TypeName
  | reqIf | theHeader | header | coreContent | content | toolExtensions | toolExtension
  | datatypes | specTypes | specObjects | specRelations | specifications | relationGroups
  | dataType (k : Kind) | specifiedValues | enumValue | properties | embeddedValue
  | specType (s : SpecKind) | specAttributes (s : SpecKind) | definition (s : SpecKind) (k : Kind)
  | definitionType (k : Kind) | defaultValue (k : Kind)
  | values | relationValues | value (inDefault : Bool) (k : Kind) | valueDefinition (k : Kind) | enumRefs (inDefault : Bool)
  | specObject | objectType | specRelation | relationType | relationEnd
  | specification | specificationType | children | hierarchy | hierarchyObject | editableAtts
  | relationGroup | groupRelations | groupSpecification | groupType
  | alternativeIds | alternativeId
  | xhtmlContent (inDefault : Bool) | text (s : Simple)

structure AttrDecl where
  name : Str
  type : Simple
  required : Bool

/-- An element of an `all` or `sequence` group; `maxOccurs` is 1 throughout. -/
structure Particle where
  name : Str
  required : Bool
  type : TypeName

inductive Model
  | all (es : List Particle)
  /-- in any order if not `inOrder` (not from the schema; the parser looks elements up by name) -/
  | sequence (inOrder : Bool) (es : List Particle)
  /-- `choice` with `minOccurs` and `maxOccurs` (`none`: unbounded) -/
  | choice (min : Nat) (max : Option Nat) (es : List (Str × TypeName))
  /-- nothing at all between the tags, or one of these elements (not from the schema) -/
  | emptyOrOne (es : List (Str × TypeName))
  | text (s : Simple)
  /-- XHTML; `outer`: an element directly below uses a namespace declared outside -/
  | xhtml (outer : Bool)
  | anything

structure Complex where
  attrs : List AttrDecl
  model : Model

/-! ## Validation -/

/-- Attributes without namespace are declared and of their type; required ones are there. -/
def attrsOk (ds : List AttrDecl) (as : List Attr) : Bool :=
  as.all (fun a => a.ns.isSome || ds.any (fun d => d.name == a.name && d.type.ok a.value)) &&
  ds.all (fun d => !d.required || as.any (fun a => a.ns.isNone && a.name == d.name))

/-- The type of a child element with this name. -/
def Model.typeOf : Model → Str → Option TypeName
  | .all es, n => (es.find? (fun p => p.name == n)).map (·.type)
  | .sequence _ es, n => (es.find? (fun p => p.name == n)).map (·.type)
  | .choice _ _ es, n => (es.find? (fun p => p.1 == n)).map (·.2)
  | .emptyOrOne es, n => (es.find? (fun p => p.1 == n)).map (·.2)
  | _, _ => none

/-- Names of the child elements against a sequence. -/
def seqOk : List Particle → List Str → Bool
  | [], ns => ns.isEmpty
  | p :: ps, [] => !p.required && seqOk ps []
  | p :: ps, n :: ns => if n = p.name then seqOk ps ns else !p.required && seqOk ps (n :: ns)

/-- The names of the child elements, in order. -/
def childNames : List Node → List Str
  | [] => []
  | .elem i _ :: ns => i.name :: childNames ns
  | _ :: ns => childNames ns

/-- The text of an element: all text between the tags. -/
def textOf : List Node → Str
  | [] => []
  | .text s :: ns => s ++ textOf ns
  | _ :: ns => textOf ns

mutual
/-- All elements of a tree are in the XHTML namespace. -/
def isXhtml : Node → Bool
  | .elem i ks => i.ns == some xhtmlUri && areXhtml ks
  | _ => true

def areXhtml : List Node → Bool
  | [] => true
  | n :: ns => isXhtml n && areXhtml ns
end

/-- An element without declarations of its own. -/
def declaresNothing : Node → Bool
  | .elem i _ => i.nsdefs.isEmpty
  | _ => false

/-- Are these all the child elements there have to be, and not more? -/
def Model.countOk : Model → List Node → Bool
  | .all es, ks => noDup (childNames ks) && es.all (fun p => !p.required || (childNames ks).contains p.name)
  | .sequence true es, ks => seqOk es (childNames ks)
  | .sequence false es, ks => noDup (childNames ks) && es.all (fun p => !p.required || (childNames ks).contains p.name)
  | .choice min max _, ks => min ≤ (childNames ks).length && max.all (fun m => (childNames ks).length ≤ m)
  | .emptyOrOne _, ks => ks.isEmpty || (childNames ks).length == 1
  | .text s, ks => (childNames ks).isEmpty && s.ok (textOf ks)
  | .xhtml outer, ks => areXhtml ks && (!outer || ks.any declaresNothing)
  | .anything, _ => true

/-- May there be text other than white space? -/
def Model.mixed : Model → Bool
  | .text _ | .xhtml _ | .anything => true
  | _ => false

/-- Are the child elements not described by the table? -/
def Model.isOpen : Model → Bool
  | .xhtml _ | .anything => true
  | _ => false

mutual
/-- Is this node a valid element of a type?  The elements of the schema are in the
namespace `ns`. -/
def validBy (decl : TypeName → Complex) (ns : Option Str) (t : TypeName) : Node → Bool
  | .elem i ks => attrsOk (decl t).attrs i.attrs && (decl t).model.countOk ks && kidsBy decl ns (decl t).model ks
  | _ => false

def kidsBy (decl : TypeName → Complex) (ns : Option Str) (m : Model) : List Node → Bool
  | [] => true
  | .elem i ks :: r =>
    (m.isOpen || (i.ns == ns && match m.typeOf i.name with
      | some t => validBy decl ns t (.elem i ks)
      | none => false)) && kidsBy decl ns m r
  | .text s :: r => (m.mixed || s.all isWs) && kidsBy decl ns m r
  | _ :: r => kidsBy decl ns m r
end

/-! ## The schema -/

inductive Dialect
  | xsd | parse | write | lenient
  deriving DecidableEq

/-- Are all requirements of the schema made? -/
def Dialect.strict : Dialect → Bool
  | .lenient => false
  | _ => true

/-- Are the needs of the unparser required? -/
def Dialect.prints : Dialect → Bool
  | .write | .lenient => true
  | _ => false

/-- The form of texts.  Parser and unparser need integers for the accuracy of data types
only, and no particular form of identifiers and references. -/
def Dialect.form : Dialect → Simple → Simple
  | .lenient, .id => .nonEmpty
  | .lenient, .localRef => .nonEmpty
  | .lenient, _ => .string
  | _, s => s

def desc : AttrDecl := ⟨c!"DESC", .string, false⟩
def identifier (d : Dialect) : AttrDecl := ⟨c!"IDENTIFIER", d.form .id, true⟩
def lastChange (d : Dialect) : AttrDecl := ⟨c!"LAST-CHANGE", d.form .dateTime, d.strict⟩
def longName (required : Bool) : AttrDecl := ⟨c!"LONG-NAME", .string, required⟩
def isEditable (d : Dialect) : AttrDecl := ⟨c!"IS-EDITABLE", d.form .boolean, false⟩

/-- The four attributes most elements have. -/
def usual (d : Dialect) : List AttrDecl := [desc, identifier d, lastChange d, longName false]

def alternative : Particle := ⟨c!"ALTERNATIVE-ID", false, .alternativeIds⟩

/-- One element in a `choice` that has to be there. -/
def one (name : Str) (t : TypeName) : Model := .choice 1 (some 1) [(name, t)]

/-- `reqif.xsd` (lines 8-892) and what parser and unparser need besides. -/
def schema (d : Dialect) : TypeName → Complex
  -- the document
  | .reqIf => ⟨[], .sequence d.strict [⟨c!"THE-HEADER", d.strict, .theHeader⟩, ⟨c!"CORE-CONTENT", d.strict, .coreContent⟩,
      ⟨c!"TOOL-EXTENSIONS", false, .toolExtensions⟩]⟩
  | .theHeader => ⟨[], one c!"REQ-IF-HEADER" .header⟩
  | .header => ⟨[⟨c!"IDENTIFIER", d.form .id, true⟩],
      .sequence d.strict [⟨c!"COMMENT", false, .text .string⟩, ⟨c!"CREATION-TIME", d.strict, .text .dateTime⟩,
        ⟨c!"REPOSITORY-ID", false, .text .string⟩, ⟨c!"REQ-IF-TOOL-ID", d.strict, .text .string⟩,
        ⟨c!"REQ-IF-VERSION", d.strict, .text .string⟩, ⟨c!"SOURCE-TOOL-ID", d.strict, .text .string⟩,
        ⟨c!"TITLE", d.strict, .text .string⟩]⟩
  | .coreContent => ⟨[], .choice (if d.strict then 1 else 0) (some 1) [(c!"REQ-IF-CONTENT", .content)]⟩
  | .content => ⟨[], .sequence d.strict [⟨c!"DATATYPES", false, .datatypes⟩, ⟨c!"SPEC-TYPES", false, .specTypes⟩,
      ⟨c!"SPEC-OBJECTS", false, .specObjects⟩, ⟨c!"SPEC-RELATIONS", false, .specRelations⟩,
      ⟨c!"SPECIFICATIONS", false, .specifications⟩, ⟨c!"SPEC-RELATION-GROUPS", false, .relationGroups⟩]⟩
  | .toolExtensions => ⟨[], .choice 0 none [(c!"REQ-IF-TOOL-EXTENSION", .toolExtension)]⟩
  | .toolExtension => ⟨[], .anything⟩
  -- the containers
  | .datatypes => ⟨[], .choice 0 none (Kind.all.map fun k => (c!"DATATYPE-DEFINITION-" ++ k.name, .dataType k))⟩
  | .specTypes => ⟨[], .choice 0 none [(c!"RELATION-GROUP-TYPE", .specType .group), (c!"SPEC-OBJECT-TYPE", .specType .object),
      (c!"SPEC-RELATION-TYPE", .specType .relation), (c!"SPECIFICATION-TYPE", .specType .specification)]⟩
  | .specObjects => ⟨[], .choice 0 none [(c!"SPEC-OBJECT", .specObject)]⟩
  | .specRelations => ⟨[], .choice 0 none [(c!"SPEC-RELATION", .specRelation)]⟩
  | .specifications => ⟨[], .choice 0 none [(c!"SPECIFICATION", .specification)]⟩
  | .relationGroups => ⟨[], .choice 0 none [(c!"RELATION-GROUP", .relationGroup)]⟩
  -- data types
  | .dataType k => ⟨usual d ++ (match k with
        | .integer => [⟨c!"MAX", d.form .integer, d.strict⟩, ⟨c!"MIN", d.form .integer, d.strict⟩]
        | .real => [⟨c!"ACCURACY", .integer, d.strict⟩, ⟨c!"MAX", d.form .double, d.strict⟩, ⟨c!"MIN", d.form .double, d.strict⟩]
        | .string => [⟨c!"MAX-LENGTH", d.form .integer, d.strict⟩]
        | _ => []),
      .all (alternative :: (match k with
        | .enumeration => [⟨c!"SPECIFIED-VALUES", false, .specifiedValues⟩]
        | _ => []))⟩
  | .specifiedValues => ⟨[], .choice 0 none [(c!"ENUM-VALUE", .enumValue)]⟩
  | .enumValue => ⟨usual d, .all [alternative, ⟨c!"PROPERTIES", true, .properties⟩]⟩
  | .properties => ⟨[], one c!"EMBEDDED-VALUE" .embeddedValue⟩
  | .embeddedValue => ⟨[⟨c!"KEY", d.form .integer, true⟩, ⟨c!"OTHER-CONTENT", .string, d.strict⟩], .all []⟩
  -- spec types; the parser needs the long name of a relation type and the date of a
  -- specification type
  | .specType s => ⟨[desc, identifier d, ⟨c!"LAST-CHANGE", d.form .dateTime, d.strict || s == .specification⟩, longName (d != .xsd && s == .relation)],
      .all [alternative, ⟨c!"SPEC-ATTRIBUTES", false, .specAttributes s⟩]⟩
  | .specAttributes s => ⟨[], .choice 0 none (Kind.all.map fun k => (c!"ATTRIBUTE-DEFINITION-" ++ k.name, .definition s k))⟩
  -- the parser needs the long name of a definition in a specification type; the
  -- unparser refuses alternative identifiers
  | .definition s k => ⟨[desc, identifier d, isEditable d, lastChange d, longName (d != .xsd && s == .specification)] ++
        (if k = .enumeration then [⟨c!"MULTI-VALUED", d.form .boolean, d.strict⟩] else []),
      .all ((if d.prints then [] else [alternative]) ++
        [⟨c!"DEFAULT-VALUE", false, .defaultValue k⟩, ⟨c!"TYPE", true, .definitionType k⟩])⟩
  | .definitionType k => ⟨[], one (c!"DATATYPE-DEFINITION-" ++ k.name ++ c!"-REF") (.text .localRef)⟩
  -- the parser needs a value here, but for three kinds accepts an empty tag
  | .defaultValue k => ⟨[],
      let e := [(c!"ATTRIBUTE-VALUE-" ++ k.name, TypeName.value true k)]
      if d = .xsd then .choice 0 (some 1) e
      else match k with
        | .string | .xhtml | .enumeration => .emptyOrOne e
        | _ => .choice 1 (some 1) e⟩
  -- attribute values
  | .values => ⟨[], .choice 0 none (Kind.all.map fun k => (c!"ATTRIBUTE-VALUE-" ++ k.name, .value false k))⟩
  -- the parser knows three kinds here
  | .relationValues => ⟨[], .choice 0 none
      ((if d = .xsd then Kind.all else [.integer, .string, .xhtml]).map fun k => (c!"ATTRIBUTE-VALUE-" ++ k.name, .value false k))⟩
  | .value inDefault k =>
      -- parser and unparser leave it out in default values of the other four kinds
      let definition : Particle := ⟨c!"DEFINITION", !inDefault || k.namesDefinition || d.strict, .valueDefinition k⟩
      match k with
      -- the parser needs the list of values outside of default values
      | .enumeration => ⟨[], .all [definition, ⟨c!"VALUES", d != .xsd && !inDefault, .enumRefs inDefault⟩]⟩
      | .xhtml => ⟨[⟨c!"IS-SIMPLIFIED", d.form .boolean, false⟩],
          .all [⟨c!"THE-VALUE", true, .xhtmlContent inDefault⟩, ⟨c!"THE-ORIGINAL-VALUE", false, .xhtmlContent false⟩, definition]⟩
      | .boolean => ⟨[⟨c!"THE-VALUE", d.form .boolean, true⟩], .all [definition]⟩
      | .date => ⟨[⟨c!"THE-VALUE", d.form .dateTime, true⟩], .all [definition]⟩
      | .integer => ⟨[⟨c!"THE-VALUE", d.form .integer, true⟩], .all [definition]⟩
      | .real => ⟨[⟨c!"THE-VALUE", d.form .double, true⟩], .all [definition]⟩
      | .string => ⟨[⟨c!"THE-VALUE", .string, true⟩], .all [definition]⟩
  | .valueDefinition k => ⟨[], one (c!"ATTRIBUTE-DEFINITION-" ++ k.name ++ c!"-REF") (.text .localRef)⟩
  | .enumRefs _ => ⟨[], .choice 0 none [(c!"ENUM-VALUE-REF", .text .localRef)]⟩
  -- spec objects; the unparser needs the values
  | .specObject => ⟨usual d, .all [alternative, ⟨c!"VALUES", d.prints, .values⟩, ⟨c!"TYPE", true, .objectType⟩]⟩
  | .objectType => ⟨[], one c!"SPEC-OBJECT-TYPE-REF" (.text .localRef)⟩
  -- relations; the unparser refuses alternative identifiers
  | .specRelation => ⟨usual d, .all ((if d.prints then [] else [alternative]) ++ [⟨c!"VALUES", false, .relationValues⟩,
      ⟨c!"SOURCE", true, .relationEnd⟩, ⟨c!"TARGET", true, .relationEnd⟩, ⟨c!"TYPE", true, .relationType⟩])⟩
  | .relationType => ⟨[], one c!"SPEC-RELATION-TYPE-REF" (.text .localRef)⟩
  | .relationEnd => ⟨[], one c!"SPEC-OBJECT-REF" (.text .string)⟩
  -- specifications
  | .specification => ⟨usual d, .all [alternative, ⟨c!"VALUES", false, .values⟩, ⟨c!"CHILDREN", false, .children⟩,
      ⟨c!"TYPE", d.strict, .specificationType⟩]⟩
  | .specificationType => ⟨[], one c!"SPECIFICATION-TYPE-REF" (.text .localRef)⟩
  | .children => ⟨[], .choice 0 none [(c!"SPEC-HIERARCHY", .hierarchy)]⟩
  | .hierarchy => ⟨[desc, identifier d, isEditable d, ⟨c!"IS-TABLE-INTERNAL", d.form .boolean, false⟩, lastChange d, longName false],
      .all [alternative, ⟨c!"CHILDREN", false, .children⟩, ⟨c!"EDITABLE-ATTS", false, .editableAtts⟩,
        ⟨c!"OBJECT", true, .hierarchyObject⟩]⟩
  | .hierarchyObject => ⟨[], one c!"SPEC-OBJECT-REF" (.text .localRef)⟩
  | .editableAtts => ⟨[], .choice 0 none (Kind.all.map fun k => (c!"ATTRIBUTE-DEFINITION-" ++ k.name ++ c!"-REF", .text .localRef))⟩
  -- relation groups
  | .relationGroup => ⟨usual d, .all [alternative, ⟨c!"SOURCE-SPECIFICATION", d.strict, .groupSpecification⟩,
      ⟨c!"SPEC-RELATIONS", false, .groupRelations⟩, ⟨c!"TARGET-SPECIFICATION", d.strict, .groupSpecification⟩,
      ⟨c!"TYPE", d.strict, .groupType⟩]⟩
  | .groupRelations => ⟨[], .choice 0 none [(c!"SPEC-RELATION-REF", .text .localRef)]⟩
  | .groupSpecification => ⟨[], one c!"SPECIFICATION-REF" (.text .string)⟩
  | .groupType => ⟨[], one c!"RELATION-GROUP-TYPE-REF" (.text .localRef)⟩
  -- the rest
  | .alternativeIds => ⟨[], .choice 0 (some 1) [(c!"ALTERNATIVE-ID", .alternativeId)]⟩
  | .alternativeId => ⟨[⟨c!"IDENTIFIER", .string, true⟩], .all []⟩
  -- the parser needs a namespace in force around XHTML default values
  | .xhtmlContent inDefault => ⟨[], .xhtml (d != .xsd && inDefault)⟩
  | .text s => ⟨[], .text (d.form s)⟩

/-- Is the node an element of a type, in a dialect? -/
def valid (d : Dialect) (t : TypeName) (n : Node) : Bool := validBy (schema d) (some reqifNs) t n

/-- Is the root of a document a valid `REQ-IF` element? -/
def validRoot (d : Dialect) : Node → Bool
  | .elem i ks => i.ns == some reqifNs && i.name == c!"REQ-IF" && valid d .reqIf (.elem i ks)
  | _ => false

end ReqIF.Xsd
