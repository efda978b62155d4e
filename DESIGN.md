# Design: a Lean 4 model of strictdoc-project/reqif

The library reads ReqIF XML (or a zip of such files) into Python objects and
prints them again.  A few commands sit on top: passthrough, validate,
anonymize, dump, format.  This directory holds a Lean 4 model of that code and
proofs of the properties listed in `properties.jsonl`.

## 1. Layout

| directory | content |
|---|---|
| `lean/Verif/Base` | text (`Str = List Char`), Python string operations, error values, the effect monad |
| `lean/Verif/Xml` | the XML reader (lxml/libxml2 contract), the resolved tree view, source trees |
| `lean/Verif/Model` | the code of `/repo/reqif`, function by function; each definition cites file and lines |
| `lean/Verif/Spec` | small independent specifications used in theorem statements |
| `lean/Verif/Proofs` | helper lemmas |
| `lean/Verif/Props` | one file per property group: the property theorems and non-vacuity examples |

## 2. Text and XML

Text is a list of Unicode scalar values.  The reader is a push automaton: a
fold over the characters of the document with a state (mode, stack of open
elements, buffers), so reading a concatenation is reading the parts one after
the other.  It covers elements, attributes, namespaces, character and
predefined entity references, comments, CDATA, processing instructions and the
XML declaration, with the well-formedness checks (matching tags, unique
attributes, legal characters and names, declared prefixes, one root).
DOCTYPE is not modelled: the model refuses such documents.
What the reader accepts is compared with the productions of XML 1.0 and Namespaces in XML by
C79, so the contract that has to be trusted is that libxml2 follows these productions.

The trees are those lxml shows: element tag in Clark notation, own and
inherited namespace declarations, attributes in order, text, children, tail.

The round-trip proofs go in three steps:
 (A) reading the rendering of a source tree gives the tree it denotes;
 (B) what an unparser prints is the rendering of a source tree;
 (C) the parser applied to that tree gives the object back.

## 3. Errors and effects

Every Python exception the code can raise is a value of `PyErr`.  Python
functions are total Lean functions into `Except PyErr`.  Progress callbacks are
arbitrary functions on an arbitrary state; the state is kept when an exception
is raised.  File-system commands are modelled over an abstract file map.

## 4. Properties and how each is proved

C01-C03 per-character lemmas on the substitution, induction over the string,
against the reader's decoder.  Converse by showing which characters change.
C04 the same for the title.
C05, C06 induction over lines; the unindent regular expression modelled as the
literal replacement it is.
C07 case analysis of the formatted fields with a decimal-digits lemma.
C08-C12 the tracked loop as a recursive function in the effect monad; the trace
and the transparency by induction over the items, then composed over the
containers.
C13-C17 the explicit stack/queue loop of the iterators against a recursive
pre-order; invariants for levels and for the section stack.
C18-C22 folds that build dictionaries against "last entry with this key".
C23 induction over the relation list.
C24 case analysis of the parse function.
C25, C31 case analysis and induction over members.
C26 direct.
C27, C28 the validation function against list comprehensions.
C29 the step sequence with arbitrary outcomes of the third-party steps.
C30 induction over members using C43.
C32-C43 steps A, B, C above per element kind.
C44 from C43 and from the equality of the printed fields.
C45 from step A and B; negative witnesses by evaluation in the kernel.
C46 a predicate on printed tags, by cases over the optional attributes.
C47 the child-tag list against the printed order.
C48-C51 structural induction over XHTML trees; for whole documents (`C49_document`,
`C50_document`, `C51_document`) the values of the bundle are traced back to elements inside the
document (`Spec/Inside`), whose names are those the reader accepts (`Proofs/Inside`).
C52-C55 the tree transformation, for an arbitrary hash function; C54 by the
pigeonhole principle.
C56, C57 folds over types against specifications.
C58 case analysis.
C59 the command over an abstract file map.
C60 `tidy` (`Spec/Comments`) removes the comments in the places concerned; a relation between trees
with the same tidy form is kept by the removal of namespaces and by `find`, so the parser sees the same items
(`Proofs/Comments`).
C61, C62 `reqif.xsd` as a table with a small validator (`Spec/Xsd`); validity is
carried through namespace stripping, then each parser is run on a valid element,
by structural induction for hierarchies.  Two dialects add what the code needs
besides; a document per addition shows that it is needed.  The dialect `lenient`
drops what the schema requires and the code does not.
C63 a document that is valid in the dialect `lenient` and *plain* (`Spec/Plain`:
conditions on strings and namespaces stated on the tree of the document) parses
to a bundle that meets the conditions of C42, so the round-trip theorems apply
to documents instead of objects.
C64 the template as a concatenation of literals; the page read back as a list of
headings and cells (`Spec/Dump`), by induction over the loops.
C65 the texts of the report against formats in `Spec/Report`; the elements quoted
are shown to be printable because the parser's tree has no processing instruction.

C66 what an element says (`Spec/Said`: names, attributes, texts, XHTML, lists in order,
other children by name) is computed for the printed document next to C42's proof, and
for the input next to C63's; both equal what the bundle says.

C71 the same with `Spec/Written` in between: for each kind of item the bundle says what is
`written` of the element it was read from (`Proofs/WrittenItems`).  C66 follows, because
an element that is `kept` is written as it is (`Proofs/WrittenKept`).

C72 three steps.  A predicate on printed text that is carried through all round-trip proofs
says that elements without prefix hold elements without prefix and white space, in the order
of the schema where it has one (`RootLaid`, `Proofs/Final`).  Of two elements with that
layout that say the same (C71), both are valid or none (`Proofs/OutputValid`, by induction
over both).  And `written t n` is valid if and only if nothing required is missing
(`Proofs/OutputKept`, by induction over the document and inspection of all types).

C73 the reader is a push automaton, so the text that was lost is read from the state the
beginning leads to.  An invariant of the states in which the document may end says that what
follows can only add nodes after the root (`Proofs/Cut`).

C74 a command is a plan (how it ends, what it writes) and the plan a list of steps, one per
byte (`Model/Disk`).  Invariants over the steps; C73 for half-written files.

C75 `Spec/Refs` lists the identifiers and references of a document.  Documents that say the
same have the same list up to order, and `written` drops references only in five places
(`Proofs/Refs`, by induction over the document and inspection of all types).  The rest is
C71 and C72.

C76 reading and writing an archive are folds over its members; the names and the content of
the result are computed (`Spec/Repack`).  C63, C71, C72 and C75 for the documents in it.

C77 `Spec/Segments` lists the pieces of a printed document, one per item; the unparser is
shown to join them, so an edit of a list is an edit of the list of pieces.  C43 and C63 for
reading back, C18 for the lookup.

C78 the proof of C67 is made generic in how texts and attribute values are printed
(`Printer`, with the laws that printing has), and used for lxml's `tostring`; C68 for the way
from HTML to the value.

C79 `Spec/Grammar` and `Spec/Namespaces` are the productions of the two W3C recommendations as
inductive predicates.  Soundness: an invariant of the reader says what the text read so far
is a derivation of (`Proofs/GrammarSound`, one case per state).  Completeness: the reader is run
along a derivation, by mutual induction (`Proofs/GrammarComplete`).

C80 `Model/Encoding` goes through the bytes of the text.  That a garbled document is a document with
the garbled tree is shown on the derivations of C79 (`Proofs/GarbleDoc`), not on the reader.

C81 objects are cells of a heap (`Model/Debug`); the text is split at the first character that cannot
occur in what stands before it.

C82 the unparser is written again in a monad with a log (`Model/Output`) and shown to give the same text;
`Logs` (in the proof) says what is logged in case of success and of failure.

C83 the numerals as an inductive predicate (`Spec/Number`); the reader of digits by induction over the
text, then the inversion of the parser of data types.

C84 what each item is printed as is known from C43 (`Proofs/SaidItems`: what an element says, apart from
white space and the order of attributes).  `Proofs/SaidValid` turns validity of every element that says
a given thing into conditions on what is said; `Proofs/CompleteItems` shows them to be completeness, item by item,
as an equivalence; `Spec/Complete` knows nothing of the printing.

C85 the page is taken apart into elements of the grammar of C79 (`Spec/Grammar`), from the first to the last
(`Proofs/PageTree`: a text `Adds` cells to any content before it), by induction over the lists of the
bundle.  `Spec/Page` says which strings the cells of the tree hold.

C86 the element written by C38 is compared with the one that was parsed, by mutual induction over the
tree (`Spec/Arrange`: two relations between elements, at every depth).

C87 `Spec/Spacing` removes the text between elements from a tree; each parser function commutes with it, up
to the source elements the items remember (`Proofs/Spacing`), and the output looks only at the tags of their children.

C88 `Spec/Accepted` is the list of requirements, in a small vocabulary (an attribute is there, the first child element
with a name is there and as required, ...).  `Proofs/Accepted` turns "the parser function raises no exception" into
these, function by function, as equivalences; `Proofs/Skeleton` shows that they are the same on a tree without attribute values and texts.

C89 `Spec/Writable` lists what printing asks of a bundle, and what that amounts to for a document that has been read.
`Proofs/Writable` turns "the unparser function raises no exception" into the first list, function by function;
`Proofs/Rewritable` shows for each parser function that what it returns meets the first list exactly if the element it
was given meets the second.

C90 `Spec/Succeeds` says when a document passes, can be anonymized, or has no issues, and when the output can be written.
`Proofs/Succeeds` shows by induction over trees which ones anonymize accepts (the replacements of one step keep what the
next step looks at: the skeleton of the tree is the same); the other commands follow from C64, C67, C76, C28 and C89.

C91 runs are processes that take turns (`Model/Together`), one byte per turn.  A run that shares no written file with others
sees only its own turns (induction over the schedule), and alone it goes through the stages in order (an invariant and
a measure, `Proofs/Together`).  The cases with shared files give the schedule explicitly.

C92 what the parser asks of an element is collected in a structure (`Harmless`, `Proofs/Harmless`): a change of elements that keeps it, or
changes the elements inside in the same way, changes nothing but the source elements a bundle remembers.  Removing
spacing (C87) and sorting attributes are such changes; two orders of the same attributes are sorted to the same list,
since the reader refuses an element with two attributes of one name.

C93 two trees that differ in namespaces and prefixes (`Spec/Renamed`) are the same once namespaces are removed and declarations
without use dropped (`Proofs/Renamed`, by induction over the relation); the rest of the parser sees only the result.

C94 the anonymized tree is related to the original by an inductive relation (`Disguised`, `Proofs/Disguise`); identifiers,
references and validity are kept along it, the latter from facts about all pairs of element name and type in the schema table.
`Spec/Anonymous` adds the content model of XHTML values.

C95 `Spec/View` projects a bundle to what page and issues use; both are shown to be functions of it (`Proofs/View`), by
induction over the lists and trees, with objects looked up by reference compared by what is shown of them.  The corollaries
combine this with C63, C87, C92 and C93.

C96 `Spec/Hidden` applies a function to the covered strings of a bundle.  `Proofs/Veil` does the same to a tree, by zones:
what the parser reads where.  `Proofs/VeilParse`, `VeilDoc`: parsing a veiled tree gives the bundle of the tree, up to the
covered strings.  `Proofs/VeilTree`: in a valid document the names that anonymize looks for stand in their zones and nowhere
else, so original and anonymized document have the same veiled tree.  `Proofs/VeilShield` follows the XHTML values.

C97 `Proofs/Unmask`: by induction over two trees with equal `mask`, the printed trees are equal if the replacements are.
`C97_not_unique` gives for each hash function two documents that meet the hypotheses of `C97_same`.

C98 `Spec/Depth` measures trees, hierarchies and XHTML content; `readLimited` is the reader with a limit.  Upper bounds
come from what the written elements say (`Fits`, `Proofs/DepthSaid`, `Proofs/DepthBundle`), lower bounds from what is read
back (`Proofs/Depth`).  `Model/Stack` has the four recursive functions with a number of calls left; they agree with the
unlimited ones when the number suffices (`Proofs/Stack`).

C99 `Spec/Size` counts the characters of a tree; reading does not increase them (`Proofs/SizeRead`, an invariant of the
reader's machine), and no name, prefix or namespace is longer than the document.  Each printing function is then bounded
in the size of the element it prints (`Proofs/SizePrint`, `SizeItems`, `SizeParts`, `SizeDoc`).  `Proofs/Growth` has the
growing documents.

C100 `Model/Objects` is a store of node and list objects with the calls that change it; `Spec/Objects` says which tree a
node stands for and which stores careful calls lead to.  Invariant: lists are not shared and children are one level
deeper; the levels are bounded, so the trees exist by induction on the distance to the bound.

C101 the part of `Harmless` that concerns reading (`Tolerant`) asks only for the children of each name in order, except
where the parser goes through all children (`Part.inOrder`).  Sorting the parts by name (`unshuffled`) meets it, and
documents that differ in the order of parts have the same sorted tree.

C102 the loop of the iterators with the calls of the user between the yields (`Store.walkWith`).  The children of a node that
was yielded do not change any more, so the loop would yield the same on the store at the end, to which C100 applies.

C103 `Model/Cells` keeps objects and attributes as cells with addresses; the list of the bundle, the lookup and the maps hold
addresses.  The invariant `Agrees` says that each cell is in one place and that the dictionaries hold the last position of a
key; every call keeps it, and plain lists (`Spec/Cells`) do the same.

C104 `Spec/Rename` applies a function to the identifiers and references of a tree and of a bundle.  Every parser of an item commutes
with the two (`Proofs/Rename`), with cases where a reference is found by position; injectivity is used for the
dictionaries only.

C105 `Spec/Items` relates three trees along the path to the container.  The relation is kept by the removal of namespaces (where the
condition on the declarations is used) and by the search for elements; the six lists are read by maps, which take
concatenations to concatenations (`Proofs/Items`).

C106 `Spec/Sections` says what a gap is.  Without gaps the levels on the stack above the enclosing section are those of the sections on the
last way, so the number of pops is their number (`follows_*`).  With a gap it is larger; a callback that notes its
sections then sees a section further out, and the notes can only grow (`closed_*`).

C107 `Spec/Decorate` lists the attribute names that are read.  Leaving out all others is one more change that the parser does not notice
(`Harmless`, now asked only for the names that are read), like the order of attributes (C92) and indentation (C87).

C108 `Spec/Moved` defines a hierarchy with larger levels, the part of an element and of a hierarchy at a path, and lines moved to the
right.  Reading and writing are compared by induction on the tree.

C109 `Spec/Jumbled` relates content elements whose containers hold the same items.  `JumbledDocs` relates whole
documents; removing namespaces keeps the relation (`Kept`), and by C88 both documents are accepted or none.  For writing
(`C109_written`), the text is a list of pieces (C77), which are permuted.  Parsing item by item maps permutations to permutations;
lookups and the report are compared through C18, C19, C20, C22 and C28, which describe them in terms of the lists.

C67 the printed text is the text of a tree with white space added, and the reader gives
that tree back (`Proofs/FormatBack`, by running the reader over the printed text);
`Spec/Format` says which white space does not count, by induction over trees.

C68 the HTML parser is a parameter that gives a tree without namespaces; the printed text
is computed by induction over the tree, and read back as in C48.

C69 `argparse` is modelled as a scan over the arguments; the scan is characterised by
induction, and compared with a separate description of the calls (`Spec/Cli`).  The
statements about files follow from C59, C64 and C67.  Abbreviated options, options with a
value, one-letter options written together and file names that begin with `-` and have a
space are part of the scan.

C70 the clock and the zone are parameters; Python's calendar arithmetic is modelled and
shown to agree with days counted year by year (`Spec/Calendar`); with C07.

Where the code does not have a property as stated, the theorem is the negation
with a concrete witness, and the part that holds is proved as a `_partial`
theorem or under an explicit condition.

## 5. Trusted base

* Lean's kernel (4.33.0) and at most the axioms `propext`, `Classical.choice`,
  `Quot.sound`.  No axioms of our own, no `sorry`, no `native_decide`.
  `AXIOMS.md` lists the axioms of each theorem named in `MANIFEST.json`.
* The reading of the Python code: the model is a transcription by hand.
* The contracts of lxml/libxml2, jinja2, zipfile, os and `html.escape` as
  written in `Verif/Xml` and `Verif/Model`: modelled, not verified.

### 5.1 What is modelled

| code in `/repo/reqif` | model |
|---|---|
| `parser.py` | `Model/Parser`, `Model/Archive`, `Model/Encoding` |
| `unparser.py` | `Model/Unparser`, `Model/Archive` |
| `parsers/**` (data types, attribute definitions and values, spec types, spec objects, relations, groups, header, hierarchies, specifications) | `Model/DataType`, `Model/AttributeDefinition`, `Model/AttributeValue`, `Model/SpecType`, `Model/SpecObject`, `Model/Specification` |
| `models/*` (data classes and their methods) | `Model/Types` |
| `models/error_handling.py` | `Base`, `Model/Validate` |
| `reqif_bundle.py`, `object_lookup.py` | `Model/Bundle` |
| `helpers/lxml.py` | `Model/Escape`, `Model/Lxml`, `Model/FromXhtml` |
| `helpers/debug.py` | `Model/Debug` |
| `helpers/string/*` | `Model/Escape` |
| `helpers/reqif_datetime.py` | `Model/Datetime`, `Model/Now` (clock and zone are parameters) |
| `experimental/reqif_schema.py` | `Model/Schema` |
| `commands/passthrough`, `anonymize`, `validate`, `dump`, `format` | `Model/Commands`, `Model/Disk`, `Model/Together`, `Model/Anonymize`, `Model/Validate`, `Model/Dump`, `Model/Format` |
| `models/reqif_spec_hierarchy`, `specification_iterator` as objects with identity | `Model/Objects` |
| `models/reqif_spec_object`, the lookup of objects, as objects with identity | `Model/Cells` |
| `cli/*`, `commands/version` | `Model/Cli`, `Model/Output` (lines printed) |

### 5.2 What is not modelled

* lxml's HTML parser, used by `lxml_convert_to_reqif_ns_xhtml_string`: a parameter.
* The messages of `argparse` in `cli/*`; the arguments `--`, `--=x`, `-hx` and negative
  numbers on the command line, which versions of Python do not treat alike.

### 5.3 Simplifications

* **XML reader.**  DOCTYPE is refused, so there are no custom entities.  The
  limits of libxml2 on depth and size, Python's recursion limit, and memory are
  ignored, except in C98, which is about limits on depth.  A declared encoding is recorded but the text is already decoded; C80
  says for which texts this is right (no encoding, UTF-8, or ASCII texts).
  The check that namespace names are URI references is left out.  A root with
  `xmlns=""` is an edge case of lxml's `nsmap` that is not reproduced.
* **Nodes carry no tail.**  Text after a node is a sibling in the model.  Where
  lxml prints the tail with a node, the model prints the sibling.  The fragment
  quoted by the validation report (C65) leaves the tail out.
* **Regular expressions.**  `{(.+?)}` is taken as the namespace of a Clark name;
  the unindent expression as the literal replacement it is.
* **Numbers.**  `int()` on `ACCURACY` takes ASCII digits only.
* **Time.**  `strftime("%Y")` below the year 1000 depends on the platform; the
  model does not pad.
* **Identity.**  Python's object identity is not modelled: a specification is
  given by its index in the bundle.
* **Archives.**  A zip file is a list of named byte strings; names hold no NUL;
  sizes and compression are left out.
* **Files.**  POSIX paths and line ends.  In `Model/Commands` a write
  either happens or raises before anything is written; `Model/Disk` has writes that stop
  after any byte, in order; `Model/Together` has several runs that take turns byte by byte.
  Buffers and reordered writes are left out.
* **Foreign functions** are parameters, so theorems hold for all of them:
  `sha256`, lxml's `tostring` in anonymize, Python's `repr` in dump, the texts of
  foreign exceptions (`Messages`), the outcome of `xmlschema` (`SchemaEnv`).
* **Format.**  The command is libxml2's work: `Model/Format` holds its contract.  Where
  libxml2's removal of white space depends on how it cuts text into pieces (white
  space next to words that do not come first) the answer is a parameter, so
  theorems hold for every answer.  The file is taken to be UTF-8.
* **Schema validator of C61-C63** (`Spec/Xsd`).  It leaves out
  uniqueness of identifiers and references without target (`Spec/Refs` and C75 are about
  these), the inner structure of XHTML, namespaced
  attributes and the content of tool extensions.  It thus
  accepts more documents than `reqif.xsd`, so theorems about all accepted
  documents cover all valid ones.

### 5.4 Conformance runs

The sandbox cannot run the Python code.  As a sanity check the model was run
on the sample files of `/repo/tests/integration`, and its output was compared with
the input, which is what most passthrough tests expect.

* Passthrough: 65 of 78 small files come back byte for byte, as do the five large
  ones.  Nine differ from their input: eight belong to tests of `format` and
  `validate`, which say nothing about passthrough, and one to a disabled test
  (its input is indented by one space less in one line).  Three files of `validate`
  tests are refused by the unparser with `NotImplementedError`; an empty file is
  refused by the parser.
* Schema validator and plainness (C63, C66): of 83 files, 68 meet the hypotheses of
  `C63_roundtrip`, of `C71_content` and of `C66_content` (25 of them are valid for the dialect `write`),
  one has an empty root, one holds comments, three declare XHTML namespaces inside
  values.  Nine are not valid for `lenient`: seven belong to `validate` tests, two use
  another namespace.  The empty file is not a document.
* Format (C67): the model gives the expected output of the three `format` tests.  Of 83
  files 81 meet the hypotheses of `C67_stable`; one has XHTML with words after inline
  elements, one is empty.

## 6. Findings

Each of these is a theorem about the model; names refer to `lean/Verif/Props`.

**Output that is not well-formed or changes meaning**
* Texts printed without escaping: SPEC-OBJECT (`C36_ampersand`, `C36_less`,
  `C45_parsed_malformed`, `C63_malformed`), spec types (`C35_ampersand`), groups
  (`C40_ampersand`), hierarchies (`C38_opposite`), default values
  (`C34_ampersand`), header comment (`C41_comment`), number values (`C33_quote`),
  namespaces (`C42_ampersand`).
* Newlines and tabs in attribute values come back as spaces (`C32_newline`,
  `C33_tab`, `C03_spaces`, `C63_changed`).
* A document that uses a prefix for ReqIF elements and declares no default namespace is refused (`C93_refused`); a root
  with a prefix beside another default namespace gives malformed output (`C93_malformed`).
* XHTML elements get the prefix of the first declaration in scope, whatever it is
  (`C33_wrong_prefix`, `C45_prefix_first`, `C63_malformed`).
* `lxml_stringify_children` prints tails twice (`C50_doubled`, `C50_grows`,
  `C50_passthrough`, `C33_no_namespace`).
* Unindenting removes any run of sixteen spaces (C06).

**Content that is lost or changed**
* Second CHILDREN, second values, extra children (`C39_two_children`,
  `C37_two_values`, `C34_extra_child`, `C34_two_defaults`, `C34_multi_valued`).
* Empty parts (`C40_empty`, `C34_empty_default`, `C43_nothing_inside`).
* Namespaces of attributes (`C48_attribute`, `C49_attribute`), own declarations
  (`C49_own_declaration`, `C50_own_declaration`), comments (`C48_comment`).
* XHTML text that turns into markup (`C49_text_becomes_tag`).
* `IS-EDITABLE="1"` is read as false (C61, C62 witnesses, `C66_attributes`).
* Alternative identifiers, editable attributes, original values, tool extensions,
  definitions in default values, further values of lists, descriptions of hierarchy
  nodes, `IS-SIMPLIFIED` (`C66_elements`, `C66_values`, `C66_attributes`).
  `Spec/Written` is the full list, and C71 says that it is.
* The output of passthrough for a valid document can be invalid: definitions in default
  values, empty header fields and empty references of relation groups are left out though
  the schema requires them (`C72_default`, `C72_header`, `C72_group`; nothing else is, `C72_losses`).

* A text that declares ISO-8859-1 and is parsed from a string is altered wherever it is
  not ASCII (`C80_latin1`, `C80_altered`).
* A comment or EDITABLE-ATTS in a SPEC-HIERARCHY has CHILDREN written before OBJECT, whatever the
  source says (`C86_turned`).

**Valid input that is refused**
* Files in ISO-8859-1, whatever they declare (`C80_file_refused`).
* Comments and processing instructions in many places (`C61_comment`,
  `C37_comment`, `C24_pi_first`).
* Optional parts the code requires (`C61_*`, `C62_*`, `C35_missing`,
  `C36_no_values`, `C19_no_content`).
* Documents that are read but cannot be written again: objects without VALUES, relations and attribute definitions
  with ALTERNATIVE-ID, default values without the reference to their definition, an empty root without a default
  namespace (`C89_object`, `C89_relation`, `C89_default`, `C89_empty_root`; `C89_again` is the full list).

**Commands**
* Dump prints values as HTML (`C64_injection`), so that a title such as `a < b` gives a page that is not
  well-formed (`C85_unescaped`), and fails without DATATYPES
  (`C64_no_data_types`).
* The lookup of a bundle is not updated when its lists are edited (`C77_lookup`,
  `C77_appended`).
* Content is lost without a warning, except unknown children of SPEC-OBJECTs (`C82_silent`).
  The messages of anonymize and validate about a missing input file name the passthrough command (`noInputLine`).
* Default values that are texts, numbers or dates are written without the reference to their definition, which is
  not valid (`C84_plain_default`).
* Texts of objects do not escape quotation marks (`C81_quotes`).
* The public `parse_xhtml_attribute_definition` marks definitions as not multi-valued, so printing them adds
  `MULTI-VALUED="false"` (`C34_public_marked`).
* An XHTML element converted to a string takes the words behind it along (`C78_words`).
* Passthrough onto its own input loses the document if it is stopped while writing
  (`C74_in_place`).
* Files are not locked: a run can read a half old, half new file (`C91_torn`), and two runs with one
  output can mix their results and both succeed (`C91_same_output`).
* Anonymize makes documents with XHTML values invalid (`C94_contents`), and documents with an XHTML default value can be
  refused afterwards (`C94_refused`).
* Anonymize looks for elements in the default namespace of the document.  A valid document whose elements have a prefix,
  with another default namespace, is anonymized without an error, and nothing in it is replaced (`C96_clear`).
* Hierarchies with more levels than half the reader's limit on depth (124 for a limit of 256) are written without an error
  and cannot be read again (`C98_too_deep`, `C98_opposite`).
* The output can be as long as the cube of the input (`C99_cubic`): a specification prints its hierarchies once for each
  `CHILDREN` element, and the indentation of nested hierarchies is not bounded.
* A refused `add_child` is not without effect: a parent without children has an empty list afterwards and is printed with
  `CHILDREN` (`C100_mark`).
* The constructor of a hierarchy node checks neither the levels of the children it is given nor copies the list: a node can
  become its own descendant, iteration then does not end (`C100_cycle`), and nodes can share later children (`C100_list`).
* Iterating over a hierarchy while it is changed: a child added to a node above the current one is not yielded, although it
  comes later than the current one (`C102_late`).
* An attribute appended to the list `attributes` of an object is not in its `attribute_map` (`C103_appended`).
* Of two objects with the same identifier only the last one is reached through the lookup (`C103_twins`).
* Removing an object can change the XHTML value of another one: if it was the last to use the prefix that the root
  declares for XHTML, the declaration is dropped and the texts of the other value are read twice (`C105_neighbour`).
* Anonymize: exit code (`C59_anonymize_exit`), collisions (`C54_collision`), an exception for an empty COMMENT or
  TITLE in the header (`C90_empty_comment`) and for comments in XHTML values (`C90_value_comment`).
* Validate: an empty root without declaration is not reported; a document in
  another namespace prefix (`C26_no_namespace`); describing an issue can raise
  (`C65_pi`).
* Format: adds white space between inline elements of XHTML (`C67_adds_space`), which
  becomes part of the values read (`C87_xhtml`), may remove
  it (`C67_loses_space`), changes comments (`C67_comment`), and writes malformed XML
  for names that are not ASCII (`C67_name`).
* HTML to XHTML: comments are refused (`C68_comment`); an empty `object` loses its end
  tag when the value is written and read (`C68_object`).
* Archives: names (`C30_other_name`, `C30_attachment_name`).
* Conversion: a section below a non-section is attached elsewhere
  (`C16_buried_section`).  If there are sections further out, nothing is raised and a later node is handed the wrong
  section (`C106_silently`); `C106_exactly` says when this happens.

## 7. Wrong programs

`seeded/LOG.jsonl` holds one line per edit of the model in a scratch copy: the
definition, the edit, the claim it breaks, the theorems that failed to build, and
theorems tightened because they did not fail.
