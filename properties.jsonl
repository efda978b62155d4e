{"id": "C01", "title": "Escaped text reads back as the original text", "statement": "A string that the library escapes with lxml_escape_for_html and places in a double-quoted XML attribute is read back by an XML parser as exactly the same string, provided the string holds only XML characters and no line feed or carriage return; placed in element text it is read back exactly, provided it has no carriage return. For strings with a line feed (attribute) or carriage return (text) the read-back differs, so the conditions are exact.", "quantifier": "every string of Unicode characters, of any length", "why_tests_cant": "the set of strings is infinite and the interaction of seven chained replacements with entity decoding depends on every character combination", "anchors": ["reqif/helpers/lxml.py:lxml_escape_for_html"]}
{"id": "C02", "title": "Escaped text cannot create markup", "statement": "The result of lxml_escape_for_html contains no '<', '>', double or single quote and no tab, and every '&' in it starts a complete character or entity reference, so it can never open or close a tag, end an attribute value, or yield an ill-formed reference. The chained replacements equal one character-by-character substitution (nothing is escaped twice).", "quantifier": "every string", "why_tests_cant": "an injection needs one adversarial string among infinitely many", "anchors": ["reqif/helpers/lxml.py:lxml_escape_for_html", "reqif/helpers/string/escape.py:reqif_escape"]}
{"id": "C03", "title": "STRING attribute values survive a write and a read", "statement": "The text of a STRING attribute value that the unparser prints (html.escape) is read back as the same string exactly when the string has only XML characters and no tab, line feed or carriage return. A value with a tab or a line break comes back with a space in its place.", "quantifier": "every string given as the value of a STRING attribute", "why_tests_cant": "all strings; the failing ones hold characters tests rarely use", "anchors": ["reqif/parsers/attribute_value_parser.py:AttributeValueParser.unparse_attribute_values"]}
{"id": "C04", "title": "Header title survives a write and a read", "statement": "The header title printed by the unparser is read back unchanged when it has only XML characters, no '<', no carriage return and no ']]>'. A title with '<' is never read back unchanged: the output is ill-formed, has a changed structure, or holds another title.", "quantifier": "every title string", "why_tests_cant": "all strings", "anchors": ["reqif/parsers/header_parser.py:ReqIFHeaderParser.unparse", "reqif/helpers/lxml.py:lxml_escape_title"]}
{"id": "C05", "title": "Unindenting an indented XHTML string gives the string back", "statement": "reqif_unindent_xhtml_string(reqif_indent_xhtml_string(s)) equals s stripped of surrounding whitespace, for every s whose stripped form holds no run of sixteen consecutive spaces. With such a run the result can differ.", "quantifier": "every string", "why_tests_cant": "regular-expression replacement interacts with line breaks and space runs across line borders, for any text", "anchors": ["reqif/helpers/string/xhtml_indent.py:reqif_indent_xhtml_string", "reqif/helpers/string/xhtml_indent.py:reqif_unindent_xhtml_string"]}
{"id": "C06", "title": "Indented XHTML has the documented shape", "statement": "reqif_indent_xhtml_string(s) is a line feed, then every line of the stripped s prefixed by exactly sixteen spaces and joined by line feeds, then a line feed and fourteen spaces.", "quantifier": "every string", "why_tests_cant": "any number of lines", "anchors": ["reqif/helpers/string/xhtml_indent.py:reqif_indent_xhtml_string"]}
{"id": "C07", "title": "Formatted timestamps have the ReqIF shape and the right value", "statement": "reqif_datetime_format of an aware datetime with a year from 1000 to 9999 and a whole-minute UTC offset yields YYYY-MM-DDThh:mm:ss.mmm+hh:mm (or -hh:mm), every field being the zero-padded decimal of the datetime's field, with microseconds truncated to milliseconds. A naive datetime or an offset with seconds gives a string of another shape.", "quantifier": "every datetime with such a year and offset", "why_tests_cant": "the domain has more than 10^17 values and slices of the formatted string depend on its length", "anchors": ["reqif/helpers/reqif_datetime.py:reqif_datetime_format"]}
{"id": "C08", "title": "Parse progress: one call per container child, in order", "statement": "When parsing succeeds with a progress callback, the callback is called exactly once per direct child (comments included) of each container present, with (container tag, k, n) for k = 1..n, containers in the order DATATYPES, SPEC-TYPES, SPECIFICATIONS, SPEC-RELATIONS, SPEC-OBJECTS, SPEC-RELATION-GROUPS, and with no other calls.", "quantifier": "every input document that parses, every callback", "why_tests_cant": "any number of children per container", "anchors": ["reqif/progress.py:track_progress", "reqif/parser.py:ReqIFParser._parse_reqif_content"]}
{"id": "C09", "title": "The progress callback never changes the result", "statement": "Parsing and unparsing (plain and ReqIFz) give the same result or the same error with any callback that does not raise as with no callback.", "quantifier": "every input, every non-raising callback, whatever state it keeps", "why_tests_cant": "quantifies over all callbacks and inputs", "anchors": ["reqif/progress.py:track_progress", "reqif/parser.py:ReqIFParser", "reqif/unparser.py:ReqIFUnparser"]}
{"id": "C10", "title": "Unparse progress: one call per item, in printing order", "statement": "When unparsing succeeds with a callback, it is called with (container tag, k, n), k = 1..n, for each container that is printed, in printing order, and with no other calls.", "quantifier": "every bundle that unparses", "why_tests_cant": "any number of items", "anchors": ["reqif/unparser.py:ReqIFUnparser.unparse", "reqif/progress.py:track_progress"]}
{"id": "C11", "title": "Progress counts only finished items when parsing fails", "statement": "If processing the k-th child of a container raises, the callback has been called for children 1..k-1 of that container and never for child k or a later container.", "quantifier": "every input document, every failure position", "why_tests_cant": "every failure position in every document", "anchors": ["reqif/progress.py:track_progress"]}
{"id": "C12", "title": "ReqIFz progress is one call per archive member", "statement": "Parsing an archive calls the callback once per member with (member name, k, number of members) in archive order; unparsing calls it once per written member with the total over ReqIF files and attachments.", "quantifier": "every archive and every ReqIFz bundle", "why_tests_cant": "any number of members", "anchors": ["reqif/parser.py:ReqIFZParser.parse", "reqif/unparser.py:ReqIFZUnparser.unparse"]}
{"id": "C13", "title": "Hierarchy iteration visits every node once, in document order", "statement": "iterate_specification_hierarchy yields exactly the nodes of the specification's hierarchy tree, each once, parents before children and siblings in order (pre-order).", "quantifier": "every specification tree of any depth and width", "why_tests_cant": "infinitely many trees", "anchors": ["reqif/reqif_bundle.py:ReqIFBundle.iterate_specification_hierarchy"]}
{"id": "C14", "title": "The two hierarchy iterators agree", "statement": "SpecificationIterator.iterate_specification yields the same sequence as iterate_specification_hierarchy for every specification of the bundle that has a children list; for one without it the former raises while the latter yields nothing.", "quantifier": "every specification", "why_tests_cant": "infinitely many trees", "anchors": ["reqif/specification_iterator.py:SpecificationIterator.iterate_specification"]}
{"id": "C15", "title": "Parsed hierarchy levels equal the nesting depth", "statement": "In every parsed specification each top-level hierarchy node has level 1 and each child has its parent's level plus one.", "quantifier": "every document that parses", "why_tests_cant": "any depth", "anchors": ["reqif/parsers/spec_hierarchy_parser.py:ReqIFSpecHierarchyParser.parse", "reqif/parsers/specification_parser.py:ReqIFSpecificationParser.parse"]}
{"id": "C16", "title": "Conversion iteration gives each node its enclosing section", "statement": "iterate_specification_hierarchy_for_conversion calls node_lambda once per node in pre-order and passes the node converted from its nearest ancestor that was declared a section (the root node if none), when only nodes whose ancestors are all sections are declared sections and each section's level is its hierarchy level. If a section sits below a non-section node the iteration can raise IndexError.", "quantifier": "every specification tree and every section choice", "why_tests_cant": "depends on the whole visiting history", "anchors": ["reqif/reqif_bundle.py:ReqIFBundle.iterate_specification_hierarchy_for_conversion"]}
{"id": "C17", "title": "Levels stay consistent and drive the indentation", "statement": "add_child accepts a child exactly when its level is the parent's plus one, appends it last and changes nothing else. The unparser prints a hierarchy node of level n > 0 with 12 + 4(n-1) spaces and refuses level 0.", "quantifier": "every hierarchy node and child", "why_tests_cant": "any level", "anchors": ["reqif/models/reqif_spec_hierarchy.py:ReqIFSpecHierarchy.add_child", "reqif/models/reqif_spec_hierarchy.py:ReqIFSpecHierarchy.calculate_base_level"]}
{"id": "C18", "title": "Spec-object lookup returns the object with that identifier", "statement": "After parsing, spec_object_exists(ref) holds exactly when some parsed spec object has that identifier, get_spec_object_by_ref(ref) returns the last such object and raises KeyError when there is none.", "quantifier": "every document that parses, every ref", "why_tests_cant": "any number of objects, duplicates included", "anchors": ["reqif/object_lookup.py:ReqIFObjectLookup", "reqif/parser.py:ReqIFParser._parse_reqif_content"]}
{"id": "C19", "title": "Parent lookup lists the relation targets in document order", "statement": "After parsing a document with content, get_spec_object_parents(ref) is the list of targets of the parsed relations whose source is ref, in document order (empty if none), whatever queries were made before. A bundle without content raises KeyError instead.", "quantifier": "every document that parses, every ref, every earlier query history", "why_tests_cant": "the lookup inserts keys when queried, so every history matters", "anchors": ["reqif/object_lookup.py:ReqIFObjectLookup.get_spec_object_parents", "reqif/parser.py:ReqIFParser._parse_reqif_content"]}
{"id": "C20", "title": "Type lookup by reference returns the first matching spec-object type", "statement": "get_spec_object_type_by_ref(ref) returns the first SPEC-OBJECT-TYPE with that identifier in document order and None exactly when there is none, never a type of another kind.", "quantifier": "every bundle, every ref", "why_tests_cant": "any mix of types", "anchors": ["reqif/reqif_bundle.py:ReqIFBundle.get_spec_object_type_by_ref"]}
{"id": "C21", "title": "Attribute and value maps agree with their lists", "statement": "attribute_map of a spec object (type) and values_map of an enumeration hold exactly the keys occurring in the list, each mapped to the last entry with that key.", "quantifier": "every list of attributes, definitions or enum values", "why_tests_cant": "any list with any duplicates", "anchors": ["reqif/models/reqif_spec_object.py:ReqIFSpecObject", "reqif/models/reqif_spec_object_type.py:ReqIFSpecObjectType", "reqif/models/reqif_data_type.py:ReqIFDataTypeDefinitionEnumeration"]}
{"id": "C22", "title": "Data-type and spec-type lookups return the last definition with that identifier", "statement": "After parsing, get_data_type_by_ref(ref) and get_spec_type_by_ref(ref) return the last definition with that identifier and raise KeyError exactly when there is none.", "quantifier": "every document that parses, every ref", "why_tests_cant": "any number of definitions", "anchors": ["reqif/object_lookup.py:ReqIFObjectLookup.get_data_type_by_ref", "reqif/object_lookup.py:ReqIFObjectLookup.get_spec_type_by_ref"]}
{"id": "C23", "title": "A relation without SOURCE or TARGET is reported, not fatal", "statement": "Every SPEC-RELATION lacking a SOURCE or TARGET child adds exactly one missing-tag error to the bundle's exceptions, in document order, naming SOURCE when both are missing, and all other relations are still parsed, in order.", "quantifier": "every document whose other parts parse", "why_tests_cant": "any number and arrangement of broken relations", "anchors": ["reqif/parser.py:ReqIFParser._parse_reqif_content", "reqif/parsers/spec_relation_parser.py:SpecRelationParser.parse"]}
{"id": "C24", "title": "Only unreadable input or a wrong root raises the XML parsing error", "statement": "parse_from_string raises ReqIFXMLParsingError exactly when the text is empty, is not well-formed XML, or its root element is not REQ-IF; a well-formed document with a REQ-IF root never raises it. One exception: a document with another root that declares a default namespace and has a processing instruction inside the root raises TypeError instead.", "quantifier": "every string", "why_tests_cant": "all strings", "anchors": ["reqif/parser.py:ReqIFParser.parse_from_string", "reqif/parser.py:ReqIFParser._parse_reqif"]}
{"id": "C25", "title": "ReqIFz parsing fails only with the ReqIFz error", "statement": "Whatever goes wrong while reading an archive (unreadable file, bad encoding, any error in a member, a raising callback), ReqIFZParser.parse raises ReqIFZParsingError and nothing else; with a callback that does not raise it fails exactly when the archive cannot be opened, or some member cannot be read, or a member named as ReqIF fails to decode or parse.", "quantifier": "every archive", "why_tests_cant": "every failure of every member", "anchors": ["reqif/parser.py:ReqIFZParser.parse"]}
{"id": "C26", "title": "An empty REQ-IF document gives an empty bundle that can be written and read again", "statement": "A well-formed document whose REQ-IF root has no child nodes parses to a bundle without header, content and errors. If it declares a default or a configuration namespace, and the namespace names need no escaping and the default one is not XHTML's, that bundle unparses to a document that parses to the same bundle; without either namespace unparse raises AssertionError.", "quantifier": "every document with an empty root", "why_tests_cant": "all attribute and namespace combinations on the root", "anchors": ["reqif/parser.py:ReqIFParser._parse_reqif", "reqif/reqif_bundle.py:ReqIFBundle.create_empty"]}
{"id": "C27", "title": "Validation exits with 0 exactly when nothing was found", "statement": "The validate command exits with 0 exactly when the XML errors, schema issues and semantic issues are all empty and with 1 otherwise, and the summary line prints the three counts.", "quantifier": "every input file", "why_tests_cant": "all inputs", "anchors": ["reqif/commands/validate/validate.py:ValidateCommand.execute", "reqif/commands/validate/validate.py:ReqIFErrorBundle.has_any_errors"]}
{"id": "C28", "title": "Validation reports every dangling reference, and only those", "statement": "The semantic issues of a file whose REQ-IF root has content are, in order: one for a missing XML declaration, one for an encoding other than UTF-8, for each relation one per end (source, then target) that names no parsed spec object, and for each specification, in pre-order, one per hierarchy node whose reference names no parsed spec object. There are no others. A file with an empty root has no issues.", "quantifier": "every document that parses", "why_tests_cant": "any number of references", "anchors": ["reqif/commands/validate/validate.py:ValidateCommand._validate"]}
{"id": "C29", "title": "Validation restores the working directory", "statement": "Whatever happens during strict schema validation (success, a validation error, any other exception), the working directory afterwards equals the one before; the only exception is that changing back to it fails, and then that failure is raised.", "quantifier": "every outcome of every step of the schema validation", "why_tests_cant": "every crash point of third-party calls", "anchors": ["reqif/commands/validate/validate.py:ValidateCommand._validate"]}
{"id": "C30", "title": "ReqIFz archives round-trip", "statement": "Writing a ReqIFz bundle and reading the archive back gives the same member names, equal ReqIF bundles and byte-identical attachments, when every contained bundle itself round-trips, ReqIF names end in .reqif or .xml and attachment names do not.", "quantifier": "every ReqIFz bundle meeting those conditions", "why_tests_cant": "any number of members and any bytes", "anchors": ["reqif/unparser.py:ReqIFZUnparser.unparse", "reqif/parser.py:ReqIFZParser.parse"]}
{"id": "C31", "title": "Archive members are sorted by extension only", "statement": "A member is parsed as ReqIF exactly when its file-name extension is .reqif or .xml; every other member, directories included, is kept as an attachment with its bytes unchanged.", "quantifier": "every archive and every member name", "why_tests_cant": "all names", "anchors": ["reqif/parser.py:ReqIFZParser.parse"]}
{"id": "C32", "title": "Data-type definitions survive write and read", "statement": "For every data-type definition (all seven kinds, enum values included) whose directly printed strings need no escaping, parsing the unparsed text gives back an equal definition, except that empty optional strings the unparser drops come back as None. Directly printed strings that need escaping are witnesses of the opposite.", "quantifier": "every data-type definition", "why_tests_cant": "all field combinations and strings", "anchors": ["reqif/parsers/data_type_parser.py:DataTypeParser"]}
{"id": "C33", "title": "Attribute values survive write and read", "statement": "For every attribute value of every kind whose strings are safe where the unparser does not escape, parsing the unparsed text gives the same kind, definition reference and value, and keeps the DEFINITION/VALUES order of enumerations.", "quantifier": "every list of attribute values", "why_tests_cant": "all kinds, values and list lengths", "anchors": ["reqif/parsers/attribute_value_parser.py:AttributeValueParser"]}
{"id": "C34", "title": "Attribute definitions survive write and read", "statement": "For every attribute definition the unparser accepts, with safe strings where it does not escape, parsing the unparsed text gives an equal definition (kind, identifiers, flags, datatype, default value).", "quantifier": "every attribute definition", "why_tests_cant": "all kinds and default-value shapes", "anchors": ["reqif/parsers/attribute_definition_parser.py:AttributeDefinitionParser"]}
{"id": "C35", "title": "Spec types survive write and read", "statement": "SPEC-OBJECT-TYPE, SPEC-RELATION-TYPE, SPECIFICATION-TYPE and RELATION-GROUP-TYPE definitions round-trip through unparse and parse under the same conditions.", "quantifier": "every spec type", "why_tests_cant": "all field combinations", "anchors": ["reqif/parsers/spec_types/spec_object_type_parser.py", "reqif/parsers/spec_types/spec_relation_type_parser.py", "reqif/parsers/spec_types/specification_type_parser.py", "reqif/parsers/spec_types/relation_group_type_parser.py"]}
{"id": "C36", "title": "Spec objects survive write and read", "statement": "A spec object with text-safe fields round-trips through unparse and parse: identifier, optional fields, type reference, attribute list, and the order of its TYPE and VALUES children.", "quantifier": "every spec object", "why_tests_cant": "any attribute list", "anchors": ["reqif/parsers/spec_object_parser.py:SpecObjectParser"]}
{"id": "C37", "title": "Spec relations survive write and read", "statement": "A spec relation with text-safe fields round-trips through unparse and parse, including the order of its children. A relation parsed from a document with several attribute values keeps only the first.", "quantifier": "every spec relation", "why_tests_cant": "all combinations", "anchors": ["reqif/parsers/spec_relation_parser.py:SpecRelationParser"]}
{"id": "C38", "title": "Hierarchies survive write and read", "statement": "A specification hierarchy with consistent levels and text-safe fields round-trips through unparse and parse at any depth.", "quantifier": "every hierarchy tree", "why_tests_cant": "any depth and width", "anchors": ["reqif/parsers/spec_hierarchy_parser.py:ReqIFSpecHierarchyParser"]}
{"id": "C39", "title": "Specifications survive write and read", "statement": "A specification with text-safe fields round-trips through unparse and parse: fields, type reference, values, hierarchy and the order of its children.", "quantifier": "every specification", "why_tests_cant": "all combinations", "anchors": ["reqif/parsers/specification_parser.py:ReqIFSpecificationParser"]}
{"id": "C40", "title": "Relation groups survive write and read", "statement": "A relation group with text-safe fields round-trips through unparse and parse.", "quantifier": "every relation group", "why_tests_cant": "all combinations", "anchors": ["reqif/parsers/relation_group_parser.py:ReqIFRelationGroupParser"]}
{"id": "C41", "title": "The header survives write and read", "statement": "A header with a non-empty identifier and text-safe fields round-trips through unparse and parse, with empty optional strings coming back as None; a header without identifier is refused.", "quantifier": "every header", "why_tests_cant": "all combinations", "anchors": ["reqif/parsers/header_parser.py:ReqIFHeaderParser"]}
{"id": "C42", "title": "The REQ-IF tag survives write and read", "statement": "The root tag the unparser prints (from the captured text or from the namespace fields) is read back with the same namespaces, schema location and language.", "quantifier": "every namespace information with text-safe values", "why_tests_cant": "all combinations", "anchors": ["reqif/unparser.py:ReqIFUnparser.unparse_namespace_info", "reqif/parser.py:ReqIFParser._parse_reqif"]}
{"id": "C43", "title": "A whole bundle survives write and read", "statement": "For every bundle with text-safe content, parse_from_string(unparse(bundle)) succeeds and gives an equal bundle: header, every container (absent, empty or filled), every item in order, the tool-extension flag, and a lookup that answers as if built from these lists.", "quantifier": "every text-safe bundle", "why_tests_cant": "any number of items and any nesting", "anchors": ["reqif/parser.py:ReqIFParser.parse_from_string", "reqif/unparser.py:ReqIFUnparser.unparse"]}
{"id": "C44", "title": "Passthrough reproduces what it wrote", "statement": "For every text that the unparser produces from a text-safe bundle, the passthrough output is identical to its input, so passthrough is idempotent on such documents.", "quantifier": "every text-safe bundle", "why_tests_cant": "any size", "anchors": ["reqif/commands/passthrough/passthrough.py:PassthroughCommand._passthrough"]}
{"id": "C45", "title": "The output is well-formed XML", "statement": "The text the unparser produces for every text-safe bundle is a well-formed XML document with a REQ-IF root. There are bundles, also ones produced by parsing a well-formed document, for which it is not.", "quantifier": "every text-safe bundle", "why_tests_cant": "any content", "anchors": ["reqif/unparser.py:ReqIFUnparser.unparse"]}
{"id": "C46", "title": "Attributes are printed in alphabetical order", "statement": "In every tag the unparser prints for a ReqIF element below the root, the attribute names occur in strictly increasing alphabetical order. The root tag, when printed from its namespace fields, is the exception.", "quantifier": "every printed element of every bundle", "why_tests_cant": "all combinations of optional attributes", "anchors": ["README.md", "reqif/parsers"]}
{"id": "C47", "title": "Child order follows the source document", "statement": "For a spec object, spec relation, specification or attribute definition parsed from a document, the unparser prints the known children in the order of the source document; for one created through the API in the default order.", "quantifier": "every parsed element", "why_tests_cant": "every permutation and repetition", "anchors": ["reqif/parsers/spec_object_parser.py:SpecObjectParser.unparse", "reqif/parsers/spec_relation_parser.py:SpecRelationParser.unparse", "reqif/parsers/specification_parser.py:ReqIFSpecificationParser.unparse"]}
{"id": "C48", "title": "Namespaced XHTML content is reproduced exactly", "statement": "For XHTML content all of whose elements use one prefix, have plain attributes and text without carriage return, the value string obtained by parsing is a text whose re-reading gives the same content tree, and it is reproduced unchanged by every further write and read.", "quantifier": "every such XHTML tree", "why_tests_cant": "any tree", "anchors": ["reqif/helpers/lxml.py:lxml_stringify_namespaced_children", "reqif/parsers/attribute_value_parser.py:AttributeValueParser.parse_xhtml_attribute_value"]}
{"id": "C49", "title": "The stripped XHTML value carries no namespace", "statement": "The stripped value of an XHTML attribute contains only tags without a namespace prefix and without an xmlns declaration, provided a namespace is in force at the value, its attributes have no namespace, and no text directly below the value looks like a tag. Each of the three conditions is needed: content that declares its own namespace in a document with the schema's default namespace only keeps prefix and declaration, an attribute with a namespace leaves a declaration behind, and text is not escaped.", "quantifier": "every XHTML tree", "why_tests_cant": "any tree", "anchors": ["reqif/helpers/lxml.py:lxml_convert_children_from_reqif_ns_xhtml_string", "reqif/helpers/lxml.py:lxml_strip_namespace_from_xml"]}
{"id": "C50", "title": "XHTML text is printed once", "statement": "Every text fragment of the XHTML content occurs once, in order, in the value string. This fails for content without any namespace in scope: text after a top-level child element is printed twice, so passthrough makes the document grow.", "quantifier": "every XHTML tree", "why_tests_cant": "any tree", "anchors": ["reqif/helpers/lxml.py:lxml_stringify_children", "reqif/helpers/lxml.py:lxml_stringify_node"]}
{"id": "C51", "title": "An object element is never self-closed", "statement": "When XHTML content is turned into a string, every element is closed, empty elements are self-closed, and an element named object (any letter case) gets an explicit closing tag - in the namespaced form this exception does not apply, since the name compared carries the namespace.", "quantifier": "every XHTML tree", "why_tests_cant": "any tree", "anchors": ["reqif/helpers/lxml.py:lxml_stringify_namespaced_children", "reqif/helpers/lxml.py:lxml_stringify_node"]}
{"id": "C52", "title": "Anonymization replaces every string it covers", "statement": "After anonymization every header comment and title, every specification long name, every STRING value and every XHTML value is a string of the form ...Anonymized-<number>..., with a number below 10^10.", "quantifier": "every document it accepts", "why_tests_cant": "any number of occurrences", "anchors": ["reqif/commands/anonymize/anonymize.py:AnonymizeCommand._anonymize"]}
{"id": "C53", "title": "Anonymization is consistent", "statement": "Equal strings are replaced by equal strings, whatever kind of place they occur in, so equality relations between values are kept; different replacements imply different originals.", "quantifier": "every document it accepts in which no XHTML value holds another covered string (in general: of the content as it is when the strings inside are replaced)", "why_tests_cant": "all pairs of occurrences", "anchors": ["reqif/commands/anonymize/anonymize.py:anonymize_string"]}
{"id": "C54", "title": "Anonymization keeps different strings different", "statement": "The README says the anonymization preserves the uniqueness of strings. This cannot hold for all documents: whatever the hash, there are different strings with the same replacement. It holds for every document whose strings have different hash numbers.", "quantifier": "every hash function, every document", "why_tests_cant": "needs a collision, which no test will meet", "anchors": ["README.md", "reqif/commands/anonymize/anonymize.py:anonymize_string"]}
{"id": "C55", "title": "Anonymization changes nothing else", "statement": "Anonymization keeps every element, its order, tag and all attributes and texts other than the ones it covers.", "quantifier": "every document it accepts", "why_tests_cant": "any document", "anchors": ["reqif/commands/anonymize/anonymize.py:AnonymizeCommand._anonymize"]}
{"id": "C56", "title": "Heading detection follows the schema", "statement": "is_spec_object_a_heading returns: if a spec-object type is named Heading, whether the object's type is the last such type; else, if an attribute definition is named ReqIF.ChapterName, whether the object has a value for the last such definition; else False.", "quantifier": "every bundle and spec object", "why_tests_cant": "all type and attribute combinations", "anchors": ["reqif/experimental/reqif_schema.py:ReqIFSchema"]}
{"id": "C57", "title": "Unique field names are complete and without duplicates", "statement": "iterate_unique_field_names yields each long name of a spec-object attribute definition kept in the schema exactly once, in order of first occurrence, and none other.", "quantifier": "every bundle", "why_tests_cant": "any number of definitions with any repeated names", "anchors": ["reqif/experimental/reqif_schema.py:ReqIFSchema.iterate_unique_field_names"]}
{"id": "C58", "title": "Boolean flags are read and written canonically", "statement": "IS-EDITABLE, IS-TABLE-INTERNAL and MULTI-VALUED are true after parsing exactly when the text is 'true', absent stays absent (an empty MULTI-VALUED too), and they are printed as 'true' or 'false'.", "quantifier": "every attribute text", "why_tests_cant": "all texts", "anchors": ["reqif/parsers/attribute_definition_parser.py", "reqif/parsers/spec_hierarchy_parser.py", "reqif/models/reqif_spec_object_type.py:SpecAttributeDefinition"]}
{"id": "C59", "title": "Passthrough and anonymize leave the output alone on failure", "statement": "If the input does not exist, the output directory does not exist, or reading, parsing or unparsing fails, no file is written; if the command succeeds exactly the output file is written, with the complete output.", "quantifier": "every file-system state, input and failure point", "why_tests_cant": "every crash point", "anchors": ["reqif/commands/passthrough/passthrough.py:PassthroughCommand.execute", "reqif/commands/anonymize/anonymize.py:AnonymizeCommand.execute"]}
{"id": "C60", "title": "Comments between items are skipped where the parser promises it", "statement": "A comment among spec types, spec objects or attribute values does not change what is parsed from the other children.", "quantifier": "every document, every position of a comment", "why_tests_cant": "any position and number of comments", "anchors": ["reqif/parser.py:ReqIFParser._parse_reqif_content", "reqif/parsers/attribute_value_parser.py:AttributeValueParser.parse_attribute_values"]}
{"id": "C61", "title": "Schema-valid documents are parsed", "statement": "Parsing a document that is valid against the ReqIF XML schema, and meets the few further requirements listed in Spec/Xsd (dialect `parse`), succeeds: no exception is raised, no missing-tag error is collected, header and core content are present. Each further requirement is necessary: a valid document that lacks it is refused.", "quantifier": "every document text whose root is valid, with a default namespace and without comments and processing instructions", "why_tests_cant": "the schema describes infinitely many documents; tests cover a few exports", "anchors": ["reqif/parser.py:ReqIFParser.parse_from_string", "reqif/reqif_schema/reqif.xsd", "reqif/parsers/"]}
{"id": "C62", "title": "Schema-valid documents can be printed again", "statement": "If the document also meets the requirements of dialect `write` (values in every spec object, no alternative identifiers in attribute definitions and relations), what was parsed is unparsed without exception. Requirements of the schema that parser and unparser do not need (dialect `lenient`) may be dropped. Documents that are valid but lack one of these are parsed and then cannot be printed. Printing may lose valid content: alternative identifiers, editable attributes, original values.", "quantifier": "every document text whose root is valid", "why_tests_cant": "the schema describes infinitely many documents", "anchors": ["reqif/unparser.py:ReqIFUnparser.unparse", "reqif/reqif_schema/reqif.xsd"]}
{"id": "C63", "title": "Plain documents survive parsing and printing", "statement": "A document that is valid for the ReqIF schema with the additional requirements of parser and unparser (dialect `lenient`: header, dates, limits, order of containers and the form of identifiers do not matter), has an element below the root, holds no comments or processing instructions and is plain (strings need no escaping beyond what the unparser does; namespaces are declared on the root; XHTML elements all have one prefix, declared first among the declarations in use) is parsed without error or collected exceptions and printed. The output is a well-formed ReqIF document; reading it gives the same namespace information, header, items in the same order, tool-extension mark and lookup, and printing again gives the same text byte for byte.", "quantifier": "all document texts that meet the stated conditions, of any size, nesting and number of items", "why_tests_cant": "The conditions range over all texts of all attributes and elements and over all combinations of optional parts; the sample files exercise a handful.", "anchors": ["reqif/parser.py: ReqIFParser.parse_from_string", "reqif/unparser.py: ReqIFUnparser.unparse", "reqif/commands/passthrough/passthrough.py"]}
{"id": "C64", "title": "The dump page shows the content", "statement": "The dump command writes an HTML page whose headings and table cells are, in order: the header's title and creation time, the identifiers of the data types and of the spec types, and for each specification its name followed by the object of every node of its tree in document order, with type, identifier and all values. The page is produced exactly for bundles whose lists are present and whose nodes all refer to existing objects; a run that does not succeed leaves every file as it was.", "quantifier": "all bundles, all trees of any depth, all files and operating-system outcomes of opening the output", "why_tests_cant": "The order and completeness of the page must hold for every tree and every list length, and the file must be untouched at every point where the run can stop.", "anchors": ["reqif/commands/dump/dump.py: DumpCommand.execute", "reqif/commands/dump/templates/index.jinja.html", "reqif/reqif_bundle.py: iterate_specification_hierarchy, get_spec_object_by_ref"]}
{"id": "C65", "title": "The validation report names every issue", "statement": "For a file that parses and has a default namespace or no processing instructions, `reqif validate` never fails while reporting: it prints one line per relation without source or target (naming the missing part), then one line per issue (missing XML declaration, encoding, dangling relation end with its side and reference, dangling hierarchy reference), each quoting the affected element, then the counts of all three kinds and, without the strict check, the note. A file that is not well-formed or not ReqIF gives one error line; a file refused by the strict check gives one schema line. The exit code is 0 exactly if nothing was reported.", "quantifier": "all files, all documents of any size with any number of issues, all texts of library messages, all schema-check outcomes", "why_tests_cant": "Which lines appear, in which order and with which fragment, depends on every relation and every tree node; a description that raises loses the whole report.", "anchors": ["reqif/commands/validate/validate.py: ValidateCommand.execute", "reqif/models/error_handling.py: get_description", "reqif/helpers/lxml.py: lxml_dump_node"]}
{"id": "C66", "title": "Passthrough keeps the content of a document", "statement": "If a document meets the conditions of C63 and has none of the content the library has no place for (alternative identifiers, editable attributes, original XHTML values, tool extensions, the definition repeated in default values of four kinds, more than one value of a relation or default of an enumeration, empty optional attributes, flags not written true or false, unusual integers), then the file written by passthrough says the same as the input: the same elements with the same attributes, texts and XHTML, lists in the same order, other children the same by name. Valid documents with such content lose it.", "quantifier": "all document texts that meet the stated conditions, of any size, nesting and number of items", "why_tests_cant": "Each optional attribute and element of each kind of item can be dropped or altered independently; the comparison of input and output must hold for every combination and every text.", "anchors": ["reqif/parser.py: ReqIFParser.parse_from_string", "reqif/unparser.py: ReqIFUnparser.unparse", "reqif/parsers/*", "reqif/commands/passthrough/passthrough.py"]}
{"id": "C67", "title": "Formatting keeps the content of a document and is stable", "statement": "If a document's names, comments and processing instructions are ASCII and it has no empty CDATA section, the format command writes an ASCII document that is read as the same tree: the same elements, names, namespaces, attributes, comments, processing instructions and texts in the same order, except for white space between nodes. If moreover no element has text after its child elements without beginning with text, and xml:space is not used, the result does not depend on the parser's choices, each child of an element without text is on a line of its own, indented by two spaces a level, and formatting again changes nothing. The command writes only the output file, and only if it succeeds; it succeeds exactly if the input can be read and the output be opened.", "quantifier": "all document texts, all answers of the parser about ambiguous white space, all file systems", "why_tests_cant": "Every character, nesting and mixture of text and elements must survive printing and reading; the tests compare three files.", "anchors": ["reqif/commands/format/format.py: FormatCommand.execute"]}
{"id": "C68", "title": "HTML becomes an XHTML value with the same content", "statement": "Converting HTML to a ReqIF XHTML string gives every element the prefix asked for, escapes attributes and texts once, and succeeds exactly if the parsed HTML has no comment or processing instruction. The string, made the value of an XHTML attribute and written to a document that binds the prefix to XHTML, is read back with the content the HTML had; the value string is the same if every object element has content, and an empty object loses its end tag.", "quantifier": "all trees the HTML parser may give, of any size and depth, both prefixes, all root attributes that bind the prefix", "why_tests_cant": "Any nesting, attribute and character must survive escaping, printing and reading again; the tests convert a few strings and do not read them back.", "anchors": ["reqif/helpers/lxml.py: lxml_convert_to_reqif_ns_xhtml_string, lxml_stringify_namespaced_children", "reqif/parsers/attribute_value_parser.py: AttributeValueParser"]}
{"id": "C69", "title": "The program runs the command it is called with and changes nothing else", "statement": "Each call of the program has one meaning: a command over an input and an output file, validation of a file with or without the strict check, the version, a request for help, or an error in the call (exit code 2). The program does what that command does, with the files in the order given, and never gets past the commands it knows. Exit code 0 of a command over files means that exactly the output file has changed and holds the complete result for the input; any other exit code means that no file has changed. Validation, version, help and wrong calls change no file.", "quantifier": "all lists of arguments (without `--`, `--=x`, `-hx` and negative numbers, which versions of Python treat differently), all file systems and environments", "why_tests_cant": "Tests make a few calls; the order and number of arguments, options in any place and every failure of every command have to be covered.", "anchors": ["reqif/cli/main.py: main", "reqif/cli/cli_arg_parser.py: cli_args_parser, ReqIFArgsParser, create_reqif_args_parser", "reqif/commands/version/version_command.py: VersionCommand.execute"]}
{"id": "C70", "title": "The timestamp of now denotes the moment the clock shows", "statement": "If the local offset is a whole number of minutes and the local year has four digits, create_reqif_datetime_now returns YYYY-MM-DDThh:mm:ss.mmm+hh:mm with a date that exists, the offset of standard or summer time as in force, and denotes exactly the clock's moment cut to milliseconds, also if the zone changes between the two looks at the clock. It fails exactly if the offset is a day or more or the local year is outside 1 to 9999.", "quantifier": "all clock readings, offsets of standard and summer time and states of summer time", "why_tests_cant": "The result depends on the moment and the zone of the run; leap years, centuries and ends of months need the calendar for every day.", "anchors": ["reqif/helpers/reqif_datetime.py: create_reqif_datetime_now, reqif_datetime_format"]}
{"id": "C71", "title": "Passthrough changes exactly the listed content and nothing else", "statement": "If a document meets the conditions of C63, the file written by passthrough says exactly what a written-out list of losses leaves of the input: alternative identifiers, editable attributes, original XHTML values, the content of tool extensions and the definition in default values of four kinds are left out; of the values of a relation and the defaults of an enumeration only the first is written; some empty attributes, header fields and references are left out; flags are written true or false and integers in their usual form. Every other element, attribute, text and XHTML comes back, lists in order, other children by name. A document without such content comes back whole.", "quantifier": "all document texts that meet the stated conditions, of any size, nesting and number of items", "why_tests_cant": "A test compares an output with an expected file; it cannot show that of all combinations of content nothing but the listed is lost, and that nothing is added.", "anchors": ["reqif/parser.py: ReqIFParser.parse_from_string", "reqif/unparser.py: ReqIFUnparser.unparse", "reqif/parsers/*", "reqif/commands/passthrough/passthrough.py"]}
{"id": "C72", "title": "Passthrough of a valid document is valid unless required content gets lost", "statement": "If a document is valid for the ReqIF schema and meets the conditions of C63, the file written by passthrough is valid for the schema if and only if every element that the schema requires is written. The required elements that can get lost are known: the definition in default values of strings, integers, reals and dates; empty fields of the header; and source and target specification of a relation group when their reference is empty. Everything else in the output (namespaces, order of elements, attributes and the form of their values, XHTML) is as the schema demands.", "quantifier": "all document texts that meet the stated conditions, of any size, nesting and number of items", "why_tests_cant": "A test validates the outputs of some inputs; it cannot show for all combinations of optional and rewritten content that the output is valid, nor that the exceptions are the only ones.", "anchors": ["reqif/parser.py: ReqIFParser.parse_from_string", "reqif/unparser.py: ReqIFUnparser.unparse", "reqif/parsers/*", "reqif/reqif_schema/reqif.xsd", "reqif/commands/passthrough/passthrough.py", "reqif/commands/validate/validate.py"]}
{"id": "C73", "title": "A document cut short is never taken for a smaller one", "statement": "If a file holds well-formed XML in UTF-8 and its end gets lost, at any byte, then what is left is refused (as malformed XML or as no UTF-8), or it gives exactly the same result as the whole file. Of the text that is printed for a bundle, if it is well-formed, every part that lacks more than the last line end is refused. For bundles that survive a round trip (C42) this holds without condition.", "quantifier": "all well-formed texts and files and every point to cut them at; all bundles whose printed text is well-formed", "why_tests_cant": "A test cuts some files at some points; it cannot show that there is no file and no point at which half of the requirements are silently missing.", "anchors": ["reqif/parser.py: ReqIFParser.parse", "reqif/parser.py: ReqIFParser.parse_from_string", "reqif/unparser.py: ReqIFUnparser.unparse"]}
{"id": "C74", "title": "Interrupted commands", "statement": "If passthrough, anonymize, dump or format is stopped at any point (killed, disk full), no file other than the output has changed, and the output is as it was or holds the beginning of what the command was to write. If input and output are different files, running the command again gives the same result as if it had not been interrupted. A half-written well-formed output of passthrough is refused by the parser. If input and output are the same file, the document is lost as soon as writing starts, and cannot be had back by running passthrough again.", "quantifier": "all four commands, all disks and paths including several paths for one file, and every number of steps after which the command stops", "why_tests_cant": "A test cannot stop a program after every byte it writes, nor do this for all documents and all ways in which paths name files.", "anchors": ["reqif/commands/passthrough/passthrough.py: PassthroughCommand.execute", "reqif/commands/anonymize/anonymize.py: AnonymizeCommand.execute", "reqif/commands/dump/dump.py: DumpCommand.execute", "reqif/commands/format/format.py: FormatCommand.execute"]}
{"id": "C75", "title": "Identifiers and references after passthrough", "statement": "If a plain document is read and printed again, the output has exactly the identifiers of the input, each on an element with the same name and equally often. Its references are references of the input, no more often than there; references of types, of the objects of hierarchies, of data types and of the ends of relations are all kept. So identifiers are unique in the output exactly if they are in the input, and if every reference of the input resolves to an element of its kind, every reference of the output does. Together with C72: a valid document with unique identifiers and resolving references is printed as one, if the elements the schema requires are written. References of editable attributes get lost.", "quantifier": "all documents of the schema, without the documented defects of XML escaping, with any number and nesting of items", "why_tests_cant": "Every kind of item prints its identifier and its references by code of its own; a test would need a document for each combination of items and their omitted parts.", "anchors": ["reqif/parser.py: ReqIFParser.parse_from_string", "reqif/unparser.py: ReqIFUnparser.unparse", "reqif/parsers", "reqif/commands/passthrough/passthrough.py: PassthroughCommand.execute"]}
{"id": "C76", "title": "Passthrough of archives", "statement": "Passthrough of a .reqifz archive succeeds exactly if the archive can be opened, all members can be read, and all ReqIF documents in it (.reqif, .xml) can be decoded, read and printed. The new archive has the same names, each once, ReqIF documents first; every document is the printed one and every other member has the same bytes. If the documents are plain, each says what passthrough of a single document keeps (C71), is valid under the condition of C72, has the same identifiers and resolving references (C75), and passthrough of the new archive reproduces it.", "quantifier": "all archives with any number of members, any names including repeated ones, and any content", "why_tests_cant": "Whether a member is kept depends on its name, on other members with the same name and on its content; a test fixes all three.", "anchors": ["reqif/commands/passthrough/passthrough.py: PassthroughCommand._passthrough_reqifz", "reqif/parser.py: ReqIFZParser.parse", "reqif/unparser.py: ReqIFZUnparser.unparse"]}
{"id": "C77", "title": "Edits of a bundle are local", "statement": "Replacing, inserting or deleting consecutive items of one of the six lists of a bundle changes the printed document exactly where these items are printed; if a new item cannot be printed its exception is raised. The same holds for the header, for the values of a spec object as long as some remain, for the text of a single string value, and for nodes at any depth of the tree of a specification. A document that is read, edited in this way with safe items, written and read again comes back as edited: all other items, header, namespace information and tool extensions are unchanged. The lookup of the edited bundle answers from the lists that were parsed; after writing and reading it answers from the edited lists.", "quantifier": "all bundles that can be printed, all six lists, all positions and lengths of the replaced part, all replacements; for reading back, all plain documents and all replacements by safe items that do not change whether the document uses XHTML elements", "why_tests_cant": "Printing of an item could depend on its neighbours, its position or other lists; a test fixes the document and the edit.", "anchors": ["reqif/unparser.py: ReqIFUnparser.unparse", "reqif/parsers/spec_object_parser.py: SpecObjectParser.unparse", "reqif/parsers/attribute_value_parser.py: AttributeValueParser.unparse_attribute_values", "reqif/object_lookup.py: ReqIFObjectLookup", "reqif/parsers/spec_hierarchy_parser.py: ReqIFSpecHierarchyParser.unparse"]}
{"id": "C78", "title": "An XHTML element as a string without namespaces", "statement": "lxml_convert_from_reqif_ns_xhtml_string succeeds exactly if there is no processing instruction inside the element, and raises ValueError otherwise. The string, read as XML, is the element with the same names, attributes, texts, comments and order, but without namespaces; line ends and indentation are added only between the nodes of elements without text, so an element with text is read back exactly. Whether the document of the element has an encoding changes the spelling of attribute values but not what is read. The string is a document exactly if nothing but white space follows the element in its parent: words behind the element become part of the string. Together with lxml_convert_to_reqif_ns_xhtml_string: HTML made the value of an XHTML attribute, written, read and turned back into strings is the HTML that was there at first.", "quantifier": "all elements of all readable documents, before or after the parser removes namespaces, all texts behind the element; for reading back, elements whose attributes have no namespace (xml: attributes are allowed)", "why_tests_cant": "The unit test converts one element with four children. Which white space is added depends on the content of every element in the tree, and escaping on every character.", "anchors": ["reqif/helpers/lxml.py: lxml_convert_from_reqif_ns_xhtml_string", "reqif/helpers/lxml.py: lxml_strip_namespace_from_xml", "tests/unit/reqif/helpers/lxml/test_lxml_convert_from_reqif_ns_xhtml_string.py"]}
{"id": "C79", "title": "The parser accepts exactly the well-formed XML documents", "statement": "parse_from_string reports that a text cannot be read as XML exactly if the text is not empty and is not a namespace-well-formed XML 1.0 document, as defined by the productions of XML 1.0 and Namespaces in XML 1.0. A well-formed document is read as the tree that the productions give it: elements with their expanded names, attributes with normalised values, texts with references and CDATA sections replaced, comments and processing instructions, in order. A text is a document in at most one way. The outcome of the parser depends on nothing but that tree and the declared encoding, not on how the document is spelled: quotes, references, CDATA, white space in tags, line ends, empty tags or pairs of tags. A start tag and an end tag with different names are always refused.", "quantifier": "all texts; without document type declaration (the model refuses it) and for documents whose text is decoded already", "why_tests_cant": "Whether a text is a document depends on every character in it, and there are unboundedly many spellings of the same document. The tests read sample files; the texts they expect to be refused are the empty one, one without a tag and one with another root.", "anchors": ["reqif/parser.py: ReqIFParser.parse_from_string", "reqif/models/error_handling.py: ReqIFXMLParsingError"]}
{"id": "C80", "title": "Declared encodings", "statement": "A text that declares no encoding, or UTF-8 in any spelling of the name, is parsed as the text it is; so is an ASCII text that declares ISO-8859-1 or ASCII. A text with other characters that declares ASCII is refused. A text that declares any other encoding is read as the reader's codec of that name decodes its UTF-8 bytes, and refused if there is no such codec. For a text that declares ISO-8859-1 this fails: parse_from_string gives the reader the UTF-8 bytes of the text, so the document comes back with the same elements and names, but in every string each character that is not ASCII is replaced by two to four others; exactly the ASCII strings stay the same. A file is decoded as UTF-8 whatever it declares: a file in ISO-8859-1 where a letter from À to ÿ stands before an ASCII character is refused with UnicodeDecodeError; a file that is not refused is read by its declaration.", "quantifier": "all texts and files; all other codecs of the XML library and both ways it may treat a byte order mark; for the exact altered document: well-formed documents with ASCII names whose character references stand for ASCII characters, without byte order mark", "why_tests_cant": "The sample files of the tests declare UTF-8 or nothing, except one that declares ISO-8859-1 and is ASCII. What happens to other texts depends on every character of every string in them.", "anchors": ["reqif/parser.py: ReqIFParser.parse", "reqif/parser.py: ReqIFParser.parse_from_string"]}
{"id": "C81", "title": "Texts of objects", "statement": "str and repr of an object of the package give a text for every object graph, also one with cycles. The text depends only on the object's class, on the names of its attributes in order, and on what can be seen of each value: a string, number or truth value itself, the size of a container, the class of any other object; nothing behind these is looked at. Conversely, if no string has a quotation mark, objects with the same text agree in all of these; so two SPEC-OBJECTs with the same text have the same identifier, type, description, date and name and as many values. With quotation marks this fails: they are not escaped, and different objects can have the same text.", "quantifier": "all heaps of objects, lists, dictionaries and sets with arbitrary references; all class and attribute names and strings; for reading back: names of letters, digits, underscores or characters beyond ASCII, values other than floats and bytes", "why_tests_cant": "The tests print two small classes. That the text is defined on every cyclic graph and never looks further than one step, and that no two different objects print alike, concern all graphs and all pairs of strings.", "anchors": ["reqif/helpers/debug.py: auto_described", "reqif/helpers/debug.py: auto_str"]}
{"id": "C82", "title": "Warnings and other lines on standard output", "statement": "While a bundle is written, one warning line is logged for each child of a SPEC-OBJECT that is neither TYPE nor VALUES, objects and children in document order, and nothing else; if writing fails, a first part of these lines has been logged. Logging never changes what is written. Passthrough prints exactly these lines for a document, and for an archive those of its documents one after the other; if it ends with exit code 1 without an exception it has printed exactly one line that names the missing file or directory, and changed no file. Anonymize and validate report a missing file or directory by one line too. For a document valid against the schema the only warnings are about alternative identifiers, one for each SPEC-OBJECT that has one. Nothing is logged for objects without an XML element. Dump and format print nothing, nor does a successful anonymize; validate prints its report and version the version. That a warning is given whenever content is lost is false: other losses are silent.", "quantifier": "all bundles; all documents, archives and files; all texts Python may print for the tag of a comment; all calls of the program that call a command; valid documents: any dialect, default namespace on the root, no comments or processing instructions", "why_tests_cant": "Which lines appear, how often and in which order depends on all children of all objects, and on where writing fails.", "anchors": ["reqif/parsers/spec_object_parser.py: SpecObjectParser.unparse", "reqif/cli/main.py: main", "reqif/cli/main.py: _LowercaseLevelFormatter", "reqif/commands/passthrough/passthrough.py: PassthroughCommand.execute"]}
{"id": "C83", "title": "The accuracy of real data types", "statement": "In every document that can be parsed, the accuracy of each DATATYPE-DEFINITION-REAL in the bundle is the integer its ACCURACY attribute denotes, and None if there is no such attribute; MAX and MIN are kept as the strings they are. A text denotes an integer if it is a sequence of decimal digits, possibly with a sign, with single underscores between digits and with white space around it. A document with an ACCURACY that denotes no integer is not parsed. What is printed denotes the same integer, without white space, sign + and underscores, so a document with these is changed by passthrough.", "quantifier": "every document, every number of data types and every attribute text (ASCII digits)", "why_tests_cant": "all texts and all integers of any length", "anchors": ["reqif/parsers/data_type_parser.py:DataTypeParser.parse", "reqif/parsers/data_type_parser.py:DataTypeParser.unparse"]}
{"id": "C84", "title": "Bundles that are written as valid ReqIF documents", "statement": "A bundle, built in code or read from a file, is written as a document that is valid under the ReqIF schema if and only if it is complete: its start tag has the ReqIF namespace as default namespace and only prefixed attributes besides; the header and the content are there; every item has an identifier and a time of last change, every reference that the schema requires, and each of these texts, numbers and dates has the form its type asks for; no child element is printed twice. With the namespace information create_default gives, it depends on header and content only. A bundle with a default value that is a text, number or date is never written as a valid document, because the reference to the definition is left out.", "quantifier": "all bundles that survive writing and reading (C43), of any size and nesting, whose start tag declares the prefix used for XHTML; all namespace information for such start tags", "why_tests_cant": "Validity depends on every item and every field of a bundle at once; tests try a few documents.", "anchors": ["reqif/unparser.py:ReqIFUnparser.unparse", "reqif/models/reqif_namespace_info.py:ReqIFNamespaceInfo.create_default", "reqif/parsers/attribute_definition_parser.py", "reqif/reqif_bundle.py:ReqIFBundle"]}
{"id": "C85", "title": "The dump page is a well-formed document", "statement": "If every string that the dump page shows (title, creation time, identifiers, names of specifications, types, definitions and values) is well-formed content, that is text without markup characters or complete XHTML, then the page is, after its DOCTYPE line, one well-formed XML document with the root html, and its headings and table cells, in order, hold exactly the nodes of these strings, whatever elements an XHTML value contains. Without the condition this fails: a valid document with the title \"a < b\" is dumped as a page that is not well-formed.", "quantifier": "all bundles for which there is a page, with any number of types, specifications, nested nodes, objects and values, and all strings in them", "why_tests_cant": "The page is put together in nested loops over lists of any length, from strings that are inserted unescaped; one unbalanced tag in one of the parts shows only for the bundles that reach it.", "anchors": ["reqif/commands/dump/dump.py:DumpCommand.execute", "reqif/commands/dump/templates/index.jinja.html"]}
{"id": "C86", "title": "Hierarchies and enumeration values keep the order of their parts", "statement": "When a specification tree is parsed and written again, every SPEC-HIERARCHY element whose only children are OBJECT and CHILDREN is written with them in the order of the source, at every depth. With any other child (a comment, EDITABLE-ATTS) CHILDREN is written first, whatever the source says. An enumeration value is written with VALUES and DEFINITION in the order of the source (VALUES first if it was created through the API).", "quantifier": "every parsed hierarchy of any depth and width and every parsed enumeration value whose strings are safe, every ordinary root tag", "why_tests_cant": "trees of unbounded depth, with an arbitrary mixture of orders", "anchors": ["reqif/parsers/spec_hierarchy_parser.py:ReqIFSpecHierarchyParser.parse", "reqif/parsers/spec_hierarchy_parser.py:ReqIFSpecHierarchyParser.unparse", "reqif/parsers/attribute_value_parser.py:AttributeValueParser.unparse_attribute_values"]}
{"id": "C87", "title": "Indentation does not matter", "statement": "Two documents that differ only in the text between elements (line breaks and indentation, in elements that hold other elements) are parsed to the same bundle and written to the same text, or are refused with the same exception. So a document without XHTML content that was formatted with the format command is read as before. Inside XHTML content and in elements that hold text, white space counts.", "quantifier": "every pair of well-formed documents, valid or not, that differ in any amount of such text at any places", "why_tests_cant": "the places are unbounded in number and depth, and each parser reads text and children of its elements in its own way", "anchors": ["reqif/parser.py:ReqIFParser.parse_from_string", "reqif/unparser.py:ReqIFUnparser.unparse", "reqif/helpers/lxml.py:lxml_is_self_closed_tag", "reqif/commands/format/format.py:FormatCommand"]}
{"id": "C88", "title": "Exactly which documents are read", "statement": "A text is parsed without an exception exactly if it is a well-formed XML document, it has no processing instruction inside if its root declares a default namespace, its root is REQ-IF, and its tree meets a list of requirements that is written down in full: the attributes each element must have, the child elements it must have, and the few restrictions on what they contain (comments only between spec types, spec objects and values; ACCURACY is an integer; XHTML content without processing instructions, and without comments where a namespace is in scope). Nothing else matters: in particular the values of attributes (but for ACCURACY) and all texts have no influence on whether a document is read.", "quantifier": "all texts; for the second part all pairs of documents that differ in attribute values, texts, comments and processing instructions only", "why_tests_cant": "Acceptance of every possible document is characterised: a test shows that some document is read or refused, not that no further condition exists.", "anchors": ["reqif/parser.py:ReqIFParser.parse_from_string", "reqif/parser.py:ReqIFParser._parse_reqif_content", "reqif/parsers/data_type_parser.py:DataTypeParser.parse", "reqif/parsers/attribute_definition_parser.py:AttributeDefinitionParser.parse_attribute_definitions", "reqif/parsers/attribute_value_parser.py:AttributeValueParser.parse_attribute_values", "reqif/parsers/spec_hierarchy_parser.py:ReqIFSpecHierarchyParser.parse", "reqif/parsers/spec_relation_parser.py:SpecRelationParser.parse"]}
{"id": "C89", "title": "Exactly which bundles and documents are written", "statement": "A bundle, read from a document or built through the API, is printed without an exception exactly if it meets a list of requirements that is written down in full: the root tag was recorded or has an attribute, the header has a non-empty identifier, levels of hierarchy nodes are above 0, enumeration values are lists and other values texts, default values of booleans, XHTML and enumerations come with the reference to their definition, and the elements the parts were read from have the expected children (an object has VALUES and TYPE; a relation and an attribute definition have no children but the known ones). Accordingly, reading a text and writing the result raises no exception exactly if the document meets the requirements of reading and a second list of requirements on its tree: specifications, hierarchies, values, data types and relation groups that were read can always be written.", "quantifier": "all bundles; all texts", "why_tests_cant": "It says for every possible bundle and every document whether writing raises an exception; tests show single cases and cannot show that there is no further condition.", "anchors": ["reqif/unparser.py:ReqIFUnparser.unparse", "reqif/parsers/attribute_definition_parser.py:AttributeDefinitionParser.unparse_xhtml_attribute_definition", "reqif/parsers/attribute_value_parser.py:AttributeValueParser.unparse_attribute_values", "reqif/parsers/spec_object_parser.py:SpecObjectParser.unparse", "reqif/parsers/spec_relation_parser.py:SpecRelationParser.unparse", "reqif/parsers/spec_hierarchy_parser.py:ReqIFSpecHierarchyParser.unparse", "reqif/parsers/header_parser.py:ReqIFHeaderParser.unparse"]}
{"id": "C90", "title": "Exactly when each command succeeds", "statement": "For every command of the program, exit code 0 is returned exactly in the following cases. passthrough: the input exists, is UTF-8 and holds a document that can be read and written again (for an archive: the zip file opens, all members can be read and all documents among them can be read and written again), the directory of the output is there and the output can be opened. anonymize: the input exists, is UTF-8 and well-formed, its root declares a default namespace, the comments and titles of its headers begin with text, there are no comments or processing instructions in its XHTML values, and the output can be written as before. dump: the input is read, has data types, spec types and specifications, all nodes of the trees refer to objects, and the output can be opened. format: the input is well-formed UTF-8 and the output can be opened. validate: the document is read and has no issues, that is, it has an XML declaration and no encoding but UTF-8 (unless the root is empty), every relation has both ends, and the ends and all references of the trees name objects; and the strict check, if asked for, finds it valid.", "quantifier": "all files, file systems, outcomes of opening files and zip archives, and all calls of the program", "why_tests_cant": "An equivalence over all inputs: tests show single successes and failures, and cannot show that no other condition makes a command fail.", "anchors": ["reqif/cli/main.py:main", "reqif/commands/passthrough/passthrough.py:PassthroughCommand.execute", "reqif/commands/anonymize/anonymize.py:AnonymizeCommand.execute", "reqif/commands/dump/dump.py:DumpCommand.execute", "reqif/commands/format/format.py:FormatCommand.execute", "reqif/commands/validate/validate.py:ValidateCommand.execute"]}
{"id": "C91", "title": "Several runs at the same time", "statement": "Any number of runs of passthrough, anonymize, dump and format may go on at the same time on one disk; each reads and writes byte by byte, and the operating system decides after each step whose turn it is. A file that is no run's output never changes. A run whose output is neither the output nor the input of another run, and whose input is no other run's output, ends exactly as it does alone, leaves its output exactly as it does alone, and ends after a number of its own turns that depends only on the sizes of its files; until then its output is as it was or holds the beginning of the result. If this holds for all runs, the disk in the end is the same as if they had run one after the other, in any order. Otherwise nothing protects the runs from each other: a run that reads a file while another run writes it may work on the front of the old and the rest of the new file, cut anywhere, and two runs with the same output may both report success and leave a file that begins with one result and goes on with the other.", "quantifier": "any number of runs, all schedules of any length, all disks, and all ways in which paths name files", "why_tests_cant": "A test sees a few schedules of the millions the operating system may choose, and cannot show that no schedule gives another result.", "anchors": ["reqif/commands/passthrough/passthrough.py: PassthroughCommand.execute", "reqif/commands/anonymize/anonymize.py: AnonymizeCommand.execute", "reqif/commands/dump/dump.py: DumpCommand.execute", "reqif/commands/format/format.py: FormatCommand.execute"]}
{"id": "C92", "title": "The order of attributes does not matter", "statement": "Two documents that differ only in the order in which elements give their attributes are parsed to the same bundle, and the same text is written for both; or parsing fails with the same exception for both. The same holds for documents that differ in the order of attributes and in the line breaks and indentation between elements. Only the root element, which is written as it was read, and XHTML values, which are kept as text, show the order.", "quantifier": "all pairs of well-formed documents that are the same but for the order of attributes in any number of elements (and spacing)", "why_tests_cant": "There are factorially many orders for every element, and any of the parsers could depend on one.", "anchors": ["reqif/parser.py:ReqIFParser.parse_from_string", "reqif/unparser.py:ReqIFUnparser.unparse", "reqif/parsers/spec_object_parser.py:SpecObjectParser.parse", "reqif/parsers/attribute_value_parser.py:AttributeValueParser.parse_attribute_values"]}
{"id": "C93", "title": "Namespaces and prefixes of ReqIF elements do not matter", "statement": "Two documents whose roots declare a default namespace, and that differ only in the namespaces and prefixes of elements outside XHTML and in declarations XHTML elements and attributes do not use, are parsed to bundles that are the same but for what is remembered of the root element, and the same text is written for both but for the root's start tag; or parsing fails with the same exception for both. If the root elements are the same, the results are the same. A document whose root has a prefix and that declares no default namespace is refused as not being ReqIF. If the root has a prefix and a different default namespace is declared, the document is read, but what is written for it is not well-formed.", "quantifier": "all pairs of well-formed documents that are the same but for namespaces and prefixes, in any number of elements", "why_tests_cant": "Every element may have its own prefix and declarations; tests use the spelling of a few tools.", "anchors": ["reqif/parser.py:ReqIFParser._parse_reqif", "reqif/helpers/lxml.py:lxml_strip_namespace_from_xml", "reqif/unparser.py:ReqIFUnparser.unparse_namespace_info"]}
{"id": "C94", "title": "Anonymized documents stay connected, valid and readable, except for XHTML values", "statement": "If a document is anonymized, the result has the same identifiers and references in the same order, so unique identifiers stay unique and references that had a target keep it. If the document is valid by the ReqIF schema up to the content of XHTML values, so is the result; and if it meets what parser and unparser need and has no XHTML default value, the result is read without exceptions and can be written. With the schema's rule for the content of XHTML values included, a valid document stays valid exactly if it has no XHTML value. A valid document that is read may be refused once anonymized: one with an XHTML default value.", "quantifier": "all documents, all hash functions, all ways to print the resulting tree", "why_tests_cant": "The replacement happens at arbitrarily many places of arbitrarily large documents; what must hold is that no other part of the structure is touched and every type of the schema admits the replaced strings.", "anchors": ["reqif/commands/anonymize/anonymize.py:_anonymize", "reqif/reqif_schema/reqif.xsd", "reqif/reqif_schema/http/www.omg.org/spec/ReqIF/20110402/driver.xsd", "reqif/helpers/lxml.py:lxml_stringify_namespaced_children", "reqif/parsers/attribute_definition_parser.py"]}
{"id": "C95", "title": "What dump and validate show depends only on the content", "statement": "Two documents that agree in title and creation time, in the identifiers of data types and spec types, in the objects (identifier, type, values with their definitions), in the ends of relations, and in the names of specifications and the references in their trees, have the same dump page, and validate finds the same issues about their content (apart from the elements it quotes). So documents that differ only in the text between elements, the order of attributes or the prefixes of ReqIF elements are shown alike, and so is a document without XHTML after format, and a plain valid document after passthrough: running passthrough and then dump gives the same page as dump. A valid document with a tab in a string is shown differently after passthrough.", "quantifier": "all documents, all pairs of documents that agree in the stated content, all repr functions", "why_tests_cant": "The page is computed from a lookup and from trees of unbounded depth, by reference; that nothing else (source elements, order of attributes, prefixes, declarations) leaks into it has to hold for all documents.", "anchors": ["reqif/commands/dump/dump.py:DumpCommand.execute", "reqif/commands/dump/templates/index.jinja.html", "reqif/commands/validate/validate.py:ValidateCommand._validate", "reqif/object_lookup.py", "reqif/reqif_bundle.py:iterate_specification_hierarchy"]}
{"id": "C96", "title": "What is read from an anonymized document", "statement": "If a schema-valid ReqIF document (with the ReqIF namespace as default namespace) is anonymized and the result is read again, the bundle is the one read from the original with each STRING value and STRING default value, each long name of a specification, and comment and title of the header replaced by its anonymized string, and with everything else as it was (identifiers, references, types, hierarchies, relations, lookup tables, collected exceptions, namespace information); every XHTML value and XHTML default value is an anonymized string; and validate finds the same about relations and references. The result is read if the original meets the additional requirements of the parser and has no XHTML default value. A valid document that is written with prefixes beside another default namespace is anonymized without an error and stays in clear.", "quantifier": "all byte contents of files, all hash functions, all ways to print the anonymized tree, all texts with that tree", "why_tests_cant": "The commands rewrite the tree by XPath over namespaced names, the parser reads it by position and by stripped names; that the two agree on every element of a valid document, and that nothing else changes, has to hold for trees of any size and depth.", "anchors": ["reqif/commands/anonymize/anonymize.py:AnonymizeCommand.execute", "reqif/commands/anonymize/anonymize.py:anonymize_string", "reqif/parser.py:ReqIFParser._parse_reqif", "reqif/parsers/attribute_value_parser.py", "reqif/parsers/attribute_definition_parser.py"]}
{"id": "C97", "title": "What an anonymized document tells about the original", "statement": "Two files that hold the same document apart from the covered strings (header comment and title, long names of specifications, STRING and XHTML values), and whose covered strings have hashes with the same last ten digits, are anonymized to the same text: nothing else about the covered strings, such as their length or their markup, gets into the result. Whatever the hash function is, there are different documents with the same anonymized text, so the covered strings cannot be had back from it.", "quantifier": "all pairs of files in which no XHTML value holds another covered string, all hash functions, all ways to print a tree", "why_tests_cant": "It compares the outputs for all pairs of inputs that differ in the covered places; a test sees single outputs.", "anchors": ["reqif/commands/anonymize/anonymize.py:AnonymizeCommand.execute", "reqif/commands/anonymize/anonymize.py:anonymize_string"]}
{"id": "C98", "title": "Limits on depth", "statement": "The XML library refuses documents whose elements are nested deeper than a limit, and Python calls nested deeper than a limit. What passthrough writes for a plain document passes every limit on depth that the document passes. A bundle that can be written and read back is written as a document of depth at most 11, 2 l + 7 and k + 10, where l is the number of levels of its hierarchies and k the depth of its XHTML content; a bundle with a hierarchy of more than (limit - 7) / 2 levels is written without an error, but what is written cannot be read again under the limit. For a document the reader accepted, the functions of the library that call themselves do not exceed a stack as large as the limit of the reader; a hierarchy built in memory takes two calls for each level to print.", "quantifier": "all limits, all plain schema-valid documents, all bundles meeting the conditions of C43, all hierarchies and stack sizes", "why_tests_cant": "The bounds relate limits and depths of all sizes; tests use shallow documents, far from the limits of the installed library.", "anchors": ["reqif/parser.py:ReqIFParser.parse_from_string", "reqif/parsers/spec_hierarchy_parser.py:ReqIFSpecHierarchyParser", "reqif/helpers/lxml.py:lxml_stringify_node", "reqif/unparser.py:ReqIFUnparser.unparse"]}
{"id": "C99", "title": "The size of what is written", "statement": "What is written for a document that has been read is at most 150 (n + 36)^3 characters long, where n is the length of the document: reading and writing a document of moderate size never produces an output of unmanageable size. The exponent is exact: there are documents of every length whose output is as long as the cube of their length, up to constants; and with at most one element of each name in each place, nested hierarchies make the output as long as the square.", "quantifier": "all texts the parser accepts and all bundles read from them that can be written; all sizes of the growing documents", "why_tests_cant": "A bound on growth is a statement about documents of all sizes; a test sees the growth of one document.", "anchors": ["reqif/parser.py:ReqIFParser.parse_from_string", "reqif/unparser.py:ReqIFUnparser.unparse", "reqif/parsers/specification_parser.py:ReqIFSpecificationParser.unparse", "reqif/parsers/spec_hierarchy_parser.py:ReqIFSpecHierarchyParser.unparse"]}
{"id": "C100", "title": "Hierarchies built step by step", "statement": "However hierarchy nodes are created and put together with add_child, in whatever order, with calls that fail in between and with nodes used in several places: every node stands for exactly one finite tree whose levels increase by one, no node is its own descendant, iterating over the nodes ends and yields them depth first, and a node with a level above zero can be printed. A successful add_child appends the child to its parent and changes no other node; a refused one changes no other node either, but leaves an empty list of children. The nodes of a document that was read are such nodes.", "quantifier": "all sequences of calls of the constructor and of add_child in which a list given to the constructor is given to one node only and holds nodes one level deeper", "why_tests_cant": "It is about all histories of calls on shared mutable objects; a test runs one history.", "anchors": ["reqif/models/reqif_spec_hierarchy.py:ReqIFSpecHierarchy.add_child", "reqif/models/reqif_spec_hierarchy.py:ReqIFSpecHierarchy.__init__", "reqif/specification_iterator.py:SpecificationIterator.iterate_specification", "reqif/parsers/spec_hierarchy_parser.py:ReqIFSpecHierarchyParser.unparse"]}
{"id": "C101", "title": "The order of the parts of an element", "statement": "What a document means does not depend on the order in which elements give their parts, which the schema leaves open: two documents that differ only in the order of parts with different names are parsed to bundles that are equal apart from the source elements they remember, or both parsers fail with the same exception. The same holds if they differ in the order of attributes and in indentation as well.", "quantifier": "all pairs of documents that differ in the order of the parts of the root element, the header, the content, data types, enumeration values, types, attribute definitions, enumeration and XHTML values, objects, relations, specifications and relation groups; lists and hierarchy nodes, whose order means something, keep their order", "why_tests_cant": "The number of orders of the parts of one element grows factorially, and all elements of a document can be ordered independently.", "anchors": ["reqif/parser.py:ReqIFParser.parse_from_string", "reqif/parsers/header_parser.py:ReqIFHeaderParser.parse", "reqif/parsers/spec_object_parser.py:SpecObjectParser.parse", "reqif/parsers/spec_relation_parser.py:SpecRelationParser.parse", "reqif/parsers/specification_parser.py:ReqIFSpecificationParser.parse", "reqif/parsers/attribute_value_parser.py:AttributeValueParser.parse_attribute_values", "reqif/parsers/data_type_parser.py:DataTypeParser.parse"]}
{"id": "C102", "title": "Hierarchies that are changed while they are iterated over", "statement": "A hierarchy may be changed between one yielded node and the next. If no child is added to a node that was yielded before the current one, an iteration that ends has yielded exactly the nodes of the hierarchy as it stands at the end, depth first; nodes added to the current node or to nodes still to come are among them. Whatever is added meanwhile, the iteration ends once the hierarchy is left alone. Without calls in between it is the plain iteration.", "quantifier": "all stores of nodes that careful calls lead to, all starting lists, all sequences of careful calls between the yields, successful or refused", "why_tests_cant": "The calls between any two yields can be arbitrary; a test runs one interleaving of calls and yields.", "anchors": ["reqif/specification_iterator.py:SpecificationIterator.iterate_specification", "reqif/reqif_bundle.py:ReqIFBundle.iterate_specification_hierarchy", "reqif/models/reqif_spec_hierarchy.py:ReqIFSpecHierarchy.add_child"]}
{"id": "C103", "title": "Edits through the lookup", "statement": "After parsing, setting a value through bundle.lookup.get_spec_object_by_ref(ref).attribute_map[key] changes that value in the list of objects of the bundle and nothing else, so what is written afterwards differs exactly in the text of that value; KeyError is raised and nothing changes if there is no such object or value. Edits through the lookup, the map and the lists, in any order, act as the same edits on plain lists.", "quantifier": "all lists of parsed objects; all histories of edits through the lookup, the attribute maps and the lists, including appended attributes and objects; an attribute object is in one list only", "why_tests_cant": "Whether two ways of reaching an object still reach the same one depends on the whole history of edits and on which identifiers and keys coincide.", "anchors": ["reqif/object_lookup.py:ReqIFObjectLookup.get_spec_object_by_ref", "reqif/models/reqif_spec_object.py:ReqIFSpecObject.__init__", "reqif/parser.py:ReqIFParser._parse_reqif_content"]}
{"id": "C104", "title": "Identifiers are opaque", "statement": "Nothing depends on what identifiers look like. If a document gets other identifiers, different ones for different ones, and its references are changed along with them, then it is parsed to the bundle with the other identifiers, or fails with the same exception; the lookup answers the changed questions with the changed answers, specifications are iterated over in the same order, and validation reports the same problems.", "quantifier": "all pairs of texts whose documents differ by an injective function on texts, applied to all IDENTIFIER attributes and all texts of the content outside XHTML values; all references asked for", "why_tests_cant": "Tests use a handful of identifier styles. Prefix matches, stripped or case-folded comparisons and collisions between kinds of elements show only for particular pairs of identifiers.", "anchors": ["reqif/parser.py:ReqIFParser._parse_reqif_content", "reqif/object_lookup.py:ReqIFObjectLookup", "reqif/reqif_bundle.py:ReqIFBundle.iterate_specification_hierarchy", "reqif/commands/validate/validate.py:ValidateCommand._validate"]}
{"id": "C105", "title": "Items are read independently of each other", "statement": "If three documents are the same but for one container of the content (data types, types, objects, relations, specifications or relation groups), and in the third the container holds the items of the first followed by those of the second, then the third is read exactly if the first two are; its bundle is the first one with the items of the second after its own, in the list, in the lookup, in the parents and among the reported relations; and if it is not read, the exception is that of one of the other two. Added objects never make validation report more than before.", "quantifier": "all triples of documents in that relation, for each of the six containers, with any items, where the two lists of items use the same namespace declarations made above them", "why_tests_cant": "Whether one item can influence how another is read (state kept between items, early exits, namespaces shared through the root) has to be excluded for all combinations of items.", "anchors": ["reqif/parser.py:ReqIFParser._parse_reqif_content", "reqif/parser.py:ReqIFParser._parse_reqif", "reqif/helpers/lxml.py:lxml_strip_namespace_from_xml"]}
{"id": "C106", "title": "Exactly which choices of sections the conversion iteration can handle", "statement": "With levels as parsed, iterate_specification_hierarchy_for_conversion hands every callback the nearest enclosing section of each node, whatever the callback does and whether or not it raises, if and only if no node that has a next sibling is left with a gap: on the way from it over last children no section comes after a node that is not a section. With a gap, some node is handed an outer section instead of its own without any error, or the iteration raises.", "quantifier": "all specification trees with consistent levels (all parsed ones have them), all choices of sections, all callbacks that follow the choice", "why_tests_cant": "The exact border between the trees that work and those that do not depends on the shape of the whole tree; tests only visit points on either side.", "anchors": ["reqif/reqif_bundle.py:ReqIFBundle.iterate_specification_hierarchy_for_conversion"]}
{"id": "C107", "title": "Attributes that ReqIF does not have are ignored", "statement": "Two documents that differ only in attributes that are in no namespace and have a name that ReqIF does not use are parsed to bundles that are equal apart from the source elements they remember, and are written as the same text, or both parsers fail with the same exception. In particular passthrough drops such attributes. What dump and validate show of the two is the same, even if they differ in the order of attributes, in the order of parts and in indentation as well.", "quantifier": "all pairs of documents that differ in unknown attributes, of any number and with any values, on any elements below the root and outside XHTML content", "why_tests_cant": "Tools add attributes of their own anywhere; that none of them can change what is read has to hold for all names, values and places.", "anchors": ["reqif/parser.py:ReqIFParser.parse", "reqif/unparser.py:ReqIFUnparser.unparse", "reqif/helpers/lxml.py:lxml_strip_namespace_from_xml"]}
{"id": "C108", "title": "A part of a hierarchy means the same wherever it stands", "statement": "Parsing a SPEC-HIERARCHY element for another level gives the same tree with all levels changed by the difference, or the same exception. Any part of a parsed hierarchy is what parsing its element alone gives, up to this difference of levels, so parsing again the XML element a node remembers gives back the node with everything below it, with levels starting at 1. A hierarchy at a larger depth is written as the same lines, moved to the right by four columns per level.", "quantifier": "all elements, levels, differences of levels, parts at any depth and position, all documents that are parsed and all nodes of their specifications; for the written text all hierarchies whose printed strings contain no line break", "why_tests_cant": "Sections are moved up and down in documents; that nothing but the level depends on the place has to hold at every depth and for every shape of tree.", "anchors": ["reqif/parsers/spec_hierarchy_parser.py:ReqIFSpecHierarchyParser.parse", "reqif/parsers/spec_hierarchy_parser.py:ReqIFSpecHierarchyParser.unparse", "reqif/models/reqif_spec_hierarchy.py:ReqIFSpecHierarchy.calculate_base_level"]}
{"id": "C109", "title": "The order of items does not matter for lookups and validation", "statement": "If two documents hold the same data types, types, objects, relations and specifications, each list in any order, then both are parsed or none is, their bundles hold the same items, lookups by reference find the same data type, type and object if identifiers are not repeated, the parents of an object are the same up to order, and validation reports the same issues up to order, so with the same number and the same exit code. Each list is written as the same pieces of text up to order, and if the rest of the bundle is the same, both are written or none, with texts of the same size.", "quantifier": "all pairs of documents that differ in the order of items in their containers; all references", "why_tests_cant": "Tools write items in their own order; all permutations of lists of any length have to be covered.", "anchors": ["reqif/parser.py:ReqIFParser._parse_reqif_content", "reqif/object_lookup.py:ReqIFObjectLookup", "reqif/commands/validate/validate.py:ValidateCommand"]}
