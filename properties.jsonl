{"id": "C01", "title": "Format detection is decided by the stripped text alone", "statement": "NdmIo.from_string classifies every string by its whitespace-stripped content: KVN iff it starts with 'CCSDS_', XML iff it starts with '<' and ends with '>', JSON iff it starts with '[' and ends with ']', and raises ValueError otherwise. The three cases are mutually exclusive, and adding or removing surrounding whitespace never changes the classification.", "quantifier": "every input string", "why_tests_cant": "the set of strings is infinite; tests only try a handful of files", "anchors": ["ccsds_ndm/ndm_io.py:_identify_data_format", "ccsds_ndm/ndm_io.py:NdmIo.from_string"]}
{"id": "C02", "title": "JSON is always refused, unknown data always a ValueError", "statement": "For every text detected as JSON, NdmIo.from_string raises NotImplementedError; for every text that is neither KVN, XML nor JSON it raises ValueError; neither XML nor KVN parsing is attempted. For every object, NdmIo.to_string with the JSON format raises NotImplementedError.", "quantifier": "every input string and every object", "why_tests_cant": "all strings / all objects", "anchors": ["ccsds_ndm/ndm_io.py:NdmIo.from_string", "ccsds_ndm/ndm_io.py:NdmIo.to_string"]}
{"id": "C03", "title": "KVN messages dispatch on the version keyword", "statement": "When NdmKvnIo.from_string succeeds, the first non-blank line's keyword is one of the eight CCSDS_xxx_VERS keywords and the returned object is an instance of the corresponding message class; any other first keyword makes it raise AttributeError; an input with no non-blank line makes it raise IndexError.", "quantifier": "every input string", "why_tests_cant": "every string and every possible first keyword", "anchors": ["ccsds_ndm/ndm_kvn_io.py:_identify_data_type", "ccsds_ndm/ndm_kvn_io.py:_NdmDataType", "ccsds_ndm/ndm_kvn_io.py:NdmKvnIo.from_string"]}
{"id": "C04", "title": "Blank lines, indentation and line endings are irrelevant in KVN", "statement": "Two KVN texts that have the same sequence of non-blank lines after stripping each line (so in particular a text and the same text with CRLF line endings, extra blank lines, indentation or trailing spaces) give the same result (same object or same error) from NdmKvnIo.from_string.", "quantifier": "every pair of input strings related by line-wise whitespace changes", "why_tests_cant": "every text and every combination of whitespace edits", "anchors": ["ccsds_ndm/ndm_kvn_io.py:NdmKvnIo._pre_process_kvn_data"]}
{"id": "C05", "title": "Spacing around the equals sign is irrelevant; only the first equals sign separates", "statement": "A non-comment line consisting of a keyword without '=', an equals sign and a value is read as exactly that stripped keyword and stripped value whatever whitespace surrounds the equals sign, and further '=' characters stay in the value.", "quantifier": "every keyword, value and amount of whitespace", "why_tests_cant": "infinite input space", "anchors": ["ccsds_ndm/ndm_kvn_io.py:NdmKvnIo._pre_process_kvn_data"]}
{"id": "C06", "title": "Units are separated from values", "statement": "A line 'KEY = value [unit]' is read as keyword, value and unit (all stripped, brackets removed) for every value without '[' and every unit without brackets; a value that does not end in ']' never yields a unit.", "quantifier": "every keyword, value, unit", "why_tests_cant": "infinite input space", "anchors": ["ccsds_ndm/ndm_kvn_io.py:NdmKvnIo._pre_process_kvn_data"]}
{"id": "C07", "title": "Comment text survives reading", "statement": "A line starting with COMMENT is read as a comment whose text is the stripped remainder of the line, minus one optional leading '='; the comment is never split at '=' or at '[', whatever it contains.", "quantifier": "every comment text", "why_tests_cant": "infinite input space", "anchors": ["ccsds_ndm/ndm_kvn_io.py:NdmKvnIo._pre_process_kvn_data"]}
{"id": "C08", "title": "Every line the writer emits is read back as the same keyword/value/unit", "statement": "For every keyword and every value (newline-free, stripped, and not of the ambiguous form containing '[' and ending in ']') with or without a unit, the line NdmKvnIo.to_string writes for it is parsed by NdmKvnIo.from_string's line reader into the upper-cased keyword, the same value text and the same unit; likewise every comment text, including texts starting with '='.", "quantifier": "every keyword, value, unit and comment text", "why_tests_cant": "infinite input space; padding widths interact with long keywords and values", "anchors": ["ccsds_ndm/ndm_kvn_io.py:_fill_str_out_kvn", "ccsds_ndm/ndm_kvn_io.py:NdmKvnIo._pre_process_kvn_data"]}
{"id": "C09", "title": "A value containing '[' and ending in ']' is preserved", "statement": "A text value such as 'SAT [A]' written by NdmKvnIo.to_string and read again is unchanged.", "quantifier": "every text value", "why_tests_cant": "needs the exact shape of value to be tried", "anchors": ["ccsds_ndm/ndm_kvn_io.py:NdmKvnIo._pre_process_kvn_data", "ccsds_ndm/ndm_kvn_io.py:_fill_str_out_kvn"]}
{"id": "C10", "title": "Decimal numbers survive str/parse exactly", "statement": "Every finite decimal value written as text is read back as exactly the same decimal (sign, digits and exponent), and every integer is read back as the same integer.", "quantifier": "every decimal (unbounded coefficient and exponent) and every integer", "why_tests_cant": "infinitely many numbers; scientific notation thresholds", "anchors": ["ccsds_ndm/ndm_kvn_io.py:NdmKvnIo._collate_str_out_subclasses", "ccsds_ndm/models/ndmxml2/ndmxml_2_0_0_common_2_0.py"]}
{"id": "C11", "title": "Reading terminates on every input", "statement": "NdmKvnIo.from_string returns an object or raises after finitely many steps for every input string: the list-identification loop always advances.", "quantifier": "every input string", "why_tests_cant": "non-termination cannot be observed by tests and the inputs are unbounded", "anchors": ["ccsds_ndm/ndm_kvn_io.py:NdmKvnIo.__identify_list", "ccsds_ndm/ndm_kvn_io.py:NdmKvnIo.__identify_sub_segments", "ccsds_ndm/ndm_kvn_io.py:_identify_special_sub_segments"]}
{"id": "C12", "title": "Reader objects can be reused: results do not depend on history", "statement": "For every NdmKvnIo instance and every history of earlier from_string calls on it (successful or raising), from_string(s) gives the same result as on a fresh instance.", "quantifier": "every history of calls and every input string", "why_tests_cant": "unbounded histories including calls aborted by exceptions at every point", "anchors": ["ccsds_ndm/ndm_kvn_io.py:NdmKvnIo.from_string", "ccsds_ndm/ndm_kvn_io.py:NdmKvnIo._keys", "ccsds_ndm/ndm_kvn_io.py:NdmKvnIo._lines"]}
{"id": "C13", "title": "Each XML write honours the schema locations it is given", "statement": "NdmXmlIo.to_string(obj, schema_location=..., no_namespace_schema_location=...) renders with the locations passed in that call, whatever calls were made before on the same instance.", "quantifier": "every history of to_string calls", "why_tests_cant": "depends on unbounded call histories", "anchors": ["ccsds_ndm/ndm_xml_io.py:NdmXmlIo.to_string", "ccsds_ndm/ndm_xml_io.py:NdmXmlIo.__init_serializer", "ccsds_ndm/ndm_io.py:NdmIo.to_string"]}
{"id": "C14", "title": "A combined NDM holding exactly one message is stripped to it, anything else is kept whole", "statement": "Reading a combined (ndm) XML returns the single message when the file holds exactly one message in total, and otherwise returns the Ndm with every message of every kind still present in order.", "quantifier": "every combined message: any number of messages of each of the eight kinds", "why_tests_cant": "unbounded numbers of messages in every combination", "anchors": ["ccsds_ndm/ndm_xml_io.py:_strip_multi_ndm", "ccsds_ndm/ndm_xml_io.py:NdmXmlIo.from_string"]}
{"id": "C15", "title": "Multi-message test agrees with stripping and with the message count", "statement": "The check that the KVN writer uses to refuse combined messages says 'single' exactly when the combined message holds one message in total, which is exactly when stripping removes the ndm wrapper.", "quantifier": "every combined message", "why_tests_cant": "unbounded numbers of messages in every combination", "anchors": ["ccsds_ndm/ndm_xml_io.py:_is_multi_ndm", "ccsds_ndm/ndm_xml_io.py:_strip_multi_ndm"]}
{"id": "C16", "title": "Messages inside a combined NDM get their concrete classes", "statement": "After reading a combined XML every contained message has the concrete class (Aem, Apm, ...) of its slot, its contents are unchanged, and comments and message_id are unchanged.", "quantifier": "every combined message", "why_tests_cant": "unbounded numbers of messages", "anchors": ["ccsds_ndm/ndm_xml_io.py:NdmXmlIo.from_string"]}
{"id": "C17", "title": "KVN output of combined messages", "statement": "Writing an Ndm object as KVN raises NotImplementedError when it does not hold exactly one message, and produces that message's KVN text when it holds exactly one.", "quantifier": "every combined message", "why_tests_cant": "unbounded numbers of messages in every combination", "anchors": ["ccsds_ndm/ndm_kvn_io.py:NdmKvnIo.to_string", "ccsds_ndm/ndm_xml_io.py:_is_multi_ndm"]}
{"id": "C18", "title": "KVN output is recognised as KVN of the same message type", "statement": "Whatever NdmKvnIo.to_string returns for a message object starts with the line 'CCSDS_xxx_VERS = version' of the object's class; NdmIo detects it as KVN, and the KVN reader selects the object's own class.", "quantifier": "every message object of the eight classes", "why_tests_cant": "infinitely many objects", "anchors": ["ccsds_ndm/ndm_kvn_io.py:NdmKvnIo.to_string", "ccsds_ndm/ndm_io.py:_identify_data_format", "ccsds_ndm/ndm_kvn_io.py:_identify_data_type"]}
{"id": "C19", "title": "Section markers are balanced in KVN output", "statement": "In every text produced by the KVN writer the META_START/META_STOP, DATA_START/DATA_STOP and COVARIANCE_START/COVARIANCE_STOP lines emitted by the writer are properly nested and balanced.", "quantifier": "every object", "why_tests_cant": "infinitely many object trees", "anchors": ["ccsds_ndm/ndm_kvn_io.py:_collate_special_header_str_out", "ccsds_ndm/ndm_kvn_io.py:NdmKvnIo._collate_str_out_subclasses"]}
{"id": "C20", "title": "Every keyword of the data model is written under its CCSDS name", "statement": "For every class of the data model and every keyword field, the keyword the KVN writer emits (upper-cased attribute name) is the keyword the reader and the XML schema use for that field.", "quantifier": "every field of every class in the model", "why_tests_cant": "tests only exercise the fields present in sample files", "anchors": ["ccsds_ndm/ndm_kvn_io.py:_fill_str_out_kvn", "ccsds_ndm/ndm_kvn_io.py:_get_ccsds_kw_list", "ccsds_ndm/models/ndmxml2"]}
{"id": "C21", "title": "OPM round trip", "statement": "For every well-formed OPM object, NdmKvnIo.from_string(NdmKvnIo.to_string(obj)) equals obj.", "quantifier": "every well-formed OPM (any optional blocks, any number of maneuvers and user-defined parameters, any texts and numbers); well formed: values of the declared types, one-line texts without surrounding blanks or a bracketed tail, present blocks not empty, at most one comment directly in a block that has no keywords of its own (and none missing before a commented sub-block), no repeated block giving a keyword an earlier one lacks", "why_tests_cant": "infinitely many objects", "anchors": ["ccsds_ndm/ndm_kvn_io.py:NdmKvnIo", "ccsds_ndm/models/ndmxml2/ndmxml_2_0_0_opm_2_0.py"]}
{"id": "C22", "title": "OMM round trip", "statement": "For every well-formed OMM object, NdmKvnIo.from_string(NdmKvnIo.to_string(obj)) equals obj.", "quantifier": "every well-formed OMM; well formed: values of the declared types, one-line texts without surrounding blanks or a bracketed tail, present blocks not empty, at most one comment directly in a block that has no keywords of its own (and none missing before a commented sub-block), no repeated block giving a keyword an earlier one lacks", "why_tests_cant": "infinitely many objects", "anchors": ["ccsds_ndm/ndm_kvn_io.py:NdmKvnIo", "ccsds_ndm/models/ndmxml2/ndmxml_2_0_0_omm_2_0.py"]}
{"id": "C23", "title": "RDM round trip", "statement": "For every well-formed RDM object, NdmKvnIo.from_string(NdmKvnIo.to_string(obj)) equals obj.", "quantifier": "every well-formed RDM; well formed: values of the declared types, one-line texts without surrounding blanks or a bracketed tail, present blocks not empty, at most one comment directly in a block that has no keywords of its own (and none missing before a commented sub-block), no repeated block giving a keyword an earlier one lacks", "why_tests_cant": "infinitely many objects", "anchors": ["ccsds_ndm/ndm_kvn_io.py:NdmKvnIo", "ccsds_ndm/models/ndmxml2/ndmxml_2_0_0_rdm_1_0.py"]}
{"id": "C24", "title": "OEM round trip", "statement": "For every well-formed OEM object, NdmKvnIo.from_string(NdmKvnIo.to_string(obj)) equals obj: same segments, same state vectors in the same order, same covariance matrices.", "quantifier": "every well-formed OEM: any number of segments, state vectors and covariance matrices", "why_tests_cant": "unbounded sizes", "anchors": ["ccsds_ndm/ndm_kvn_io.py:NdmKvnIo", "ccsds_ndm/models/ndmxml2/ndmxml_2_0_0_oem_2_0.py"]}
{"id": "C25", "title": "TDM round trip", "statement": "For every well-formed TDM object, NdmKvnIo.from_string(NdmKvnIo.to_string(obj)) equals obj.", "quantifier": "every well-formed TDM: any number of segments and observations", "why_tests_cant": "unbounded sizes", "anchors": ["ccsds_ndm/ndm_kvn_io.py:NdmKvnIo", "ccsds_ndm/models/ndmxml2/ndmxml_2_0_0_tdm_2_0.py"]}
{"id": "C26", "title": "AEM round trip", "statement": "For every well-formed AEM object, NdmKvnIo.from_string(NdmKvnIo.to_string(obj)) equals obj for every attitude type.", "quantifier": "every well-formed AEM: any number of segments and attitude states, each attitude type", "why_tests_cant": "unbounded sizes, all attitude types", "anchors": ["ccsds_ndm/ndm_kvn_io.py:NdmKvnIo", "ccsds_ndm/models/ndmxml2/ndmxml_2_0_0_aem_1_0.py"]}
{"id": "C27", "title": "CDM round trip", "statement": "For every well-formed CDM object, NdmKvnIo.from_string(NdmKvnIo.to_string(obj)) equals obj.", "quantifier": "every well-formed CDM: both segments, any subset of optional keywords in each", "why_tests_cant": "2^k subsets of optional keywords", "anchors": ["ccsds_ndm/ndm_kvn_io.py:NdmKvnIo", "ccsds_ndm/models/ndmxml2/ndmxml_2_0_0_cdm_1_0.py"]}
{"id": "C28", "title": "APM round trip", "statement": "For every well-formed APM object, NdmKvnIo.from_string(NdmKvnIo.to_string(obj)) equals obj.", "quantifier": "every well-formed APM; well formed: values of the declared types, one-line texts without surrounding blanks or a bracketed tail, present blocks not empty, at most one comment directly in a block that has no keywords of its own (and none missing before a commented sub-block), no repeated block giving a keyword an earlier one lacks", "why_tests_cant": "infinitely many objects", "anchors": ["ccsds_ndm/ndm_kvn_io.py:NdmKvnIo", "ccsds_ndm/models/ndmxml2/ndmxml_2_0_0_apm_1_0.py"]}
{"id": "C29", "title": "OEM covariance matrices are laid out and read as a lower triangle", "statement": "For every 21-element covariance matrix the writer emits six lines holding 1,2,...,6 numbers in row order, and the reader assigns those 21 numbers to the same elements.", "quantifier": "every 21 finite decimals, with any units", "why_tests_cant": "infinitely many matrices", "anchors": ["ccsds_ndm/ndm_kvn_io.py:_collate_special_data_str_out", "ccsds_ndm/ndm_kvn_io.py:NdmKvnIo.__build_special_objects"]}
{"id": "C30", "title": "OEM covariance reference frames are read", "statement": "Reading an OEM covariance block with a COV_REF_FRAME line stores the frame and assigns the matrix numbers to their own elements.", "quantifier": "every OEM covariance block with a COV_REF_FRAME line", "why_tests_cant": "test files contain no such block; must hold for all", "anchors": ["ccsds_ndm/ndm_kvn_io.py:NdmKvnIo.__build_special_objects"]}
{"id": "C31", "title": "Quaternion component order follows QUATERNION_TYPE", "statement": "For every AEM segment, reading an attitude line assigns the scalar component to the position declared by QUATERNION_TYPE, and writing uses the same order as reading.", "quantifier": "every quaternion and every QUATERNION_TYPE value of the schema", "why_tests_cant": "all values; lower-case spellings in the schema", "anchors": ["ccsds_ndm/ndm_kvn_io.py:NdmKvnIo.__prepare_aemsegment_sub_objects", "ccsds_ndm/ndm_kvn_io.py:_collate_special_data_str_out"]}
{"id": "C32", "title": "Euler rotations follow EULER_ROT_SEQ", "statement": "For every rotation sequence of the schema and every attitude type EULER_ANGLE, EULER_ANGLE/RATE or QUATERNION/RATE, the three angle (rate) numbers of an AEM line are labelled X/Y/Z according to the digits of the sequence, in order.", "quantifier": "every rotation sequence, every triple of numbers", "why_tests_cant": "all sequences", "anchors": ["ccsds_ndm/ndm_kvn_io.py:NdmKvnIo.__prepare_aemsegment_sub_objects"]}
{"id": "C33", "title": "State-vector lines keep their components", "statement": "For every OEM state vector whose acceleration components are all present or all absent, the written line read back gives the same epoch, position, velocity and acceleration.", "quantifier": "every state vector", "why_tests_cant": "infinitely many", "anchors": ["ccsds_ndm/ndm_kvn_io.py:_collate_special_data_str_out", "ccsds_ndm/ndm_kvn_io.py:NdmKvnIo.__build_special_objects"]}
{"id": "C34", "title": "Every tracking observation kind can be written and read back", "statement": "For each observation keyword of the TDM schema, an observation holding that quantity is written as one line and read back as the same observation.", "quantifier": "every observation keyword and value", "why_tests_cant": "all keywords and values", "anchors": ["ccsds_ndm/ndm_kvn_io.py:_collate_special_data_str_out", "ccsds_ndm/ndm_kvn_io.py:NdmKvnIo.__build_special_objects"]}
{"id": "C35", "title": "User-defined parameters survive", "statement": "For every list of user-defined parameters, writing and reading returns the same names and values.", "quantifier": "every list of names and values", "why_tests_cant": "unbounded lists, arbitrary names", "anchors": ["ccsds_ndm/ndm_kvn_io.py:_xmlify_list", "ccsds_ndm/ndm_kvn_io.py:_get_min_max_indices", "ccsds_ndm/ndm_kvn_io.py:NdmKvnIo._collate_str_out_subclasses"]}
{"id": "C36", "title": "Absent optional blocks stay absent", "statement": "Reading a KVN text that contains no keyword of an optional block gives None (or an empty list) for that block.", "quantifier": "every input text", "why_tests_cant": "all texts and all blocks", "anchors": ["ccsds_ndm/ndm_kvn_io.py:NdmKvnIo.__build_object_tree"]}
{"id": "C37", "title": "The reader invents nothing", "statement": "Every text, number or enumeration value in an object returned by NdmKvnIo.from_string was stated by the input under the keyword of the field that holds it: it is the value or unit of a line with that keyword, the name in the keyword of a user-defined line, the time tag or value of a tracking observation, a column of an ephemeris, covariance or attitude line (for rotations, about an axis of a stated rotation sequence), or the number or enumeration value such a text denotes.", "quantifier": "every input string that is read successfully", "why_tests_cant": "all inputs", "anchors": ["ccsds_ndm/ndm_kvn_io.py:NdmKvnIo.__build_object_tree", "ccsds_ndm/ndm_kvn_io.py:_xmlify_list"]}
{"id": "C38", "title": "Objects returned by the reader conform to the data model", "statement": "Every object returned by NdmKvnIo.from_string has, at every level, exactly the fields of its class; list fields hold lists, block fields hold an object of the declared class or None, keyword fields hold a value of the declared type or, when the text could not be converted, the text itself.", "quantifier": "every input string that is read successfully", "why_tests_cant": "all inputs", "anchors": ["ccsds_ndm/ndm_kvn_io.py:NdmKvnIo.__build_object_tree", "ccsds_ndm/models/ndmxml2"]}
{"id": "C39", "title": "Section ranges are well formed", "statement": "The line range that the reader assigns to any section lies inside the file and never starts before the point where the search started, so lines before a section's start are never consumed by it.", "quantifier": "every keyword list, start point and list of lines", "why_tests_cant": "all inputs", "anchors": ["ccsds_ndm/ndm_kvn_io.py:_get_min_max_indices"]}
{"id": "C40", "title": "No line is silently dropped", "statement": "If NdmKvnIo.from_string succeeds then every keyword line of the input is represented in the result.", "quantifier": "every input string", "why_tests_cant": "all inputs", "anchors": ["ccsds_ndm/ndm_kvn_io.py:NdmKvnIo.__build_object_tree"]}
{"id": "C41", "title": "The version written in the file is kept", "statement": "The version of a message read from KVN equals the version given on its first line.", "quantifier": "every message text", "why_tests_cant": "all version strings", "anchors": ["ccsds_ndm/ndm_kvn_io.py:_xmlify_root", "ccsds_ndm/models/ndmxml2"]}
{"id": "C42", "title": "Comments stay with the block they were given in", "statement": "For every message whose comments are given in blocks that the schema allows them in, writing and reading returns the same comments in the same blocks.", "quantifier": "every message object, every placement and number of comments", "why_tests_cant": "all placements and counts", "anchors": ["ccsds_ndm/ndm_kvn_io.py:_get_min_max_indices", "ccsds_ndm/ndm_kvn_io.py:__process_comment_lines"]}
{"id": "C43", "title": "Repeated blocks are independent of each other", "statement": "For every list of repeated blocks (CDM segments, maneuvers, ...), each with any subset of its optional keywords, writing and reading returns the same list.", "quantifier": "every list of blocks, every choice of optional keywords in each", "why_tests_cant": "2^k subsets per block", "anchors": ["ccsds_ndm/ndm_kvn_io.py:_get_min_max_indices", "ccsds_ndm/ndm_kvn_io.py:NdmKvnIo.__identify_list"]}
{"id": "C44", "title": "A message survives a file", "statement": "If NdmIo.to_file(obj, format, path) succeeds, then NdmIo.from_path(path) returns what NdmIo.from_string returns for the text NdmIo.to_string gives for the same object and format; in particular a message that survives strings survives files.", "quantifier": "every object, format, path, platform (encoding, line separator) and previous contents of the disk", "why_tests_cant": "all objects and platforms", "anchors": ["ccsds_ndm/ndm_io.py:NdmIo.to_file", "ccsds_ndm/ndm_io.py:NdmIo.from_path", "ccsds_ndm/ndm_kvn_io.py:NdmKvnIo.to_file", "ccsds_ndm/ndm_kvn_io.py:NdmKvnIo.from_path", "ccsds_ndm/ndm_xml_io.py:NdmXmlIo.to_file"]}
{"id": "C45", "title": "A failing to_file leaves the disk alone", "statement": "If NdmIo.to_file raises, every file has the contents it had before the call.", "quantifier": "every object, format, path, platform and disk", "why_tests_cant": "all failures", "anchors": ["ccsds_ndm/ndm_io.py:NdmIo.to_file", "ccsds_ndm/ndm_kvn_io.py:NdmKvnIo.to_file", "ccsds_ndm/ndm_xml_io.py:NdmXmlIo.to_file"]}
{"id": "C46", "title": "to_file is atomic", "statement": "Whenever NdmIo.to_file is interrupted (the process is killed), the file holds either its old or its new contents, and all other files are unchanged.", "quantifier": "every crash point, object, format, path, platform and disk", "why_tests_cant": "crash points cannot be enumerated by tests", "anchors": ["ccsds_ndm/ndm_io.py:NdmIo.to_file", "ccsds_ndm/ndm_kvn_io.py:NdmKvnIo.to_file", "ccsds_ndm/ndm_xml_io.py:NdmXmlIo.to_file"]}
{"id": "C47", "title": "Paths and strings are interchangeable", "statement": "from_path and to_file of NdmIo, NdmKvnIo and NdmXmlIo give the same result whether the path is given as a pathlib.Path or as a str.", "quantifier": "every path, object, format, platform and disk", "why_tests_cant": "all calls", "anchors": ["ccsds_ndm/ndm_io.py:NdmIo.to_file", "ccsds_ndm/ndm_kvn_io.py:NdmKvnIo.to_file", "ccsds_ndm/ndm_xml_io.py:NdmXmlIo.to_file"]}
{"id": "C48", "title": "Line ends of files are irrelevant", "statement": "Two files with the same lines, whichever of LF, CR LF and CR ends each line of each file, give the same result (same object or same exception) from from_path of NdmIo, NdmKvnIo and NdmXmlIo, in every state of the instance.", "quantifier": "every pair of files with the same lines, every platform and instance state", "why_tests_cant": "every combination of line ends", "anchors": ["ccsds_ndm/ndm_io.py:NdmIo.from_path", "ccsds_ndm/ndm_kvn_io.py:NdmKvnIo.from_path", "ccsds_ndm/ndm_xml_io.py:NdmXmlIo.from_path"]}
{"id": "C49", "title": "from_path sees the last write", "statement": "After any history of to_file and from_path calls, from_path of a file gives what the last successful to_file to that file wrote; a file that was not written to is unchanged.", "quantifier": "every history of calls on any files", "why_tests_cant": "histories are unbounded", "anchors": ["ccsds_ndm/ndm_io.py:NdmIo.to_file", "ccsds_ndm/ndm_io.py:NdmIo.from_path"]}
{"id": "C50", "title": "Different messages have different texts", "statement": "Two different well-formed messages, of the same kind or of different kinds, are never written as the same KVN text.", "quantifier": "every pair of well-formed messages", "why_tests_cant": "all pairs of messages", "anchors": ["ccsds_ndm/ndm_kvn_io.py:NdmKvnIo.to_string"]}
{"id": "C51", "title": "A text is read as what it says", "statement": "A text that states a message in the key-value notation is read as that message, whatever blank lines, spacing, order of the keyword lines within an object, position of comments, spelling of numbers and marker lines it uses; hence two texts that say the same give equal objects.", "quantifier": "every text of every message kind, every choice of layout and spelling", "why_tests_cant": "texts and layouts are unbounded", "anchors": ["ccsds_ndm/ndm_kvn_io.py:NdmKvnIo.from_string", "ccsds_ndm/ndm_kvn_io.py:_get_min_max_indices", "ccsds_ndm/ndm_kvn_io.py:_xmlify_list"]}
{"id": "C52", "title": "Rewriting a file does not change what it says", "statement": "A text that states a message in the key-value notation can be read and written again, and the text written is read as the same message.", "quantifier": "every text of every message kind, every layout", "why_tests_cant": "texts are unbounded", "anchors": ["ccsds_ndm/ndm_kvn_io.py:NdmKvnIo.from_string", "ccsds_ndm/ndm_kvn_io.py:NdmKvnIo.to_string"]}
{"id": "C53", "title": "Converting between the formats loses nothing", "statement": "For every well-formed message that the XML library reads back from its own output: the text written by NdmIo.to_string in either format is read by NdmIo.from_string as the message, and converting it any number of times between KVN and XML gives the text that writing the message directly in the last format gives. A combined XML message holding one message is converted to that message's KVN text; one holding several is kept by XML and refused for KVN.", "quantifier": "every well-formed message, every sequence of conversions, every behaviour of the XML library that meets the condition", "why_tests_cant": "messages and sequences are unbounded", "anchors": ["ccsds_ndm/ndm_io.py:NdmIo.from_string", "ccsds_ndm/ndm_io.py:NdmIo.to_string", "ccsds_ndm/ndm_xml_io.py:NdmXmlIo.from_string", "ccsds_ndm/ndm_kvn_io.py:NdmKvnIo.from_string"]}
{"id": "C54", "title": "A broken text is reported by one of a few exceptions", "statement": "If NdmKvnIo.from_string fails it raises AttributeError exactly if the keyword of the first non-blank line is not the version keyword of a message, and otherwise ValueError, IndexError, xsdata's ParserError or, for attitude ephemerides only, KeyError; no other exception, whatever the text and whatever the instance was used for before. NdmXmlIo.from_string raises ParserError only, or TypeError if the root of the document is neither a message nor ndm; NdmIo.from_string raises one of these six exceptions, or NotImplementedError for JSON.", "quantifier": "every input string, every state of the instance", "why_tests_cant": "broken inputs cannot be enumerated", "anchors": ["ccsds_ndm/ndm_kvn_io.py:NdmKvnIo.from_string", "ccsds_ndm/ndm_kvn_io.py:NdmKvnIo.__build_object_tree", "ccsds_ndm/ndm_kvn_io.py:NdmKvnIo.__prepare_aemsegment_sub_objects"]}
{"id": "C55", "title": "What was read can be written", "statement": "Every object that NdmKvnIo.from_string returns can be written by NdmKvnIo.to_string, even if the text is unusual (comments anywhere, missing or repeated keywords, values outside the enumerations).", "quantifier": "every input string", "why_tests_cant": "accepted inputs are unbounded", "anchors": ["ccsds_ndm/ndm_kvn_io.py:NdmKvnIo.to_string", "ccsds_ndm/ndm_kvn_io.py:_collate_str_out", "ccsds_ndm/ndm_kvn_io.py:_collate_special_data_str_out"]}
{"id": "C56", "title": "Calls in different threads do not disturb each other", "statement": "When several threads read texts with NdmIo.from_string, or with NdmKvnIo.from_string on instances that no two threads share, every call gives what it gives in a program with one thread, and ends after a bounded number of its own steps, whatever the other threads do in between.", "quantifier": "every number of threads, every sequence of calls per thread, every text, every interleaving of the accesses to instance attributes, every earlier state of the instances", "why_tests_cant": "interleavings and call sequences are unbounded", "anchors": ["ccsds_ndm/ndm_io.py:NdmIo.from_string", "ccsds_ndm/ndm_kvn_io.py:NdmKvnIo.from_string", "ccsds_ndm/ndm_kvn_io.py:NdmKvnIo._keys", "ccsds_ndm/ndm_kvn_io.py:NdmKvnIo._lines", "ccsds_ndm/ndm_kvn_io.py:NdmKvnIo.object_tree"]}
{"id": "C57", "title": "Other values change only the fields of their keywords", "statement": "If NdmKvnIo.from_string reads a text, it also reads every text with the same lines in which the values and units of some keywords are others (any characters XML allows), and the object has the same structure and the same contents except for the contents of the fields of these keywords. Exceptions: the keywords that describe the columns of an attitude ephemeris, and values of tracking data that begin with a date.", "quantifier": "every text, every set of keywords, all new values", "why_tests_cant": "texts and values are unbounded", "anchors": ["ccsds_ndm/ndm_kvn_io.py:NdmKvnIo.from_string", "ccsds_ndm/ndm_kvn_io.py:NdmKvnIo.__build_object_tree", "ccsds_ndm/ndm_kvn_io.py:_xmlify_list", "ccsds_ndm/ndm_kvn_io.py:_xmlify_single_elem", "ccsds_ndm/ndm_kvn_io.py:_xmlify_root"]}
{"id": "C58", "title": "Setting, changing or deleting a field changes only its lines", "statement": "If an object can be written by NdmKvnIo.to_string, it can still be written after a field of it (or the fields of one name in several of its parts) was set, changed, or deleted by assigning None, and the two texts have the same lines in the same order apart from the lines of that keyword. Exceptions: the fields of ephemeris, covariance, attitude and tracking data lines, and QUATERNION_TYPE, which determines how quaternions are written.", "quantifier": "every object that can be written, every field written as keyword lines, all old and new values without line breaks", "why_tests_cant": "objects, fields and values are unbounded", "anchors": ["ccsds_ndm/ndm_kvn_io.py:NdmKvnIo.to_string", "ccsds_ndm/ndm_kvn_io.py:_collate_str_out", "ccsds_ndm/ndm_kvn_io.py:_collate_str_out_subclasses", "ccsds_ndm/ndm_kvn_io.py:_fill_str_out_kvn"]}
{"id": "C59", "title": "Lines with unknown keywords do not change what is read", "statement": "If NdmKvnIo.from_string reads a text, it reads the same text with additional lines whose keywords the data model does not have (KEYWORD = value, not a number or a date) as the same object: lines it does not know never make it lose lines it knows.", "quantifier": "every text, any number of unknown lines at any place, every state of the instance", "why_tests_cant": "texts, unknown keywords and places are unbounded", "anchors": ["ccsds_ndm/ndm_kvn_io.py:NdmKvnIo.from_string", "ccsds_ndm/ndm_kvn_io.py:NdmKvnIo.__identify_list", "ccsds_ndm/ndm_kvn_io.py:NdmKvnIo._identify_segments", "ccsds_ndm/ndm_kvn_io.py:_get_min_max_indices"]}
{"id": "C60", "title": "Calls on different files do not disturb each other", "statement": "When several threads or processes read and write files with NdmIo.from_path and NdmIo.to_file and none writes a file that another one uses, every call gives what it gives alone, it ends after a bounded number of accesses, and in the end the files are as if each thread had been alone.", "quantifier": "every number of threads, every sequence of calls per thread, every message, disk and platform, every interleaving of the file accesses and every division of files into pieces", "why_tests_cant": "interleavings, call sequences and file sizes are unbounded", "anchors": ["ccsds_ndm/ndm_io.py:NdmIo.from_path", "ccsds_ndm/ndm_io.py:NdmIo.to_file", "ccsds_ndm/ndm_kvn_io.py:NdmKvnIo.to_file", "ccsds_ndm/ndm_xml_io.py:NdmXmlIo.to_file"]}
{"id": "C61", "title": "A file that is being rewritten is read as the old or as the new message", "statement": "When one process replaces a file with NdmIo.to_file while another one reads it with NdmIo.from_path, the reader gets the old message, the new one, or an exception, but never a message that neither of them is.", "quantifier": "every message, old contents and platform, every interleaving of the file accesses and every division of files into pieces", "why_tests_cant": "interleavings and file sizes are unbounded", "anchors": ["ccsds_ndm/ndm_io.py:NdmIo.from_path", "ccsds_ndm/ndm_io.py:NdmIo.to_file", "ccsds_ndm/ndm_kvn_io.py:NdmKvnIo.to_file", "ccsds_ndm/ndm_xml_io.py:NdmXmlIo.to_file"]}
{"id": "C62", "title": "Threads can share an NdmXmlIo", "statement": "When several threads read and write with NdmXmlIo.from_string and NdmXmlIo.to_string on instances they share, every call gives what it gives on a new instance, and ends after a bounded number of its own steps.", "quantifier": "every number of threads and instances, every sequence of calls per thread, every interleaving of the accesses to instance attributes, every earlier state of the instances, every behaviour of the XML library", "why_tests_cant": "interleavings and call sequences are unbounded", "anchors": ["ccsds_ndm/ndm_xml_io.py:NdmXmlIo.from_string", "ccsds_ndm/ndm_xml_io.py:NdmXmlIo.to_string", "ccsds_ndm/ndm_xml_io.py:NdmXmlIo.__init_parser", "ccsds_ndm/ndm_xml_io.py:NdmXmlIo.__init_serializer"]}
{"id": "C63", "title": "A text that was cut short is not read as a message", "statement": "If the end of a KVN text is missing (a download or a write was interrupted), NdmKvnIo.from_string raises an exception: it does not return the message without its lost part.", "quantifier": "every message, every place at which its text can be cut, every state of the instance", "why_tests_cant": "texts and places are unbounded", "anchors": ["ccsds_ndm/ndm_io.py:NdmIo.from_string", "ccsds_ndm/ndm_kvn_io.py:NdmKvnIo.from_string", "ccsds_ndm/ndm_kvn_io.py:NdmKvnIo.__identify_list", "ccsds_ndm/ndm_kvn_io.py:NdmKvnIo._identify_segments"]}
{"id": "C64", "title": "What is written says what the object holds", "statement": "The text NdmKvnIo.to_string gives for a message is, by the rules of the key-value notation alone and whatever this library's reader makes of it, a text of exactly this message: version line, header, metadata and data with every keyword, value, unit and comment of the object.", "quantifier": "every well-formed message of all eight kinds", "why_tests_cant": "messages and values are unbounded", "anchors": ["ccsds_ndm/ndm_io.py:NdmIo.to_string", "ccsds_ndm/ndm_kvn_io.py:NdmKvnIo.to_string", "ccsds_ndm/ndm_kvn_io.py:_collate_str_out", "ccsds_ndm/ndm_kvn_io.py:_collate_str_out_subclasses", "ccsds_ndm/ndm_kvn_io.py:_fill_str_out_kvn"]}
{"id": "C65", "title": "What is written as XML is read back", "statement": "A message, or a combined message, that conforms to the data model and whose texts XML can hold is written by NdmXmlIo.to_string without an exception, and NdmXmlIo.from_string and NdmIo.from_string give the same message for this text: the same classes, texts, enumeration members and units, and the same numbers (possibly in a notation without exponent). This includes every message read from KVN.", "quantifier": "every message of all eight kinds and every combined message, all schema locations, every state of the two instances, every layout of the XML text", "why_tests_cant": "messages, values and layouts are unbounded", "anchors": ["ccsds_ndm/ndm_xml_io.py:NdmXmlIo.to_string", "ccsds_ndm/ndm_xml_io.py:NdmXmlIo.from_string", "ccsds_ndm/ndm_io.py:NdmIo.from_string", "ccsds_ndm/ndm_xml_io.py:_strip_multi_ndm"]}
{"id": "C66", "title": "What is read from XML is a message of the data model", "statement": "Whenever NdmXmlIo.from_string returns an object, it is a message of the kind the root tag names, with the attributes, types and enumeration members of the data model, or a combined message all of whose messages are.", "quantifier": "every XML text, every state of the instance, every layout", "why_tests_cant": "texts are unbounded", "anchors": ["ccsds_ndm/ndm_xml_io.py:NdmXmlIo.from_string", "ccsds_ndm/ndm_xml_io.py:_strip_multi_ndm", "ccsds_ndm/ndm_io.py:NdmIo.from_string"]}
{"id": "C67", "title": "Reading XML loses nothing", "statement": "Whenever NdmXmlIo.from_string returns an object, everything in the document is in it: writing it with NdmXmlIo.to_string gives a document that has every element of the one that was read, with its text and its attributes, and for each tag in the same order.", "quantifier": "every XML text, every state of the two instances, all schema locations", "why_tests_cant": "texts are unbounded", "anchors": ["ccsds_ndm/ndm_xml_io.py:NdmXmlIo.from_string", "ccsds_ndm/ndm_xml_io.py:NdmXmlIo.to_string", "ccsds_ndm/ndm_xml_io.py:_strip_multi_ndm"]}
{"id": "C68", "title": "XML with elements the data model does not have is refused", "statement": "NdmXmlIo.from_string raises ParserError for a message or combined message that holds, at any depth, an element the data model does not have at this place, or one more of an element than there may be; all other well-formed messages and combined messages are read.", "quantifier": "every XML text with one of the message tags or ndm as its root, every state of the instance", "why_tests_cant": "texts and depths are unbounded", "anchors": ["ccsds_ndm/ndm_xml_io.py:NdmXmlIo.from_string", "ccsds_ndm/ndm_xml_io.py:NdmXmlIo.__init_parser"]}
{"id": "C69", "title": "A message written as XML names its kind and version", "statement": "The document NdmXmlIo.to_string writes for a message has the tag, identifier and version of its kind, whatever the object holds; in a combined message every message has those of its own kind, and there is one element for each message.", "quantifier": "every object of the eight kinds and every combined message, all schema locations, every state of the instance", "why_tests_cant": "objects are unbounded", "anchors": ["ccsds_ndm/ndm_xml_io.py:NdmXmlIo.to_string", "ccsds_ndm/ndm_xml_io.py:NdmXmlIo.__init_serializer"]}
{"id": "C70", "title": "Rewriting XML comes to rest", "statement": "A message or combined message that was read from XML can be written as XML and read again any number of times without an exception; the first time its numbers may change their notation but not their values, and afterwards nothing changes any more.", "quantifier": "every XML text without control characters, every number of rewritings, all schema locations, all states of the instances used", "why_tests_cant": "texts and numbers of rewritings are unbounded", "anchors": ["ccsds_ndm/ndm_xml_io.py:NdmXmlIo.from_string", "ccsds_ndm/ndm_xml_io.py:NdmXmlIo.to_string", "ccsds_ndm/ndm_xml_io.py:_strip_multi_ndm"]}
{"id": "C71", "title": "A message that lacks something mandatory is refused", "statement": "When something is missing that the schema requires, at any depth, NdmXmlIo.from_string, NdmKvnIo.from_string and NdmKvnIo.to_string raise an exception: they do not give an incomplete message.", "quantifier": "every text and every message, at any depth", "why_tests_cant": "texts and depths are unbounded", "anchors": ["ccsds_ndm/ndm_xml_io.py:NdmXmlIo.from_string", "ccsds_ndm/ndm_kvn_io.py:NdmKvnIo.from_string", "ccsds_ndm/ndm_kvn_io.py:NdmKvnIo.to_string", "ccsds_ndm/ndm_xml_io.py:NdmXmlIo.__init_parser"]}
{"id": "C72", "title": "What was read from XML can be written in the key-value notation", "statement": "Whenever NdmXmlIo.from_string returns a message, NdmKvnIo.to_string writes it without an exception.", "quantifier": "every XML text of all eight kinds, every state of the instance", "why_tests_cant": "texts are unbounded", "anchors": ["ccsds_ndm/ndm_xml_io.py:NdmXmlIo.from_string", "ccsds_ndm/ndm_kvn_io.py:NdmKvnIo.to_string", "ccsds_ndm/ndm_kvn_io.py:_collate_str_out_subclasses", "ccsds_ndm/ndm_kvn_io.py:_collate_special_data_str_out"]}
{"id": "C73", "title": "from_path reads what is in the file", "statement": "from_path of NdmIo, NdmKvnIo and NdmXmlIo does exactly what from_string does with the text of the file, if the text has no carriage return; without the file it raises OSError, for a file that cannot be decoded ValueError, and both leave the instance as it was.", "quantifier": "every disk, platform (encoding), path and state of the instance", "why_tests_cant": "contents of files are unbounded", "anchors": ["ccsds_ndm/ndm_io.py:NdmIo.from_path", "ccsds_ndm/ndm_kvn_io.py:NdmKvnIo.from_path", "ccsds_ndm/ndm_xml_io.py:NdmXmlIo.from_path"]}
{"id": "C74", "title": "Writing KVN raises only a few exceptions", "statement": "For every message object of the data model, complete or not, NdmKvnIo.to_string gives a text or raises AttributeError or TypeError; for OEM and TDM also IndexError, for AEM also KeyError or StopIteration; never another exception. So this holds for rewriting and converting what was read.", "quantifier": "every object of the eight kinds that conforms to the data model, every text of either notation", "why_tests_cant": "objects are unbounded", "anchors": ["ccsds_ndm/ndm_kvn_io.py:NdmKvnIo.to_string", "ccsds_ndm/ndm_kvn_io.py:NdmKvnIo._collate_str_out", "ccsds_ndm/ndm_kvn_io.py:NdmKvnIo._collate_str_out_subclasses", "ccsds_ndm/ndm_kvn_io.py:_collate_special_data_str_out"]}
{"id": "C75", "title": "The layout of an XML document is irrelevant", "statement": "NdmXmlIo.from_string reads two XML texts alike (equal objects, or the same exception) if their documents differ only in the order of attributes, in the order of elements with different names, in text around nested elements and in attributes of other namespaces such as xsi:schemaLocation; the order of elements with the same name is significant.", "quantifier": "every pair of documents, at any depth, valid or not, and every state of the two instances", "why_tests_cant": "documents are unbounded and have unboundedly many orders", "anchors": ["ccsds_ndm/ndm_xml_io.py:NdmXmlIo.from_string", "ccsds_ndm/ndm_xml_io.py:_identify_data_type"]}
{"id": "C76", "title": "Values the schema does not allow are refused", "statement": "When a value in a text is not of the type the schema gives (a number, or one of the values of an enumeration such as a unit), from_string of NdmXmlIo and NdmKvnIo raises an exception: it does not give a message with a text in the place of the number.", "quantifier": "every text, every value at any depth", "why_tests_cant": "texts, depths and values are unbounded", "anchors": ["ccsds_ndm/ndm_xml_io.py:NdmXmlIo.from_string", "ccsds_ndm/ndm_kvn_io.py:NdmKvnIo.from_string", "ccsds_ndm/ndm_kvn_io.py:_xmlify_list", "ccsds_ndm/ndm_xml_io.py:NdmXmlIo.__init_parser"]}
{"id": "C77", "title": "Segments, manoeuvres, data lines and comments are written independently of each other", "statement": "In the text NdmKvnIo.to_string gives, the lines written for one item of a list (a segment, a manoeuvre, a line of data, a comment, a user-defined parameter) are the same in every message and at every place in the list; adding or removing an item adds or removes its lines, in one place, and changes nothing else, and an exception is raised exactly if the rest of the message or one of the items raises it.", "quantifier": "every message of all eight kinds, every list in it and every number and order of items", "why_tests_cant": "messages and lists are unbounded", "anchors": ["ccsds_ndm/ndm_kvn_io.py:NdmKvnIo.to_string", "ccsds_ndm/ndm_kvn_io.py:NdmKvnIo._collate_str_out", "ccsds_ndm/ndm_kvn_io.py:NdmKvnIo._collate_str_out_subclasses", "ccsds_ndm/ndm_kvn_io.py:_collate_special_data_str_out"]}
{"id": "C78", "title": "Lines are written in the order of the schema", "statement": "In the text NdmKvnIo.to_string gives, the version line comes first and the fields of every block follow in the order in which the CCSDS schema lists them, at any depth; so this holds for a message that was read from lines or elements in another order.", "quantifier": "every object of the eight kinds that conforms to the data model, every text of either notation", "why_tests_cant": "objects are unbounded and blocks nest and repeat", "anchors": ["ccsds_ndm/ndm_kvn_io.py:NdmKvnIo.to_string", "ccsds_ndm/ndm_kvn_io.py:NdmKvnIo._collate_str_out", "ccsds_ndm/ndm_kvn_io.py:NdmKvnIo._collate_str_out_subclasses", "ccsds_ndm/ndm_kvn_io.py:_collate_special_data_str_out"]}
{"id": "C79", "title": "What is written as XML is as valid as the object", "statement": "The document NdmXmlIo.to_string writes for a message of the data model has no element the schema does not have there, and lacks something the schema requires, or has a number or enumeration value that is none, exactly if the object does; so a complete message with values of the right types gives a document the schema tables admit.", "quantifier": "every object of the eight kinds and every combined message that conforms to the data model, any schema locations and state of the instance", "why_tests_cant": "objects are unbounded", "anchors": ["ccsds_ndm/ndm_xml_io.py:NdmXmlIo.to_string", "ccsds_ndm/ndm_xml_io.py:NdmXmlIo.__init_serializer"]}
{"id": "C80", "title": "to_file writes what to_string gives", "statement": "to_file of NdmIo, NdmKvnIo and NdmXmlIo stores in the file exactly the lines of the text that to_string gives for the same arguments, with the line separator of the platform and whatever the file held before, and touches no other file; it raises what to_string raises, without touching the file, OSError if the file cannot be opened, and ValueError if the text cannot be encoded, which leaves an empty file.", "quantifier": "all objects, formats, arguments, contents of the disk, encodings and line separators, and states of the instance", "why_tests_cant": "The outcome depends on every text that can be written, on the old contents of every file and on the platform; tests see one platform and a few messages.", "anchors": ["ccsds_ndm/ndm_io.py:NdmIo.to_file", "ccsds_ndm/ndm_kvn_io.py:NdmKvnIo.to_file", "ccsds_ndm/ndm_xml_io.py:NdmXmlIo.to_file"]}
{"id": "C81", "title": "Writing KVN adds only printable ASCII characters", "statement": "The text NdmKvnIo.to_string gives for a message of the data model consists of printable ASCII characters, line feeds, and the characters (or their upper case, in names of user-defined parameters) of the texts in the message; so a message with printable ASCII texts gives printable ASCII lines; reading a KVN text and writing what was read adds no other characters to those of the text either, and the same holds for converting an XML message, or the messages of a combined XML message, to KVN; and a well-formed message with ASCII texts without carriage returns can be stored in and read back from a file on every platform whose encoding covers ASCII.", "quantifier": "every object that conforms to the data model, every class of characters, every platform and disk", "why_tests_cant": "messages, texts and numbers are unbounded, and the encoding is that of the platform", "anchors": ["ccsds_ndm/ndm_kvn_io.py:NdmKvnIo.to_string", "ccsds_ndm/ndm_kvn_io.py:_fill_str_out_kvn", "ccsds_ndm/ndm_kvn_io.py:_collate_special_data_str_out", "ccsds_ndm/ndm_kvn_io.py:NdmKvnIo.to_file", "ccsds_ndm/ndm_kvn_io.py:NdmKvnIo.from_path"]}
{"id": "C82", "title": "An XML message is read as exactly what its document says", "statement": "A document with the tag of a message or of a combined message is read if and only if it holds, at any depth, no element the data model does not have there, and then the object is determined field by field: a field has the value of the attribute, of the text or of the one child with its name, a repeated field has the values of all children with its name in document order, and a field for which the document has nothing is None or an empty list; a text is read as the number or enumeration member it stands for, and kept as it is otherwise; a combined message with exactly one message in it is read as this message. A text that is not XML or whose root the data model does not have raises ParserError, and from any other document nothing is read but what it says, or a value in it.", "quantifier": "every text, every document of any size and depth", "why_tests_cant": "documents are unbounded trees", "anchors": ["ccsds_ndm/ndm_io.py:NdmIo.from_string", "ccsds_ndm/ndm_xml_io.py:NdmXmlIo.from_string", "ccsds_ndm/ndm_xml_io.py:NdmXmlIo.from_bytes", "ccsds_ndm/ndm_xml_io.py:NdmXmlIo.__init_parser"]}
{"id": "C83", "title": "What is written as XML says what the object holds", "statement": "The text NdmXmlIo.to_string gives for a message of the data model, or a combined message, is XML whose document says, field by field and at any depth, the values the object holds, numbers as numbers; so two messages, or two combined messages, for which the same text is written, by whatever instances and with whatever schema locations, are of the same kind and hold the same values.", "quantifier": "every object of the eight kinds and every combined message that conforms to the data model and has texts XML can hold, any schema locations and states of the instances", "why_tests_cant": "objects are unbounded, and pairs of objects are compared", "anchors": ["ccsds_ndm/ndm_xml_io.py:NdmXmlIo.to_string", "ccsds_ndm/ndm_xml_io.py:NdmXmlIo.__init_serializer"]}
