"""Source of properties.jsonl (kept as python for readability)."""
import json
P = []
def p(title, statement, quantifier, why, anchors):
    P.append(dict(id="C%02d" % (len(P) + 1), title=title, statement=statement, quantifier=quantifier,
                  why_tests_cant=why, anchors=anchors))
IO = "ccsds_ndm/ndm_io.py"; KV = "ccsds_ndm/ndm_kvn_io.py"; XM = "ccsds_ndm/ndm_xml_io.py"; MD = "ccsds_ndm/models/ndmxml2"

p("Format detection is decided by the stripped text alone",
  "NdmIo.from_string classifies every string by its whitespace-stripped content: KVN iff it starts with 'CCSDS_', XML iff it starts with '<' and ends with '>', JSON iff it starts with '[' and ends with ']', and raises ValueError otherwise. The three cases are mutually exclusive, and adding or removing surrounding whitespace never changes the classification.",
  "every input string", "the set of strings is infinite; tests only try a handful of files",
  [IO + ":_identify_data_format", IO + ":NdmIo.from_string"])
p("JSON is always refused, unknown data always a ValueError",
  "For every text detected as JSON, NdmIo.from_string raises NotImplementedError; for every text that is neither KVN, XML nor JSON it raises ValueError; neither XML nor KVN parsing is attempted. For every object, NdmIo.to_string with the JSON format raises NotImplementedError.",
  "every input string and every object", "all strings / all objects",
  [IO + ":NdmIo.from_string", IO + ":NdmIo.to_string"])
p("KVN messages dispatch on the version keyword",
  "When NdmKvnIo.from_string succeeds, the first non-blank line's keyword is one of the eight CCSDS_xxx_VERS keywords and the returned object is an instance of the corresponding message class; any other first keyword makes it raise AttributeError; an input with no non-blank line makes it raise IndexError.",
  "every input string", "every string and every possible first keyword",
  [KV + ":_identify_data_type", KV + ":_NdmDataType", KV + ":NdmKvnIo.from_string"])
p("Blank lines, indentation and line endings are irrelevant in KVN",
  "Two KVN texts that have the same sequence of non-blank lines after stripping each line (so in particular a text and the same text with CRLF line endings, extra blank lines, indentation or trailing spaces) give the same result (same object or same error) from NdmKvnIo.from_string.",
  "every pair of input strings related by line-wise whitespace changes", "every text and every combination of whitespace edits",
  [KV + ":NdmKvnIo._pre_process_kvn_data"])
p("Spacing around the equals sign is irrelevant; only the first equals sign separates",
  "A non-comment line consisting of a keyword without '=', an equals sign and a value is read as exactly that stripped keyword and stripped value whatever whitespace surrounds the equals sign, and further '=' characters stay in the value.",
  "every keyword, value and amount of whitespace", "infinite input space",
  [KV + ":NdmKvnIo._pre_process_kvn_data"])
p("Units are separated from values",
  "A line 'KEY = value [unit]' is read as keyword, value and unit (all stripped, brackets removed) for every value without '[' and every unit without brackets; a value that does not end in ']' never yields a unit.",
  "every keyword, value, unit", "infinite input space", [KV + ":NdmKvnIo._pre_process_kvn_data"])
p("Comment text survives reading",
  "A line starting with COMMENT is read as a comment whose text is the stripped remainder of the line, minus one optional leading '='; the comment is never split at '=' or at '[', whatever it contains.",
  "every comment text", "infinite input space", [KV + ":NdmKvnIo._pre_process_kvn_data"])
p("Every line the writer emits is read back as the same keyword/value/unit",
  "For every keyword and every value (newline-free, stripped, and not of the ambiguous form containing '[' and ending in ']') with or without a unit, the line NdmKvnIo.to_string writes for it is parsed by NdmKvnIo.from_string's line reader into the upper-cased keyword, the same value text and the same unit; likewise every comment text, including texts starting with '='.",
  "every keyword, value, unit and comment text", "infinite input space; padding widths interact with long keywords and values",
  [KV + ":_fill_str_out_kvn", KV + ":NdmKvnIo._pre_process_kvn_data"])
p("A value containing '[' and ending in ']' is preserved",
  "A text value such as 'SAT [A]' written by NdmKvnIo.to_string and read again is unchanged.",
  "every text value", "needs the exact shape of value to be tried",
  [KV + ":NdmKvnIo._pre_process_kvn_data", KV + ":_fill_str_out_kvn"])
p("Decimal numbers survive str/parse exactly",
  "Every finite decimal value written as text is read back as exactly the same decimal (sign, digits and exponent), and every integer is read back as the same integer.",
  "every decimal (unbounded coefficient and exponent) and every integer", "infinitely many numbers; scientific notation thresholds",
  [KV + ":NdmKvnIo._collate_str_out_subclasses", MD + "/ndmxml_2_0_0_common_2_0.py"])
p("Reading terminates on every input",
  "NdmKvnIo.from_string returns an object or raises after finitely many steps for every input string: the list-identification loop always advances.",
  "every input string", "non-termination cannot be observed by tests and the inputs are unbounded",
  [KV + ":NdmKvnIo.__identify_list", KV + ":NdmKvnIo.__identify_sub_segments", KV + ":_identify_special_sub_segments"])
p("Reader objects can be reused: results do not depend on history",
  "For every NdmKvnIo instance and every history of earlier from_string calls on it (successful or raising), from_string(s) gives the same result as on a fresh instance.",
  "every history of calls and every input string", "unbounded histories including calls aborted by exceptions at every point",
  [KV + ":NdmKvnIo.from_string", KV + ":NdmKvnIo._keys", KV + ":NdmKvnIo._lines"])
p("Each XML write honours the schema locations it is given",
  "NdmXmlIo.to_string(obj, schema_location=..., no_namespace_schema_location=...) renders with the locations passed in that call, whatever calls were made before on the same instance.",
  "every history of to_string calls", "depends on unbounded call histories",
  [XM + ":NdmXmlIo.to_string", XM + ":NdmXmlIo.__init_serializer", IO + ":NdmIo.to_string"])
p("A combined NDM holding exactly one message is stripped to it, anything else is kept whole",
  "Reading a combined (ndm) XML returns the single message when the file holds exactly one message in total, and otherwise returns the Ndm with every message of every kind still present in order.",
  "every combined message: any number of messages of each of the eight kinds", "unbounded numbers of messages in every combination",
  [XM + ":_strip_multi_ndm", XM + ":NdmXmlIo.from_string"])
p("Multi-message test agrees with stripping and with the message count",
  "The check that the KVN writer uses to refuse combined messages says 'single' exactly when the combined message holds one message in total, which is exactly when stripping removes the ndm wrapper.",
  "every combined message", "unbounded numbers of messages in every combination",
  [XM + ":_is_multi_ndm", XM + ":_strip_multi_ndm"])
p("Messages inside a combined NDM get their concrete classes",
  "After reading a combined XML every contained message has the concrete class (Aem, Apm, ...) of its slot, its contents are unchanged, and comments and message_id are unchanged.",
  "every combined message", "unbounded numbers of messages", [XM + ":NdmXmlIo.from_string"])
p("KVN output of combined messages",
  "Writing an Ndm object as KVN raises NotImplementedError when it does not hold exactly one message, and produces that message's KVN text when it holds exactly one.",
  "every combined message", "unbounded numbers of messages in every combination",
  [KV + ":NdmKvnIo.to_string", XM + ":_is_multi_ndm"])
p("KVN output is recognised as KVN of the same message type",
  "Whatever NdmKvnIo.to_string returns for a message object starts with the line 'CCSDS_xxx_VERS = version' of the object's class; NdmIo detects it as KVN, and the KVN reader selects the object's own class.",
  "every message object of the eight classes", "infinitely many objects",
  [KV + ":NdmKvnIo.to_string", IO + ":_identify_data_format", KV + ":_identify_data_type"])
p("Section markers are balanced in KVN output",
  "In every text produced by the KVN writer the META_START/META_STOP, DATA_START/DATA_STOP and COVARIANCE_START/COVARIANCE_STOP lines emitted by the writer are properly nested and balanced.",
  "every object", "infinitely many object trees", [KV + ":_collate_special_header_str_out", KV + ":NdmKvnIo._collate_str_out_subclasses"])
p("Every keyword of the data model is written under its CCSDS name",
  "For every class of the data model and every keyword field, the keyword the KVN writer emits (upper-cased attribute name) is the keyword the reader and the XML schema use for that field.",
  "every field of every class in the model", "tests only exercise the fields present in sample files",
  [KV + ":_fill_str_out_kvn", KV + ":_get_ccsds_kw_list", MD])
p("OPM round trip", "For every well-formed OPM object, NdmKvnIo.from_string(NdmKvnIo.to_string(obj)) equals obj.",
  "every well-formed OPM (any optional blocks, any number of maneuvers and user-defined parameters, any texts and numbers); well formed: values of the declared types, one-line texts without surrounding blanks or a bracketed tail, present blocks not empty, at most one comment directly in a block that has no keywords of its own (and none missing before a commented sub-block), no repeated block giving a keyword an earlier one lacks",
  "infinitely many objects", [KV + ":NdmKvnIo", MD + "/ndmxml_2_0_0_opm_2_0.py"])
p("OMM round trip", "For every well-formed OMM object, NdmKvnIo.from_string(NdmKvnIo.to_string(obj)) equals obj.",
  "every well-formed OMM; well formed: values of the declared types, one-line texts without surrounding blanks or a bracketed tail, present blocks not empty, at most one comment directly in a block that has no keywords of its own (and none missing before a commented sub-block), no repeated block giving a keyword an earlier one lacks", "infinitely many objects", [KV + ":NdmKvnIo", MD + "/ndmxml_2_0_0_omm_2_0.py"])
p("RDM round trip", "For every well-formed RDM object, NdmKvnIo.from_string(NdmKvnIo.to_string(obj)) equals obj.",
  "every well-formed RDM; well formed: values of the declared types, one-line texts without surrounding blanks or a bracketed tail, present blocks not empty, at most one comment directly in a block that has no keywords of its own (and none missing before a commented sub-block), no repeated block giving a keyword an earlier one lacks", "infinitely many objects", [KV + ":NdmKvnIo", MD + "/ndmxml_2_0_0_rdm_1_0.py"])
p("OEM round trip", "For every well-formed OEM object, NdmKvnIo.from_string(NdmKvnIo.to_string(obj)) equals obj: same segments, same state vectors in the same order, same covariance matrices.",
  "every well-formed OEM: any number of segments, state vectors and covariance matrices", "unbounded sizes", [KV + ":NdmKvnIo", MD + "/ndmxml_2_0_0_oem_2_0.py"])
p("TDM round trip", "For every well-formed TDM object, NdmKvnIo.from_string(NdmKvnIo.to_string(obj)) equals obj.",
  "every well-formed TDM: any number of segments and observations", "unbounded sizes", [KV + ":NdmKvnIo", MD + "/ndmxml_2_0_0_tdm_2_0.py"])
p("AEM round trip", "For every well-formed AEM object, NdmKvnIo.from_string(NdmKvnIo.to_string(obj)) equals obj for every attitude type.",
  "every well-formed AEM: any number of segments and attitude states, each attitude type", "unbounded sizes, all attitude types", [KV + ":NdmKvnIo", MD + "/ndmxml_2_0_0_aem_1_0.py"])
p("CDM round trip", "For every well-formed CDM object, NdmKvnIo.from_string(NdmKvnIo.to_string(obj)) equals obj.",
  "every well-formed CDM: both segments, any subset of optional keywords in each", "2^k subsets of optional keywords", [KV + ":NdmKvnIo", MD + "/ndmxml_2_0_0_cdm_1_0.py"])
p("APM round trip", "For every well-formed APM object, NdmKvnIo.from_string(NdmKvnIo.to_string(obj)) equals obj.",
  "every well-formed APM; well formed: values of the declared types, one-line texts without surrounding blanks or a bracketed tail, present blocks not empty, at most one comment directly in a block that has no keywords of its own (and none missing before a commented sub-block), no repeated block giving a keyword an earlier one lacks", "infinitely many objects", [KV + ":NdmKvnIo", MD + "/ndmxml_2_0_0_apm_1_0.py"])
p("OEM covariance matrices are laid out and read as a lower triangle",
  "For every 21-element covariance matrix the writer emits six lines holding 1,2,...,6 numbers in row order, and the reader assigns those 21 numbers to the same elements.",
  "every 21 finite decimals, with any units", "infinitely many matrices", [KV + ":_collate_special_data_str_out", KV + ":NdmKvnIo.__build_special_objects"])
p("OEM covariance reference frames are read",
  "Reading an OEM covariance block with a COV_REF_FRAME line stores the frame and assigns the matrix numbers to their own elements.",
  "every OEM covariance block with a COV_REF_FRAME line", "test files contain no such block; must hold for all",
  [KV + ":NdmKvnIo.__build_special_objects"])
p("Quaternion component order follows QUATERNION_TYPE",
  "For every AEM segment, reading an attitude line assigns the scalar component to the position declared by QUATERNION_TYPE, and writing uses the same order as reading.",
  "every quaternion and every QUATERNION_TYPE value of the schema", "all values; lower-case spellings in the schema",
  [KV + ":NdmKvnIo.__prepare_aemsegment_sub_objects", KV + ":_collate_special_data_str_out"])
p("Euler rotations follow EULER_ROT_SEQ",
  "For every rotation sequence of the schema and every attitude type EULER_ANGLE, EULER_ANGLE/RATE or QUATERNION/RATE, the three angle (rate) numbers of an AEM line are labelled X/Y/Z according to the digits of the sequence, in order.",
  "every rotation sequence, every triple of numbers", "all sequences",
  [KV + ":NdmKvnIo.__prepare_aemsegment_sub_objects"])
p("State-vector lines keep their components",
  "For every OEM state vector whose acceleration components are all present or all absent, the written line read back gives the same epoch, position, velocity and acceleration.",
  "every state vector", "infinitely many", [KV + ":_collate_special_data_str_out", KV + ":NdmKvnIo.__build_special_objects"])
p("Every tracking observation kind can be written and read back",
  "For each observation keyword of the TDM schema, an observation holding that quantity is written as one line and read back as the same observation.",
  "every observation keyword and value", "all keywords and values", [KV + ":_collate_special_data_str_out", KV + ":NdmKvnIo.__build_special_objects"])
p("User-defined parameters survive",
  "For every list of user-defined parameters, writing and reading returns the same names and values.",
  "every list of names and values", "unbounded lists, arbitrary names", [KV + ":_xmlify_list", KV + ":_get_min_max_indices", KV + ":NdmKvnIo._collate_str_out_subclasses"])
p("Absent optional blocks stay absent",
  "Reading a KVN text that contains no keyword of an optional block gives None (or an empty list) for that block.",
  "every input text", "all texts and all blocks", [KV + ":NdmKvnIo.__build_object_tree"])
p("The reader invents nothing",
  "Every text, number or enumeration value in an object returned by NdmKvnIo.from_string was stated by the input under the keyword of the field that holds it: it is the value or unit of a line with that keyword, the name in the keyword of a user-defined line, the time tag or value of a tracking observation, a column of an ephemeris, covariance or attitude line (for rotations, about an axis of a stated rotation sequence), or the number or enumeration value such a text denotes.",
  "every input string that is read successfully", "all inputs", [KV + ":NdmKvnIo.__build_object_tree", KV + ":_xmlify_list"])
p("Objects returned by the reader conform to the data model",
  "Every object returned by NdmKvnIo.from_string has, at every level, exactly the fields of its class; list fields hold lists, block fields hold an object of the declared class or None, keyword fields hold a value of the declared type or, when the text could not be converted, the text itself.",
  "every input string that is read successfully", "all inputs", [KV + ":NdmKvnIo.__build_object_tree", MD])
p("Section ranges are well formed",
  "The line range that the reader assigns to any section lies inside the file and never starts before the point where the search started, so lines before a section's start are never consumed by it.",
  "every keyword list, start point and list of lines", "all inputs", [KV + ":_get_min_max_indices"])
p("No line is silently dropped",
  "If NdmKvnIo.from_string succeeds then every keyword line of the input is represented in the result.",
  "every input string", "all inputs", [KV + ":NdmKvnIo.__build_object_tree"])
p("The version written in the file is kept",
  "The version of a message read from KVN equals the version given on its first line.",
  "every message text", "all version strings", [KV + ":_xmlify_root", MD])
p("Comments stay with the block they were given in",
  "For every message whose comments are given in blocks that the schema allows them in, writing and reading returns the same comments in the same blocks.",
  "every message object, every placement and number of comments", "all placements and counts",
  [KV + ":_get_min_max_indices", KV + ":__process_comment_lines"])
p("Repeated blocks are independent of each other",
  "For every list of repeated blocks (CDM segments, maneuvers, ...), each with any subset of its optional keywords, writing and reading returns the same list.",
  "every list of blocks, every choice of optional keywords in each", "2^k subsets per block",
  [KV + ":_get_min_max_indices", KV + ":NdmKvnIo.__identify_list"])
p("A message survives a file",
  "If NdmIo.to_file(obj, format, path) succeeds, then NdmIo.from_path(path) returns what NdmIo.from_string returns for the text NdmIo.to_string gives for the same object and format; in particular a message that survives strings survives files.",
  "every object, format, path, platform (encoding, line separator) and previous contents of the disk", "all objects and platforms",
  [IO + ":NdmIo.to_file", IO + ":NdmIo.from_path", KV + ":NdmKvnIo.to_file", KV + ":NdmKvnIo.from_path", XM + ":NdmXmlIo.to_file"])
p("A failing to_file leaves the disk alone",
  "If NdmIo.to_file raises, every file has the contents it had before the call.",
  "every object, format, path, platform and disk", "all failures", [IO + ":NdmIo.to_file", KV + ":NdmKvnIo.to_file", XM + ":NdmXmlIo.to_file"])
p("to_file is atomic",
  "Whenever NdmIo.to_file is interrupted (the process is killed), the file holds either its old or its new contents, and all other files are unchanged.",
  "every crash point, object, format, path, platform and disk", "crash points cannot be enumerated by tests", [IO + ":NdmIo.to_file", KV + ":NdmKvnIo.to_file", XM + ":NdmXmlIo.to_file"])
p("Paths and strings are interchangeable",
  "from_path and to_file of NdmIo, NdmKvnIo and NdmXmlIo give the same result whether the path is given as a pathlib.Path or as a str.",
  "every path, object, format, platform and disk", "all calls", [IO + ":NdmIo.to_file", KV + ":NdmKvnIo.to_file", XM + ":NdmXmlIo.to_file"])
p("Line ends of files are irrelevant",
  "Two files with the same lines, whichever of LF, CR LF and CR ends each line of each file, give the same result (same object or same exception) from from_path of NdmIo, NdmKvnIo and NdmXmlIo, in every state of the instance.",
  "every pair of files with the same lines, every platform and instance state", "every combination of line ends", [IO + ":NdmIo.from_path", KV + ":NdmKvnIo.from_path", XM + ":NdmXmlIo.from_path"])
p("from_path sees the last write",
  "After any history of to_file and from_path calls, from_path of a file gives what the last successful to_file to that file wrote; a file that was not written to is unchanged.",
  "every history of calls on any files", "histories are unbounded", [IO + ":NdmIo.to_file", IO + ":NdmIo.from_path"])
p("Different messages have different texts",
  "Two different well-formed messages, of the same kind or of different kinds, are never written as the same KVN text.",
  "every pair of well-formed messages", "all pairs of messages", [KV + ":NdmKvnIo.to_string"])
p("A text is read as what it says",
  "A text that states a message in the key-value notation is read as that message, whatever blank lines, spacing, order of the keyword lines within an object, position of comments, spelling of numbers and marker lines it uses; hence two texts that say the same give equal objects.",
  "every text of every message kind, every choice of layout and spelling", "texts and layouts are unbounded", [KV + ":NdmKvnIo.from_string", KV + ":_get_min_max_indices", KV + ":_xmlify_list"])
p("Rewriting a file does not change what it says",
  "A text that states a message in the key-value notation can be read and written again, and the text written is read as the same message.",
  "every text of every message kind, every layout", "texts are unbounded", [KV + ":NdmKvnIo.from_string", KV + ":NdmKvnIo.to_string"])
p("Converting between the formats loses nothing",
  "For every well-formed message that the XML library reads back from its own output: the text written by NdmIo.to_string in either format is read by NdmIo.from_string as the message, and converting it any number of times between KVN and XML gives the text that writing the message directly in the last format gives. A combined XML message holding one message is converted to that message's KVN text; one holding several is kept by XML and refused for KVN.",
  "every well-formed message, every sequence of conversions, every behaviour of the XML library that meets the condition", "messages and sequences are unbounded",
  [IO + ":NdmIo.from_string", IO + ":NdmIo.to_string", XM + ":NdmXmlIo.from_string", KV + ":NdmKvnIo.from_string"])
p("A broken text is reported by one of a few exceptions",
  "If NdmKvnIo.from_string fails it raises AttributeError exactly if the keyword of the first non-blank line is not the version keyword of a message, and otherwise ValueError, IndexError, xsdata's ParserError or, for attitude ephemerides only, KeyError; no other exception, whatever the text and whatever the instance was used for before. NdmXmlIo.from_string raises ParserError only, or TypeError if the root of the document is neither a message nor ndm; NdmIo.from_string raises one of these six exceptions, or NotImplementedError for JSON.",
  "every input string, every state of the instance", "broken inputs cannot be enumerated", [KV + ":NdmKvnIo.from_string", KV + ":NdmKvnIo.__build_object_tree", KV + ":NdmKvnIo.__prepare_aemsegment_sub_objects"])
p("What was read can be written",
  "Every object that NdmKvnIo.from_string returns can be written by NdmKvnIo.to_string, even if the text is unusual (comments anywhere, missing or repeated keywords, values outside the enumerations).",
  "every input string", "accepted inputs are unbounded", [KV + ":NdmKvnIo.to_string", KV + ":_collate_str_out", KV + ":_collate_special_data_str_out"])
p("Calls in different threads do not disturb each other",
  "When several threads read texts with NdmIo.from_string, or with NdmKvnIo.from_string on instances that no two threads share, every call gives what it gives in a program with one thread, and ends after a bounded number of its own steps, whatever the other threads do in between.",
  "every number of threads, every sequence of calls per thread, every text, every interleaving of the accesses to instance attributes, every earlier state of the instances", "interleavings and call sequences are unbounded",
  [IO + ":NdmIo.from_string", KV + ":NdmKvnIo.from_string", KV + ":NdmKvnIo._keys", KV + ":NdmKvnIo._lines", KV + ":NdmKvnIo.object_tree"])
p("Other values change only the fields of their keywords",
  "If NdmKvnIo.from_string reads a text, it also reads every text with the same lines in which the values and units of some keywords are others (any characters XML allows), and the object has the same structure and the same contents except for the contents of the fields of these keywords. Exceptions: the keywords that describe the columns of an attitude ephemeris, and values of tracking data that begin with a date.",
  "every text, every set of keywords, all new values", "texts and values are unbounded",
  [KV + ":NdmKvnIo.from_string", KV + ":NdmKvnIo.__build_object_tree", KV + ":_xmlify_list", KV + ":_xmlify_single_elem", KV + ":_xmlify_root"])
p("Setting, changing or deleting a field changes only its lines",
  "If an object can be written by NdmKvnIo.to_string, it can still be written after a field of it (or the fields of one name in several of its parts) was set, changed, or deleted by assigning None, and the two texts have the same lines in the same order apart from the lines of that keyword. Exceptions: the fields of ephemeris, covariance, attitude and tracking data lines, and QUATERNION_TYPE, which determines how quaternions are written.",
  "every object that can be written, every field written as keyword lines, all old and new values without line breaks", "objects, fields and values are unbounded",
  [KV + ":NdmKvnIo.to_string", KV + ":_collate_str_out", KV + ":_collate_str_out_subclasses", KV + ":_fill_str_out_kvn"])
p("Lines with unknown keywords do not change what is read",
  "If NdmKvnIo.from_string reads a text, it reads the same text with additional lines whose keywords the data model does not have (KEYWORD = value, not a number or a date) as the same object: lines it does not know never make it lose lines it knows.",
  "every text, any number of unknown lines at any place, every state of the instance", "texts, unknown keywords and places are unbounded",
  [KV + ":NdmKvnIo.from_string", KV + ":NdmKvnIo.__identify_list", KV + ":NdmKvnIo._identify_segments", KV + ":_get_min_max_indices"])
p("Calls on different files do not disturb each other",
  "When several threads or processes read and write files with NdmIo.from_path and NdmIo.to_file and none writes a file that another one uses, every call gives what it gives alone, it ends after a bounded number of accesses, and in the end the files are as if each thread had been alone.",
  "every number of threads, every sequence of calls per thread, every message, disk and platform, every interleaving of the file accesses and every division of files into pieces", "interleavings, call sequences and file sizes are unbounded",
  [IO + ":NdmIo.from_path", IO + ":NdmIo.to_file", KV + ":NdmKvnIo.to_file", XM + ":NdmXmlIo.to_file"])
p("A file that is being rewritten is read as the old or as the new message",
  "When one process replaces a file with NdmIo.to_file while another one reads it with NdmIo.from_path, the reader gets the old message, the new one, or an exception, but never a message that neither of them is.",
  "every message, old contents and platform, every interleaving of the file accesses and every division of files into pieces", "interleavings and file sizes are unbounded",
  [IO + ":NdmIo.from_path", IO + ":NdmIo.to_file", KV + ":NdmKvnIo.to_file", XM + ":NdmXmlIo.to_file"])
p("Threads can share an NdmXmlIo",
  "When several threads read and write with NdmXmlIo.from_string and NdmXmlIo.to_string on instances they share, every call gives what it gives on a new instance, and ends after a bounded number of its own steps.",
  "every number of threads and instances, every sequence of calls per thread, every interleaving of the accesses to instance attributes, every earlier state of the instances, every behaviour of the XML library", "interleavings and call sequences are unbounded",
  [XM + ":NdmXmlIo.from_string", XM + ":NdmXmlIo.to_string", XM + ":NdmXmlIo.__init_parser", XM + ":NdmXmlIo.__init_serializer"])
p("A text that was cut short is not read as a message",
  "If the end of a KVN text is missing (a download or a write was interrupted), NdmKvnIo.from_string raises an exception: it does not return the message without its lost part.",
  "every message, every place at which its text can be cut, every state of the instance", "texts and places are unbounded",
  [IO + ":NdmIo.from_string", KV + ":NdmKvnIo.from_string", KV + ":NdmKvnIo.__identify_list", KV + ":NdmKvnIo._identify_segments"])
p("What is written says what the object holds",
  "The text NdmKvnIo.to_string gives for a message is, by the rules of the key-value notation alone and whatever this library's reader makes of it, a text of exactly this message: version line, header, metadata and data with every keyword, value, unit and comment of the object.",
  "every well-formed message of all eight kinds", "messages and values are unbounded",
  [IO + ":NdmIo.to_string", KV + ":NdmKvnIo.to_string", KV + ":_collate_str_out", KV + ":_collate_str_out_subclasses", KV + ":_fill_str_out_kvn"])
p("What is written as XML is read back",
  "A message, or a combined message, that conforms to the data model and whose texts XML can hold is written by NdmXmlIo.to_string without an exception, and NdmXmlIo.from_string and NdmIo.from_string give the same message for this text: the same classes, texts, enumeration members and units, and the same numbers (possibly in a notation without exponent). This includes every message read from KVN.",
  "every message of all eight kinds and every combined message, all schema locations, every state of the two instances, every layout of the XML text", "messages, values and layouts are unbounded",
  [XM + ":NdmXmlIo.to_string", XM + ":NdmXmlIo.from_string", IO + ":NdmIo.from_string", XM + ":_strip_multi_ndm"])
p("What is read from XML is a message of the data model",
  "Whenever NdmXmlIo.from_string returns an object, it is a message of the kind the root tag names, with the attributes, types and enumeration members of the data model, or a combined message all of whose messages are.",
  "every XML text, every state of the instance, every layout", "texts are unbounded",
  [XM + ":NdmXmlIo.from_string", XM + ":_strip_multi_ndm", IO + ":NdmIo.from_string"])
p("Reading XML loses nothing",
  "Whenever NdmXmlIo.from_string returns an object, everything in the document is in it: writing it with NdmXmlIo.to_string gives a document that has every element of the one that was read, with its text and its attributes, and for each tag in the same order.",
  "every XML text, every state of the two instances, all schema locations", "texts are unbounded",
  [XM + ":NdmXmlIo.from_string", XM + ":NdmXmlIo.to_string", XM + ":_strip_multi_ndm"])
p("XML with elements the data model does not have is refused",
  "NdmXmlIo.from_string raises ParserError for a message or combined message that holds, at any depth, an element the data model does not have at this place, or one more of an element than there may be; all other well-formed messages and combined messages are read.",
  "every XML text with one of the message tags or ndm as its root, every state of the instance", "texts and depths are unbounded",
  [XM + ":NdmXmlIo.from_string", XM + ":NdmXmlIo.__init_parser"])
p("A message written as XML names its kind and version",
  "The document NdmXmlIo.to_string writes for a message has the tag, identifier and version of its kind, whatever the object holds; in a combined message every message has those of its own kind, and there is one element for each message.",
  "every object of the eight kinds and every combined message, all schema locations, every state of the instance", "objects are unbounded",
  [XM + ":NdmXmlIo.to_string", XM + ":NdmXmlIo.__init_serializer"])
p("Rewriting XML comes to rest",
  "A message or combined message that was read from XML can be written as XML and read again any number of times without an exception; the first time its numbers may change their notation but not their values, and afterwards nothing changes any more.",
  "every XML text without control characters, every number of rewritings, all schema locations, all states of the instances used", "texts and numbers of rewritings are unbounded",
  [XM + ":NdmXmlIo.from_string", XM + ":NdmXmlIo.to_string", XM + ":_strip_multi_ndm"])
p("A message that lacks something mandatory is refused",
  "When something is missing that the schema requires, at any depth, NdmXmlIo.from_string, NdmKvnIo.from_string and NdmKvnIo.to_string raise an exception: they do not give an incomplete message.",
  "every text and every message, at any depth", "texts and depths are unbounded",
  [XM + ":NdmXmlIo.from_string", KV + ":NdmKvnIo.from_string", KV + ":NdmKvnIo.to_string", XM + ":NdmXmlIo.__init_parser"])
p("What was read from XML can be written in the key-value notation",
  "Whenever NdmXmlIo.from_string returns a message, NdmKvnIo.to_string writes it without an exception.",
  "every XML text of all eight kinds, every state of the instance", "texts are unbounded",
  [XM + ":NdmXmlIo.from_string", KV + ":NdmKvnIo.to_string", KV + ":_collate_str_out_subclasses", KV + ":_collate_special_data_str_out"])
p("from_path reads what is in the file",
  "from_path of NdmIo, NdmKvnIo and NdmXmlIo does exactly what from_string does with the text of the file, if the text has no carriage return; without the file it raises OSError, for a file that cannot be decoded ValueError, and both leave the instance as it was.",
  "every disk, platform (encoding), path and state of the instance", "contents of files are unbounded",
  [IO + ":NdmIo.from_path", KV + ":NdmKvnIo.from_path", XM + ":NdmXmlIo.from_path"])
p("Writing KVN raises only a few exceptions",
  "For every message object of the data model, complete or not, NdmKvnIo.to_string gives a text or raises AttributeError or TypeError; for OEM and TDM also IndexError, for AEM also KeyError or StopIteration; never another exception. So this holds for rewriting and converting what was read.",
  "every object of the eight kinds that conforms to the data model, every text of either notation", "objects are unbounded",
  [KV + ":NdmKvnIo.to_string", KV + ":NdmKvnIo._collate_str_out", KV + ":NdmKvnIo._collate_str_out_subclasses", KV + ":_collate_special_data_str_out"])
p("The layout of an XML document is irrelevant",
  "NdmXmlIo.from_string reads two XML texts alike (equal objects, or the same exception) if their documents differ only in the order of attributes, in the order of elements with different names, in text around nested elements and in attributes of other namespaces such as xsi:schemaLocation; the order of elements with the same name is significant.",
  "every pair of documents, at any depth, valid or not, and every state of the two instances", "documents are unbounded and have unboundedly many orders",
  [XM + ":NdmXmlIo.from_string", XM + ":_identify_data_type"])
p("Values the schema does not allow are refused",
  "When a value in a text is not of the type the schema gives (a number, or one of the values of an enumeration such as a unit), from_string of NdmXmlIo and NdmKvnIo raises an exception: it does not give a message with a text in the place of the number.",
  "every text, every value at any depth", "texts, depths and values are unbounded",
  [XM + ":NdmXmlIo.from_string", KV + ":NdmKvnIo.from_string", KV + ":_xmlify_list", XM + ":NdmXmlIo.__init_parser"])
p("Segments, manoeuvres, data lines and comments are written independently of each other",
  "In the text NdmKvnIo.to_string gives, the lines written for one item of a list (a segment, a manoeuvre, a line of data, a comment, a user-defined parameter) are the same in every message and at every place in the list; adding or removing an item adds or removes its lines, in one place, and changes nothing else, and an exception is raised exactly if the rest of the message or one of the items raises it.",
  "every message of all eight kinds, every list in it and every number and order of items", "messages and lists are unbounded",
  [KV + ":NdmKvnIo.to_string", KV + ":NdmKvnIo._collate_str_out", KV + ":NdmKvnIo._collate_str_out_subclasses", KV + ":_collate_special_data_str_out"])
p("Lines are written in the order of the schema",
  "In the text NdmKvnIo.to_string gives, the version line comes first and the fields of every block follow in the order in which the CCSDS schema lists them, at any depth; so this holds for a message that was read from lines or elements in another order.",
  "every object of the eight kinds that conforms to the data model, every text of either notation", "objects are unbounded and blocks nest and repeat",
  [KV + ":NdmKvnIo.to_string", KV + ":NdmKvnIo._collate_str_out", KV + ":NdmKvnIo._collate_str_out_subclasses", KV + ":_collate_special_data_str_out"])
p("What is written as XML is as valid as the object",
  "The document NdmXmlIo.to_string writes for a message of the data model has no element the schema does not have there, and lacks something the schema requires, or has a number or enumeration value that is none, exactly if the object does; so a complete message with values of the right types gives a document the schema tables admit.",
  "every object of the eight kinds and every combined message that conforms to the data model, any schema locations and state of the instance", "objects are unbounded",
  [XM + ":NdmXmlIo.to_string", XM + ":NdmXmlIo.__init_serializer"])
p("to_file writes what to_string gives",
  "to_file of NdmIo, NdmKvnIo and NdmXmlIo stores in the file exactly the lines of the text that to_string gives for the same arguments, with the line separator of the platform and whatever the file held before, and touches no other file; it raises what to_string raises, without touching the file, OSError if the file cannot be opened, and ValueError if the text cannot be encoded, which leaves an empty file.",
  "all objects, formats, arguments, contents of the disk, encodings and line separators, and states of the instance",
  "The outcome depends on every text that can be written, on the old contents of every file and on the platform; tests see one platform and a few messages.",
  [IO + ":NdmIo.to_file", KV + ":NdmKvnIo.to_file", XM + ":NdmXmlIo.to_file"])
p("Writing KVN adds only printable ASCII characters",
  "The text NdmKvnIo.to_string gives for a message of the data model consists of printable ASCII characters, line feeds, and the characters (or their upper case, in names of user-defined parameters) of the texts in the message; so a message with printable ASCII texts gives printable ASCII lines; reading a KVN text and writing what was read adds no other characters to those of the text either, and the same holds for converting an XML message, or the messages of a combined XML message, to KVN; and a well-formed message with ASCII texts without carriage returns can be stored in and read back from a file on every platform whose encoding covers ASCII.",
  "every object that conforms to the data model, every class of characters, every platform and disk",
  "messages, texts and numbers are unbounded, and the encoding is that of the platform",
  [KV + ":NdmKvnIo.to_string", KV + ":_fill_str_out_kvn", KV + ":_collate_special_data_str_out", KV + ":NdmKvnIo.to_file", KV + ":NdmKvnIo.from_path"])

p("An XML message is read as exactly what its document says",
  "A document with the tag of a message or of a combined message is read if and only if it holds, at any depth, no element the data model does not have there, and then the object is determined field by field: a field has the value of the attribute, of the text or of the one child with its name, a repeated field has the values of all children with its name in document order, and a field for which the document has nothing is None or an empty list; a text is read as the number or enumeration member it stands for, and kept as it is otherwise; a combined message with exactly one message in it is read as this message. A text that is not XML or whose root the data model does not have raises ParserError, and from any other document nothing is read but what it says, or a value in it.",
  "every text, every document of any size and depth", "documents are unbounded trees",
  [IO + ":NdmIo.from_string", XM + ":NdmXmlIo.from_string", XM + ":NdmXmlIo.from_bytes", XM + ":NdmXmlIo.__init_parser"])

p("What is written as XML says what the object holds",
  "The text NdmXmlIo.to_string gives for a message of the data model, or a combined message, is XML whose document says, field by field and at any depth, the values the object holds, numbers as numbers; so two messages, or two combined messages, for which the same text is written, by whatever instances and with whatever schema locations, are of the same kind and hold the same values.",
  "every object of the eight kinds and every combined message that conforms to the data model and has texts XML can hold, any schema locations and states of the instances", "objects are unbounded, and pairs of objects are compared",
  [XM + ":NdmXmlIo.to_string", XM + ":NdmXmlIo.__init_serializer"])

if __name__ == "__main__":
    with open("/verif/properties.jsonl", "w") as f:
        for x in P:
            f.write(json.dumps(x, ensure_ascii=False) + "\n")
    print(len(P))
