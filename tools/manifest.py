"""Write MANIFEST.json from the table below; checks that every theorem named exists in the Lean sources."""
import json, re, pathlib

ROOT = pathlib.Path(__file__).resolve().parent.parent
C = {}


def claim(pid, status, theorems, note=""):
    C[pid] = dict(property=pid, status=status, theorems=[t if t.startswith("Ndm.") else "Ndm." + t for t in theorems.split()], note=note)


claim("C01", "proved", "C01_detection C01_total C01_whitespace", "Detection depends on the stripped text only; the cases are exclusive and exhaustive.")
claim("C02", "proved", "C02_json_refused C02_unknown_refused C02_no_xml_parsing C02_dispatch C02_json_output C02_bytes C02_xml_bytes")
claim("C03", "proved", "C03_dispatch C03_total")
claim("C04", "proved", "C04_whitespace_irrelevant C04_crlf C04_pad_line")
claim("C05", "proved", "C05_key_value C05_respacing")
claim("C06", "proved", "C06_units C06_no_spurious_unit")
claim("C07", "proved", "C07_comment")
claim("C08", "proved", "C08_value C08_unit C08_comment")
claim("C09", "partial", "C09_refuted C09_never_preserved", "The property is false of the code: the bracketed tail becomes a unit. Negation and its general form are proved.")
claim("C10", "proved", "C10_decimal C10_int C10_line", "Decimals of any size, including infinities and NaNs.")
claim("C11", "proved", "C11_terminates C11_instance extract_fuel")
claim("C12", "proved", "C12_history C12_any_state C12_xml")
claim("C13", "partial", "C13_refuted C13_witness C13_partial C13_exact C13_same_locations_partial C13_reads_do_not_matter", "False of the code: the first call's locations stick (C13_refuted). Proved for fresh instances, and for every history of reads and writes whose writes were given the same locations; for all other histories the locations actually used are proved (C13_exact).")
claim("C14", "proved", "C14_strip C14_read C14_plain")
claim("C15", "proved", "C15_multi")
claim("C16", "proved", "C16_downcast")
claim("C17", "partial", "C17_partial C17_refuted", "NotImplementedError for zero or several messages is proved; with exactly one message the code raises AttributeError, also proved.")
claim("C18", "proved", "C18_recognised messageKinds_complete")
claim("C19", "proved", "C19_markers Balanced.counts")
claim("C20", "proved", "C20_keywords C20_comment")

claim("C21", "proved", "C21_opm", "For every object satisfying WellFormed (SpecRt.lean); the excluded comment placements are refuted under C42.")
claim("C22", "proved", "C22_omm", "As C21.")
claim("C23", "proved", "C23_rdm", "As C21.")
claim("C30", "partial", "C30_refuted C30_frame_never_read", "False of the code: counterexample, and proved for every text: the frame is never stored. Matrices without a frame line are covered by C24 and C29.")
claim("C26", "partial", "C26_refuted_derivative C26_refuted_spin C26_refuted_case C26_partial", "False for quaternion derivatives (never writable), spins (numbers lost) and attitude types in lower case (not readable). Proved for quaternions, quaternions with rates, angles and angles with rates, any number of segments and states.")
claim("C31", "partial", "C31_refuted C31_read C31_scalar C31_written C31_partial", "False of the code for the lower-case values the schema allows: counterexample. Proved for FIRST and LAST, reading with any spacing and writing.")
claim("C32", "proved", "C32 C32_sequences C31_read", "C31_read states it for any number of segments and lines, C32 spells it out for one line.")
claim("C34", "partial", "C34_refuted C34_refuted_angles C34_refuted_epoch C34_kinds C34_written C34_partial C34_read", "False for the two angles (never writable) and for epochs of 30 characters or more. Proved for every other quantity and number; reading is proved for the angles, too.")
claim("C35", "partial", "C35_refuted C35_refuted_comment C35_refuted_duplicate C35_partial", "False of the code: counterexamples. What holds: every non-empty list of parameters with distinct upper-case names and one-line values or none (UserParam), in any well-formed OPM, OMM or RDM.")
claim("C36", "partial", "C36_refuted C36_partial", "False of the code for blocks with nested blocks (counterexample). Proved for every text and each of the 31 kinds of blocks that consist of keyword lines.")
claim("C37", "proved", "C37_provenance C37_lines C37_items_unique")
claim("C38", "proved", "C38_conforms")
claim("C39", "proved", "C39_ranges C39_lines_before_ignored")

claim("C40", "partial", "C40_refuted C40_refuted_order C40_refuted_repeated C40_refuted_comment C40_partial", "False of the code: counterexamples (unknown keyword, keyword out of place, repeated keyword, last comment). What holds: every line of a text in the notation of SpecText.lean, in any layout, order and spelling, is represented in the result (Kept, SpecKept.lean).")
claim("C41", "partial", "C41_refuted C41_partial", "False of the code; what holds instead is proved: the version is always that of the data model.")

claim("C42", "partial", "C42_refuted_moved C42_refuted_second C42_partial C42_messages_partial", "False of the code: a comment of the first sub-block moves to the enclosing block, a second comment of an enclosing block moves into the sub-block. For unambiguous placements it follows from the round trip (C42_messages_partial, all kinds).")
claim("C43", "partial", "C43_refuted C43_refuted_read C43_refuted_write C43_maneuvers_partial C43_attitude_maneuvers_partial C43_segments_partial", "False of the code: a keyword that an earlier block lacks makes reading fail (C43_refuted); an AEM segment that does not state the order of quaternion components is read with that of the following segment (C43_refuted_read) and written with that of the preceding one (C43_refuted_write). What holds: OPM and APM maneuvers and CDM segments, when every keyword of a block is given in the earlier ones (for OPM and APM also when the list is not empty, for APM when a quaternion is given). For OEM, AEM and TDM segments see C24, C25, C26.")
claim("C27", "partial", "C27_refuted C27_partial", "False for segments with arbitrary subsets of optional keywords (counterexample). Proved for every well-formed CDM in which no segment has a keyword an earlier one lacks.")
claim("C28", "partial", "C28_refuted C28_copied_refuted C28_partial C28_filled_partial C28_never C28_settles", "False for an APM without Euler elements (read back with an empty tree of them) and for one with a single angle (read back with three copies). Proved for every well-formed APM that has Euler elements, angles and rates or an empty tree in their place; for every other APM, lacking Euler elements or angles or rates, the exact object read back is proved, and that it is never the one written.")
claim("C24", "partial", "C24_refuted C24_refuted_comment C24_partial C24_units_partial", "False for state vectors with units and covariance matrices with comments (counterexamples). Proved for every well-formed OEM; units in state vectors and covariance matrices are proved to be the only thing that changes.")
claim("C25", "partial", "C25_refuted C25_refuted_keywords C25_partial", "False when a later segment begins with a comment that begins with a date or has a metadata keyword that an earlier one lacks (unless that earlier one has no comment in its data and observes some quantity more than once), and for angles (C34). Proved for every other well-formed TDM, any number of segments and observations.")
claim("C29", "proved", "C29 C29_written")
claim("C33", "proved", "C33 C33_written", "Components keep epoch and numbers; units are lost (C24_refuted).")
claim("C44", "partial", "C44_refuted C44_partial C44_messages_partial", "False for texts with a carriage return (counterexample: survives strings, not files). Proved for all other texts, objects, formats and platforms; for well-formed messages writing is proved to succeed.")
claim("C45", "partial", "C45_refuted C45_partial C45_encodable", "False when the text cannot be encoded: the file is emptied (counterexample). Proved in all other cases.")
claim("C46", "partial", "C46_refuted C46_partial C46_outcome", "False: an interrupted write leaves a beginning of the new contents (counterexample). Proved: nothing else can happen, and other files are unchanged.")
claim("C47", "partial", "C47_refuted C47_partial", "False for writing KVN: a str path always raises AttributeError. Proved for all reading and for writing XML.")
claim("C48", "proved", "C48_line_ends")
claim("C49", "partial", "C49_refuted C49_last_write_partial C49_untouched",
      "False of the code: a later to_file whose text cannot be encoded raises and empties the file (C49_refuted), and a text with a "
      "carriage return is read differently (C44_refuted). Proved for all other histories, refused writes to the same file included.")
claim("C50", "proved", "C50_injective")
claim("C51", "proved", "C51 C51_unique", "The notation is the relation Denotes of SpecText.lean; it includes the layout conditions of SpecRt.lean and SpecEph.lean (e.g. a keyword given in a repeated block is given in all earlier ones), without which the property is false (C42, C43).")
claim("C52", "partial", "C52_refuted C52_partial C52_ephemeris_partial C52_messages_partial", "False of the code: a comment between the lines of a block moves to the enclosing block when the message is written and read (counterexample). Proved for all texts of OPM, OMM, RDM, CDM, APM and AEM without comments, for those of OEM and TDM with complete data lines, and for texts of all eight kinds that say a well-formed message.")
claim("C53", "proved", "C53_convert C53_kvn C53_chain C53_notation C53_wrapped C53_combined", "The condition on the XML library is ReadsBack (SpecXml.lean).")
claim("C54", "proved", "C54_exceptions C54_five C54_each C54_xml C54_any", "C54_each: none of the five exceptions is superfluous.")
claim("C55", "partial", "C55_partial C55_aem_partial C55_refuted", "False as stated: units the schema does not list, non-numeric observations, two kinds of attitude states and quaternions whose order only a later segment states are read but cannot be written. Proved: there is no other exception, for all kinds but AEM; for OPM, OMM, RDM, CDM and APM exactly the messages with unknown units cannot be written; an AEM can be written exactly if its attitude states are complete and segments with quaternions, or segments before them, state the order of the components (the order is needed unless an epoch begins with QUATERNION_TYPE).")
claim("C56", "proved", "C56_threads C56_ndm C56_sequential C56_shared", "C56_sequential ties the step-by-step model to the model of the method; C56_shared shows that the condition on instances is needed. Steps are reads and assignments of instance attributes; the library's parser object, which all instances share, is assumed to keep nothing between calls.")
claim("C57", "proved", "C57_changed_values C57_tdm C57_attitude_type C57_dates", "C57_attitude_type and C57_dates show that the two exceptions are needed.")
claim("C58", "proved", "C58_edited C58_assign C58_quaternion_type", "C58_quaternion_type shows that the exception of QUATERNION_TYPE is needed.")
claim("C59", "partial", "C59_unknown_at_end_partial C59_refuted C59_header", "False of the code: an unknown line between two manoeuvres makes the reader lose the second (C59_refuted), two in the header lose the originator (C59_header). Proved for unknown lines at the end of the text, for all kinds of messages. Missing: places in the middle where nothing is lost.")
claim("C60", "proved", "C60_separate_files", "File accesses of any size, in any interleaving.")
claim("C61", "partial", "C61_partial C61_refuted", "False of the code: to_file rewrites the file in place, so a reader can get a message that was neither there before nor is there afterwards (C61_refuted, two ways). Proved: what is read begins like the old contents and goes on like the new ones, possibly incomplete.")
claim("C62", "partial", "C62_shared_partial C62_same_locations_partial C62_refuted", "False of the code when writes on one instance are given different schema locations: even the first call of a thread can write another thread's locations (C62_refuted). Proved for all reads, and for writes when the locations agree; otherwise the locations are those of some call on the instance.")
claim("C63", "partial", "C63_oem_refuted C63_tdm_refuted C63_aem_refuted C63_maneuver_refuted C63_number_refuted C63_first_line_partial", "False of the code, and not only in one case: every OEM, TDM and AEM text with at least two data lines in a segment can be cut so that the rest is read without an error as a shorter message. Counterexamples for keyword messages: a lost maneuver, a lost part of a number. What holds: if at most one line is left that is not blank, an exception is raised.")
claim("C64", "partial", "C64_partial", "For every well-formed message of the eight kinds; the meaning of a text (SpecText.lean) does not mention the reader. Missing: objects that are not well formed, for some of which it is false (see C28, C35, C36, C41, C43).")
claim("C65", "proved", "C65_document C65_round_trip C65_ndm C65_from_kvn C65_reads_back C65_empty_refuted", "xsdata's binding of documents is modelled (XmlDoc.lean); the characters of documents are a parameter that is assumed to be faithful up to layout, order of elements with different tags and attributes (XmlChars.Faithful; faithful_exists shows that the assumption can be met). The restriction to the data model is needed: an empty text between tags is not told from None (C65_empty_refuted).")
claim("C66", "partial", "C66_message_partial C66_ndm_partial C66_refuted", "Proved for documents whose root is one of the eight message tags or ndm. False for other documents: a part of a message, such as userDefinedType, is read without an exception, as an object that is not a message (C66_refuted).")
claim("C67", "partial", "C67_message_partial C67_ndm_partial C67_single_partial C67_refuted", "Proved for the elements, their texts and the attributes the data model has, at every depth (KeptXml in SpecXmlRead.lean); of a combined message with one message, for this message. False for the identifier and comments around a single message, for attributes the data model does not have, and for text between elements (C67_refuted).")
claim("C68", "proved", "C68_strict C68_ndm", "ForeignXml in SpecXmlRead.lean says which elements the data model does not have. xsdata's binding is modelled in XmlDoc.lean; the characters are a parameter.")
claim("C69", "proved", "C69_named C69_ndm", "The table of kinds, tags, identifiers and versions is in SpecXmlRead.lean.")
claim("C70", "proved", "C70_message C70_ndm", "For every document whose root is a message or ndm, under the same assumption on the characters as C65 (XmlChars.Faithful).")
claim("C71", "partial", "C71_message_partial C71_ndm_partial C71_kvn_partial C71_refuted_xml C71_refuted_kvn C71_refuted_stated", "False of the code: an empty element of any kind of message is read (C71_refuted_xml), and a KVN message without the name of the object and without a position is written and read (C71_refuted_kvn). Proved: an object read from XML lacks something mandatory, at any depth, exactly if the document does, so a user can tell from the object; an object read from KVN lacks something if it has a block of which the schema requires a keyword, directly or in a required part, and no line states it. The converse is false: unknown lines make the reader lose a keyword that is stated (C71_refuted_stated). Missing: for OEM, AEM and TDM, the keywords of columns, which lines state without naming them.")
claim("C72", "partial", "C72_partial C72_aem_partial C72_refuted", "False of the code in six ways (C72_refuted): unknown units, parameters without a name, rotations without an axis, empty state vectors, observations without a number, empty attitude states. Proved: for all kinds but AEM there is no other way; an AEM can be written exactly if its attitude states are complete and segments with quaternions, or segments before them, state the order of the components (the order is needed unless an epoch begins with QUATERNION_TYPE).")
claim("C73", "proved", "C73_from_path", "The file system and the platform are parameters (Files.lean).")
claim("C74", "proved", "C74_write_exceptions C74_rewrite_exceptions C74_each", "The list is exact: each exception happens (C74_each).")
claim("C75", "proved", "C75_layout C75_any C75_same_tag", "About the model of xsdata's binding (XmlDoc.lean), which is assumed.")
claim("C76", "partial", "C76_message_partial C76_ndm_partial C76_kvn_partial C76_refuted_xml C76_refuted_kvn C76_refuted_hidden", "False of the code: whether an XML document is read does not depend on its texts and attributes at all (C76_refuted_xml), and a KVN text of a kind other than AEM and TDM is read whatever the values in its lines are (C76_refuted_kvn). Proved: an object read from XML has, at any depth, a text in the place of a number or enumeration value exactly if the document has a text or attribute there that is none, so a user can tell from the object; in an object read from KVN a text in such a place is never a number or one of the values. That every malformed value of a KVN text remains visible in the object is false: a repeated line disappears whatever its value is (C76_refuted_hidden).")
claim("C77", "partial", "C77_blocks_partial C77_removed_partial C43_refuted_write", "False of the code for AEM: a segment with quaternions that does not state QUATERNION_TYPE is written in the order an earlier segment stated (C43_refuted_write). Proved for every list in a message, at any depth (segments, comments, manoeuvres, data lines, user-defined parameters), whose items and surroundings have quaternions as attitude states only in AEM segments that state the order; the block function is one and the same for all messages, positions and classes. Missing: the comments inside an AEM segment with quaternions.")
claim("C78", "proved", "C78_order C78_rewritten C78_keywords C78_other_order", "BlockLines (SpecOrder.lean) describes the lines of a class over the schema table alone; C78_keywords says what it means for the keywords of a block, C78_other_order that it excludes other orders. The order inside data lines is the subject of C29 and C31 to C34.")
claim("C79", "proved", "C79_valid C79_ndm C79_from_kvn", "For messages whose texts XML can hold and a faithful XML library (the assumptions of C65). What the schema requires and allows is the number of elements, attributes and texts and their types, as in the tables of the data model; patterns and ranges of values are not modelled.")
claim("C80", "proved", "C80_to_file C80_kvn C80_xml", "For the key-value notation with a Path; with a str path to_file raises AttributeError (C47_refuted). Assumes the platform as described by Platform (Files.lean): default encoding, line separator, which files can be opened.")
claim("C81", "proved", "C81_characters C81_printable C81_rewritten C81_converted C81_combined C81_files", "For objects that conform to the data model: str() of other objects is not modelled. Upper case of characters that are not ASCII is a parameter, so a class of characters must be closed under it.")
claim("C82", "proved", "C82_message C82_auto C82_ndm C82_unique C82_refused C82_part C82_part_read", "An equivalence for messages and combined messages: it gives the result for every such document, and says which are read. The document is the tree the XML parser gives; how xsdata binds trees is an assumption of the model, not checked against xsdata, whose source is not available here. For documents whose root is a part of a message, C82_part_read says which are read, and C82_part that the result is what the document says or a value in it (C66_refuted shows one).")
claim("C83", "proved", "C83_says C83_ndm C83_different C83_different_ndm", "For texts XML can hold and a faithful XML library (the assumptions of C65). What a document says is XmlSays (SpecXmlFrom.lean), which does not mention the reader.")
exec(open(ROOT / "tools" / "claims_more.py").read()) if (ROOT / "tools" / "claims_more.py").exists() else None

src = "\n".join(p.read_text() for p in (ROOT / "lean" / "Verif").rglob("*.lean"))
names = set(re.findall(r"^(?:private |protected )?theorem\s+([^\s:({\[]+)", src, re.M))
for c in C.values():
    for t in c["theorems"]:
        assert t.removeprefix("Ndm.") in names, t
ids = [json.loads(l)["id"] for l in open(ROOT / "properties.jsonl")]
missing = [i for i in ids if i not in C]
print("properties without a claim:", missing)
json.dump({"claims": [C[i] for i in ids if i in C]}, open(ROOT / "MANIFEST.json", "w"), indent=1)
