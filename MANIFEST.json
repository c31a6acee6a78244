{
 "claims": [
  {
   "property": "C01",
   "status": "proved",
   "theorems": [
    "Ndm.C01_detection",
    "Ndm.C01_total",
    "Ndm.C01_whitespace"
   ],
   "note": "Detection depends on the stripped text only; the cases are exclusive and exhaustive."
  },
  {
   "property": "C02",
   "status": "proved",
   "theorems": [
    "Ndm.C02_json_refused",
    "Ndm.C02_unknown_refused",
    "Ndm.C02_no_xml_parsing",
    "Ndm.C02_dispatch",
    "Ndm.C02_json_output",
    "Ndm.C02_bytes",
    "Ndm.C02_xml_bytes"
   ],
   "note": ""
  },
  {
   "property": "C03",
   "status": "proved",
   "theorems": [
    "Ndm.C03_dispatch",
    "Ndm.C03_total"
   ],
   "note": ""
  },
  {
   "property": "C04",
   "status": "proved",
   "theorems": [
    "Ndm.C04_whitespace_irrelevant",
    "Ndm.C04_crlf",
    "Ndm.C04_pad_line"
   ],
   "note": ""
  },
  {
   "property": "C05",
   "status": "proved",
   "theorems": [
    "Ndm.C05_key_value",
    "Ndm.C05_respacing"
   ],
   "note": ""
  },
  {
   "property": "C06",
   "status": "proved",
   "theorems": [
    "Ndm.C06_units",
    "Ndm.C06_no_spurious_unit"
   ],
   "note": ""
  },
  {
   "property": "C07",
   "status": "proved",
   "theorems": [
    "Ndm.C07_comment"
   ],
   "note": ""
  },
  {
   "property": "C08",
   "status": "proved",
   "theorems": [
    "Ndm.C08_value",
    "Ndm.C08_unit",
    "Ndm.C08_comment"
   ],
   "note": ""
  },
  {
   "property": "C09",
   "status": "partial",
   "theorems": [
    "Ndm.C09_refuted",
    "Ndm.C09_never_preserved"
   ],
   "note": "The property is false of the code: the bracketed tail becomes a unit. Negation and its general form are proved."
  },
  {
   "property": "C10",
   "status": "proved",
   "theorems": [
    "Ndm.C10_decimal",
    "Ndm.C10_int",
    "Ndm.C10_line"
   ],
   "note": "Decimals of any size, including infinities and NaNs."
  },
  {
   "property": "C11",
   "status": "proved",
   "theorems": [
    "Ndm.C11_terminates",
    "Ndm.C11_instance",
    "Ndm.extract_fuel"
   ],
   "note": ""
  },
  {
   "property": "C12",
   "status": "proved",
   "theorems": [
    "Ndm.C12_history",
    "Ndm.C12_any_state",
    "Ndm.C12_xml"
   ],
   "note": ""
  },
  {
   "property": "C13",
   "status": "partial",
   "theorems": [
    "Ndm.C13_refuted",
    "Ndm.C13_witness",
    "Ndm.C13_partial",
    "Ndm.C13_exact",
    "Ndm.C13_same_locations_partial",
    "Ndm.C13_reads_do_not_matter"
   ],
   "note": "False of the code: the first call's locations stick (C13_refuted). Proved for fresh instances, and for every history of reads and writes whose writes were given the same locations; for all other histories the locations actually used are proved (C13_exact)."
  },
  {
   "property": "C14",
   "status": "proved",
   "theorems": [
    "Ndm.C14_strip",
    "Ndm.C14_read",
    "Ndm.C14_plain"
   ],
   "note": ""
  },
  {
   "property": "C15",
   "status": "proved",
   "theorems": [
    "Ndm.C15_multi"
   ],
   "note": ""
  },
  {
   "property": "C16",
   "status": "proved",
   "theorems": [
    "Ndm.C16_downcast"
   ],
   "note": ""
  },
  {
   "property": "C17",
   "status": "partial",
   "theorems": [
    "Ndm.C17_partial",
    "Ndm.C17_refuted"
   ],
   "note": "NotImplementedError for zero or several messages is proved; with exactly one message the code raises AttributeError, also proved."
  },
  {
   "property": "C18",
   "status": "proved",
   "theorems": [
    "Ndm.C18_recognised",
    "Ndm.messageKinds_complete"
   ],
   "note": ""
  },
  {
   "property": "C19",
   "status": "proved",
   "theorems": [
    "Ndm.C19_markers",
    "Ndm.Balanced.counts"
   ],
   "note": ""
  },
  {
   "property": "C20",
   "status": "proved",
   "theorems": [
    "Ndm.C20_keywords",
    "Ndm.C20_comment"
   ],
   "note": ""
  },
  {
   "property": "C21",
   "status": "proved",
   "theorems": [
    "Ndm.C21_opm"
   ],
   "note": "For every object satisfying WellFormed (SpecRt.lean); the excluded comment placements are refuted under C42."
  },
  {
   "property": "C22",
   "status": "proved",
   "theorems": [
    "Ndm.C22_omm"
   ],
   "note": "As C21."
  },
  {
   "property": "C23",
   "status": "proved",
   "theorems": [
    "Ndm.C23_rdm"
   ],
   "note": "As C21."
  },
  {
   "property": "C24",
   "status": "partial",
   "theorems": [
    "Ndm.C24_refuted",
    "Ndm.C24_refuted_comment",
    "Ndm.C24_partial",
    "Ndm.C24_units_partial"
   ],
   "note": "False for state vectors with units and covariance matrices with comments (counterexamples). Proved for every well-formed OEM; units in state vectors and covariance matrices are proved to be the only thing that changes."
  },
  {
   "property": "C25",
   "status": "partial",
   "theorems": [
    "Ndm.C25_refuted",
    "Ndm.C25_refuted_keywords",
    "Ndm.C25_partial"
   ],
   "note": "False when a later segment begins with a comment that begins with a date or has a metadata keyword that an earlier one lacks (unless that earlier one has no comment in its data and observes some quantity more than once), and for angles (C34). Proved for every other well-formed TDM, any number of segments and observations."
  },
  {
   "property": "C26",
   "status": "partial",
   "theorems": [
    "Ndm.C26_refuted_derivative",
    "Ndm.C26_refuted_spin",
    "Ndm.C26_refuted_case",
    "Ndm.C26_partial"
   ],
   "note": "False for quaternion derivatives (never writable), spins (numbers lost) and attitude types in lower case (not readable). Proved for quaternions, quaternions with rates, angles and angles with rates, any number of segments and states."
  },
  {
   "property": "C27",
   "status": "partial",
   "theorems": [
    "Ndm.C27_refuted",
    "Ndm.C27_partial"
   ],
   "note": "False for segments with arbitrary subsets of optional keywords (counterexample). Proved for every well-formed CDM in which no segment has a keyword an earlier one lacks."
  },
  {
   "property": "C28",
   "status": "partial",
   "theorems": [
    "Ndm.C28_refuted",
    "Ndm.C28_copied_refuted",
    "Ndm.C28_partial",
    "Ndm.C28_filled_partial",
    "Ndm.C28_never",
    "Ndm.C28_settles"
   ],
   "note": "False for an APM without Euler elements (read back with an empty tree of them) and for one with a single angle (read back with three copies). Proved for every well-formed APM that has Euler elements, angles and rates or an empty tree in their place; for every other APM, lacking Euler elements or angles or rates, the exact object read back is proved, and that it is never the one written."
  },
  {
   "property": "C29",
   "status": "proved",
   "theorems": [
    "Ndm.C29",
    "Ndm.C29_written"
   ],
   "note": ""
  },
  {
   "property": "C30",
   "status": "partial",
   "theorems": [
    "Ndm.C30_refuted",
    "Ndm.C30_frame_never_read"
   ],
   "note": "False of the code: counterexample, and proved for every text: the frame is never stored. Matrices without a frame line are covered by C24 and C29."
  },
  {
   "property": "C31",
   "status": "partial",
   "theorems": [
    "Ndm.C31_refuted",
    "Ndm.C31_read",
    "Ndm.C31_scalar",
    "Ndm.C31_written",
    "Ndm.C31_partial"
   ],
   "note": "False of the code for the lower-case values the schema allows: counterexample. Proved for FIRST and LAST, reading with any spacing and writing."
  },
  {
   "property": "C32",
   "status": "proved",
   "theorems": [
    "Ndm.C32",
    "Ndm.C32_sequences",
    "Ndm.C31_read"
   ],
   "note": "C31_read states it for any number of segments and lines, C32 spells it out for one line."
  },
  {
   "property": "C33",
   "status": "proved",
   "theorems": [
    "Ndm.C33",
    "Ndm.C33_written"
   ],
   "note": "Components keep epoch and numbers; units are lost (C24_refuted)."
  },
  {
   "property": "C34",
   "status": "partial",
   "theorems": [
    "Ndm.C34_refuted",
    "Ndm.C34_refuted_angles",
    "Ndm.C34_refuted_epoch",
    "Ndm.C34_kinds",
    "Ndm.C34_written",
    "Ndm.C34_partial",
    "Ndm.C34_read"
   ],
   "note": "False for the two angles (never writable) and for epochs of 30 characters or more. Proved for every other quantity and number; reading is proved for the angles, too."
  },
  {
   "property": "C35",
   "status": "partial",
   "theorems": [
    "Ndm.C35_refuted",
    "Ndm.C35_refuted_comment",
    "Ndm.C35_refuted_duplicate",
    "Ndm.C35_partial"
   ],
   "note": "False of the code: counterexamples. What holds: every non-empty list of parameters with distinct upper-case names and one-line values or none (UserParam), in any well-formed OPM, OMM or RDM."
  },
  {
   "property": "C36",
   "status": "partial",
   "theorems": [
    "Ndm.C36_refuted",
    "Ndm.C36_partial"
   ],
   "note": "False of the code for blocks with nested blocks (counterexample). Proved for every text and each of the 31 kinds of blocks that consist of keyword lines."
  },
  {
   "property": "C37",
   "status": "proved",
   "theorems": [
    "Ndm.C37_provenance",
    "Ndm.C37_lines",
    "Ndm.C37_items_unique"
   ],
   "note": ""
  },
  {
   "property": "C38",
   "status": "proved",
   "theorems": [
    "Ndm.C38_conforms"
   ],
   "note": ""
  },
  {
   "property": "C39",
   "status": "proved",
   "theorems": [
    "Ndm.C39_ranges",
    "Ndm.C39_lines_before_ignored"
   ],
   "note": ""
  },
  {
   "property": "C40",
   "status": "partial",
   "theorems": [
    "Ndm.C40_refuted",
    "Ndm.C40_refuted_order",
    "Ndm.C40_refuted_repeated",
    "Ndm.C40_refuted_comment",
    "Ndm.C40_partial"
   ],
   "note": "False of the code: counterexamples (unknown keyword, keyword out of place, repeated keyword, last comment). What holds: every line of a text in the notation of SpecText.lean, in any layout, order and spelling, is represented in the result (Kept, SpecKept.lean)."
  },
  {
   "property": "C41",
   "status": "partial",
   "theorems": [
    "Ndm.C41_refuted",
    "Ndm.C41_partial"
   ],
   "note": "False of the code; what holds instead is proved: the version is always that of the data model."
  },
  {
   "property": "C42",
   "status": "partial",
   "theorems": [
    "Ndm.C42_refuted_moved",
    "Ndm.C42_refuted_second",
    "Ndm.C42_partial",
    "Ndm.C42_messages_partial"
   ],
   "note": "False of the code: a comment of the first sub-block moves to the enclosing block, a second comment of an enclosing block moves into the sub-block. For unambiguous placements it follows from the round trip (C42_messages_partial, all kinds)."
  },
  {
   "property": "C43",
   "status": "partial",
   "theorems": [
    "Ndm.C43_refuted",
    "Ndm.C43_refuted_read",
    "Ndm.C43_refuted_write",
    "Ndm.C43_maneuvers_partial",
    "Ndm.C43_attitude_maneuvers_partial",
    "Ndm.C43_segments_partial"
   ],
   "note": "False of the code: a keyword that an earlier block lacks makes reading fail (C43_refuted); an AEM segment that does not state the order of quaternion components is read with that of the following segment (C43_refuted_read) and written with that of the preceding one (C43_refuted_write). What holds: OPM and APM maneuvers and CDM segments, when every keyword of a block is given in the earlier ones (for OPM and APM also when the list is not empty, for APM when a quaternion is given). For OEM, AEM and TDM segments see C24, C25, C26."
  },
  {
   "property": "C44",
   "status": "partial",
   "theorems": [
    "Ndm.C44_refuted",
    "Ndm.C44_partial",
    "Ndm.C44_messages_partial"
   ],
   "note": "False for texts with a carriage return (counterexample: survives strings, not files). Proved for all other texts, objects, formats and platforms; for well-formed messages writing is proved to succeed."
  },
  {
   "property": "C45",
   "status": "partial",
   "theorems": [
    "Ndm.C45_refuted",
    "Ndm.C45_partial",
    "Ndm.C45_encodable"
   ],
   "note": "False when the text cannot be encoded: the file is emptied (counterexample). Proved in all other cases."
  },
  {
   "property": "C46",
   "status": "partial",
   "theorems": [
    "Ndm.C46_refuted",
    "Ndm.C46_partial",
    "Ndm.C46_outcome"
   ],
   "note": "False: an interrupted write leaves a beginning of the new contents (counterexample). Proved: nothing else can happen, and other files are unchanged."
  },
  {
   "property": "C47",
   "status": "partial",
   "theorems": [
    "Ndm.C47_refuted",
    "Ndm.C47_partial"
   ],
   "note": "False for writing KVN: a str path always raises AttributeError. Proved for all reading and for writing XML."
  },
  {
   "property": "C48",
   "status": "proved",
   "theorems": [
    "Ndm.C48_line_ends"
   ],
   "note": ""
  },
  {
   "property": "C49",
   "status": "partial",
   "theorems": [
    "Ndm.C49_refuted",
    "Ndm.C49_last_write_partial",
    "Ndm.C49_untouched"
   ],
   "note": "False of the code: a later to_file whose text cannot be encoded raises and empties the file (C49_refuted), and a text with a carriage return is read differently (C44_refuted). Proved for all other histories, refused writes to the same file included."
  },
  {
   "property": "C50",
   "status": "proved",
   "theorems": [
    "Ndm.C50_injective"
   ],
   "note": ""
  },
  {
   "property": "C51",
   "status": "proved",
   "theorems": [
    "Ndm.C51",
    "Ndm.C51_unique"
   ],
   "note": "The notation is the relation Denotes of SpecText.lean; it includes the layout conditions of SpecRt.lean and SpecEph.lean (e.g. a keyword given in a repeated block is given in all earlier ones), without which the property is false (C42, C43)."
  },
  {
   "property": "C52",
   "status": "partial",
   "theorems": [
    "Ndm.C52_refuted",
    "Ndm.C52_partial",
    "Ndm.C52_ephemeris_partial",
    "Ndm.C52_messages_partial"
   ],
   "note": "False of the code: a comment between the lines of a block moves to the enclosing block when the message is written and read (counterexample). Proved for all texts of OPM, OMM, RDM, CDM, APM and AEM without comments, for those of OEM and TDM with complete data lines, and for texts of all eight kinds that say a well-formed message."
  },
  {
   "property": "C53",
   "status": "proved",
   "theorems": [
    "Ndm.C53_convert",
    "Ndm.C53_kvn",
    "Ndm.C53_chain",
    "Ndm.C53_notation",
    "Ndm.C53_wrapped",
    "Ndm.C53_combined"
   ],
   "note": "The condition on the XML library is ReadsBack (SpecXml.lean)."
  },
  {
   "property": "C54",
   "status": "proved",
   "theorems": [
    "Ndm.C54_exceptions",
    "Ndm.C54_five",
    "Ndm.C54_each",
    "Ndm.C54_xml",
    "Ndm.C54_any"
   ],
   "note": "C54_each: none of the five exceptions is superfluous."
  },
  {
   "property": "C55",
   "status": "partial",
   "theorems": [
    "Ndm.C55_partial",
    "Ndm.C55_aem_partial",
    "Ndm.C55_refuted"
   ],
   "note": "False as stated: units the schema does not list, non-numeric observations, two kinds of attitude states and quaternions whose order only a later segment states are read but cannot be written. Proved: there is no other exception, for all kinds but AEM; for OPM, OMM, RDM, CDM and APM exactly the messages with unknown units cannot be written; an AEM can be written exactly if its attitude states are complete and segments with quaternions, or segments before them, state the order of the components (the order is needed unless an epoch begins with QUATERNION_TYPE)."
  },
  {
   "property": "C56",
   "status": "proved",
   "theorems": [
    "Ndm.C56_threads",
    "Ndm.C56_ndm",
    "Ndm.C56_sequential",
    "Ndm.C56_shared"
   ],
   "note": "C56_sequential ties the step-by-step model to the model of the method; C56_shared shows that the condition on instances is needed. Steps are reads and assignments of instance attributes; the library's parser object, which all instances share, is assumed to keep nothing between calls."
  },
  {
   "property": "C57",
   "status": "proved",
   "theorems": [
    "Ndm.C57_changed_values",
    "Ndm.C57_tdm",
    "Ndm.C57_attitude_type",
    "Ndm.C57_dates"
   ],
   "note": "C57_attitude_type and C57_dates show that the two exceptions are needed."
  },
  {
   "property": "C58",
   "status": "proved",
   "theorems": [
    "Ndm.C58_edited",
    "Ndm.C58_assign",
    "Ndm.C58_quaternion_type"
   ],
   "note": "C58_quaternion_type shows that the exception of QUATERNION_TYPE is needed."
  },
  {
   "property": "C59",
   "status": "partial",
   "theorems": [
    "Ndm.C59_unknown_at_end_partial",
    "Ndm.C59_refuted",
    "Ndm.C59_header"
   ],
   "note": "False of the code: an unknown line between two manoeuvres makes the reader lose the second (C59_refuted), two in the header lose the originator (C59_header). Proved for unknown lines at the end of the text, for all kinds of messages. Missing: places in the middle where nothing is lost."
  },
  {
   "property": "C60",
   "status": "proved",
   "theorems": [
    "Ndm.C60_separate_files"
   ],
   "note": "File accesses of any size, in any interleaving."
  },
  {
   "property": "C61",
   "status": "partial",
   "theorems": [
    "Ndm.C61_partial",
    "Ndm.C61_refuted"
   ],
   "note": "False of the code: to_file rewrites the file in place, so a reader can get a message that was neither there before nor is there afterwards (C61_refuted, two ways). Proved: what is read begins like the old contents and goes on like the new ones, possibly incomplete."
  },
  {
   "property": "C62",
   "status": "partial",
   "theorems": [
    "Ndm.C62_shared_partial",
    "Ndm.C62_same_locations_partial",
    "Ndm.C62_refuted"
   ],
   "note": "False of the code when writes on one instance are given different schema locations: even the first call of a thread can write another thread's locations (C62_refuted). Proved for all reads, and for writes when the locations agree; otherwise the locations are those of some call on the instance."
  },
  {
   "property": "C63",
   "status": "partial",
   "theorems": [
    "Ndm.C63_oem_refuted",
    "Ndm.C63_tdm_refuted",
    "Ndm.C63_aem_refuted",
    "Ndm.C63_maneuver_refuted",
    "Ndm.C63_number_refuted",
    "Ndm.C63_first_line_partial"
   ],
   "note": "False of the code, and not only in one case: every OEM, TDM and AEM text with at least two data lines in a segment can be cut so that the rest is read without an error as a shorter message. Counterexamples for keyword messages: a lost maneuver, a lost part of a number. What holds: if at most one line is left that is not blank, an exception is raised."
  },
  {
   "property": "C64",
   "status": "partial",
   "theorems": [
    "Ndm.C64_partial"
   ],
   "note": "For every well-formed message of the eight kinds; the meaning of a text (SpecText.lean) does not mention the reader. Missing: objects that are not well formed, for some of which it is false (see C28, C35, C36, C41, C43)."
  },
  {
   "property": "C65",
   "status": "proved",
   "theorems": [
    "Ndm.C65_document",
    "Ndm.C65_round_trip",
    "Ndm.C65_ndm",
    "Ndm.C65_from_kvn",
    "Ndm.C65_reads_back",
    "Ndm.C65_empty_refuted"
   ],
   "note": "xsdata's binding of documents is modelled (XmlDoc.lean); the characters of documents are a parameter that is assumed to be faithful up to layout, order of elements with different tags and attributes (XmlChars.Faithful; faithful_exists shows that the assumption can be met). The restriction to the data model is needed: an empty text between tags is not told from None (C65_empty_refuted)."
  },
  {
   "property": "C66",
   "status": "partial",
   "theorems": [
    "Ndm.C66_message_partial",
    "Ndm.C66_ndm_partial",
    "Ndm.C66_refuted"
   ],
   "note": "Proved for documents whose root is one of the eight message tags or ndm. False for other documents: a part of a message, such as userDefinedType, is read without an exception, as an object that is not a message (C66_refuted)."
  },
  {
   "property": "C67",
   "status": "partial",
   "theorems": [
    "Ndm.C67_message_partial",
    "Ndm.C67_ndm_partial",
    "Ndm.C67_single_partial",
    "Ndm.C67_refuted"
   ],
   "note": "Proved for the elements, their texts and the attributes the data model has, at every depth (KeptXml in SpecXmlRead.lean); of a combined message with one message, for this message. False for the identifier and comments around a single message, for attributes the data model does not have, and for text between elements (C67_refuted)."
  },
  {
   "property": "C68",
   "status": "proved",
   "theorems": [
    "Ndm.C68_strict",
    "Ndm.C68_ndm"
   ],
   "note": "ForeignXml in SpecXmlRead.lean says which elements the data model does not have. xsdata's binding is modelled in XmlDoc.lean; the characters are a parameter."
  },
  {
   "property": "C69",
   "status": "proved",
   "theorems": [
    "Ndm.C69_named",
    "Ndm.C69_ndm"
   ],
   "note": "The table of kinds, tags, identifiers and versions is in SpecXmlRead.lean."
  },
  {
   "property": "C70",
   "status": "proved",
   "theorems": [
    "Ndm.C70_message",
    "Ndm.C70_ndm"
   ],
   "note": "For every document whose root is a message or ndm, under the same assumption on the characters as C65 (XmlChars.Faithful)."
  },
  {
   "property": "C71",
   "status": "partial",
   "theorems": [
    "Ndm.C71_message_partial",
    "Ndm.C71_ndm_partial",
    "Ndm.C71_kvn_partial",
    "Ndm.C71_refuted_xml",
    "Ndm.C71_refuted_kvn",
    "Ndm.C71_refuted_stated"
   ],
   "note": "False of the code: an empty element of any kind of message is read (C71_refuted_xml), and a KVN message without the name of the object and without a position is written and read (C71_refuted_kvn). Proved: an object read from XML lacks something mandatory, at any depth, exactly if the document does, so a user can tell from the object; an object read from KVN lacks something if it has a block of which the schema requires a keyword, directly or in a required part, and no line states it. The converse is false: unknown lines make the reader lose a keyword that is stated (C71_refuted_stated). Missing: for OEM, AEM and TDM, the keywords of columns, which lines state without naming them."
  },
  {
   "property": "C72",
   "status": "partial",
   "theorems": [
    "Ndm.C72_partial",
    "Ndm.C72_aem_partial",
    "Ndm.C72_refuted"
   ],
   "note": "False of the code in six ways (C72_refuted): unknown units, parameters without a name, rotations without an axis, empty state vectors, observations without a number, empty attitude states. Proved: for all kinds but AEM there is no other way; an AEM can be written exactly if its attitude states are complete and segments with quaternions, or segments before them, state the order of the components (the order is needed unless an epoch begins with QUATERNION_TYPE)."
  },
  {
   "property": "C73",
   "status": "proved",
   "theorems": [
    "Ndm.C73_from_path"
   ],
   "note": "The file system and the platform are parameters (Files.lean)."
  },
  {
   "property": "C74",
   "status": "proved",
   "theorems": [
    "Ndm.C74_write_exceptions",
    "Ndm.C74_rewrite_exceptions",
    "Ndm.C74_each"
   ],
   "note": "The list is exact: each exception happens (C74_each)."
  },
  {
   "property": "C75",
   "status": "proved",
   "theorems": [
    "Ndm.C75_layout",
    "Ndm.C75_any",
    "Ndm.C75_same_tag"
   ],
   "note": "About the model of xsdata's binding (XmlDoc.lean), which is assumed."
  },
  {
   "property": "C76",
   "status": "partial",
   "theorems": [
    "Ndm.C76_message_partial",
    "Ndm.C76_ndm_partial",
    "Ndm.C76_kvn_partial",
    "Ndm.C76_refuted_xml",
    "Ndm.C76_refuted_kvn",
    "Ndm.C76_refuted_hidden"
   ],
   "note": "False of the code: whether an XML document is read does not depend on its texts and attributes at all (C76_refuted_xml), and a KVN text of a kind other than AEM and TDM is read whatever the values in its lines are (C76_refuted_kvn). Proved: an object read from XML has, at any depth, a text in the place of a number or enumeration value exactly if the document has a text or attribute there that is none, so a user can tell from the object; in an object read from KVN a text in such a place is never a number or one of the values. That every malformed value of a KVN text remains visible in the object is false: a repeated line disappears whatever its value is (C76_refuted_hidden)."
  },
  {
   "property": "C77",
   "status": "partial",
   "theorems": [
    "Ndm.C77_blocks_partial",
    "Ndm.C77_removed_partial",
    "Ndm.C43_refuted_write"
   ],
   "note": "False of the code for AEM: a segment with quaternions that does not state QUATERNION_TYPE is written in the order an earlier segment stated (C43_refuted_write). Proved for every list in a message, at any depth (segments, comments, manoeuvres, data lines, user-defined parameters), whose items and surroundings have quaternions as attitude states only in AEM segments that state the order; the block function is one and the same for all messages, positions and classes. Missing: the comments inside an AEM segment with quaternions."
  },
  {
   "property": "C78",
   "status": "proved",
   "theorems": [
    "Ndm.C78_order",
    "Ndm.C78_rewritten",
    "Ndm.C78_keywords",
    "Ndm.C78_other_order"
   ],
   "note": "BlockLines (SpecOrder.lean) describes the lines of a class over the schema table alone; C78_keywords says what it means for the keywords of a block, C78_other_order that it excludes other orders. The order inside data lines is the subject of C29 and C31 to C34."
  },
  {
   "property": "C79",
   "status": "proved",
   "theorems": [
    "Ndm.C79_valid",
    "Ndm.C79_ndm",
    "Ndm.C79_from_kvn"
   ],
   "note": "For messages whose texts XML can hold and a faithful XML library (the assumptions of C65). What the schema requires and allows is the number of elements, attributes and texts and their types, as in the tables of the data model; patterns and ranges of values are not modelled."
  },
  {
   "property": "C80",
   "status": "proved",
   "theorems": [
    "Ndm.C80_to_file",
    "Ndm.C80_kvn",
    "Ndm.C80_xml"
   ],
   "note": "For the key-value notation with a Path; with a str path to_file raises AttributeError (C47_refuted). Assumes the platform as described by Platform (Files.lean): default encoding, line separator, which files can be opened."
  },
  {
   "property": "C81",
   "status": "proved",
   "theorems": [
    "Ndm.C81_characters",
    "Ndm.C81_printable",
    "Ndm.C81_rewritten",
    "Ndm.C81_converted",
    "Ndm.C81_combined",
    "Ndm.C81_files"
   ],
   "note": "For objects that conform to the data model: str() of other objects is not modelled. Upper case of characters that are not ASCII is a parameter, so a class of characters must be closed under it."
  },
  {
   "property": "C82",
   "status": "proved",
   "theorems": [
    "Ndm.C82_message",
    "Ndm.C82_auto",
    "Ndm.C82_ndm",
    "Ndm.C82_unique",
    "Ndm.C82_refused",
    "Ndm.C82_part",
    "Ndm.C82_part_read"
   ],
   "note": "An equivalence for messages and combined messages: it gives the result for every such document, and says which are read. The document is the tree the XML parser gives; how xsdata binds trees is an assumption of the model, not checked against xsdata, whose source is not available here. For documents whose root is a part of a message, C82_part_read says which are read, and C82_part that the result is what the document says or a value in it (C66_refuted shows one)."
  },
  {
   "property": "C83",
   "status": "proved",
   "theorems": [
    "Ndm.C83_says",
    "Ndm.C83_ndm",
    "Ndm.C83_different",
    "Ndm.C83_different_ndm"
   ],
   "note": "For texts XML can hold and a faithful XML library (the assumptions of C65). What a document says is XmlSays (SpecXmlFrom.lean), which does not mention the reader."
  }
 ]
}