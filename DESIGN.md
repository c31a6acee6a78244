# Formal model of egemenimre/ccsds-ndm in Lean 4

The properties are in `properties.jsonl`, their status and theorems in `MANIFEST.json` (both written by the scripts in
`tools/`), the wrong programs the theorems were tried against in `seeded/LOG.jsonl`.

In the log, `first_errors` are the declarations at which the build of the edited model failed, and `theorems_failed` their names:
what was observed until the build was stopped, usually within seconds of the first error.  Modules that import a failing one are not built, so theorems further down are not tried; `dependents_by_name` lists
the property theorems whose proofs mention a failing declaration, directly or through other lemmas.  It is found by a search for
names, not by Lean, and is too long where names are common (`step`).  A failing proof shows that the proof does not apply to the
edited model, not by itself that the claim is false of it.  Every attempt is listed: a `note` marks those that broke no claim (edits that leave the
program the same), did not typecheck, were inconclusive, or survived.

## 1. What is modelled

All of `ndm_io.py`, `ndm_kvn_io.py` and `ndm_xml_io.py`, function by function, and all dataclasses and enumerations of
`models/ndmxml2`.  Python exceptions are values (`Except PyErr`); every function is total and computable.

| module | models |
| --- | --- |
| `Py.lean` | the Python `str` operations the code uses, on `List Char` |
| `Dec.lean` | `decimal.Decimal(text)`, `str(Decimal)`, `int(text)`, which texts `float` accepts |
| `SchemaData.lean` | the dataclasses and enumerations: fields in order, XML names, types, lists, subclasses (generated by `tools/`) |
| `SchemaFacets.lean` | the fields the schema requires, and how often at least (generated by `tools/`) |
| `Obj.lean` | Python objects (`Val`), and what is assumed of `lxml` and `xsdata` when a section is bound to a dataclass |
| `Pre.lean` | `_pre_process_kvn_data`, `_NdmDataType`, `_identify_data_type`, `_deleted_keywords` |
| `Tree.lean` | `_NdmElement`, `_extract_object_submap`, `_get_ccsds_kw_list`, `_is_list`, `_is_class` |
| `Ident.lean` | `_get_min_max_indices`, `__process_comment_lines`, `_get_index`, `__identify_sub_segments`, `__identify_sub_sub_segments`, `__identify_list`, `_identify_special_sub_segments` |
| `Build.lean` | `__build_object_tree`, `__build_special_objects`, `__prepare_aemsegment_sub_objects`, `__xmlify_att_segment_data`, `_xmlify_root`, `_xmlify_single_elem`, `_xmlify_list` |
| `Write.lean` | `to_string`, `_collate_str_out`, `_collate_str_out_subclasses`, `_collate_special_header_str_out`, `_collate_special_data_str_out`, `_fill_*`, `_is_multi_ndm`, `_strip_multi_ndm` |
| `KvnIo.lean` | `NdmKvnIo` as an object with the attributes `_keys`, `_lines`, `object_tree`: every method is a state transformer that keeps what was assigned before an exception |
| `XmlIo.lean` | `NdmXmlIo` as an object (parser, serializer), combined messages; `NdmIo` |
| `Files.lean` | `from_path` and `to_file` of the three classes over a file system, including the states an interrupted write can leave |
| `Threads.lean` | `NdmKvnIo.from_string` as a sequence of reads and assignments of instance attributes, and threads executing such calls in any interleaving; the sequence is proved to do what `KvnIo.lean` says (`C56_sequential`) |
| `FileThreads.lean` | `NdmIo.from_path` and `NdmIo.to_file` as sequences of file accesses of any size (opening, which empties a file for writing; reading; writing), and threads or processes executing such calls in any interleaving; assumption: an access is atomic and positions are kept per open file, as in POSIX |
| `XmlThreads.lean` | `NdmXmlIo.from_string` and `to_string` as accesses to `self.parser` and `self.serializer`, and threads executing such calls on shared instances in any interleaving; assumptions: an access is atomic, and the library's parser and serializer objects keep nothing between calls |
| `XmlDoc.lean` | what `xsdata` makes of objects and documents, driven by the table of dataclasses: `XmlSerializer.render` up to the document, `XmlParser.from_string` from the document on |

`ValEq.lean` and `Samples.lean` are decidable equality of objects and sample messages for the examples.

### Not modelled, or simplified

* `lxml`, `xsdata`, `xml.etree` are not part of the code base.  For the key-value notation the code builds small XML
  documents of depth two and lets `xsdata` bind them; what is assumed of this is written out as the definitions in the
  second half of `Obj.lean`, with the list of assumptions in its header.  For XML messages the libraries are a
  parameter (`XmlLib`): the theorems hold whatever they do.  C65 looks inside: `XmlDoc.lean` says what is assumed of
  `xsdata` between objects and documents (elements in any order, unknown or repeated elements are errors, unknown
  attributes are ignored, an empty text between tags is `None`, decimals are written without exponent), and
  `XmlChars.Faithful` what is assumed of the characters: what is written for a document without control characters is
  read as this document, up to attributes of other namespaces, the order of elements with different tags, and blank text around children.
  The binding `Obj.lean` assumes for the small documents of the key-value notation is the one of `XmlDoc.lean` on those
  documents (`bindDoc_eq`).  Both are meant to follow `xsdata` 21.5, the version the change log names: later versions also compare
  `id` and `version` with their fixed values and raise `ParserError` when they differ.  The source of `xsdata` is not
  available here, so neither the binding nor this remark has been checked against it: both are from knowledge of the library.
* Python's Unicode tables for non-ASCII characters (`upper`, `isnumeric`, `isalpha`, digits, XML names) are `opaque`
  functions of `Py.lean`: nothing can be proved about their values, so every theorem holds whatever they are.  `isspace`
  is given in full.  Lone surrogates are not represented.
* `str()` of objects that are neither texts nor numbers (`reprStr`) is some unspecified text.
* `float` and `bool` leaves do not occur in `Val`; `Decimal` exponents are unbounded (CPython refuses exponents
  beyond about 10^18); `int` texts with more than 4300 digits are accepted (CPython refuses them).
* Files: names are distinct files, an existing file can be read, encodings are functions on whole texts; the encoding,
  the line separator and write permissions are parameters.
* Logging, documentation and the test data are not modelled.

### The two loops that Python bounds implicitly

`__identify_list` is a `while` loop; the model gives it the fuel `len(lines) + 1` and reports exhaustion as an error of
its own.  C11 proves that this error never occurs.  `_extract_object_submap` and `__build_object_tree` recurse over the
class graph; `extract_fuel` proves that the depth given is enough.

## 2. Specifications

The theorems in `Props/` are stated with the model's entry points (`kvnFromString`, `kvnToString`, `KvnSelf.fromString`,
`ndmFromString`, `ndmToFile`, ...) and the following specifications, which do not refer to how the code works.

| module | says | used by |
| --- | --- | --- |
| `Spec.lean` | lines of a text, lines that carry content, trimmed texts | C04-C09, C37, C51 |
| `SpecConf.lean` | an object conforms to the data model | C38, round trips |
| `SpecNdm.lean` | messages in a combined message | C14-C17 |
| `SpecFill.lean` | an APM whose absent Euler elements, angles or rates are replaced by objects with nothing in them | C28 |
| `SpecRt.lean` | well-formed messages, and the lines the notation prescribes for them | C21-C23, C27, C28, C42, C50 |
| `SpecEph.lean` | the same for OEM, TDM and AEM, with and without freedom of spacing | C24-C26, C29-C34 |
| `SpecFrom.lean` | where the data in an object were stated | C37 |
| `SpecRead.lean`, `SpecText.lean` | what a text says, for every layout and spelling | C51, C63, C64 |
| `SpecChange.lean` | texts that differ in values only, and objects that differ in the fields of some keywords only | C57 |
| `SpecEdit.lean` | assignments to a field, and lines of a text without those of a keyword | C58 |
| `SpecUnknown.lean` | keywords of the data model, lines with other keywords | C59 |
| `SpecShare.lean` | results of calls one after the other, threads with separate files, mixed contents | C60, C61 |
| `SpecXmlShare.lean` | results on a new instance, schema locations given in some call | C62 |
| `SpecFile.lean` | texts with the same lines and different line ends | C44-C49 |
| `SpecKept.lean` | lines represented in an object | C40 |
| `SpecXml.lean` | converting texts, messages an XML library reads back | C53 |
| `SpecXmlOrder.lean` | documents with the same content | C75 |
| `SpecXmlDoc.lean` | documents that differ in layout only, texts XML can hold, objects with the same values | C65 |
| `SpecXmlRead.lean` | everything in a document is in another one, elements the data model does not have, tags, identifiers and versions of the kinds, rewriting | C67-C70 |
| `SpecMissing.lean` | what the schema requires and is not there, in an object and in a document | C71 |
| `SpecMalformed.lean` | values that are not of the type the schema gives, in an object and in a document | C76 |
| `SpecAdditive.lean` | parts that are written on their own | C77 |
| `SpecStore.lean` | what is stored in a file | C80 |
| `SpecChars.lean` | classes of characters, platforms whose encoding covers ASCII | C81 |
| `SpecXmlFrom.lean` | what texts, fields and elements of a document say | C81, C82, C83 |
| `SpecOrder.lean` | the lines of a class in the order of the schema | C78 |
| `SpecToKvn.lean` | what an object must have to be written in the key-value notation, complete attitude states | C55, C72 |
| `SpecUpdate.lean` | replacing a part of an object | C35, C43 |
| `SpecWithin.lean` | parts of an object, blocks made of keyword lines | C30, C36 |
| `SpecWritable.lean` | objects with units the schema does not know, numeric observations | C55 |
| `SpecComplete.lean` | data lines that the writer can reproduce | C52 |

`Lemmas/` holds the proofs that are not statements of properties.

A Python string literal is written `py "..."`.  It is elaborated to the list of its characters (`Py.lean`), not to
`String.toList "..."`, because the kernel would have to decode the latter from UTF-8 again and again.

## 3. How each property is proved

- **C01, C02** detection and dispatch: case analysis of the detector on all texts; algebra of `strip`.
- **C03** totality: every result is an object of the class named by the first line or one of the listed exceptions; case
  analysis of the pipeline with "building a root element gives an object of its class" as invariant.
- **C04-C08** lines: `_pre_process_kvn_data` factors through the list of stripped non-blank lines; a line is parsed
  symbolically for arbitrary keyword, value, unit.  **C09** is false (section 4); its complement is C08.
- **C10** numbers: the grammar of `Decimal` and the scientific/plain forms of `str`, unbounded coefficients and exponents.
- **C11** termination: every identification step returns an index between its start and `len(lines)`.
- **C12, C13** histories: induction over call histories of the stateful model.
- **C14-C17** combined messages: list reasoning over the slots.
- **C18, C19** the written text: its first line is recognised as its kind; the marker lines are balanced.
- **C20** the schema: kernel evaluation over the complete finite table.
- **C21-C23, C27, C28, C42, C50** round trip: `Good` gives an object together with its lines.  *Writing*: by induction the
  writer emits exactly these lines.  *Reading*: a block theorem for `_get_min_max_indices` (`Lemmas/MinMax, Range, Chop`)
  shows that the range found for an object is exactly its lines, by induction over the tree of objects and over lists;
  then binding gives back the object (`Lemmas/BindRt, ReadObj, ReadGood, Root`).  C50 is a consequence.
- **C24-C26, C29-C34** ephemerides, tracking, attitude: the same scheme with the data lines' own notations.
- **C36, C41**: false in general (section 4), the part that holds is the `_partial` theorem.  C36 needs an invariant of
  the element tree (`Tree`, `RTree` in `Lemmas/Absent.lean`): an element none of whose keywords occurs gets an empty
  range, whatever its position.  `build_within` (`Lemmas/Within.lean`) carries it to every part of the result.
- **C30**: false, for every text: the same invariant shows that the frame is never stored (`C30_frame_never_read`).
- **C35, C43**: false in general (section 4).  What holds: replacing the user-defined parameters, the maneuvers or the
  segments of a well-formed message gives a well-formed message (`Lemmas/Update.lean`), so it is read back.
- **C40**: false in general (section 4).  What holds: induction over the notation (`Lemmas/Kept.lean`) and C51.
- **C37** provenance: an invariant "stated by the lines" over binding and building, for every text that can be read.
- **C38** conformance and **C39** section ranges: invariants over building and identification.
- **C44-C49** files: composition of the text theorems with the file model; `WriteState` for crash points; induction over
  histories for C49.
- **C51** reading: the reading half of the round trip, with the writer's notation replaced by `Denotes`, which leaves open
  spacing, order of keyword lines, position of comments, spelling of numbers and marker lines.
- **C52**: false in general (section 4).  For texts without comments: by induction over the notation, an object stated by
  such lines is well-formed (`Lemmas/Rewrite.lean`, `Lemmas/RewriteEph.lean`), so the round trip applies.
- **C53** conversion: composition of detection, dispatch and the round trips; induction over the conversions.
- **C54** exceptions: every step raises only the listed exceptions (`Raises`, `Lemmas/Range.lean`); that no attribute
  error is left needs the invariants of C38 (slots), C39 (ranges) and the depth of the tree (`Lemmas/Errors.lean`).
  For XML, by induction over the document (`Props/XmlErrors.lean`).
- **C55** writing what was read: false in general (section 4).  `Lemmas/Writable.lean` says which objects the writer accepts, by
  induction over the object; `Lemmas/WritableRead.lean` shows that the reader returns such objects.  Attitude ephemerides
  (C55, C72): `Lemmas/AemWritable.lean` follows the lines written so far, in which the writer looks for the order of the
  components of quaternions; `Lemmas/AemWritten.lean` shows that states that were written are complete,
  `Lemmas/AemOrder.lean` that quaternions that were written had their order stated before.
- **C56** threads: an invariant of the interleaving (each thread's results so far, followed by the results of its
  remaining calls when run alone from the present heap, are those of a program with no threads; no instance is used by two
  threads) and a count of the remaining steps.  `C56_shared`: on a shared instance a thread can get the other's message.
- **C57** changed values: the reader finds sections by keywords only (dates, for observations); then induction over the tree
  of elements with the relation `Alike` of `SpecChange.lean`.  `C57_attitude_type`, `C57_dates`: the two exceptions are needed.
- **C58** edited fields: induction over the object with the relation `Edited` of `SpecEdit.lean`; the writer looks back at
  earlier lines only for QUATERNION_TYPE.  `C58_quaternion_type`: that exception is needed.
- **C59** unknown keywords: false (`C59_refuted`, `C59_header`).  For unknown lines at the end of the text: induction over the
  tree of elements, comparing the identification of every element on the shorter and on the longer list of lines; a repeated
  block that ended with the file now ends with one more, empty, round (`Lemmas/Trailing.lean`).
- **C60** separate files: a thread and the files it uses do the same steps in any schedule as alone (simulation); alone, an
  invariant relates the state between two accesses to the calls of `Files.lean`, with a bound on the steps left.
- **C61** a file being rewritten: false (`C61_refuted`).  An invariant of the writer, the contents of the file and the bytes the
  reader has gives what holds (`C61_partial`).
- **C62** a shared `NdmXmlIo`: false when writes are given different schema locations (`C62_refuted`).  Otherwise an invariant: a
  parser or serializer that was seen stays there, and the locations of a serializer were given in a call on that instance.
- **C63** texts that were cut: false (section 4), for every OEM, TDM and AEM with two data lines: the lines up to any data line
  are again a text of a message (`Lemmas/Cut.lean`), so C51 applies.  What holds: a single line is never a message.
- **C64** the meaning of written texts: the lines written for an object (`write_good`, `write_oem`, `write_tdm`, `write_aem`) are
  those that state it, in one of the many ways `Denotes` allows.
- **C65** XML: by induction over the object, the elements written for a field are those the parser binds to it, and give its
  value back (`Lemmas/XmlBind.lean`); `C65_from_kvn` uses C37 (texts of the object come from the lines) and C38.
- **C66** objects read from XML: `bindElem_type`, by induction over the document; false for documents that are not messages
  (`C66_refuted`).
- **C67** nothing is lost: by induction over the document, what is written for the bound value has all its elements
  (`bindElem_kept`, `Lemmas/XmlRead.lean`); false in three ways (`C67_refuted`).
- **C68** foreign elements: each way in which the binding can fail is a foreign element and the reverse, by induction over the
  document (`foreign_refused`, `bindElem_total`).
- **C69** kinds and versions: computation with the table of classes; the specification has its own table.
- **C70** rewriting XML: the texts of the object come from the document (`bindElem_good`), so C65 applies; writing numbers without
  exponent twice is the same as once (`Val.plain_plain`).
- **C71** mandatory parts: false (section 4).  By induction over the document, the object lacks what the document lacks
  (`incomplete_read`, `Lemmas/Missing.lean`).  For the key-value notation, what C37 says about the origin of every part of the
  object leaves nothing a required keyword without a line could come from (`part_missing`, `Lemmas/MissingKvn.lean`).
- **C72** from XML to the key-value notation: false (section 4).  What the writer takes for granted (`WOk`, `Lemmas/Writable.lean`)
  holds of every conforming object (C66) that meets the conditions of `SpecToKvn.lean`.
- **C73** `from_path`: case analysis of reading the file; the rest of the call is that of `from_string`.
- **C74** exceptions of the writer: as in C54, every step of the writer raises only the listed exceptions, by induction over the
  object (`Lemmas/WriteErrors.lean`); which parts can be inside a message of each kind is checked over the table of classes.
- **C75** layout of XML documents: by induction over the document.  What the children of an element are bound to is determined,
  tag by tag, by the children with that tag (`kids_ok`, `Lemmas/XmlOrder.lean`).
- **C76** values that are none: false (section 4).  For XML, whether a document is read depends on its elements only, by C68 and
  induction over the document; and by induction over the document, the object has a text in the place of a number or enumeration
  value exactly where the document has a text that is none.  For KVN, the refutation follows from C57 and the theorem about texts
  in the object from the conformance of what is read.
- **C77** parts are written on their own: by induction over the collecting functions, the lines collected for a self-contained value are
  appended to what was collected before, which is not read (`Framed`); then by induction over the path to the list, the text is a
  beginning, the blocks of the items and an end (`Additive`).  An AEM segment that states the order sets the one piece of state, so it is
  framed too; one that does not is the counterexample in section 4.
- **C78** order of the lines: by induction over the object with its conformance to the data model; each collecting function appends lines
  that `BlockLines`, an inductive description over the schema table, allows at that place.  That what is read conforms is C38 and C66.
- **C79** validity of what is written as XML: by C65 the document is bound to the object with its numbers in plain form; then the equivalences
  behind C71 and C76, and C68 for foreign elements.  Assumptions on the XML library as for C65.
- **C80** `to_file`: case analysis of writing the file; the line ends by induction over the lines of the text.
- **C81** characters: induction over the writer, with the types of the data model excluding values whose `str()` is not modelled; reading by C37 and C82, files by C44.
- **C82** what a document says: mutual induction over the tree for "what is read is said", over the derivation for uniqueness; with C68 an equivalence.
- **C83** what is written says the object: the round trip of C65 and C82.

## 4. Where the code does not have the property

In each case the negation is proved with a concrete witness (`_refuted`) and, where something remains, a `_partial`
theorem states what holds.

| property | what the code does |
| --- | --- |
| C09 | a text value ending in a bracket, such as `A [B]`, is read as value and unit |
| C13 | a reused `NdmXmlIo` writes all later messages with the schema locations of its first call |
| C17 | a combined message with one member: `AttributeError` instead of `NotImplementedError` or a text |
| C24 | units in state vectors and covariance matrices are lost; covariance comments are written under `COVARIANCE_MATRIX` |
| C25 | a TDM segment that begins with a comment beginning with a date is taken for an observation; a metadata keyword that an earlier segment lacks makes reading fail, unless the earlier segment has no comment in its data and observes some quantity more than once |
| C26 | quaternion derivatives cannot be written (`KeyError`), spins lose their numbers, lower-case attitude types cannot be read (`IndexError`) |
| C27, C43 | reading fails (`ParserError`) when a repeated block has an optional keyword that an earlier one lacks |
| C43 | an AEM segment with quaternions that has no `QUATERNION_TYPE` is not refused: it is read with that of a later segment, and written with that of an earlier one, so its numbers silently depend on other segments |
| C28, C36 | an APM without Euler elements is read as one with an empty tree of them; one with a single angle as one with three copies of it |
| C30 | `COV_REF_FRAME` of an OEM covariance matrix is read as its first number, shifting the matrix |
| C31 | lower-case `QUATERNION_TYPE` values, which the schema allows, scramble the components |
| C34 | angle observations cannot be written (`IndexError`); epochs of 30 characters or more are glued to the value |
| C35 | user-defined parameters: comments become parameters, names are upper-cased, units dropped, later duplicates lost |
| C40 | lines with unknown keywords, keywords out of place, repeated keywords and trailing comments are dropped without notice |
| C41 | the version in the file is ignored: every object has the version of the data model |
| C42 | with several comments, comments move between an enclosing block and its first sub-block |
| C44 | a carriage return inside a value is a line break when it comes back from a file |
| C45, C46, C49 | `to_file` empties the file before it writes: an encoding error or a crash loses the old contents |
| C47 | `to_file` for KVN raises `AttributeError` when the path is a `str`, which the documentation allows |
| C52 | a comment between the lines of a state vector is read as the state vector's, and after rewriting as the data's |
| C55 | a unit the schema does not list (`KM` for `km`) is kept as a text, and writing the object raises `AttributeError`; likewise observations that are not numbers (`IndexError`), quaternion derivatives (`KeyError`), spins (`TypeError`) and quaternions in a segment that leaves `QUATERNION_TYPE` to a later segment, where the reader finds it and the writer does not (`StopIteration`) |
| C59 | an unknown line between two manoeuvres makes the reader ignore the second; two unknown lines in the header make it ignore the originator |
| C61 | `to_file` rewrites the file in place: a concurrent reader can get a part of the new message, or the beginning of the old and the rest of the new one, without an exception |
| C62 | threads that write with one `NdmXmlIo` and different schema locations write those of another thread, even in the first call |
| C63 | a text whose end is missing is read without an error as a shorter message, or with another last number |
| C65 | not refuted for objects that conform (C38); an object a user made with an empty text between tags is written like one with `None` |
| C66 | the root of a document can be any class: a part of a message is read as an object that is not a message, and one that holds a single list with one item even as this item |
| C67 | the identifier and the comments of a combined message with one message are dropped; so are unknown attributes, and text between elements |
| C71 | nothing checks what the schema requires: an empty `<opm/>` is read, and a KVN message without object name and position is written and read; conversely, a text may state all that is required and the object lack something (two unknown lines lose the originator, C59) |
| C76 | nothing checks values: `<X units="furlong">far</X>` and `X = far [furlong]` are read, and the texts are kept in the place of the number and the unit (xsdata warns, the code does not look); in KVN the value may not even be in the object, when its line repeats a keyword |
| C77 | segments of an AEM are not independent: one that does not state QUATERNION_TYPE is written in the order stated by an earlier one, so removing that one changes or breaks it (`C43_refuted_write`) |
| C72 | objects read from XML that cannot be written in the key-value notation: a unit the schema does not list, a parameter without a name, a rotation without an axis, an empty state vector, an observation without a number, an empty attitude state |

An `NdmKvnIo` instance that two threads use at the same time can return to one the message that the other was reading
(`C56_shared`); `NdmIo` creates an instance per call and is not affected (`C56_ndm`).

Further observations made while modelling, not stated as properties: `COMMENTARY = 5` is taken for a comment; a
state-vector line separated only by tabs is not recognised; the keyword lookup of an AEM segment searches past the
segment; attitude numbers lose positive exponents and "Type" is removed from epoch texts of attitude states; `sNaN` is a decimal but not accepted in
covariance rows.

## 5. Trusted base

* Lean's kernel (4.33.0).
* The axioms `propext`, `Classical.choice` and `Quot.sound`, at most; the list for each theorem of the manifest is in
  `AXIOMS.md` (written by `tools/axioms.py`).  No axioms of our own, no `sorry`, no `native_decide`, no `bv_decide`.
* That the definitions of section 1 say what the Python code does.  Every definition cites the lines it models.  The code
  itself was not executed; `tools/validate.py` runs the model on the KVN files of the code base's own tests and finds the
  objects and texts those tests demand (14 files of all eight kinds).
* The assumptions about the libraries, listed in section 1.
* That the specifications of section 2 say what the English properties say.
