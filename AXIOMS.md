# Axioms of the theorems in MANIFEST.json

Written by `tools/axioms.py` from `#print axioms`.

| property | theorem | axioms |
| --- | --- | --- |
| C01 | C01_detection | propext, Quot.sound |
| C01 | C01_total | propext |
| C01 | C01_whitespace | propext, Quot.sound |
| C02 | C02_json_refused | propext, Quot.sound |
| C02 | C02_unknown_refused | propext, Quot.sound |
| C02 | C02_no_xml_parsing | propext, Quot.sound |
| C02 | C02_dispatch | propext, Quot.sound |
| C02 | C02_json_output | propext |
| C02 | C02_bytes | propext |
| C02 | C02_xml_bytes | propext, Quot.sound |
| C03 | C03_dispatch | propext, Classical.choice, Quot.sound |
| C03 | C03_total | propext, Classical.choice, Quot.sound |
| C04 | C04_whitespace_irrelevant | propext, Quot.sound |
| C04 | C04_crlf | propext, Quot.sound |
| C04 | C04_pad_line | propext, Quot.sound |
| C05 | C05_key_value | propext, Quot.sound |
| C05 | C05_respacing | propext, Quot.sound |
| C06 | C06_units | propext, Quot.sound |
| C06 | C06_no_spurious_unit | propext, Quot.sound |
| C07 | C07_comment | propext, Quot.sound |
| C08 | C08_value | propext, Quot.sound |
| C08 | C08_unit | propext, Quot.sound |
| C08 | C08_comment | propext, Quot.sound |
| C09 | C09_refuted | propext, Quot.sound |
| C09 | C09_never_preserved | propext, Quot.sound |
| C10 | C10_decimal | propext, Classical.choice, Quot.sound |
| C10 | C10_int | propext, Classical.choice, Quot.sound |
| C10 | C10_line | propext, Classical.choice, Quot.sound |
| C11 | C11_terminates | propext, Classical.choice, Quot.sound |
| C11 | C11_instance | propext, Classical.choice, Quot.sound |
| C11 | extract_fuel | propext, Quot.sound |
| C12 | C12_history | propext |
| C12 | C12_any_state | propext |
| C12 | C12_xml | propext |
| C13 | C13_refuted | propext |
| C13 | C13_witness | none |
| C13 | C13_partial | propext |
| C13 | C13_exact | propext |
| C13 | C13_same_locations_partial | propext |
| C13 | C13_reads_do_not_matter | propext |
| C14 | C14_strip | propext, Classical.choice, Quot.sound |
| C14 | C14_read | propext, Classical.choice, Quot.sound |
| C14 | C14_plain | propext |
| C15 | C15_multi | propext, Classical.choice, Quot.sound |
| C16 | C16_downcast | propext, Quot.sound |
| C17 | C17_partial | propext, Classical.choice, Quot.sound |
| C17 | C17_refuted | propext, Classical.choice, Quot.sound |
| C18 | C18_recognised | propext, Quot.sound |
| C18 | messageKinds_complete | propext |
| C19 | C19_markers | propext, Quot.sound |
| C19 | Balanced.counts | propext, Classical.choice, Quot.sound |
| C20 | C20_keywords | propext, Quot.sound |
| C20 | C20_comment | propext, Quot.sound |
| C21 | C21_opm | propext, Classical.choice, Quot.sound |
| C22 | C22_omm | propext, Classical.choice, Quot.sound |
| C23 | C23_rdm | propext, Classical.choice, Quot.sound |
| C24 | C24_refuted | propext |
| C24 | C24_refuted_comment | propext |
| C24 | C24_partial | propext, Classical.choice, Quot.sound |
| C24 | C24_units_partial | propext, Classical.choice, Quot.sound |
| C25 | C25_refuted | propext |
| C25 | C25_refuted_keywords | propext |
| C25 | C25_partial | propext, Classical.choice, Quot.sound |
| C26 | C26_refuted_derivative | propext, Quot.sound |
| C26 | C26_refuted_spin | propext |
| C26 | C26_refuted_case | propext |
| C26 | C26_partial | propext, Classical.choice, Quot.sound |
| C27 | C27_refuted | propext |
| C27 | C27_partial | propext, Classical.choice, Quot.sound |
| C28 | C28_refuted | propext |
| C28 | C28_copied_refuted | propext |
| C28 | C28_partial | propext, Classical.choice, Quot.sound |
| C28 | C28_filled_partial | propext, Classical.choice, Quot.sound |
| C28 | C28_never | propext, Classical.choice, Quot.sound |
| C28 | C28_settles | propext, Classical.choice, Quot.sound |
| C29 | C29 | propext, Classical.choice, Quot.sound |
| C29 | C29_written | propext, Classical.choice, Quot.sound |
| C30 | C30_refuted | propext |
| C30 | C30_frame_never_read | propext, Classical.choice, Quot.sound |
| C31 | C31_refuted | propext |
| C31 | C31_read | propext, Classical.choice, Quot.sound |
| C31 | C31_scalar | propext, Classical.choice, Quot.sound |
| C31 | C31_written | propext, Classical.choice, Quot.sound |
| C31 | C31_partial | propext, Classical.choice, Quot.sound |
| C32 | C32 | propext, Classical.choice, Quot.sound |
| C32 | C32_sequences | propext, Classical.choice, Quot.sound |
| C32 | C31_read | propext, Classical.choice, Quot.sound |
| C33 | C33 | propext, Classical.choice, Quot.sound |
| C33 | C33_written | propext, Classical.choice, Quot.sound |
| C34 | C34_refuted | propext |
| C34 | C34_refuted_angles | propext, Classical.choice, Quot.sound |
| C34 | C34_refuted_epoch | propext |
| C34 | C34_kinds | propext |
| C34 | C34_written | propext, Classical.choice, Quot.sound |
| C34 | C34_partial | propext, Classical.choice, Quot.sound |
| C34 | C34_read | propext, Classical.choice, Quot.sound |
| C35 | C35_refuted | propext |
| C35 | C35_refuted_comment | propext |
| C35 | C35_refuted_duplicate | propext |
| C35 | C35_partial | propext, Classical.choice, Quot.sound |
| C36 | C36_refuted | propext |
| C36 | C36_partial | propext, Classical.choice, Quot.sound |
| C37 | C37_provenance | propext, Classical.choice, Quot.sound |
| C37 | C37_lines | propext, Quot.sound |
| C37 | C37_items_unique | propext, Quot.sound |
| C38 | C38_conforms | propext, Classical.choice, Quot.sound |
| C39 | C39_ranges | propext, Classical.choice, Quot.sound |
| C39 | C39_lines_before_ignored | propext, Quot.sound |
| C40 | C40_refuted | propext |
| C40 | C40_refuted_order | propext |
| C40 | C40_refuted_repeated | propext |
| C40 | C40_refuted_comment | propext |
| C40 | C40_partial | propext, Classical.choice, Quot.sound |
| C41 | C41_refuted | propext |
| C41 | C41_partial | propext, Classical.choice, Quot.sound |
| C42 | C42_refuted_moved | propext |
| C42 | C42_refuted_second | propext |
| C42 | C42_partial | propext, Classical.choice, Quot.sound |
| C42 | C42_messages_partial | propext, Classical.choice, Quot.sound |
| C43 | C43_refuted | propext |
| C43 | C43_refuted_read | propext |
| C43 | C43_refuted_write | propext |
| C43 | C43_maneuvers_partial | propext, Classical.choice, Quot.sound |
| C43 | C43_attitude_maneuvers_partial | propext, Classical.choice, Quot.sound |
| C43 | C43_segments_partial | propext, Classical.choice, Quot.sound |
| C44 | C44_refuted | propext |
| C44 | C44_partial | propext |
| C44 | C44_messages_partial | propext, Classical.choice, Quot.sound |
| C45 | C45_refuted | propext |
| C45 | C45_partial | propext |
| C45 | C45_encodable | propext |
| C46 | C46_refuted | propext |
| C46 | C46_partial | propext |
| C46 | C46_outcome | propext |
| C47 | C47_refuted | propext |
| C47 | C47_partial | propext |
| C48 | C48_line_ends | propext |
| C49 | C49_refuted | propext |
| C49 | C49_last_write_partial | propext, Quot.sound |
| C49 | C49_untouched | propext |
| C50 | C50_injective | propext, Classical.choice, Quot.sound |
| C51 | C51 | propext, Classical.choice, Quot.sound |
| C51 | C51_unique | propext, Classical.choice, Quot.sound |
| C52 | C52_refuted | propext |
| C52 | C52_partial | propext, Classical.choice, Quot.sound |
| C52 | C52_ephemeris_partial | propext, Classical.choice, Quot.sound |
| C52 | C52_messages_partial | propext, Classical.choice, Quot.sound |
| C53 | C53_convert | propext, Classical.choice, Quot.sound |
| C53 | C53_kvn | propext, Classical.choice, Quot.sound |
| C53 | C53_chain | propext, Classical.choice, Quot.sound |
| C53 | C53_notation | propext, Classical.choice, Quot.sound |
| C53 | C53_wrapped | propext, Classical.choice, Quot.sound |
| C53 | C53_combined | propext, Classical.choice, Quot.sound |
| C54 | C54_exceptions | propext, Classical.choice, Quot.sound |
| C54 | C54_five | propext, Classical.choice, Quot.sound |
| C54 | C54_each | propext |
| C54 | C54_xml | propext, Classical.choice, Quot.sound |
| C54 | C54_any | propext, Classical.choice, Quot.sound |
| C55 | C55_partial | propext, Classical.choice, Quot.sound |
| C55 | C55_aem_partial | propext, Classical.choice, Quot.sound |
| C55 | C55_refuted | propext |
| C56 | C56_threads | propext, Quot.sound |
| C56 | C56_ndm | propext, Classical.choice, Quot.sound |
| C56 | C56_sequential | propext, Quot.sound |
| C56 | C56_shared | propext |
| C57 | C57_changed_values | propext, Classical.choice, Quot.sound |
| C57 | C57_tdm | propext, Classical.choice, Quot.sound |
| C57 | C57_attitude_type | propext, Quot.sound |
| C57 | C57_dates | propext, Quot.sound |
| C58 | C58_edited | propext, Classical.choice, Quot.sound |
| C58 | C58_assign | propext, Classical.choice, Quot.sound |
| C58 | C58_quaternion_type | propext |
| C59 | C59_unknown_at_end_partial | propext, Classical.choice, Quot.sound |
| C59 | C59_refuted | propext, Quot.sound |
| C59 | C59_header | propext |
| C60 | C60_separate_files | propext, Classical.choice, Quot.sound |
| C61 | C61_partial | propext, Classical.choice, Quot.sound |
| C61 | C61_refuted | propext |
| C62 | C62_shared_partial | propext, Quot.sound |
| C62 | C62_same_locations_partial | propext, Quot.sound |
| C62 | C62_refuted | propext |
| C63 | C63_oem_refuted | propext, Classical.choice, Quot.sound |
| C63 | C63_tdm_refuted | propext, Classical.choice, Quot.sound |
| C63 | C63_aem_refuted | propext, Classical.choice, Quot.sound |
| C63 | C63_maneuver_refuted | propext |
| C63 | C63_number_refuted | propext |
| C63 | C63_first_line_partial | propext, Quot.sound |
| C64 | C64_partial | propext, Classical.choice, Quot.sound |
| C65 | C65_document | propext, Classical.choice, Quot.sound |
| C65 | C65_round_trip | propext, Classical.choice, Quot.sound |
| C65 | C65_ndm | propext, Classical.choice, Quot.sound |
| C65 | C65_from_kvn | propext, Classical.choice, Quot.sound |
| C65 | C65_reads_back | propext, Classical.choice, Quot.sound |
| C65 | C65_empty_refuted | propext |
| C66 | C66_message_partial | propext, Classical.choice, Quot.sound |
| C66 | C66_ndm_partial | propext, Classical.choice, Quot.sound |
| C66 | C66_refuted | propext, Classical.choice, Quot.sound |
| C67 | C67_message_partial | propext, Classical.choice, Quot.sound |
| C67 | C67_ndm_partial | propext, Classical.choice, Quot.sound |
| C67 | C67_single_partial | propext, Classical.choice, Quot.sound |
| C67 | C67_refuted | propext, Quot.sound |
| C68 | C68_strict | propext, Classical.choice, Quot.sound |
| C68 | C68_ndm | propext, Classical.choice, Quot.sound |
| C69 | C69_named | propext, Quot.sound |
| C69 | C69_ndm | propext, Classical.choice, Quot.sound |
| C70 | C70_message | propext, Classical.choice, Quot.sound |
| C70 | C70_ndm | propext, Classical.choice, Quot.sound |
| C71 | C71_message_partial | propext, Classical.choice, Quot.sound |
| C71 | C71_ndm_partial | propext, Classical.choice, Quot.sound |
| C71 | C71_kvn_partial | propext, Classical.choice, Quot.sound |
| C71 | C71_refuted_xml | propext, Classical.choice, Quot.sound |
| C71 | C71_refuted_kvn | propext, Classical.choice, Quot.sound |
| C71 | C71_refuted_stated | propext, Classical.choice, Quot.sound |
| C72 | C72_partial | propext, Classical.choice, Quot.sound |
| C72 | C72_aem_partial | propext, Classical.choice, Quot.sound |
| C72 | C72_refuted | propext |
| C73 | C73_from_path | propext |
| C74 | C74_write_exceptions | propext, Classical.choice, Quot.sound |
| C74 | C74_rewrite_exceptions | propext, Classical.choice, Quot.sound |
| C74 | C74_each | propext |
| C75 | C75_layout | propext, Classical.choice, Quot.sound |
| C75 | C75_any | propext, Classical.choice, Quot.sound |
| C75 | C75_same_tag | propext |
| C76 | C76_message_partial | propext, Classical.choice, Quot.sound |
| C76 | C76_ndm_partial | propext, Classical.choice, Quot.sound |
| C76 | C76_kvn_partial | propext, Classical.choice, Quot.sound |
| C76 | C76_refuted_xml | propext, Classical.choice, Quot.sound |
| C76 | C76_refuted_kvn | propext, Classical.choice, Quot.sound |
| C76 | C76_refuted_hidden | propext, Quot.sound |
| C77 | C77_blocks_partial | propext, Classical.choice, Quot.sound |
| C77 | C77_removed_partial | propext, Classical.choice, Quot.sound |
| C77 | C43_refuted_write | propext |
| C78 | C78_order | propext, Classical.choice, Quot.sound |
| C78 | C78_rewritten | propext, Classical.choice, Quot.sound |
| C78 | C78_keywords | propext, Quot.sound |
| C78 | C78_other_order | propext, Classical.choice, Quot.sound |
| C79 | C79_valid | propext, Classical.choice, Quot.sound |
| C79 | C79_ndm | propext, Classical.choice, Quot.sound |
| C79 | C79_from_kvn | propext, Classical.choice, Quot.sound |
| C80 | C80_to_file | propext |
| C80 | C80_kvn | propext |
| C80 | C80_xml | propext |
| C81 | C81_characters | propext, Classical.choice, Quot.sound |
| C81 | C81_printable | propext, Classical.choice, Quot.sound |
| C81 | C81_rewritten | propext, Classical.choice, Quot.sound |
| C81 | C81_converted | propext, Classical.choice, Quot.sound |
| C81 | C81_combined | propext, Classical.choice, Quot.sound |
| C81 | C81_files | propext, Classical.choice, Quot.sound |
| C82 | C82_message | propext, Classical.choice, Quot.sound |
| C82 | C82_auto | propext, Classical.choice, Quot.sound |
| C82 | C82_ndm | propext, Classical.choice, Quot.sound |
| C82 | C82_unique | propext, Quot.sound |
| C82 | C82_refused | propext, Quot.sound |
| C82 | C82_part | propext, Classical.choice, Quot.sound |
| C82 | C82_part_read | propext, Classical.choice, Quot.sound |
| C83 | C83_says | propext, Classical.choice, Quot.sound |
| C83 | C83_ndm | propext, Classical.choice, Quot.sound |
| C83 | C83_different | propext, Classical.choice, Quot.sound |
| C83 | C83_different_ndm | propext, Classical.choice, Quot.sound |
