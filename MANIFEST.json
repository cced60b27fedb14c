{
 "claims": [
  {
   "property": "C01",
   "status": "proved",
   "theorems": [
    "Svd.C01_number_round_trip",
    "Svd.C01_decimal_round_trip"
   ],
   "note": "All widths, values and eight formats, at the level of XML elements."
  },
  {
   "property": "C02",
   "status": "proved",
   "theorems": [
    "Svd.C02_parse_int_iff",
    "Svd.C02_parse_int_otherwise"
   ],
   "note": "Acceptance is characterised exactly against an independent grammar of literals (Spec/Num.lean); literals have one value; other inputs are reported errors."
  },
  {
   "property": "C03",
   "status": "proved",
   "theorems": [
    "Svd.C03_parse_bool_iff",
    "Svd.C03_parse_bool_otherwise",
    "Svd.C03_bool_round_trip"
   ],
   "note": "Acceptance characterised exactly; round trip; other inputs are reported errors."
  },
  {
   "property": "C04",
   "status": "proved",
   "theorems": [
    "Svd.C04_access",
    "Svd.C04_access_rights",
    "Svd.C04_usage",
    "Svd.C04_protection",
    "Svd.C04_endian",
    "Svd.C04_readAction",
    "Svd.C04_modifiedWriteValues",
    "Svd.C04_dataType",
    "Svd.C04_addressBlockUsage"
   ],
   "note": "All eight keyword types against spelling tables transcribed from CMSIS-SVD (Spec/Keywords.lean). C04_access_rights: which accesses allow reading and writing, told from the spelling."
  },
  {
   "property": "C05",
   "status": "proved",
   "theorems": [
    "Svd.C05_parse_indexes_iff",
    "Svd.C05_parse_dim_index_iff",
    "Svd.C05_nonempty"
   ],
   "note": "Exact characterisation against an independent grammar (Spec/Dim.lean), text and element level; result never empty."
  },
  {
   "property": "C06",
   "status": "proved",
   "theorems": [
    "Svd.C06_dim_index_text_round_trip",
    "Svd.C06_dim_index_round_trip",
    "Svd.C06_dash_entry_lost",
    "Svd.C06_empty_entry_lost"
   ],
   "note": "C06_dim_index_round_trip for every index list that is not empty, not a single empty entry, as long as the array, whose entries contain no '-' or ',' and which neither begins nor ends with whitespace; C06_empty_entry_lost: a single empty entry is written as an empty element, which the parser rejects."
  },
  {
   "property": "C07",
   "status": "proved",
   "theorems": [
    "Svd.C07_range_iff",
    "Svd.C07_outcomes",
    "Svd.C07_overflow_panic",
    "Svd.C07_exact"
   ],
   "note": "Exact characterisation for both overflow-check modes, all outcomes listed; the overflow panic is shown to be real; C07_exact says exactly when there is no panic."
  },
  {
   "property": "C08",
   "status": "proved",
   "theorems": [
    "Svd.C08_notations_agree",
    "Svd.C08_reversed_rejected",
    "Svd.C08_constructors",
    "Svd.C08_msb_overflow_panic",
    "Svd.C08_extra_part_ignored",
    "Svd.C08_msb_exact"
   ],
   "note": "Element level for all three notations and the API constructors; the ignored text after a second colon is shown. C08_msb_exact: msb of every range, with and without overflow checks."
  },
  {
   "property": "C09",
   "status": "proved",
   "theorems": [
    "Svd.C09_bit_range_round_trip",
    "Svd.C09_zero_width_panic"
   ],
   "note": "For any surrounding children that are not range elements and any configuration; both overflow-check modes."
  },
  {
   "property": "C10",
   "status": "proved",
   "theorems": [
    "Svd.C10_derived_outcomes",
    "Svd.C10_check_name",
    "Svd.C10_check_dimable_name",
    "Svd.C10_check_derived_name",
    "Svd.C10_one_placeholder"
   ],
   "note": "The matcher is proved to decide regular expression languages, the expressions of the code to denote the documented languages (Spec/Name.lean). C10_derived_outcomes: the first bad part of a reference is the one reported."
  },
  {
   "property": "C11",
   "status": "proved",
   "theorems": [
    "Svd.C11_parts_monotone",
    "Svd.C11_validate_all_monotone",
    "Svd.C11_disabled",
    "Svd.C11_parts_disabled"
   ],
   "note": "Every element kind and recursive device validation."
  },
  {
   "property": "C12",
   "status": "proved",
   "theorems": [
    "Svd.C12_reset_value_check"
   ],
   "note": "Exact condition, all sizes, values, masks and levels."
  },
  {
   "property": "C13",
   "status": "proved",
   "theorems": [
    "Svd.C13_field_validate"
   ],
   "note": "Exact condition (stronger than the implication), all levels."
  },
  {
   "property": "C14",
   "status": "proved",
   "theorems": [
    "Svd.C14_parsed_is_valid"
   ],
   "note": "All documents and settings; the result is also stated through the independent conditions of Spec/Valid.lean."
  },
  {
   "property": "C15",
   "status": "proved",
   "theorems": [
    "Svd.C15_parse_monotone"
   ],
   "note": "All documents, all pairs of levels."
  },
  {
   "property": "C16",
   "status": "proved",
   "theorems": [
    "Svd.C16_validate_all",
    "Svd.C16_parts"
   ],
   "note": "Parts at any depth given by inductive relations in Spec/Valid.lean; address blocks, interrupts, cpu and dim elements have no conditions in the code."
  },
  {
   "property": "C17",
   "status": "proved",
   "theorems": [
    "Svd.C17_properties",
    "Svd.C17_enumValue",
    "Svd.C17_enums",
    "Svd.C17_dim",
    "Svd.C17_addressBlock",
    "Svd.C17_interrupt",
    "Svd.C17_cpu",
    "Svd.C17_field",
    "Svd.C17_register",
    "Svd.C17_cluster",
    "Svd.C17_peripheral",
    "Svd.C17_device",
    "Svd.C17_device_defaults"
   ],
   "note": "Exact outcome for all twelve built types, including the error."
  },
  {
   "property": "C18",
   "status": "proved",
   "theorems": [
    "Svd.C18_properties",
    "Svd.C18_enumValue",
    "Svd.C18_enums",
    "Svd.C18_dim",
    "Svd.C18_addressBlock",
    "Svd.C18_interrupt",
    "Svd.C18_cpu",
    "Svd.C18_field",
    "Svd.C18_register",
    "Svd.C18_register_derived",
    "Svd.C18_cluster",
    "Svd.C18_cluster_derived",
    "Svd.C18_peripheral",
    "Svd.C18_peripheral_derived",
    "Svd.C18_device"
   ],
   "note": "Member by member relations in Spec/Build.lean; all twelve types."
  },
  {
   "property": "C19",
   "status": "proved",
   "theorems": [
    "Svd.C19_properties",
    "Svd.C19_cluster",
    "Svd.C19_enums",
    "Svd.C19_peripheral",
    "Svd.C19_register",
    "Svd.C19_field",
    "Svd.C19_array",
    "Svd.C19_arrays"
   ],
   "note": "All derivable kinds; arrays inherit dimensions by DimInherited. The code does not inherit a register's dataType nor a cluster's description; the theorems state exactly which members are inherited."
  },
  {
   "property": "C20",
   "status": "proved",
   "theorems": [
    "Svd.C20_properties",
    "Svd.C20_cluster",
    "Svd.C20_enums",
    "Svd.C20_peripheral",
    "Svd.C20_register",
    "Svd.C20_field",
    "Svd.C20_array",
    "Svd.C20_arrays",
    "Svd.C20_array_not_associative"
   ],
   "note": "The three laws for every non-array kind. For arrays idempotence and self-derivation hold, associativity fails (counterexample proved)."
  },
  {
   "property": "C21",
   "status": "proved",
   "theorems": [
    "Svd.C21_fields",
    "Svd.C21_registers",
    "Svd.C21_clusters",
    "Svd.C21_peripherals",
    "Svd.C21_outcomes"
   ],
   "note": "Iff characterisation of each expansion in overflow-checked builds, plus outcomes: complete in every build when all addresses fit, overflow panic otherwise."
  },
  {
   "property": "C22",
   "status": "proved",
   "theorems": [
    "Svd.C22_names",
    "Svd.C22_valid_name",
    "Svd.C22_default",
    "Svd.C22_percent_counterexample",
    "Svd.C22_array_index_counterexample"
   ],
   "note": "Property wording corrected: percent signs outside placeholders, and names taken from dimArrayIndex, break the claim (counterexamples proved)."
  },
  {
   "property": "C23",
   "status": "proved",
   "theorems": [
    "Svd.C23_field_outcomes",
    "Svd.C23_register_outcomes",
    "Svd.C23_field",
    "Svd.C23_register",
    "Svd.C23_outside"
   ],
   "note": "Exact conditions: width 1..64 and shifts below 64; C23_field_outcomes and C23_register_outcomes: outside them the checked build panics, in all cases."
  },
  {
   "property": "C24",
   "status": "proved",
   "theorems": [
    "Svd.C24_all_registers",
    "Svd.C24_each_once"
   ],
   "note": ""
  },
  {
   "property": "C25",
   "status": "proved",
   "theorems": [
    "Svd.C25_separated",
    "Svd.C25_cover",
    "Svd.C25_lookups"
   ],
   "note": ""
  },
  {
   "property": "C26",
   "status": "proved",
   "theorems": [
    "Svd.C26_lossless",
    "Svd.C26_conditions_needed"
   ],
   "note": "C26_lossless: the device is written and every re-reading of the file (Reread: empty texts dropped by the XML reader, any layout in the sense of C30) returns exactly the device, at the level for which it is Expressible. C26_conditions_needed: witnesses that the conditions on texts, empty lists, index lists and array names cannot be dropped. The text level of XML (escaping, the writer's indentation) is trusted; ignoreEnums must be off."
  },
  {
   "property": "C27",
   "status": "proved",
   "theorems": [
    "Svd.C27_presentation_only",
    "Svd.C27_written"
   ],
   "note": "C27_presentation_only: the device read back is Presented, i.e. the device in the order and notation asked for; C27_written: it is written unless descending offsets are asked for. The order is demanded for descending offsets only if all offsets are below 2^31 (C29 shows that the code gets it wrong otherwise)."
  },
  {
   "property": "C28",
   "status": "proved",
   "theorems": [
    "Svd.C28_peripherals",
    "Svd.C28_fields",
    "Svd.C28_registers",
    "Svd.C28_permutation"
   ],
   "note": "Spec/Sort.lean: permutation, order, stability, derived last, registers/clusters first; every option except reversed offset (C29); permutation for every option; as an equivalence in C29_exact."
  },
  {
   "property": "C29",
   "status": "partial",
   "theorems": [
    "Svd.C29_below_2_31_partial",
    "Svd.C29_violated",
    "Svd.C29_panics",
    "Svd.C29_exact"
   ],
   "note": "Violated by the code from 2^31 up: C29_violated (wrong order, all inputs), C29_panics; the part below 2^31 is C29_below_2_31_partial; C29_exact says what the order is in all cases (offsets compared as signed 32-bit numbers) and when sorting panics."
  },
  {
   "property": "C30",
   "status": "partial",
   "theorems": [
    "Svd.C30_element_partial",
    "Svd.C30_document_partial",
    "Svd.C30_items",
    "Svd.C30_violated",
    "Svd.C30_whitespace"
   ],
   "note": "Proved for all edits outside list containers (text, comments, processing instructions between elements; unknown elements in record containers; unknown attributes; any depth), for any result including errors. C30_items and C30_violated show that the code rejects unknown elements inside peripherals, registers, fields, enumeratedValues, dimArrayIndex and writeConstraint, so the property does not hold as stated there."
  },
  {
   "property": "C31",
   "status": "proved",
   "theorems": [
    "Svd.C31_ignore_enums"
   ],
   "note": "C31_ignore_enums: for every document, whenever the normal parse returns d, the parse with ignore_enums returns d with the enumerated values and write constraints of all fields removed (plainDevice), at every level and with or without overflow checks."
  },
  {
   "property": "C32",
   "status": "proved",
   "theorems": [
    "Svd.C32_returns_or_reports",
    "Svd.C32_exceptions"
   ],
   "note": "C32_returns_or_reports: for every document without an empty writeConstraint and (with overflow checks) without a field over all 2^32 bits the parser returns a device or a reported error, never a panic and never divergence. C32_exceptions: both kinds of input do make the reader concerned panic."
  },
  {
   "property": "C33",
   "status": "proved",
   "theorems": [
    "Svd.C33_flat"
   ],
   "note": "For every device, build mode and recursion depth on which expansion returns a device."
  },
  {
   "property": "C34",
   "status": "proved",
   "theorems": [
    "Svd.C34_unreachable"
   ],
   "note": "All possible faults of expansion are listed (ExpandFault); unreachable is not among them."
  },
  {
   "property": "C35",
   "status": "proved",
   "theorems": [
    "Svd.C35_identity",
    "Svd.C35_idempotent"
   ],
   "note": "Identity on flat devices and, with C33, idempotence; one level of recursion suffices."
  },
  {
   "property": "C36",
   "status": "proved",
   "theorems": [
    "Svd.C36_exact",
    "Svd.C36_unchecked",
    "Svd.C36_registers"
   ],
   "note": "Exact characterisation: with overflow checks, a device without derivedFrom expands to d' at some recursion depth iff d' is the level-by-level expansion; without checks the same result whenever addresses are representable. C36_registers restates it register by register (joined names, summed offsets)."
  },
  {
   "property": "C37",
   "status": "proved",
   "theorems": [
    "Svd.C37_peripheral",
    "Svd.C37_cluster",
    "Svd.C37_register",
    "Svd.C37_field",
    "Svd.C37_enums",
    "Svd.C37_device"
   ],
   "note": "All five kinds: resolution of a reference succeeds (at some recursion depth) iff a chain of links in the device ends, and the result is successive inheritance, nearest first. C37_device: a device whose only references are peripheral references expands exactly to the expansion of the device with resolved peripherals."
  },
  {
   "property": "C38",
   "status": "proved",
   "theorems": [
    "Svd.C38_refs",
    "Svd.C38_errors",
    "Svd.C38_device",
    "Svd.C38_peripheral"
   ],
   "note": "C38_refs: if expand returns a device then every derivedFrom of the original (peripherals, and clusters, registers, fields and enumerated values under their own-name paths) starts a chain of references that exists, avoids the referring element and ends; C38_device is the contrapositive. C38_errors: a first link that is missing or the element itself makes derive_* return an error value, not a panic (for a field unless the reference has exactly two components: finding 6)."
  },
  {
   "property": "C39",
   "status": "partial",
   "theorems": [
    "Svd.C39_exact",
    "Svd.C39_exact_unchecked",
    "Svd.C39_partial",
    "Svd.C39_violated",
    "Svd.C39_violated_ancestor"
   ],
   "note": "The code violates the property: C39_violated (references running into a circle that does not contain the start; also covers an array referring to its own instance) and C39_violated_ancestor (cluster derived from the cluster it is in) show that no recursion depth suffices. C39_exact says for which devices: with overflow checks, expansion never returns exactly if the first fault of the device in the order of expansion is an endless chain of references or an endless descent into clusters (relation DeviceFails of Spec/Fails). C39_exact_unchecked: without overflow checks exactly if this holds for the device with all positions zero. C39_partial: a sufficient condition for returning that can be checked, for both overflow modes: the elements can be numbered so that references and containment of clusters lead to smaller numbers (ranked_of_check). C83 gives a depth at which the question is decided."
  },
  {
   "property": "C40",
   "status": "proved",
   "theorems": [
    "Svd.C40_nearest",
    "Svd.C40_unique",
    "Svd.C40_idempotent"
   ],
   "note": "For every device: each register's properties become the nearest ones given by the enclosing levels (relational spec in Spec/Props.lean, shown to have exactly one solution); everything else unchanged; idempotent."
  },
  {
   "property": "C41",
   "status": "proved",
   "theorems": [
    "Svd.C41_display",
    "Svd.C41_parse_display",
    "Svd.C41_eq_text",
    "Svd.C41_parse_text",
    "Svd.C41_parent",
    "Svd.C41_first"
   ],
   "note": "Block, register, field and enumeration paths; also what any text parses to."
  },
  {
   "property": "C42",
   "status": "partial",
   "theorems": [
    "Svd.C42_exact",
    "Svd.C42_returns_partial",
    "Svd.C42_violated"
   ],
   "note": "Violated by the code for every two component path (C42_violated); exact characterisation C42_exact."
  },
  {
   "property": "C43",
   "status": "proved",
   "theorems": [
    "Svd.C43_last",
    "Svd.C43_sound",
    "Svd.C43_complete",
    "Svd.C43_builds"
   ],
   "note": "Exact: last element under the path in document order (Spec/Index.lean); soundness and completeness against relational paths; the index can be built exactly if the index lists are long enough."
  },
  {
   "property": "C44",
   "status": "partial",
   "theorems": [
    "Svd.C44_offset_then_width_partial",
    "Svd.C44_width_then_offset_lost",
    "Svd.C44_offset_twice",
    "Svd.C44_with_range_partial",
    "Svd.C44_range_then_partial",
    "Svd.C44_width_after_offset_partial",
    "Svd.C44_widths_lost",
    "Svd.C44_offsets_only",
    "Svd.C44_cases",
    "Svd.C44_modify_stale",
    "Svd.C44_modify_range_partial",
    "Svd.C44_modify_parts_partial",
    "Svd.C44_modify_width_next",
    "Svd.C44_modify_offset_next",
    "Svd.C44_modify_cases"
   ],
   "note": "The claim is false for the code: width before offset loses the range (C44_width_then_offset_lost). Which sequences of calls give the range that was set, and what the others give, is stated for all sequences in C44_range_then_partial, C44_width_after_offset_partial, C44_widths_lost and C44_offsets_only; C44_cases: there are no others. The same for modifying a field: C44_modify_range_partial, C44_modify_parts_partial, C44_modify_width_next, C44_modify_offset_next and C44_modify_cases."
  },
  {
   "property": "C45",
   "status": "partial",
   "theorems": [
    "Svd.C45_reference_lost",
    "Svd.C45_rejected",
    "Svd.C45_cleared_partial"
   ],
   "note": "The claim is false for the code: the reference is never stored (C45_reference_lost, C45_rejected). The partial theorem states what remains true."
  },
  {
   "property": "C46",
   "status": "proved",
   "theorems": [
    "Svd.C46_removed",
    "Svd.C46_unchanged"
   ],
   "note": "On the UTF-8 bytes of any text."
  },
  {
   "property": "C47",
   "status": "proved",
   "theorems": [
    "Svd.C47_bit_range",
    "Svd.C47_index_list",
    "Svd.C47_conditions"
   ],
   "note": "The hand-written conversions; serde's own derive code is not modelled. C47_conditions shows the conditions are needed."
  },
  {
   "property": "C48",
   "status": "proved",
   "theorems": [
    "Svd.C48_known",
    "Svd.C48_unknown",
    "Svd.C48_invalid"
   ],
   "note": "All 23 options, all keys, all values."
  },
  {
   "property": "C49",
   "status": "proved",
   "theorems": [
    "Svd.C49_usage",
    "Svd.C49_values",
    "Svd.C49_groups"
   ],
   "note": "As stated; groups are selected only in fields with one or two groups, as in the code."
  },
  {
   "property": "C50",
   "status": "proved",
   "theorems": [
    "Svd.C50_encode_total",
    "Svd.C50_parsed_can_be_written",
    "Svd.C50_conditions_needed"
   ],
   "note": "C50_encode_total: encoding returns for every device whose bit ranges have width >= 1 and end before bit 2^32-1 and whose index lists are long enough and do not contain both 0 and 2^32-1, under every configuration without reversed-offset sorting. C50_parsed_can_be_written: for parsed devices (level weak or strict) only the range end and index extremes remain as conditions. C50_conditions_needed: each condition is necessary (the panicking devices are exhibited)."
  },
  {
   "property": "C51",
   "status": "proved",
   "theorems": [
    "Svd.C51_properties",
    "Svd.C51_enumValue",
    "Svd.C51_enums",
    "Svd.C51_dim",
    "Svd.C51_addressBlock",
    "Svd.C51_interrupt",
    "Svd.C51_field",
    "Svd.C51_register",
    "Svd.C51_cluster",
    "Svd.C51_peripheral",
    "Svd.C51_cpu",
    "Svd.C51_device",
    "Svd.C51_register_properties",
    "Svd.C51_encoder_config",
    "Svd.C51_parser_config"
   ],
   "note": "Builders of all element types and both configurations. The encoder Config has no setter for the header enum name of a dimArrayIndex, and RegisterInfoBuilder none for protection (both settable only by other means)."
  },
  {
   "property": "C52",
   "status": "proved",
   "theorems": [
    "Svd.C52_all_registers",
    "Svd.C52_same_registers",
    "Svd.C52_registers",
    "Svd.C52_clusters",
    "Svd.C52_get_mut_register",
    "Svd.C52_get_mut_cluster",
    "Svd.C52_get_mut_interrupt",
    "Svd.C52_get_mut_peripheral",
    "Svd.C52_get_mut_field",
    "Svd.C52_get_mut_value",
    "Svd.C52_get_mut_enumerated_values",
    "Svd.C52_found_alike"
   ],
   "note": "References are modelled as places in the tree; the caller is an arbitrary function with its own state."
  },
  {
   "property": "C53",
   "status": "proved",
   "theorems": [
    "Svd.C53_parsed_expressible",
    "Svd.C53_read_write_read",
    "Svd.C53_conditions_needed"
   ],
   "note": "C53_parsed_expressible: everything read from a Regular document fulfils the conditions of C26; C53_read_write_read combines it with C26. C53_conditions_needed: a blank optional text is lost, a blank required text is rejected and an empty list of fields is lost on the second reading, so these documents have to be excluded."
  },
  {
   "property": "C54",
   "status": "proved",
   "theorems": [
    "Svd.C54_serde",
    "Svd.C54_order",
    "Svd.C54_unchanged",
    "Svd.C54_parsed",
    "Svd.C54_conditions_needed"
   ],
   "note": "The derived code is modelled on values of a self-describing format; that JSON or YAML texts represent the values is trusted. C54_conditions_needed shows what is lost and which conditions are needed."
  },
  {
   "property": "C55",
   "status": "proved",
   "theorems": [
    "Svd.C55_in_order"
   ],
   "note": "The table Spec/Order.lean is trusted to be the order of the CMSIS-SVD format; it is wider than the format where the encoder writes more: displayName of a peripheral, alternateGroup together with alternateRegister, value together with isDefault, empty lists."
  },
  {
   "property": "C56",
   "status": "proved",
   "theorems": [
    "Svd.C56_expansion",
    "Svd.C56_unchecked",
    "Svd.C56_unique",
    "Svd.C56_no_references",
    "Svd.C56_home_lost"
   ],
   "note": "Exact characterisation of expand for devices with any references: soundness, completeness, uniqueness."
  },
  {
   "property": "C57",
   "status": "proved",
   "theorems": [
    "Svd.C57_weak",
    "Svd.C57_strict",
    "Svd.C57_instance_name",
    "Svd.C57_name_fits",
    "Svd.C57_default_indexes",
    "Svd.C57_empty_array",
    "Svd.C57_digit_names",
    "Svd.C57_mixed_size"
   ],
   "note": "Proved for devices without references with the stated conditions; witnesses show that each condition is needed."
  },
  {
   "property": "C58",
   "status": "proved",
   "theorems": [
    "Svd.C58_error_true",
    "Svd.C58_same_device",
    "Svd.C58_same_outcome",
    "Svd.C58_plain"
   ],
   "note": "Spec/Blame.lean states for every kind of error what it claims about a node (including the validation level); C58_error_true proves it of every error Device::parse returns, C58_same_device that positions change nothing else, C58_same_outcome that the lookup of the node never panics. Not every detail of parseInt errors is described: which of empty/invalid digit/overflow is reported is C02."
  },
  {
   "property": "C59",
   "status": "proved",
   "theorems": [
    "Svd.C59_messages",
    "Svd.C59_device_last",
    "Svd.C59_only_mentioned",
    "Svd.C59_messages_unique"
   ],
   "note": "C59_messages gives the complete list of messages; C59_messages_unique shows that the specification determines it. Finding: enclosing clusters are not mentioned (C59_only_mentioned)."
  },
  {
   "property": "C60",
   "status": "proved",
   "theorems": [
    "Svd.C60_device",
    "Svd.C60_document",
    "Svd.C60_unique"
   ],
   "note": "C60_device and C60_document are equivalences: the model parser returns a device exactly when the specification says that the element describes it. C60_unique: at most one device."
  },
  {
   "property": "C61",
   "status": "proved",
   "theorems": [
    "Svd.C61_enumValue",
    "Svd.C61_enums",
    "Svd.C61_dim",
    "Svd.C61_addressBlock",
    "Svd.C61_interrupt",
    "Svd.C61_field",
    "Svd.C61_register",
    "Svd.C61_cluster",
    "Svd.C61_peripheral",
    "Svd.C61_cpu",
    "Svd.C61_device",
    "Svd.C61_errors_small",
    "Svd.C61_errors"
   ],
   "note": "One theorem per builder type with two equivalences: build returns t iff t has exactly the members given and passes validation (Spec/Valid.lean); build reports an uninitialized member iff it is the first mandatory one not given. Groups of enumerated values have no mandatory member. C61_errors and C61_errors_small: all other errors are those of validating the result, the properties first."
  },
  {
   "property": "C62",
   "status": "proved",
   "theorems": [
    "Svd.C62_read",
    "Svd.C62_unique",
    "Svd.C62_given",
    "Svd.C62_values",
    "Svd.C62_order",
    "Svd.C62_skipped"
   ],
   "note": "C62_read is the whole reader with overflow checks as one equivalence, for all configurations; C62_unique. C62_values: without references the registers are exactly the hardware registers with the nearest properties. C62_given: with references every register gives what the device gives, if derived peripherals and clusters have nothing of their own; C62_skipped shows that the condition is needed, C62_order that the order of the two expansions matters. XML reading itself (roxmltree) is outside the model."
  },
  {
   "property": "C63",
   "status": "proved",
   "theorems": [
    "Svd.C63_fails",
    "Svd.C63_run",
    "Svd.C63_total",
    "Svd.C63_exclusive",
    "Svd.C63_one"
   ],
   "note": "Expansion with overflow checks. C63_fails: equivalence with the relation DeviceFails of Spec/Fails, which mentions no function of the program. C63_total, C63_exclusive and C63_one: exactly one of result (C56) and fault, and only one fault. C63_run: whatever a run of any depth reports is that fault. Running out of fuel at every depth stands for not returning."
  },
  {
   "property": "C64",
   "status": "proved",
   "theorems": [
    "Svd.C64_value",
    "Svd.C64_parts",
    "Svd.C64_faults",
    "Svd.C64_null",
    "Svd.C64_unknown",
    "Svd.C64_reversed",
    "Svd.C64_written"
   ],
   "note": "C64_value: deDevice succeeds iff the value says what a device is (Spec/Value.lean); C64_parts for the parts; C64_faults; C64_null, C64_unknown; C64_reversed (finding 27); C64_written combines it with C54."
  },
  {
   "property": "C65",
   "status": "proved",
   "theorems": [
    "Svd.C65_device",
    "Svd.C65_parts",
    "Svd.C65_texts",
    "Svd.C65_unique"
   ],
   "note": "Equivalence for the whole encoder (C65_device) and its parts, against Spec/Written.lean; C65_texts for number and identifier formats. The conversion of names (crate convert_case) is an arbitrary function."
  },
  {
   "property": "C66",
   "status": "proved",
   "theorems": [
    "Svd.C66_value",
    "Svd.C66_parts",
    "Svd.C66_when",
    "Svd.C66_tidy",
    "Svd.C66_injective",
    "Svd.C66_condition_needed"
   ],
   "note": "C66_value gives the written value as an equivalence with Spec/ValueWritten.lean (keys in declared order as a sublist, each member by key); C66_parts the same for the parts; C66_when exactly when writing succeeds and that the only fault is an overflow panic with overflow checks; C66_tidy no null and no repeated key; C66_injective that nothing is lost apart from the document attributes if the indexes contain no comma (C66_condition_needed shows the condition is needed). That the text of JSON or YAML represents the tree faithfully is trusted."
  },
  {
   "property": "C67",
   "status": "proved",
   "theorems": [
    "Svd.C67_exact",
    "Svd.C67_before",
    "Svd.C67_together",
    "Svd.C67_mask_lost",
    "Svd.C67_value_lost"
   ],
   "note": "Exact condition for every level; two sufficient/negative corollaries. Validity can be lost (finding 28)."
  },
  {
   "property": "C68",
   "status": "proved",
   "theorems": [
    "Svd.C68_expressible",
    "Svd.C68_round_trip",
    "Svd.C68_stable",
    "Svd.C68_weak",
    "Svd.C68_strict",
    "Svd.C68_conditions_needed"
   ],
   "note": "For devices with references the validity of the expanded device is a hypothesis (C57 shows that it can be lost); without references it is derived."
  },
  {
   "property": "C69",
   "status": "proved",
   "theorems": [
    "Svd.C69_two_steps",
    "Svd.C69_one_device",
    "Svd.C69_what_can_break",
    "Svd.C69_expanded_weak",
    "Svd.C69_expanded_strict",
    "Svd.C69_each_breaks"
   ],
   "note": "The conditions of the corollaries for the expanded device (C69_expanded_weak, C69_expanded_strict) are stated for the device in between."
  },
  {
   "property": "C70",
   "status": "proved",
   "theorems": [
    "Svd.C70_added",
    "Svd.C70_around",
    "Svd.C70_removed",
    "Svd.C70_order",
    "Svd.C70_repeated"
   ],
   "note": "Two devices are compared through one function from peripherals to their results (C70_added), with C70_around as the special case of added peripherals, C70_removed for the converse and C70_order for any permutation; C70_repeated shows that a repeated name makes the order matter. Overflow checks on; C56_unchecked carries every result over to a build without them."
  },
  {
   "property": "C71",
   "status": "proved",
   "theorems": [
    "Svd.C71_element",
    "Svd.C71_document",
    "Svd.C71_written",
    "Svd.C71_limits"
   ],
   "note": "For an element, for a document with expansion, and together with C26 for written devices. Where order matters: C71_limits."
  },
  {
   "property": "C72",
   "status": "proved",
   "theorems": [
    "Svd.C72_device",
    "Svd.C72_peripheral",
    "Svd.C72_cluster",
    "Svd.C72_register",
    "Svd.C72_field",
    "Svd.C72_own",
    "Svd.C72_unique"
   ],
   "note": "The list of rules in order, each with its error; exact characterisation of success and of the reported error for every element and for whole devices."
  },
  {
   "property": "C73",
   "status": "proved",
   "theorems": [
    "Svd.C73_told",
    "Svd.C73_shown",
    "Svd.C73_validate",
    "Svd.C73_expand",
    "Svd.C73_parse",
    "Svd.C73_range",
    "Svd.C73_parent",
    "Svd.C73_contains"
   ],
   "note": "All texts modelled; totality for every reported error, injectivity, and the printed range. C73_parent: with strings quoted so that their ends can be seen (as {:?} of std does), the text of missing enumerated values tells the parent field. C73_contains: the names and numbers of the error (Spec/Told) are found in the text, in decimal or hexadecimal notation."
  },
  {
   "property": "C74",
   "status": "proved",
   "theorems": [
    "Svd.C74_expand",
    "Svd.C74_parse",
    "Svd.C74_encode",
    "Svd.C74_serialize",
    "Svd.C74_deserialize",
    "Svd.C74_field_bitmask",
    "Svd.C74_register_bitmask",
    "Svd.C74_message",
    "Svd.C74_fails"
   ],
   "note": "Both builds are followed in step through parsing, expansion, writing, serde, bit masks and error texts. What the unchecked build does after an overflow is described only by the model (wrapping)."
  },
  {
   "property": "C75",
   "status": "proved",
   "theorems": [
    "Svd.C75_renamed",
    "Svd.C75_references_lost"
   ],
   "note": "C75_renamed for all configurations and conversions; C75_references_lost shows that references with a path do not survive different formats (finding 30)."
  },
  {
   "property": "C76",
   "status": "proved",
   "theorems": [
    "Svd.C76_survives",
    "Svd.C76_still_expanded"
   ],
   "note": "Combines C33 and C54; the condition is that ranges of fields can be written, as in C54."
  },
  {
   "property": "C77",
   "status": "proved",
   "theorems": [
    "Svd.C77_peripheral",
    "Svd.C77_device",
    "Svd.C77_references"
   ],
   "note": "Any nesting of arrays; the third theorem covers references through C69 (with overflow checks)."
  },
  {
   "property": "C78",
   "status": "proved",
   "theorems": [
    "Svd.C78_masks",
    "Svd.C78_beyond"
   ],
   "note": "C78_masks under the condition stated in the property, C78_beyond shows that it is needed (finding 31)."
  },
  {
   "property": "C79",
   "status": "proved",
   "theorems": [
    "Svd.C79_unchecked",
    "Svd.C79_checked",
    "Svd.C79_positions",
    "Svd.C79_fails",
    "Svd.C79_expansion"
   ],
   "note": "C79_unchecked is an equation between the two runs; the others follow from it and C39, C56, C63, C74."
  },
  {
   "property": "C80",
   "status": "proved",
   "theorems": [
    "Svd.C80_again_small",
    "Svd.C80_again_field",
    "Svd.C80_again_register",
    "Svd.C80_again_cluster",
    "Svd.C80_again_peripheral",
    "Svd.C80_again_device",
    "Svd.C80_nothing",
    "Svd.C80_failed_register",
    "Svd.C80_failed_cluster",
    "Svd.C80_failed_peripheral",
    "Svd.C80_failed_device"
   ],
   "note": "The 12 types are covered together in C80_again_small and C80_nothing and one by one for the five with children. C80_failed_* give the exact state after an error (finding 32)."
  },
  {
   "property": "C81",
   "status": "proved",
   "theorems": [
    "Svd.C81_when",
    "Svd.C81_when_parts",
    "Svd.C81_fault",
    "Svd.C81_long_lists",
    "Svd.C81_parsed"
   ],
   "note": "C81_when is an equivalence with an independent predicate (Spec/Encodable.lean), also for the parts; C81_fault bounds the faults; C81_long_lists and C81_parsed are the consequences for devices from documents."
  },
  {
   "property": "C82",
   "status": "proved",
   "theorems": [
    "Svd.C82_converted",
    "Svd.C82_document",
    "Svd.C82_lost"
   ],
   "note": "C82_converted for all devices that can be expressed, C82_document for those read from a file, C82_lost for what goes wrong (finding 14)."
  },
  {
   "property": "C83",
   "status": "proved",
   "theorems": [
    "Svd.C83_depth",
    "Svd.C83_returns",
    "Svd.C83_fault",
    "Svd.C83_fault_unchecked",
    "Svd.C83_result"
   ],
   "note": "C83_depth: the outcome at the computed depth (Spec/Depth) and at all larger ones is the same, for both overflow modes. C83_returns: expansion returns at some depth exactly if it does at this one. C83_result: what it then returns is the expansion described in C56. C83_fault: with overflow checks, the outcome there is the first fault of the device in the sense of C63, also if it is an endless recursion. C83_fault_unchecked: without them, the outcome is a fault exactly in the cases of C79. The bound is not the smallest one."
  },
  {
   "property": "C84",
   "status": "proved",
   "theorems": [
    "Svd.C84_distinct",
    "Svd.C84_references",
    "Svd.C84_found",
    "Svd.C84_collision",
    "Svd.C84_no_underscore"
   ],
   "note": "C84_distinct for devices without references in both overflow modes; C84_references for all devices (with overflow checks) in terms of the device after following references (C69). C84_found: the lookups. C84_no_underscore: names without underscores are clear. C84_collision: a strictly valid device whose two registers get the same name."
  },
  {
   "property": "C85",
   "status": "proved",
   "theorems": [
    "Svd.C85_order",
    "Svd.C85_written",
    "Svd.C85_first_group",
    "Svd.C85_unchecked"
   ],
   "note": "C85_order: both directions, with overflow checks, for devices whose paths are unambiguous. C85_unchecked: without overflow checks, the same unless a position overflows, and up to positions if one does. C85_written: the device read back after writing in any order. C85_first_group: with two groups of the same name in a register the written order changes the expansion."
  },
  {
   "property": "C86",
   "status": "proved",
   "theorems": [
    "Svd.C86_read",
    "Svd.C86_document",
    "Svd.C86_expanded",
    "Svd.C86_unchecked"
   ],
   "note": "C86_read: both directions, for an element; C86_document: for a document; C86_expanded: with the expansions that can follow (with overflow checks, paths of the device read unambiguous); C86_unchecked: without overflow checks, up to positions."
  },
  {
   "property": "C87",
   "status": "proved",
   "theorems": [
    "Svd.C87_valid",
    "Svd.C87_registers",
    "Svd.C87_mask",
    "Svd.C87_lookup",
    "Svd.C87_first"
   ],
   "note": "C87_valid (every level), C87_registers, C87_mask (both overflow modes, outcomes equal), C87_lookup (four kinds of lookup); C87_first shows that the condition of C87_lookup is needed."
  },
  {
   "property": "C88",
   "status": "proved",
   "theorems": [
    "Svd.C88_registers",
    "Svd.C88_within",
    "Svd.C88_references",
    "Svd.C88_fields",
    "Svd.C88_instances"
   ],
   "note": "C88_registers: for every device without references whose elements have ranges of addresses beside each other (DeviceRoom), no two registers of the expanded device share an address. C88_within: every one lies in the range of a peripheral. The size of a register is the one written at it, in whole bytes; one without a size occupies nothing, so that properties should be filled in first (C40, C62). C88_references: the same with references, the ranges being those of the device with its references followed. C88_instances, C88_fields: for one array the condition is necessary and sufficient. All with overflow checks: without them addresses wrap around (C36_unchecked). Alternate registers and groups, which overlap on purpose, do not meet the hypothesis."
  },
  {
   "property": "C89",
   "status": "proved",
   "theorems": [
    "Svd.C89_array",
    "Svd.C89_field",
    "Svd.C89_cortex_m",
    "Svd.C89_levels"
   ],
   "note": "C89_array, C89_field: single and array elements; C89_cortex_m: the name of the CPU; C89_levels: the levels of validation."
  },
  {
   "property": "C90",
   "status": "proved",
   "theorems": [
    "Svd.C90_spelling",
    "Svd.C90_limit",
    "Svd.C90_dotted_name"
   ],
   "note": "C90_spelling relates any two devices that differ only in the spelling of references of fields, registers and clusters (bare or full) and of enumerated values (from the field on, from the register on, full); same result for both and the same number of steps. C90_limit shows with a device that the restriction below a peripheral with a reference is needed, C90_dotted_name the one on names of groups of enumerated values."
  }
 ]
}
