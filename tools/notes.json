{
 "C01": {
  "note": "All widths, values and eight formats, at the level of XML elements."
 },
 "C02": {
  "note": "Acceptance is characterised exactly against an independent grammar of literals (Spec/Num.lean); literals have one value; other inputs are reported errors."
 },
 "C03": {
  "note": "Acceptance characterised exactly; round trip; other inputs are reported errors."
 },
 "C04": {
  "note": "All eight keyword types against spelling tables transcribed from CMSIS-SVD (Spec/Keywords.lean). C04_access_rights: which accesses allow reading and writing, told from the spelling."
 },
 "C05": {
  "note": "Exact characterisation against an independent grammar (Spec/Dim.lean), text and element level; result never empty."
 },
 "C06": {
  "note": "C06_dim_index_round_trip for every index list that is not empty, not a single empty entry, as long as the array, whose entries contain no '-' or ',' and which neither begins nor ends with whitespace; C06_empty_entry_lost: a single empty entry is written as an empty element, which the parser rejects."
 },
 "C07": {
  "note": "Exact characterisation for both overflow-check modes, all outcomes listed; the overflow panic is shown to be real; C07_exact says exactly when there is no panic."
 },
 "C08": {
  "note": "Element level for all three notations and the API constructors; the ignored text after a second colon is shown. C08_msb_exact: msb of every range, with and without overflow checks."
 },
 "C09": {
  "note": "For any surrounding children that are not range elements and any configuration; both overflow-check modes."
 },
 "C10": {
  "note": "The matcher is proved to decide regular expression languages, the expressions of the code to denote the documented languages (Spec/Name.lean). C10_derived_outcomes: the first bad part of a reference is the one reported."
 },
 "C11": {
  "note": "Every element kind and recursive device validation."
 },
 "C12": {
  "note": "Exact condition, all sizes, values, masks and levels."
 },
 "C13": {
  "note": "Exact condition (stronger than the implication), all levels."
 },
 "C16": {
  "note": "Parts at any depth given by inductive relations in Spec/Valid.lean; address blocks, interrupts, cpu and dim elements have no conditions in the code."
 },
 "C17": {
  "note": "Exact outcome for all twelve built types, including the error."
 },
 "C18": {
  "note": "Member by member relations in Spec/Build.lean; all twelve types."
 },
 "C44": {
  "note": "The claim is false for the code: width before offset loses the range (C44_width_then_offset_lost). Which sequences of calls give the range that was set, and what the others give, is stated for all sequences in C44_range_then_partial, C44_width_after_offset_partial, C44_widths_lost and C44_offsets_only; C44_cases: there are no others. The same for modifying a field: C44_modify_range_partial, C44_modify_parts_partial, C44_modify_width_next, C44_modify_offset_next and C44_modify_cases."
 },
 "C45": {
  "note": "The claim is false for the code: the reference is never stored (C45_reference_lost, C45_rejected). The partial theorem states what remains true."
 },
 "C14": {
  "note": "All documents and settings; the result is also stated through the independent conditions of Spec/Valid.lean."
 },
 "C15": {
  "note": "All documents, all pairs of levels."
 },
 "C19": {
  "note": "All derivable kinds; arrays inherit dimensions by DimInherited. The code does not inherit a register's dataType nor a cluster's description; the theorems state exactly which members are inherited."
 },
 "C20": {
  "note": "The three laws for every non-array kind. For arrays idempotence and self-derivation hold, associativity fails (counterexample proved)."
 },
 "C21": {
  "note": "Iff characterisation of each expansion in overflow-checked builds, plus outcomes: complete in every build when all addresses fit, overflow panic otherwise."
 },
 "C22": {
  "note": "Property wording corrected: percent signs outside placeholders, and names taken from dimArrayIndex, break the claim (counterexamples proved)."
 },
 "C23": {
  "note": "Exact conditions: width 1..64 and shifts below 64; C23_field_outcomes and C23_register_outcomes: outside them the checked build panics, in all cases."
 },
 "C24": {
  "note": ""
 },
 "C25": {
  "note": ""
 },
 "C28": {
  "note": "Spec/Sort.lean: permutation, order, stability, derived last, registers/clusters first; every option except reversed offset (C29); permutation for every option; as an equivalence in C29_exact."
 },
 "C29": {
  "note": "Violated by the code from 2^31 up: C29_violated (wrong order, all inputs), C29_panics; the part below 2^31 is C29_below_2_31_partial; C29_exact says what the order is in all cases (offsets compared as signed 32-bit numbers) and when sorting panics."
 },
 "C41": {
  "note": "Block, register, field and enumeration paths; also what any text parses to."
 },
 "C42": {
  "note": "Violated by the code for every two component path (C42_violated); exact characterisation C42_exact."
 },
 "C46": {
  "note": "On the UTF-8 bytes of any text."
 },
 "C47": {
  "note": "The hand-written conversions; serde's own derive code is not modelled. C47_conditions shows the conditions are needed."
 },
 "C48": {
  "note": "All 23 options, all keys, all values."
 },
 "C49": {
  "note": "As stated; groups are selected only in fields with one or two groups, as in the code."
 },
 "C32": {
  "note": "C32_returns_or_reports: for every document without an empty writeConstraint and (with overflow checks) without a field over all 2^32 bits the parser returns a device or a reported error, never a panic and never divergence. C32_exceptions: both kinds of input do make the reader concerned panic."
 },
 "C31": {
  "note": "C31_ignore_enums: for every document, whenever the normal parse returns d, the parse with ignore_enums returns d with the enumerated values and write constraints of all fields removed (plainDevice), at every level and with or without overflow checks."
 },
 "C50": {
  "note": "C50_encode_total: encoding returns for every device whose bit ranges have width >= 1 and end before bit 2^32-1 and whose index lists are long enough and do not contain both 0 and 2^32-1, under every configuration without reversed-offset sorting. C50_parsed_can_be_written: for parsed devices (level weak or strict) only the range end and index extremes remain as conditions. C50_conditions_needed: each condition is necessary (the panicking devices are exhibited)."
 },
 "C40": {
  "note": "For every device: each register's properties become the nearest ones given by the enclosing levels (relational spec in Spec/Props.lean, shown to have exactly one solution); everything else unchanged; idempotent."
 },
 "C33": {
  "note": "For every device, build mode and recursion depth on which expansion returns a device."
 },
 "C34": {
  "note": "All possible faults of expansion are listed (ExpandFault); unreachable is not among them."
 },
 "C35": {
  "note": "Identity on flat devices and, with C33, idempotence; one level of recursion suffices."
 },
 "C43": {
  "note": "Exact: last element under the path in document order (Spec/Index.lean); soundness and completeness against relational paths; the index can be built exactly if the index lists are long enough."
 },
 "C36": {
  "note": "Exact characterisation: with overflow checks, a device without derivedFrom expands to d' at some recursion depth iff d' is the level-by-level expansion; without checks the same result whenever addresses are representable. C36_registers restates it register by register (joined names, summed offsets)."
 },
 "C37": {
  "note": "All five kinds: resolution of a reference succeeds (at some recursion depth) iff a chain of links in the device ends, and the result is successive inheritance, nearest first. C37_device: a device whose only references are peripheral references expands exactly to the expansion of the device with resolved peripherals."
 },
 "C38": {
  "note": "C38_refs: if expand returns a device then every derivedFrom of the original (peripherals, and clusters, registers, fields and enumerated values under their own-name paths) starts a chain of references that exists, avoids the referring element and ends; C38_device is the contrapositive. C38_errors: a first link that is missing or the element itself makes derive_* return an error value, not a panic (for a field unless the reference has exactly two components: finding 6)."
 },
 "C39": {
  "note": "The code violates the property: C39_violated (references running into a circle that does not contain the start; also covers an array referring to its own instance) and C39_violated_ancestor (cluster derived from the cluster it is in) show that no recursion depth suffices. C39_exact says for which devices: with overflow checks, expansion never returns exactly if the first fault of the device in the order of expansion is an endless chain of references or an endless descent into clusters (relation DeviceFails of Spec/Fails). C39_exact_unchecked: without overflow checks exactly if this holds for the device with all positions zero. C39_partial: a sufficient condition for returning that can be checked, for both overflow modes: the elements can be numbered so that references and containment of clusters lead to smaller numbers (ranked_of_check). C83 gives a depth at which the question is decided."
 },
 "C30": {
  "note": "Proved for all edits outside list containers (text, comments, processing instructions between elements; unknown elements in record containers; unknown attributes; any depth), for any result including errors. C30_items and C30_violated show that the code rejects unknown elements inside peripherals, registers, fields, enumeratedValues, dimArrayIndex and writeConstraint, so the property does not hold as stated there."
 },
 "C26": {
  "note": "C26_lossless: the device is written and every re-reading of the file (Reread: empty texts dropped by the XML reader, any layout in the sense of C30) returns exactly the device, at the level for which it is Expressible. C26_conditions_needed: witnesses that the conditions on texts, empty lists, index lists and array names cannot be dropped. The text level of XML (escaping, the writer's indentation) is trusted; ignoreEnums must be off."
 },
 "C27": {
  "note": "C27_presentation_only: the device read back is Presented, i.e. the device in the order and notation asked for; C27_written: it is written unless descending offsets are asked for. The order is demanded for descending offsets only if all offsets are below 2^31 (C29 shows that the code gets it wrong otherwise)."
 },
 "C51": {
  "note": "Builders of all element types and both configurations. The encoder Config has no setter for the header enum name of a dimArrayIndex, and RegisterInfoBuilder none for protection (both settable only by other means)."
 },
 "C52": {
  "note": "References are modelled as places in the tree; the caller is an arbitrary function with its own state."
 },
 "C53": {
  "note": "C53_parsed_expressible: everything read from a Regular document fulfils the conditions of C26; C53_read_write_read combines it with C26. C53_conditions_needed: a blank optional text is lost, a blank required text is rejected and an empty list of fields is lost on the second reading, so these documents have to be excluded."
 },
 "C54": {
  "note": "The derived code is modelled on values of a self-describing format; that JSON or YAML texts represent the values is trusted. C54_conditions_needed shows what is lost and which conditions are needed."
 },
 "C55": {
  "note": "The table Spec/Order.lean is trusted to be the order of the CMSIS-SVD format; it is wider than the format where the encoder writes more: displayName of a peripheral, alternateGroup together with alternateRegister, value together with isDefault, empty lists."
 },
 "C56": {
  "note": "Exact characterisation of expand for devices with any references: soundness, completeness, uniqueness."
 },
 "C57": {
  "note": "Proved for devices without references with the stated conditions; witnesses show that each condition is needed."
 },
 "C58": {
  "note": "Spec/Blame.lean states for every kind of error what it claims about a node (including the validation level); C58_error_true proves it of every error Device::parse returns, C58_same_device that positions change nothing else, C58_same_outcome that the lookup of the node never panics. Not every detail of parseInt errors is described: which of empty/invalid digit/overflow is reported is C02."
 },
 "C59": {
  "note": "C59_messages gives the complete list of messages; C59_messages_unique shows that the specification determines it. Finding: enclosing clusters are not mentioned (C59_only_mentioned)."
 },
 "C60": {
  "note": "C60_device and C60_document are equivalences: the model parser returns a device exactly when the specification says that the element describes it. C60_unique: at most one device."
 },
 "C61": {
  "note": "One theorem per builder type with two equivalences: build returns t iff t has exactly the members given and passes validation (Spec/Valid.lean); build reports an uninitialized member iff it is the first mandatory one not given. Groups of enumerated values have no mandatory member. C61_errors and C61_errors_small: all other errors are those of validating the result, the properties first."
 },
 "C62": {
  "note": "C62_read is the whole reader with overflow checks as one equivalence, for all configurations; C62_unique. C62_values: without references the registers are exactly the hardware registers with the nearest properties. C62_given: with references every register gives what the device gives, if derived peripherals and clusters have nothing of their own; C62_skipped shows that the condition is needed, C62_order that the order of the two expansions matters. XML reading itself (roxmltree) is outside the model."
 },
 "C63": {
  "note": "Expansion with overflow checks. C63_fails: equivalence with the relation DeviceFails of Spec/Fails, which mentions no function of the program. C63_total, C63_exclusive and C63_one: exactly one of result (C56) and fault, and only one fault. C63_run: whatever a run of any depth reports is that fault. Running out of fuel at every depth stands for not returning."
 },
 "C64": {
  "note": "C64_value: deDevice succeeds iff the value says what a device is (Spec/Value.lean); C64_parts for the parts; C64_faults; C64_null, C64_unknown; C64_reversed (finding 27); C64_written combines it with C54."
 },
 "C65": {
  "note": "Equivalence for the whole encoder (C65_device) and its parts, against Spec/Written.lean; C65_texts for number and identifier formats. The conversion of names (crate convert_case) is an arbitrary function."
 },
 "C66": {
  "note": "C66_value gives the written value as an equivalence with Spec/ValueWritten.lean (keys in declared order as a sublist, each member by key); C66_parts the same for the parts; C66_when exactly when writing succeeds and that the only fault is an overflow panic with overflow checks; C66_tidy no null and no repeated key; C66_injective that nothing is lost apart from the document attributes if the indexes contain no comma (C66_condition_needed shows the condition is needed). That the text of JSON or YAML represents the tree faithfully is trusted."
 },
 "C67": {
  "note": "Exact condition for every level; two sufficient/negative corollaries. Validity can be lost (finding 28)."
 },
 "C68": {
  "note": "For devices with references the validity of the expanded device is a hypothesis (C57 shows that it can be lost); without references it is derived."
 },
 "C69": {
  "note": "The conditions of the corollaries for the expanded device (C69_expanded_weak, C69_expanded_strict) are stated for the device in between."
 },
 "C70": {
  "note": "Two devices are compared through one function from peripherals to their results (C70_added), with C70_around as the special case of added peripherals, C70_removed for the converse and C70_order for any permutation; C70_repeated shows that a repeated name makes the order matter. Overflow checks on; C56_unchecked carries every result over to a build without them."
 },
 "C71": {
  "note": "For an element, for a document with expansion, and together with C26 for written devices. Where order matters: C71_limits."
 },
 "C72": {
  "note": "The list of rules in order, each with its error; exact characterisation of success and of the reported error for every element and for whole devices."
 },
 "C73": {
  "note": "All texts modelled; totality for every reported error, injectivity, and the printed range. C73_parent: with strings quoted so that their ends can be seen (as {:?} of std does), the text of missing enumerated values tells the parent field. C73_contains: the names and numbers of the error (Spec/Told) are found in the text, in decimal or hexadecimal notation."
 },
 "C74": {
  "note": "Both builds are followed in step through parsing, expansion, writing, serde, bit masks and error texts. What the unchecked build does after an overflow is described only by the model (wrapping)."
 },
 "C75": {
  "note": "C75_renamed for all configurations and conversions; C75_references_lost shows that references with a path do not survive different formats (finding 30)."
 },
 "C76": {
  "note": "Combines C33 and C54; the condition is that ranges of fields can be written, as in C54."
 },
 "C77": {
  "note": "Any nesting of arrays; the third theorem covers references through C69 (with overflow checks)."
 },
 "C78": {
  "note": "C78_masks under the condition stated in the property, C78_beyond shows that it is needed (finding 31)."
 },
 "C79": {
  "note": "C79_unchecked is an equation between the two runs; the others follow from it and C39, C56, C63, C74."
 },
 "C80": {
  "note": "The 12 types are covered together in C80_again_small and C80_nothing and one by one for the five with children. C80_failed_* give the exact state after an error (finding 32)."
 },
 "C81": {
  "note": "C81_when is an equivalence with an independent predicate (Spec/Encodable.lean), also for the parts; C81_fault bounds the faults; C81_long_lists and C81_parsed are the consequences for devices from documents."
 },
 "C82": {
  "note": "C82_converted for all devices that can be expressed, C82_document for those read from a file, C82_lost for what goes wrong (finding 14)."
 },
 "C83": {
  "note": "C83_depth: the outcome at the computed depth (Spec/Depth) and at all larger ones is the same, for both overflow modes. C83_returns: expansion returns at some depth exactly if it does at this one. C83_result: what it then returns is the expansion described in C56. C83_fault: with overflow checks, the outcome there is the first fault of the device in the sense of C63, also if it is an endless recursion. C83_fault_unchecked: without them, the outcome is a fault exactly in the cases of C79. The bound is not the smallest one."
 },
 "C84": {
  "note": "C84_distinct for devices without references in both overflow modes; C84_references for all devices (with overflow checks) in terms of the device after following references (C69). C84_found: the lookups. C84_no_underscore: names without underscores are clear. C84_collision: a strictly valid device whose two registers get the same name."
 },
 "C85": {
  "note": "C85_order: both directions, with overflow checks, for devices whose paths are unambiguous. C85_unchecked: without overflow checks, the same unless a position overflows, and up to positions if one does. C85_written: the device read back after writing in any order. C85_first_group: with two groups of the same name in a register the written order changes the expansion."
 },
 "C86": {
  "note": "C86_read: both directions, for an element; C86_document: for a document; C86_expanded: with the expansions that can follow (with overflow checks, paths of the device read unambiguous); C86_unchecked: without overflow checks, up to positions."
 },
 "C87": {
  "note": "C87_valid (every level), C87_registers, C87_mask (both overflow modes, outcomes equal), C87_lookup (four kinds of lookup); C87_first shows that the condition of C87_lookup is needed."
 },
 "C88": {
  "note": "C88_registers: for every device without references whose elements have ranges of addresses beside each other (DeviceRoom), no two registers of the expanded device share an address. C88_within: every one lies in the range of a peripheral. The size of a register is the one written at it, in whole bytes; one without a size occupies nothing, so that properties should be filled in first (C40, C62). C88_references: the same with references, the ranges being those of the device with its references followed. C88_instances, C88_fields: for one array the condition is necessary and sufficient. All with overflow checks: without them addresses wrap around (C36_unchecked). Alternate registers and groups, which overlap on purpose, do not meet the hypothesis."
 },
 "C89": {
  "note": "C89_array, C89_field: single and array elements; C89_cortex_m: the name of the CPU; C89_levels: the levels of validation."
 },
 "C90": {
  "note": "C90_spelling relates any two devices that differ only in the spelling of references of fields, registers and clusters (bare or full) and of enumerated values (from the field on, from the register on, full); same result for both and the same number of steps. C90_limit shows with a device that the restriction below a peripheral with a reference is needed, C90_dotted_name the one on names of groups of enumerated values."
 }
}