# Axioms of the property theorems

Output of `#print axioms`, grouped (`tools/axioms.py`).

## none

* Svd.C17_addressBlock
* Svd.C17_interrupt
* Svd.C17_cpu
* Svd.C44_offset_then_width_partial
* Svd.C44_offset_twice
* Svd.C89_levels

## propext

* Svd.C08_msb_overflow_panic
* Svd.C20_properties
* Svd.C20_cluster
* Svd.C20_enums
* Svd.C20_peripheral
* Svd.C20_register
* Svd.C20_field
* Svd.C25_separated
* Svd.C40_unique
* Svd.C41_first
* Svd.C44_with_range_partial
* Svd.C44_modify_stale
* Svd.C46_removed
* Svd.C49_usage
* Svd.C52_registers
* Svd.C52_clusters
* Svd.C59_messages_unique
* Svd.C84_no_underscore

## propext, Quot.sound

* Svd.C08_msb_exact
* Svd.C17_properties
* Svd.C17_enumValue
* Svd.C17_dim
* Svd.C18_properties
* Svd.C18_enumValue
* Svd.C18_dim
* Svd.C18_addressBlock
* Svd.C18_interrupt
* Svd.C18_cpu
* Svd.C18_device
* Svd.C19_properties
* Svd.C19_cluster
* Svd.C19_enums
* Svd.C19_peripheral
* Svd.C19_register
* Svd.C19_field
* Svd.C23_outside
* Svd.C24_all_registers
* Svd.C24_each_once
* Svd.C25_cover
* Svd.C25_lookups
* Svd.C28_permutation
* Svd.C29_violated
* Svd.C29_panics
* Svd.C40_nearest
* Svd.C40_idempotent
* Svd.C41_display
* Svd.C41_parse_display
* Svd.C41_parse_text
* Svd.C41_parent
* Svd.C44_range_then_partial
* Svd.C44_width_after_offset_partial
* Svd.C44_widths_lost
* Svd.C44_offsets_only
* Svd.C44_cases
* Svd.C44_modify_range_partial
* Svd.C44_modify_parts_partial
* Svd.C44_modify_width_next
* Svd.C44_modify_offset_next
* Svd.C44_modify_cases
* Svd.C49_values
* Svd.C49_groups
* Svd.C51_properties
* Svd.C51_enumValue
* Svd.C51_dim
* Svd.C51_addressBlock
* Svd.C51_interrupt
* Svd.C51_cpu
* Svd.C51_encoder_config
* Svd.C51_parser_config
* Svd.C52_get_mut_register
* Svd.C52_get_mut_cluster
* Svd.C52_get_mut_interrupt
* Svd.C52_get_mut_peripheral
* Svd.C52_get_mut_field
* Svd.C52_get_mut_value
* Svd.C52_get_mut_enumerated_values
* Svd.C52_found_alike
* Svd.C59_only_mentioned
* Svd.C61_dim
* Svd.C61_addressBlock
* Svd.C61_interrupt
* Svd.C61_cpu
* Svd.C72_unique
* Svd.C74_field_bitmask
* Svd.C74_register_bitmask
* Svd.C80_again_device
* Svd.C87_registers
* Svd.C87_mask
* Svd.C87_lookup
* Svd.C89_array

## propext, Classical.choice, Quot.sound

* Svd.C01_number_round_trip
* Svd.C01_decimal_round_trip
* Svd.C02_parse_int_iff
* Svd.C02_parse_int_otherwise
* Svd.C03_parse_bool_iff
* Svd.C03_parse_bool_otherwise
* Svd.C03_bool_round_trip
* Svd.C04_access
* Svd.C04_access_rights
* Svd.C04_usage
* Svd.C04_protection
* Svd.C04_endian
* Svd.C04_readAction
* Svd.C04_modifiedWriteValues
* Svd.C04_dataType
* Svd.C04_addressBlockUsage
* Svd.C05_parse_indexes_iff
* Svd.C05_parse_dim_index_iff
* Svd.C05_nonempty
* Svd.C06_dim_index_text_round_trip
* Svd.C06_dim_index_round_trip
* Svd.C06_dash_entry_lost
* Svd.C06_empty_entry_lost
* Svd.C07_range_iff
* Svd.C07_outcomes
* Svd.C07_overflow_panic
* Svd.C07_exact
* Svd.C08_notations_agree
* Svd.C08_reversed_rejected
* Svd.C08_constructors
* Svd.C08_extra_part_ignored
* Svd.C09_bit_range_round_trip
* Svd.C09_zero_width_panic
* Svd.C10_derived_outcomes
* Svd.C10_check_name
* Svd.C10_check_dimable_name
* Svd.C10_check_derived_name
* Svd.C10_one_placeholder
* Svd.C11_parts_monotone
* Svd.C11_validate_all_monotone
* Svd.C11_disabled
* Svd.C11_parts_disabled
* Svd.C12_reset_value_check
* Svd.C13_field_validate
* Svd.C14_parsed_is_valid
* Svd.C15_parse_monotone
* Svd.C16_validate_all
* Svd.C16_parts
* Svd.C17_enums
* Svd.C17_field
* Svd.C17_register
* Svd.C17_cluster
* Svd.C17_peripheral
* Svd.C17_device
* Svd.C17_device_defaults
* Svd.C18_enums
* Svd.C18_field
* Svd.C18_register
* Svd.C18_register_derived
* Svd.C18_cluster
* Svd.C18_cluster_derived
* Svd.C18_peripheral
* Svd.C18_peripheral_derived
* Svd.C19_array
* Svd.C19_arrays
* Svd.C20_array
* Svd.C20_arrays
* Svd.C20_array_not_associative
* Svd.C21_fields
* Svd.C21_registers
* Svd.C21_clusters
* Svd.C21_peripherals
* Svd.C21_outcomes
* Svd.C22_names
* Svd.C22_valid_name
* Svd.C22_default
* Svd.C22_percent_counterexample
* Svd.C22_array_index_counterexample
* Svd.C23_field_outcomes
* Svd.C23_register_outcomes
* Svd.C23_field
* Svd.C23_register
* Svd.C26_lossless
* Svd.C26_conditions_needed
* Svd.C27_presentation_only
* Svd.C27_written
* Svd.C28_peripherals
* Svd.C28_fields
* Svd.C28_registers
* Svd.C29_below_2_31_partial
* Svd.C29_exact
* Svd.C30_element_partial
* Svd.C30_document_partial
* Svd.C30_items
* Svd.C30_violated
* Svd.C30_whitespace
* Svd.C31_ignore_enums
* Svd.C32_returns_or_reports
* Svd.C32_exceptions
* Svd.C33_flat
* Svd.C34_unreachable
* Svd.C35_identity
* Svd.C35_idempotent
* Svd.C36_exact
* Svd.C36_unchecked
* Svd.C36_registers
* Svd.C37_peripheral
* Svd.C37_cluster
* Svd.C37_register
* Svd.C37_field
* Svd.C37_enums
* Svd.C37_device
* Svd.C38_refs
* Svd.C38_errors
* Svd.C38_device
* Svd.C38_peripheral
* Svd.C39_exact
* Svd.C39_exact_unchecked
* Svd.C39_partial
* Svd.C39_violated
* Svd.C39_violated_ancestor
* Svd.C41_eq_text
* Svd.C42_exact
* Svd.C42_returns_partial
* Svd.C42_violated
* Svd.C43_last
* Svd.C43_sound
* Svd.C43_complete
* Svd.C43_builds
* Svd.C44_width_then_offset_lost
* Svd.C45_reference_lost
* Svd.C45_rejected
* Svd.C45_cleared_partial
* Svd.C46_unchanged
* Svd.C47_bit_range
* Svd.C47_index_list
* Svd.C47_conditions
* Svd.C48_known
* Svd.C48_unknown
* Svd.C48_invalid
* Svd.C50_encode_total
* Svd.C50_parsed_can_be_written
* Svd.C50_conditions_needed
* Svd.C51_enums
* Svd.C51_field
* Svd.C51_register
* Svd.C51_cluster
* Svd.C51_peripheral
* Svd.C51_device
* Svd.C51_register_properties
* Svd.C52_all_registers
* Svd.C52_same_registers
* Svd.C53_parsed_expressible
* Svd.C53_read_write_read
* Svd.C53_conditions_needed
* Svd.C54_serde
* Svd.C54_order
* Svd.C54_unchanged
* Svd.C54_parsed
* Svd.C54_conditions_needed
* Svd.C55_in_order
* Svd.C56_expansion
* Svd.C56_unchecked
* Svd.C56_unique
* Svd.C56_no_references
* Svd.C56_home_lost
* Svd.C57_weak
* Svd.C57_strict
* Svd.C57_instance_name
* Svd.C57_name_fits
* Svd.C57_default_indexes
* Svd.C57_empty_array
* Svd.C57_digit_names
* Svd.C57_mixed_size
* Svd.C58_error_true
* Svd.C58_same_device
* Svd.C58_same_outcome
* Svd.C58_plain
* Svd.C59_messages
* Svd.C59_device_last
* Svd.C60_device
* Svd.C60_document
* Svd.C60_unique
* Svd.C61_enumValue
* Svd.C61_enums
* Svd.C61_field
* Svd.C61_register
* Svd.C61_cluster
* Svd.C61_peripheral
* Svd.C61_device
* Svd.C61_errors_small
* Svd.C61_errors
* Svd.C62_read
* Svd.C62_unique
* Svd.C62_given
* Svd.C62_values
* Svd.C62_order
* Svd.C62_skipped
* Svd.C63_fails
* Svd.C63_run
* Svd.C63_total
* Svd.C63_exclusive
* Svd.C63_one
* Svd.C64_value
* Svd.C64_parts
* Svd.C64_faults
* Svd.C64_null
* Svd.C64_unknown
* Svd.C64_reversed
* Svd.C64_written
* Svd.C65_device
* Svd.C65_parts
* Svd.C65_texts
* Svd.C65_unique
* Svd.C66_value
* Svd.C66_parts
* Svd.C66_when
* Svd.C66_tidy
* Svd.C66_injective
* Svd.C66_condition_needed
* Svd.C67_exact
* Svd.C67_before
* Svd.C67_together
* Svd.C67_mask_lost
* Svd.C67_value_lost
* Svd.C68_expressible
* Svd.C68_round_trip
* Svd.C68_stable
* Svd.C68_weak
* Svd.C68_strict
* Svd.C68_conditions_needed
* Svd.C69_two_steps
* Svd.C69_one_device
* Svd.C69_what_can_break
* Svd.C69_expanded_weak
* Svd.C69_expanded_strict
* Svd.C69_each_breaks
* Svd.C70_added
* Svd.C70_around
* Svd.C70_removed
* Svd.C70_order
* Svd.C70_repeated
* Svd.C71_element
* Svd.C71_document
* Svd.C71_written
* Svd.C71_limits
* Svd.C72_device
* Svd.C72_peripheral
* Svd.C72_cluster
* Svd.C72_register
* Svd.C72_field
* Svd.C72_own
* Svd.C73_told
* Svd.C73_shown
* Svd.C73_validate
* Svd.C73_expand
* Svd.C73_parse
* Svd.C73_range
* Svd.C73_parent
* Svd.C73_contains
* Svd.C74_expand
* Svd.C74_parse
* Svd.C74_encode
* Svd.C74_serialize
* Svd.C74_deserialize
* Svd.C74_message
* Svd.C74_fails
* Svd.C75_renamed
* Svd.C75_references_lost
* Svd.C76_survives
* Svd.C76_still_expanded
* Svd.C77_peripheral
* Svd.C77_device
* Svd.C77_references
* Svd.C78_masks
* Svd.C78_beyond
* Svd.C79_unchecked
* Svd.C79_checked
* Svd.C79_positions
* Svd.C79_fails
* Svd.C79_expansion
* Svd.C80_again_small
* Svd.C80_again_field
* Svd.C80_again_register
* Svd.C80_again_cluster
* Svd.C80_again_peripheral
* Svd.C80_nothing
* Svd.C80_failed_register
* Svd.C80_failed_cluster
* Svd.C80_failed_peripheral
* Svd.C80_failed_device
* Svd.C81_when
* Svd.C81_when_parts
* Svd.C81_fault
* Svd.C81_long_lists
* Svd.C81_parsed
* Svd.C82_converted
* Svd.C82_document
* Svd.C82_lost
* Svd.C83_depth
* Svd.C83_returns
* Svd.C83_fault
* Svd.C83_fault_unchecked
* Svd.C83_result
* Svd.C84_distinct
* Svd.C84_references
* Svd.C84_found
* Svd.C84_collision
* Svd.C85_order
* Svd.C85_written
* Svd.C85_first_group
* Svd.C85_unchecked
* Svd.C86_read
* Svd.C86_document
* Svd.C86_expanded
* Svd.C86_unchecked
* Svd.C87_valid
* Svd.C87_first
* Svd.C88_registers
* Svd.C88_within
* Svd.C88_references
* Svd.C88_fields
* Svd.C88_instances
* Svd.C89_field
* Svd.C89_cortex_m
* Svd.C90_spelling
* Svd.C90_limit
* Svd.C90_dotted_name
