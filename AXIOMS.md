# Axioms per theorem

From `#print axioms`; all names are in `OrdinalMap.Props`. Regenerate with `tools/axioms.py`.

## none (5)

C12_box, C44_into_values, C61_false, C63_assign, C74_no_bound_added

## `propext` (21)

C04_false, C04_witness, C05_box, C15_false_array, C15_false_either, C15_false_option, C15_false_result, C18_spec_meaning, C39_spec_meaning, C42_false, C45_false_short, C50_spec_meaning, C52_atomic, C55_atomic, C74_instantiation, C93_doc_tests, C93_other_tests, C95_items, C95_threads, C95_unpin, C98_atomic

## `Quot.sound`, `propext` (121)

C01_32bit_rejected, C02_32bit_rejected, C03_char_formula, C04_exact, C05_either, C05_option, C05_ordering_infallible, C05_result, C06_array_positional, C12_option, C12_result_either, C15_option_no_collision_partial, C15_size_partial, C16_all_values, C17_len_hint_count_last, C18_limit, C19_wrong_S, C20_ordinal_set64, C20_too_large, C23_exact_64, C25_false, C27_limit, C28_false, C35_spec_meaning, C36_wrong_size, C39_limit, C39_total_array_map, C39_total_map, C40_total_map, C41_total_map, C42_total_map, C42_values, C43_as_mut, C43_as_ref, C43_map, C43_map_pure, C43_zip, C44_from_array, C45_false_long, C46_array_from_ordinal, C47_array_from_iter, C49_linearizable, C49_no_panic, C49_sequential, C49_wait_free, C51_orderings, C53_debug, C54_total_iters, C54_total_maps, C55_derive, C55_impls, C56_zip, C57_agrees, C58_increasing, C62_enum, C62_struct, C62_tuple, C62_unique, C63_spec_meaning, C65_collisions, C65_positions, C66_char, C69_from_array, C70_agrees, C70_drop, C71_unique, C73_exact_enum_partial, C73_unit_variants, C74_accepted_iff, C75_drop_agrees, C75_drop_spec_meaning, C75_retain_agrees, C76_from_iter, C76_lawful, C78_array_map, C78_contains_key, C78_map, C78_sets, C78_total, C78_total_array, C78_walk, C79_array_map, C79_map, C79_total, C80_agrees, C80_agrees_maps, C80_agrees_sets, C80_arrays, C80_contains_key, C80_impls, C81_contains_key, C81_from_iter, C81_from_iter_sets, C81_map_key, C81_set, C81_total_key, C84_agrees, C84_sound, C85_atomic_calls, C85_atomic_sound, C85_values_calls, C86_unique, C88_drain_aborts, C88_total_map, C89_agrees, C89_values, C90_agrees, C91_agrees, C92_linearizable, C92_wait_free, C93_control_map, C93_doc_crate, C93_doc_types, C95_invariant, C95_shorten, C95_variance, C96_once, C98_values, C99_agrees, C99_total_iters, C99_total_maps

## `Classical.choice`, `propext` (1)

C94_all_types

## `Classical.choice`, `Quot.sound`, `propext` (296)

C01_primitives, C02_nonzero, C03_char, C04_32bit_partial, C04_partial, C06_array, C07_tuples, C07_tuples_fit, C08_structs, C09_enums, C100_32bit_rejected, C100_agrees, C100_array_strict, C100_char_wraps, C100_generic, C100_generic_strict, C100_leaf, C100_nonzero, C100_primitives, C101_agrees_array_set, C101_agrees_set, C101_agrees_set64, C101_agrees_values, C101_findings, C101_ordinal_array_set, C101_ordinal_set, C101_ordinal_set64, C101_values, C101_wrong_S, C102_agrees, C102_agrees_entry, C102_agrees_iter, C102_agrees_iter_mut, C102_agrees_map, C102_contains_key, C102_ordinal_map, C103_agrees, C103_agrees_map, C103_ordinal_array_map, C103_wrong_size, C104_agrees_array, C104_agrees_map, C104_default, C104_total_array_map, C104_total_map, C104_wrong_size, C105_agrees, C105_agrees_as_mut, C105_array_from_iter, C105_as_mut, C105_as_ref, C105_map, C105_retain, C105_zip, C106_agrees, C106_linearizable, C106_no_invention, C106_values, C107_count, C107_exists, C107_nested, C108_builder, C108_model, C108_supplied, C109_agrees_iter_mut, C109_agrees_maps, C109_agrees_sets, C109_finding, C109_ordinal_array_map, C109_ordinal_array_set, C109_ordinal_map, C109_ordinal_set, C109_ordinal_set64, C109_text, C109_total_array_map, C109_total_map, C109_values, C10_exact_enum_partial, C10_exact_struct_partial, C10_false, C110_agrees_into, C110_agrees_shared, C110_ordinal_array_map, C110_ordinal_map, C110_total_array_map, C110_total_map, C111_is_iter, C111_ordinal_array_map, C111_ordinal_map, C111_total_array_map, C111_total_map, C11_leaf_order, C12_array, C12_tuple, C13_enum, C13_struct, C14_enum, C14_struct, C14_tuple, C15_checked_no_collision_partial, C16_values_spec, C18_ordinal_set, C19_ordinal_array_set, C21_elements_spec, C21_iter, C22_iter64, C23_all_partial, C23_false, C24_eq, C25_release_partial, C26_agree, C27_ordinal_map, C27_over_limit, C28_contains_key_partial, C28_exact, C29_len, C30_storage, C31_entry, C32_iteration, C32_spec_meaning, C33_iter_mut, C33_spec_meaning, C34_drain, C35_from_iter, C36_ordinal_array_map, C37_retain, C37_spec_meaning, C38_equivalent, C40_total_array_map, C41_total_array_map, C42_iter64, C42_total_array_map_partial, C45_len_partial, C46_array_from_iter, C46_builder, C48_array_as_mut, C50_no_invention, C52_array_set, C52_false, C52_iter_mut, C52_map_iters, C52_maps, C52_set_iters, C52_sets_partial, C52_total_iters, C52_total_maps, C54_map_iters, C54_maps, C54_set_iters, C54_sets, C55_debug, C55_maps, C55_sets, C55_total, C55_values, C56_map, C56_try_new, C56_try_new_array, C57_retain_unwind, C57_spec_meaning, C58_exact, C59_generic, C59_maps, C59_sets, C59_total, C59_values, C60_count, C60_nested, C61_iter64, C61_total_array_map_partial, C61_total_map, C61_values, C63_array_views, C64_elements, C64_maps, C64_pairs, C64_sets, C64_total, C67_all, C68_uninhabited, C71_maps, C71_sets, C71_total, C71_values, C72_canonical, C72_portable, C72_rank, C73_agrees_enum, C73_agrees_struct, C73_exact_struct_partial, C73_false, C73_one_context_partial, C74_derived_generic, C74_instances, C75_drain, C75_retain, C75_retain_spec_meaning, C76_from_iter_array, C77_from_iter, C77_size, C77_storage, C80_closures, C80_maps, C80_sets, C81_array, C81_closures, C81_constructors, C81_full_walk, C81_map_walk, C81_set_walk, C81_total_walk, C82_enum, C82_enum_lawful, C82_inherent_pos, C82_inherent_zero, C82_none, C82_prelude, C82_same, C82_struct, C82_struct_lawful, C82_variant, C83_total, C84_enum_from, C84_enum_ordinal, C84_struct_from, C84_struct_ordinal, C84_tuple_from, C84_tuple_ordinal, C85_agrees, C85_debug_sound, C85_iter_calls, C85_map_calls, C85_set_calls, C85_set_iter_calls, C86_enum, C86_struct, C86_tuple, C87_enum, C87_enum_lawful, C87_struct, C87_struct_lawful, C87_tuple, C87_tuple_lawful, C88_agrees, C88_array_map, C88_map, C88_sets, C88_total_array_map, C89_distinct, C89_iter_mut, C89_map_iter, C89_misaligned, C89_set_iter, C89_total_iter, C89_total_keys, C90_drain, C91_contents, C91_retain, C92_no_invention, C93_blind, C93_composite_tests, C93_control_sort, C93_enum_tests, C93_iterator_tests, C93_leaf_tests, C93_qc_maps, C93_qc_sets, C93_some_tests, C93_struct_tests, C93_test_ordinal, C93_test_ordinal_complete, C93_tuple_tests, C94_compiles, C94_count, C94_derived, C94_handwritten, C95_borrows, C96_array_map, C96_map, C96_total, C97_count, C97_cycle, C97_finite, C97_infinite, C98_iter_mut, C98_map_iters, C98_maps, C98_set_iters, C98_sets, C98_sets_panic, C98_strings, C98_text, C98_total_iters, C98_total_maps, C99_map_iters, C99_maps
