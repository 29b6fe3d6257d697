{
 "claims": [
  {
   "property": "C01",
   "status": "proved",
   "theorems": [
    "OrdinalMap.Props.C01_primitives",
    "OrdinalMap.Props.C01_32bit_rejected"
   ],
   "note": ""
  },
  {
   "property": "C02",
   "status": "proved",
   "theorems": [
    "OrdinalMap.Props.C02_nonzero",
    "OrdinalMap.Props.C02_32bit_rejected"
   ],
   "note": ""
  },
  {
   "property": "C03",
   "status": "proved",
   "theorems": [
    "OrdinalMap.Props.C03_char",
    "OrdinalMap.Props.C03_char_formula"
   ],
   "note": ""
  },
  {
   "property": "C04",
   "status": "partial",
   "theorems": [
    "OrdinalMap.Props.C04_false",
    "OrdinalMap.Props.C04_witness",
    "OrdinalMap.Props.C04_exact",
    "OrdinalMap.Props.C04_partial",
    "OrdinalMap.Props.C04_32bit_partial"
   ],
   "note": "False of the code on 64-bit targets (C04_false, witness from_ordinal(1<<32)); exact behaviour in C04_exact; proved below 2^32 and on 32-bit targets."
  },
  {
   "property": "C05",
   "status": "proved",
   "theorems": [
    "OrdinalMap.Props.C05_option",
    "OrdinalMap.Props.C05_result",
    "OrdinalMap.Props.C05_either",
    "OrdinalMap.Props.C05_box",
    "OrdinalMap.Props.C05_ordering_infallible"
   ],
   "note": ""
  },
  {
   "property": "C06",
   "status": "proved",
   "theorems": [
    "OrdinalMap.Props.C06_array",
    "OrdinalMap.Props.C06_array_positional"
   ],
   "note": ""
  },
  {
   "property": "C07",
   "status": "proved",
   "theorems": [
    "OrdinalMap.Props.C07_tuples",
    "OrdinalMap.Props.C07_tuples_fit"
   ],
   "note": ""
  },
  {
   "property": "C08",
   "status": "proved",
   "theorems": [
    "OrdinalMap.Props.C08_structs"
   ],
   "note": ""
  },
  {
   "property": "C09",
   "status": "proved",
   "theorems": [
    "OrdinalMap.Props.C09_enums"
   ],
   "note": ""
  },
  {
   "property": "C10",
   "status": "partial",
   "theorems": [
    "OrdinalMap.Props.C10_false",
    "OrdinalMap.Props.C10_exact_struct_partial",
    "OrdinalMap.Props.C10_exact_enum_partial"
   ],
   "note": "False of the code: a field named `rem` clashes with the macro's `let mut rem`, and fields named `None`, `Some`, `Ok` or `Err` cannot be bound by the generated patterns (C10_false). Exact characterisation proved: the expansion compiles iff no field has one of these five names."
  },
  {
   "property": "C11",
   "status": "proved",
   "theorems": [
    "OrdinalMap.Props.C11_leaf_order"
   ],
   "note": ""
  },
  {
   "property": "C12",
   "status": "proved",
   "theorems": [
    "OrdinalMap.Props.C12_tuple",
    "OrdinalMap.Props.C12_option",
    "OrdinalMap.Props.C12_result_either",
    "OrdinalMap.Props.C12_box",
    "OrdinalMap.Props.C12_array"
   ],
   "note": ""
  },
  {
   "property": "C13",
   "status": "proved",
   "theorems": [
    "OrdinalMap.Props.C13_struct",
    "OrdinalMap.Props.C13_enum"
   ],
   "note": ""
  },
  {
   "property": "C14",
   "status": "proved",
   "theorems": [
    "OrdinalMap.Props.C14_tuple",
    "OrdinalMap.Props.C14_struct",
    "OrdinalMap.Props.C14_enum"
   ],
   "note": ""
  },
  {
   "property": "C15",
   "status": "partial",
   "theorems": [
    "OrdinalMap.Props.C15_false_result",
    "OrdinalMap.Props.C15_false_either",
    "OrdinalMap.Props.C15_false_option",
    "OrdinalMap.Props.C15_false_array",
    "OrdinalMap.Props.C15_size_partial",
    "OrdinalMap.Props.C15_option_no_collision_partial",
    "OrdinalMap.Props.C15_checked_no_collision_partial"
   ],
   "note": "False of the code in release builds (C15_false_*: two values share an ordinal; ordinal() is not a compile error). Proved: ORDINAL_SIZE itself is rejected, Option never collides, checked builds never collide."
  },
  {
   "property": "C16",
   "status": "proved",
   "theorems": [
    "OrdinalMap.Props.C16_values_spec",
    "OrdinalMap.Props.C16_all_values"
   ],
   "note": ""
  },
  {
   "property": "C17",
   "status": "proved",
   "theorems": [
    "OrdinalMap.Props.C17_len_hint_count_last"
   ],
   "note": ""
  },
  {
   "property": "C18",
   "status": "proved",
   "theorems": [
    "OrdinalMap.Props.C18_spec_meaning",
    "OrdinalMap.Props.C18_ordinal_set",
    "OrdinalMap.Props.C18_limit"
   ],
   "note": ""
  },
  {
   "property": "C19",
   "status": "proved",
   "theorems": [
    "OrdinalMap.Props.C19_ordinal_array_set",
    "OrdinalMap.Props.C19_wrong_S"
   ],
   "note": ""
  },
  {
   "property": "C20",
   "status": "proved",
   "theorems": [
    "OrdinalMap.Props.C20_ordinal_set64",
    "OrdinalMap.Props.C20_too_large"
   ],
   "note": ""
  },
  {
   "property": "C21",
   "status": "proved",
   "theorems": [
    "OrdinalMap.Props.C21_iter",
    "OrdinalMap.Props.C21_elements_spec"
   ],
   "note": ""
  },
  {
   "property": "C22",
   "status": "proved",
   "theorems": [
    "OrdinalMap.Props.C22_iter64"
   ],
   "note": ""
  },
  {
   "property": "C23",
   "status": "partial",
   "theorems": [
    "OrdinalMap.Props.C23_exact_64",
    "OrdinalMap.Props.C23_all_partial",
    "OrdinalMap.Props.C23_false"
   ],
   "note": "False of the code at ORDINAL_SIZE == 64 (C23_false): all() panics with overflow checks and is empty without. Proved for every T with fewer than 64 values."
  },
  {
   "property": "C24",
   "status": "proved",
   "theorems": [
    "OrdinalMap.Props.C24_eq"
   ],
   "note": ""
  },
  {
   "property": "C25",
   "status": "partial",
   "theorems": [
    "OrdinalMap.Props.C25_false",
    "OrdinalMap.Props.C25_release_partial"
   ],
   "note": "False of the code with debug assertions (C25_false): iter() panics in OrdinalSetRef::new. Proved for builds without debug assertions."
  },
  {
   "property": "C26",
   "status": "proved",
   "theorems": [
    "OrdinalMap.Props.C26_agree"
   ],
   "note": ""
  },
  {
   "property": "C27",
   "status": "proved",
   "theorems": [
    "OrdinalMap.Props.C27_ordinal_map",
    "OrdinalMap.Props.C27_limit",
    "OrdinalMap.Props.C27_over_limit"
   ],
   "note": ""
  },
  {
   "property": "C28",
   "status": "partial",
   "theorems": [
    "OrdinalMap.Props.C28_false",
    "OrdinalMap.Props.C28_exact",
    "OrdinalMap.Props.C28_contains_key_partial"
   ],
   "note": "The stated equivalence is false for the code as written: contains_key (map/map.rs:58-60) tests whether the slot exists, not whether it holds a value, so it answers true for every key once storage is allocated. C28_false is a counterexample for any two distinct keys, C28_exact says what contains_key really answers after every history, and C28_contains_key_partial is the exact set of cases in which the equivalence holds."
  },
  {
   "property": "C29",
   "status": "proved",
   "theorems": [
    "OrdinalMap.Props.C29_len"
   ],
   "note": ""
  },
  {
   "property": "C30",
   "status": "proved",
   "theorems": [
    "OrdinalMap.Props.C30_storage"
   ],
   "note": ""
  },
  {
   "property": "C31",
   "status": "proved",
   "theorems": [
    "OrdinalMap.Props.C31_entry"
   ],
   "note": ""
  },
  {
   "property": "C32",
   "status": "proved",
   "theorems": [
    "OrdinalMap.Props.C32_iteration",
    "OrdinalMap.Props.C32_spec_meaning"
   ],
   "note": ""
  },
  {
   "property": "C33",
   "status": "proved",
   "theorems": [
    "OrdinalMap.Props.C33_iter_mut",
    "OrdinalMap.Props.C33_spec_meaning"
   ],
   "note": ""
  },
  {
   "property": "C34",
   "status": "proved",
   "theorems": [
    "OrdinalMap.Props.C34_drain"
   ],
   "note": ""
  },
  {
   "property": "C35",
   "status": "proved",
   "theorems": [
    "OrdinalMap.Props.C35_from_iter",
    "OrdinalMap.Props.C35_spec_meaning"
   ],
   "note": ""
  },
  {
   "property": "C36",
   "status": "proved",
   "theorems": [
    "OrdinalMap.Props.C36_ordinal_array_map",
    "OrdinalMap.Props.C36_wrong_size"
   ],
   "note": ""
  },
  {
   "property": "C37",
   "status": "proved",
   "theorems": [
    "OrdinalMap.Props.C37_retain",
    "OrdinalMap.Props.C37_spec_meaning"
   ],
   "note": ""
  },
  {
   "property": "C38",
   "status": "proved",
   "theorems": [
    "OrdinalMap.Props.C38_equivalent"
   ],
   "note": ""
  },
  {
   "property": "C39",
   "status": "proved",
   "theorems": [
    "OrdinalMap.Props.C39_total_map",
    "OrdinalMap.Props.C39_total_array_map",
    "OrdinalMap.Props.C39_spec_meaning",
    "OrdinalMap.Props.C39_limit"
   ],
   "note": ""
  },
  {
   "property": "C40",
   "status": "proved",
   "theorems": [
    "OrdinalMap.Props.C40_total_map",
    "OrdinalMap.Props.C40_total_array_map"
   ],
   "note": ""
  },
  {
   "property": "C41",
   "status": "proved",
   "theorems": [
    "OrdinalMap.Props.C41_total_map",
    "OrdinalMap.Props.C41_total_array_map"
   ],
   "note": ""
  },
  {
   "property": "C42",
   "status": "partial",
   "theorems": [
    "OrdinalMap.Props.C42_values",
    "OrdinalMap.Props.C42_iter64",
    "OrdinalMap.Props.C42_total_map",
    "OrdinalMap.Props.C42_total_array_map_partial",
    "OrdinalMap.Props.C42_false"
   ],
   "note": "False for total::IntoIterArray (map/total/iter.rs:134-147), which implements ExactSizeIterator but inherits the default size_hint (0, None); C42_false. C42_values, C42_iter64, C42_total_map and C42_total_array_map_partial prove len and size_hint equal to the number of items left, after any calls and any history, for every other ExactSizeIterator."
  },
  {
   "property": "C43",
   "status": "proved",
   "theorems": [
    "OrdinalMap.Props.C43_zip",
    "OrdinalMap.Props.C43_map",
    "OrdinalMap.Props.C43_map_pure",
    "OrdinalMap.Props.C43_as_ref",
    "OrdinalMap.Props.C43_as_mut"
   ],
   "note": ""
  },
  {
   "property": "C44",
   "status": "proved",
   "theorems": [
    "OrdinalMap.Props.C44_from_array",
    "OrdinalMap.Props.C44_into_values"
   ],
   "note": ""
  },
  {
   "property": "C45",
   "status": "partial",
   "theorems": [
    "OrdinalMap.Props.C45_len_partial",
    "OrdinalMap.Props.C45_false_short",
    "OrdinalMap.Props.C45_false_long"
   ],
   "note": "False for OrdinalTotalArrayMap::from_array (map/total/array_map.rs:73-78), which has no size assertion: C45_false_short and C45_false_long show a wrong S compiles, len() is S, and get/iter panic. C45_len_partial covers new, try_new, default and as_ref."
  },
  {
   "property": "C46",
   "status": "proved",
   "theorems": [
    "OrdinalMap.Props.C46_array_from_iter",
    "OrdinalMap.Props.C46_array_from_ordinal",
    "OrdinalMap.Props.C46_builder"
   ],
   "note": ""
  },
  {
   "property": "C47",
   "status": "proved",
   "theorems": [
    "OrdinalMap.Props.C47_array_from_iter"
   ],
   "note": ""
  },
  {
   "property": "C48",
   "status": "proved",
   "theorems": [
    "OrdinalMap.Props.C48_array_as_mut"
   ],
   "note": ""
  },
  {
   "property": "C49",
   "status": "proved",
   "theorems": [
    "OrdinalMap.Props.C49_sequential",
    "OrdinalMap.Props.C49_linearizable",
    "OrdinalMap.Props.C49_no_panic",
    "OrdinalMap.Props.C49_wait_free"
   ],
   "note": ""
  },
  {
   "property": "C50",
   "status": "proved",
   "theorems": [
    "OrdinalMap.Props.C50_no_invention",
    "OrdinalMap.Props.C50_spec_meaning"
   ],
   "note": ""
  },
  {
   "property": "C51",
   "status": "proved",
   "theorems": [
    "OrdinalMap.Props.C51_orderings"
   ],
   "note": ""
  },
  {
   "property": "C52",
   "status": "partial",
   "theorems": [
    "OrdinalMap.Props.C52_maps",
    "OrdinalMap.Props.C52_total_maps",
    "OrdinalMap.Props.C52_sets_partial",
    "OrdinalMap.Props.C52_array_set",
    "OrdinalMap.Props.C52_false",
    "OrdinalMap.Props.C52_map_iters",
    "OrdinalMap.Props.C52_iter_mut",
    "OrdinalMap.Props.C52_total_iters",
    "OrdinalMap.Props.C52_set_iters",
    "OrdinalMap.Props.C52_atomic"
   ],
   "note": "False for OrdinalSet and OrdinalSet64 of an uninhabited type in builds with debug assertions: formatting panics in OrdinalSetRef::new (C52_false). Proved in every other case, for both {:?} and {:#?}, with default width/precision flags and a formatter that does not fail."
  },
  {
   "property": "C53",
   "status": "proved",
   "theorems": [
    "OrdinalMap.Props.C53_debug"
   ],
   "note": ""
  },
  {
   "property": "C54",
   "status": "proved",
   "theorems": [
    "OrdinalMap.Props.C54_maps",
    "OrdinalMap.Props.C54_total_maps",
    "OrdinalMap.Props.C54_sets",
    "OrdinalMap.Props.C54_map_iters",
    "OrdinalMap.Props.C54_total_iters",
    "OrdinalMap.Props.C54_set_iters"
   ],
   "note": ""
  },
  {
   "property": "C55",
   "status": "proved",
   "theorems": [
    "OrdinalMap.Props.C55_impls",
    "OrdinalMap.Props.C55_derive",
    "OrdinalMap.Props.C55_values",
    "OrdinalMap.Props.C55_sets",
    "OrdinalMap.Props.C55_maps",
    "OrdinalMap.Props.C55_total",
    "OrdinalMap.Props.C55_debug",
    "OrdinalMap.Props.C55_atomic"
   ],
   "note": "Deterministic implementations: ordinal() and from_ordinal() are functions of their arguments; ones with interior state that answer differently on each call are not modelled. Slot indices stand for references; uninitialised reads, out-of-bounds reads and dangling slots are Fault.ub."
  },
  {
   "property": "C56",
   "status": "proved",
   "theorems": [
    "OrdinalMap.Props.C56_try_new",
    "OrdinalMap.Props.C56_try_new_array",
    "OrdinalMap.Props.C56_map",
    "OrdinalMap.Props.C56_zip"
   ],
   "note": "Stated on versions of the loops with drop accounting (Model/Own.lean); the theorems also say that these return what the plain model functions return. User closures return or panic; a panic in a destructor is not modelled."
  },
  {
   "property": "C57",
   "status": "proved",
   "theorems": [
    "OrdinalMap.Props.C57_retain_unwind",
    "OrdinalMap.Props.C57_spec_meaning",
    "OrdinalMap.Props.C57_agrees"
   ],
   "note": "The closure's effect on its &mut V is a value it leaves behind, also when it panics. A panic in the destructor of a removed value is not modelled."
  },
  {
   "property": "C58",
   "status": "proved",
   "theorems": [
    "OrdinalMap.Props.C58_exact",
    "OrdinalMap.Props.C58_increasing"
   ],
   "note": "Discriminant values are assumed to be those rustc assigns (explicit, else previous + 1, else 0). C13 is the case of no explicit discriminants."
  },
  {
   "property": "C59",
   "status": "proved",
   "theorems": [
    "OrdinalMap.Props.C59_generic",
    "OrdinalMap.Props.C59_values",
    "OrdinalMap.Props.C59_sets",
    "OrdinalMap.Props.C59_maps",
    "OrdinalMap.Props.C59_total"
   ],
   "note": "The provided methods of Iterator/DoubleEndedIterator are modelled as std defines them from next/next_back; the mutable iterators are covered by C33/C41, which quantify over all call sequences."
  },
  {
   "property": "C60",
   "status": "proved",
   "theorems": [
    "OrdinalMap.Props.C60_nested",
    "OrdinalMap.Props.C60_count"
   ],
   "note": "Induction over the way a type is built, from the per-impl properties C01-C14."
  },
  {
   "property": "C61",
   "status": "partial",
   "theorems": [
    "OrdinalMap.Props.C61_values",
    "OrdinalMap.Props.C61_iter64",
    "OrdinalMap.Props.C61_total_map",
    "OrdinalMap.Props.C61_total_array_map_partial",
    "OrdinalMap.Props.C61_false"
   ],
   "note": "False for OrdinalTotalArrayMap::into_iter(): skip(k).next_back() and the len() of peekable()/skip() panic in every state (C61_false), a consequence of C42_false. Proved for every other iterator and adapter."
  },
  {
   "property": "C62",
   "status": "proved",
   "theorems": [
    "OrdinalMap.Props.C62_struct",
    "OrdinalMap.Props.C62_tuple",
    "OrdinalMap.Props.C62_enum",
    "OrdinalMap.Props.C62_unique"
   ],
   "note": "Paths, calls and literals are single tokens; statement keywords are not part of the token model."
  },
  {
   "property": "C63",
   "status": "proved",
   "theorems": [
    "OrdinalMap.Props.C63_array_views",
    "OrdinalMap.Props.C63_assign",
    "OrdinalMap.Props.C63_spec_meaning"
   ],
   "note": "A mutable reference to the whole array is modelled as the array plus what storing through it leaves in the map."
  },
  {
   "property": "C64",
   "status": "proved",
   "theorems": [
    "OrdinalMap.Props.C64_pairs",
    "OrdinalMap.Props.C64_elements",
    "OrdinalMap.Props.C64_maps",
    "OrdinalMap.Props.C64_total",
    "OrdinalMap.Props.C64_sets"
   ],
   "note": "collect() is modelled as listing the items and then from_iter; the iterators have no outside effects."
  },
  {
   "property": "C65",
   "status": "proved",
   "theorems": [
    "OrdinalMap.Props.C65_positions",
    "OrdinalMap.Props.C65_collisions"
   ],
   "note": ""
  },
  {
   "property": "C66",
   "status": "proved",
   "theorems": [
    "OrdinalMap.Props.C66_char"
   ],
   "note": ""
  },
  {
   "property": "C67",
   "status": "proved",
   "theorems": [
    "OrdinalMap.Props.C67_all"
   ],
   "note": ""
  },
  {
   "property": "C68",
   "status": "proved",
   "theorems": [
    "OrdinalMap.Props.C68_uninhabited"
   ],
   "note": ""
  },
  {
   "property": "C69",
   "status": "proved",
   "theorems": [
    "OrdinalMap.Props.C69_from_array"
   ],
   "note": ""
  },
  {
   "property": "C70",
   "status": "proved",
   "theorems": [
    "OrdinalMap.Props.C70_drop",
    "OrdinalMap.Props.C70_agrees"
   ],
   "note": ""
  },
  {
   "property": "C71",
   "status": "proved",
   "theorems": [
    "OrdinalMap.Props.C71_values",
    "OrdinalMap.Props.C71_sets",
    "OrdinalMap.Props.C71_maps",
    "OrdinalMap.Props.C71_total",
    "OrdinalMap.Props.C71_unique"
   ],
   "note": ""
  },
  {
   "property": "C72",
   "status": "proved",
   "theorems": [
    "OrdinalMap.Props.C72_rank",
    "OrdinalMap.Props.C72_canonical",
    "OrdinalMap.Props.C72_portable"
   ],
   "note": ""
  },
  {
   "property": "C73",
   "status": "partial",
   "theorems": [
    "OrdinalMap.Props.C73_exact_struct_partial",
    "OrdinalMap.Props.C73_exact_enum_partial",
    "OrdinalMap.Props.C73_false",
    "OrdinalMap.Props.C73_one_context_partial",
    "OrdinalMap.Props.C73_unit_variants",
    "OrdinalMap.Props.C73_agrees_struct",
    "OrdinalMap.Props.C73_agrees_enum"
   ],
   "note": "False of the code (C73_false): when a field name (or the type of an unnamed field) comes from a macro_rules argument and the rest of the item from the macro body, the generated `rem` and `self` do not resolve. Exact characterisation proved for structs and enums, and that field-less enums always work."
  },
  {
   "property": "C74",
   "status": "proved",
   "theorems": [
    "OrdinalMap.Props.C74_accepted_iff",
    "OrdinalMap.Props.C74_instances",
    "OrdinalMap.Props.C74_derived_generic",
    "OrdinalMap.Props.C74_instantiation",
    "OrdinalMap.Props.C74_no_bound_added"
   ],
   "note": ""
  },
  {
   "property": "C75",
   "status": "proved",
   "theorems": [
    "OrdinalMap.Props.C75_drain",
    "OrdinalMap.Props.C75_drop_spec_meaning",
    "OrdinalMap.Props.C75_drop_agrees",
    "OrdinalMap.Props.C75_retain",
    "OrdinalMap.Props.C75_retain_spec_meaning",
    "OrdinalMap.Props.C75_retain_agrees"
   ],
   "note": ""
  },
  {
   "property": "C76",
   "status": "proved",
   "theorems": [
    "OrdinalMap.Props.C76_from_iter",
    "OrdinalMap.Props.C76_from_iter_array",
    "OrdinalMap.Props.C76_lawful"
   ],
   "note": ""
  },
  {
   "property": "C77",
   "status": "proved",
   "theorems": [
    "OrdinalMap.Props.C77_storage",
    "OrdinalMap.Props.C77_from_iter",
    "OrdinalMap.Props.C77_size"
   ],
   "note": ""
  },
  {
   "property": "C78",
   "status": "proved",
   "theorems": [
    "OrdinalMap.Props.C78_map",
    "OrdinalMap.Props.C78_array_map",
    "OrdinalMap.Props.C78_contains_key",
    "OrdinalMap.Props.C78_total",
    "OrdinalMap.Props.C78_total_array",
    "OrdinalMap.Props.C78_walk",
    "OrdinalMap.Props.C78_sets"
   ],
   "note": ""
  },
  {
   "property": "C79",
   "status": "proved",
   "theorems": [
    "OrdinalMap.Props.C79_array_map",
    "OrdinalMap.Props.C79_map",
    "OrdinalMap.Props.C79_total"
   ],
   "note": ""
  },
  {
   "property": "C80",
   "status": "proved",
   "theorems": [
    "OrdinalMap.Props.C80_maps",
    "OrdinalMap.Props.C80_contains_key",
    "OrdinalMap.Props.C80_closures",
    "OrdinalMap.Props.C80_sets",
    "OrdinalMap.Props.C80_arrays",
    "OrdinalMap.Props.C80_impls",
    "OrdinalMap.Props.C80_agrees",
    "OrdinalMap.Props.C80_agrees_maps",
    "OrdinalMap.Props.C80_agrees_sets"
   ],
   "note": ""
  },
  {
   "property": "C81",
   "status": "proved",
   "theorems": [
    "OrdinalMap.Props.C81_map_key",
    "OrdinalMap.Props.C81_contains_key",
    "OrdinalMap.Props.C81_total_key",
    "OrdinalMap.Props.C81_map_walk",
    "OrdinalMap.Props.C81_total_walk",
    "OrdinalMap.Props.C81_full_walk",
    "OrdinalMap.Props.C81_from_iter",
    "OrdinalMap.Props.C81_from_iter_sets",
    "OrdinalMap.Props.C81_closures",
    "OrdinalMap.Props.C81_constructors",
    "OrdinalMap.Props.C81_set",
    "OrdinalMap.Props.C81_set_walk",
    "OrdinalMap.Props.C81_array"
   ],
   "note": ""
  },
  {
   "property": "C82",
   "status": "proved",
   "theorems": [
    "OrdinalMap.Props.C82_struct",
    "OrdinalMap.Props.C82_enum",
    "OrdinalMap.Props.C82_none",
    "OrdinalMap.Props.C82_variant",
    "OrdinalMap.Props.C82_struct_lawful",
    "OrdinalMap.Props.C82_enum_lawful",
    "OrdinalMap.Props.C82_same",
    "OrdinalMap.Props.C82_prelude",
    "OrdinalMap.Props.C82_inherent_zero",
    "OrdinalMap.Props.C82_inherent_pos"
   ],
   "note": ""
  },
  {
   "property": "C83",
   "status": "proved",
   "theorems": [
    "OrdinalMap.Props.C83_total"
   ],
   "note": ""
  },
  {
   "property": "C84",
   "status": "proved",
   "theorems": [
    "OrdinalMap.Props.C84_sound",
    "OrdinalMap.Props.C84_agrees",
    "OrdinalMap.Props.C84_struct_ordinal",
    "OrdinalMap.Props.C84_tuple_ordinal",
    "OrdinalMap.Props.C84_struct_from",
    "OrdinalMap.Props.C84_tuple_from",
    "OrdinalMap.Props.C84_enum_ordinal",
    "OrdinalMap.Props.C84_enum_from"
   ],
   "note": ""
  },
  {
   "property": "C85",
   "status": "proved",
   "theorems": [
    "OrdinalMap.Props.C85_debug_sound",
    "OrdinalMap.Props.C85_atomic_sound",
    "OrdinalMap.Props.C85_agrees",
    "OrdinalMap.Props.C85_map_calls",
    "OrdinalMap.Props.C85_iter_calls",
    "OrdinalMap.Props.C85_set_calls",
    "OrdinalMap.Props.C85_set_iter_calls",
    "OrdinalMap.Props.C85_values_calls",
    "OrdinalMap.Props.C85_atomic_calls"
   ],
   "note": ""
  },
  {
   "property": "C86",
   "status": "proved",
   "theorems": [
    "OrdinalMap.Props.C86_struct",
    "OrdinalMap.Props.C86_tuple",
    "OrdinalMap.Props.C86_enum",
    "OrdinalMap.Props.C86_unique"
   ],
   "note": ""
  },
  {
   "property": "C87",
   "status": "proved",
   "theorems": [
    "OrdinalMap.Props.C87_struct",
    "OrdinalMap.Props.C87_struct_lawful",
    "OrdinalMap.Props.C87_tuple",
    "OrdinalMap.Props.C87_tuple_lawful",
    "OrdinalMap.Props.C87_enum",
    "OrdinalMap.Props.C87_enum_lawful"
   ],
   "note": ""
  },
  {
   "property": "C88",
   "status": "proved",
   "theorems": [
    "OrdinalMap.Props.C88_map",
    "OrdinalMap.Props.C88_array_map",
    "OrdinalMap.Props.C88_total_map",
    "OrdinalMap.Props.C88_total_array_map",
    "OrdinalMap.Props.C88_sets",
    "OrdinalMap.Props.C88_agrees",
    "OrdinalMap.Props.C88_drain_aborts"
   ],
   "note": ""
  },
  {
   "property": "C89",
   "status": "proved",
   "theorems": [
    "OrdinalMap.Props.C89_total_iter",
    "OrdinalMap.Props.C89_total_keys",
    "OrdinalMap.Props.C89_map_iter",
    "OrdinalMap.Props.C89_iter_mut",
    "OrdinalMap.Props.C89_values",
    "OrdinalMap.Props.C89_set_iter",
    "OrdinalMap.Props.C89_distinct",
    "OrdinalMap.Props.C89_agrees",
    "OrdinalMap.Props.C89_misaligned"
   ],
   "note": ""
  },
  {
   "property": "C90",
   "status": "proved",
   "theorems": [
    "OrdinalMap.Props.C90_drain",
    "OrdinalMap.Props.C90_agrees"
   ],
   "note": ""
  },
  {
   "property": "C91",
   "status": "proved",
   "theorems": [
    "OrdinalMap.Props.C91_retain",
    "OrdinalMap.Props.C91_contents",
    "OrdinalMap.Props.C91_agrees"
   ],
   "note": ""
  },
  {
   "property": "C92",
   "status": "proved",
   "theorems": [
    "OrdinalMap.Props.C92_linearizable",
    "OrdinalMap.Props.C92_wait_free",
    "OrdinalMap.Props.C92_no_invention"
   ],
   "note": ""
  },
  {
   "property": "C93",
   "status": "proved",
   "theorems": [
    "OrdinalMap.Props.C93_test_ordinal",
    "OrdinalMap.Props.C93_test_ordinal_complete",
    "OrdinalMap.Props.C93_leaf_tests",
    "OrdinalMap.Props.C93_blind",
    "OrdinalMap.Props.C93_some_tests",
    "OrdinalMap.Props.C93_iterator_tests",
    "OrdinalMap.Props.C93_tuple_tests",
    "OrdinalMap.Props.C93_struct_tests",
    "OrdinalMap.Props.C93_enum_tests",
    "OrdinalMap.Props.C93_composite_tests",
    "OrdinalMap.Props.C93_other_tests",
    "OrdinalMap.Props.C93_doc_tests",
    "OrdinalMap.Props.C93_doc_types",
    "OrdinalMap.Props.C93_qc_maps",
    "OrdinalMap.Props.C93_doc_crate",
    "OrdinalMap.Props.C93_qc_sets",
    "OrdinalMap.Props.C93_control_sort",
    "OrdinalMap.Props.C93_control_map"
   ],
   "note": ""
  },
  {
   "property": "C94",
   "status": "proved",
   "theorems": [
    "OrdinalMap.Props.C94_all_types",
    "OrdinalMap.Props.C94_compiles",
    "OrdinalMap.Props.C94_count",
    "OrdinalMap.Props.C94_derived",
    "OrdinalMap.Props.C94_handwritten"
   ],
   "note": ""
  },
  {
   "property": "C95",
   "status": "proved",
   "theorems": [
    "OrdinalMap.Props.C95_threads",
    "OrdinalMap.Props.C95_items",
    "OrdinalMap.Props.C95_variance",
    "OrdinalMap.Props.C95_shorten",
    "OrdinalMap.Props.C95_invariant",
    "OrdinalMap.Props.C95_borrows",
    "OrdinalMap.Props.C95_unpin"
   ],
   "note": ""
  },
  {
   "property": "C96",
   "status": "proved",
   "theorems": [
    "OrdinalMap.Props.C96_map",
    "OrdinalMap.Props.C96_array_map",
    "OrdinalMap.Props.C96_total",
    "OrdinalMap.Props.C96_once"
   ],
   "note": ""
  },
  {
   "property": "C97",
   "status": "proved",
   "theorems": [
    "OrdinalMap.Props.C97_finite",
    "OrdinalMap.Props.C97_infinite",
    "OrdinalMap.Props.C97_cycle",
    "OrdinalMap.Props.C97_count"
   ],
   "note": ""
  },
  {
   "property": "C98",
   "status": "proved",
   "theorems": [
    "OrdinalMap.Props.C98_maps",
    "OrdinalMap.Props.C98_total_maps",
    "OrdinalMap.Props.C98_sets",
    "OrdinalMap.Props.C98_sets_panic",
    "OrdinalMap.Props.C98_map_iters",
    "OrdinalMap.Props.C98_iter_mut",
    "OrdinalMap.Props.C98_total_iters",
    "OrdinalMap.Props.C98_set_iters",
    "OrdinalMap.Props.C98_values",
    "OrdinalMap.Props.C98_atomic",
    "OrdinalMap.Props.C98_text",
    "OrdinalMap.Props.C98_strings"
   ],
   "note": ""
  },
  {
   "property": "C99",
   "status": "proved",
   "theorems": [
    "OrdinalMap.Props.C99_maps",
    "OrdinalMap.Props.C99_total_maps",
    "OrdinalMap.Props.C99_map_iters",
    "OrdinalMap.Props.C99_total_iters",
    "OrdinalMap.Props.C99_agrees"
   ],
   "note": ""
  },
  {
   "property": "C100",
   "status": "proved",
   "theorems": [
    "OrdinalMap.Props.C100_primitives",
    "OrdinalMap.Props.C100_nonzero",
    "OrdinalMap.Props.C100_32bit_rejected",
    "OrdinalMap.Props.C100_leaf",
    "OrdinalMap.Props.C100_char_wraps",
    "OrdinalMap.Props.C100_generic",
    "OrdinalMap.Props.C100_generic_strict",
    "OrdinalMap.Props.C100_array_strict",
    "OrdinalMap.Props.C100_agrees"
   ],
   "note": ""
  },
  {
   "property": "C101",
   "status": "proved",
   "theorems": [
    "OrdinalMap.Props.C101_values",
    "OrdinalMap.Props.C101_ordinal_set",
    "OrdinalMap.Props.C101_ordinal_array_set",
    "OrdinalMap.Props.C101_wrong_S",
    "OrdinalMap.Props.C101_ordinal_set64",
    "OrdinalMap.Props.C101_findings",
    "OrdinalMap.Props.C101_agrees_values",
    "OrdinalMap.Props.C101_agrees_set",
    "OrdinalMap.Props.C101_agrees_array_set",
    "OrdinalMap.Props.C101_agrees_set64"
   ],
   "note": ""
  },
  {
   "property": "C102",
   "status": "proved",
   "theorems": [
    "OrdinalMap.Props.C102_ordinal_map",
    "OrdinalMap.Props.C102_contains_key",
    "OrdinalMap.Props.C102_agrees",
    "OrdinalMap.Props.C102_agrees_map",
    "OrdinalMap.Props.C102_agrees_entry",
    "OrdinalMap.Props.C102_agrees_iter",
    "OrdinalMap.Props.C102_agrees_iter_mut"
   ],
   "note": ""
  },
  {
   "property": "C103",
   "status": "proved",
   "theorems": [
    "OrdinalMap.Props.C103_ordinal_array_map",
    "OrdinalMap.Props.C103_wrong_size",
    "OrdinalMap.Props.C103_agrees",
    "OrdinalMap.Props.C103_agrees_map"
   ],
   "note": ""
  },
  {
   "property": "C104",
   "status": "proved",
   "theorems": [
    "OrdinalMap.Props.C104_total_map",
    "OrdinalMap.Props.C104_total_array_map",
    "OrdinalMap.Props.C104_wrong_size",
    "OrdinalMap.Props.C104_default",
    "OrdinalMap.Props.C104_agrees_map",
    "OrdinalMap.Props.C104_agrees_array"
   ],
   "note": ""
  },
  {
   "property": "C105",
   "status": "proved",
   "theorems": [
    "OrdinalMap.Props.C105_zip",
    "OrdinalMap.Props.C105_as_ref",
    "OrdinalMap.Props.C105_as_mut",
    "OrdinalMap.Props.C105_agrees_as_mut",
    "OrdinalMap.Props.C105_array_from_iter",
    "OrdinalMap.Props.C105_map",
    "OrdinalMap.Props.C105_retain",
    "OrdinalMap.Props.C105_agrees"
   ],
   "note": ""
  },
  {
   "property": "C106",
   "status": "proved",
   "theorems": [
    "OrdinalMap.Props.C106_agrees",
    "OrdinalMap.Props.C106_linearizable",
    "OrdinalMap.Props.C106_no_invention",
    "OrdinalMap.Props.C106_values"
   ],
   "note": ""
  },
  {
   "property": "C107",
   "status": "proved",
   "theorems": [
    "OrdinalMap.Props.C107_nested",
    "OrdinalMap.Props.C107_exists",
    "OrdinalMap.Props.C107_count"
   ],
   "note": ""
  },
  {
   "property": "C108",
   "status": "proved",
   "theorems": [
    "OrdinalMap.Props.C108_builder",
    "OrdinalMap.Props.C108_supplied",
    "OrdinalMap.Props.C108_model"
   ],
   "note": ""
  },
  {
   "property": "C109",
   "status": "proved",
   "theorems": [
    "OrdinalMap.Props.C109_ordinal_map",
    "OrdinalMap.Props.C109_ordinal_array_map",
    "OrdinalMap.Props.C109_total_map",
    "OrdinalMap.Props.C109_total_array_map",
    "OrdinalMap.Props.C109_values",
    "OrdinalMap.Props.C109_ordinal_set",
    "OrdinalMap.Props.C109_ordinal_array_set",
    "OrdinalMap.Props.C109_ordinal_set64",
    "OrdinalMap.Props.C109_finding",
    "OrdinalMap.Props.C109_agrees_maps",
    "OrdinalMap.Props.C109_agrees_iter_mut",
    "OrdinalMap.Props.C109_agrees_sets",
    "OrdinalMap.Props.C109_text"
   ],
   "note": ""
  },
  {
   "property": "C110",
   "status": "proved",
   "theorems": [
    "OrdinalMap.Props.C110_ordinal_map",
    "OrdinalMap.Props.C110_ordinal_array_map",
    "OrdinalMap.Props.C110_total_map",
    "OrdinalMap.Props.C110_total_array_map",
    "OrdinalMap.Props.C110_agrees_shared",
    "OrdinalMap.Props.C110_agrees_into"
   ],
   "note": ""
  },
  {
   "property": "C111",
   "status": "proved",
   "theorems": [
    "OrdinalMap.Props.C111_ordinal_map",
    "OrdinalMap.Props.C111_ordinal_array_map",
    "OrdinalMap.Props.C111_total_map",
    "OrdinalMap.Props.C111_total_array_map",
    "OrdinalMap.Props.C111_is_iter"
   ],
   "note": ""
  }
 ]
}