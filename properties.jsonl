{"id": "C01", "title": "Integer and bool ordinals are a bijection with 0..ORDINAL_SIZE", "statement": "For bool, u8, i8, u16, i16, u32, i32 (the 32-bit ones on 64-bit targets; on 32-bit targets ORDINAL_SIZE is a compile error): ordinal() never panics and is < ORDINAL_SIZE, from_ordinal(x.ordinal()) == Some(x), every i < ORDINAL_SIZE is the ordinal of the value from_ordinal(i), and from_ordinal(i) == None for every i in ORDINAL_SIZE..=usize::MAX.", "quantifier": "all values of each type, all usize ordinals, both pointer widths, both overflow-check modes", "why_tests_cant": "2^64 candidate ordinals per type; tests try 0, SIZE and usize::MAX for the wide types", "anchors": ["ordinal-map/src/ordinal/impls/primitive.rs: impl Ordinal for bool/u8/i8/u16/i16/u32/i32"]}
{"id": "C02", "title": "NonZero integer ordinals are a bijection with 0..ORDINAL_SIZE", "statement": "For all ten NonZero types: round trip both ways, ordinals below ORDINAL_SIZE, None for every out-of-range ordinal, no panic (including the unwraps and `rem + 1`) for any usize; NonZeroU64/NonZeroI64 are compile errors on 32-bit targets.", "quantifier": "all values of each NonZero type, all usize ordinals, both pointer widths and overflow modes", "why_tests_cant": "the domains have up to 2^64-1 values; existing tests check only the end points and +-1 for the 32/64-bit types", "anchors": ["ordinal-map/src/ordinal/impls/non_zero.rs"]}
{"id": "C03", "title": "char ordinals round-trip and skip exactly the surrogate gap", "statement": "For every char c: c.ordinal() < char::ORDINAL_SIZE and char::from_ordinal(c.ordinal()) == Some(c); every i < ORDINAL_SIZE is hit by exactly one char.", "quantifier": "all scalar values, all ordinals below ORDINAL_SIZE", "why_tests_cant": "must hold for every scalar value under the cast/shift arithmetic", "anchors": ["ordinal-map/src/ordinal/impls/char.rs"]}
{"id": "C04", "title": "char::from_ordinal rejects every out-of-range ordinal", "statement": "char::from_ordinal(i) == None for every usize i >= char::ORDINAL_SIZE.", "quantifier": "all usize values i >= ORDINAL_SIZE", "why_tests_cant": "2^64 ordinals; the test checks only ORDINAL_SIZE and usize::MAX (and misses the `as u32` truncation)", "anchors": ["ordinal-map/src/ordinal/impls/char.rs: from_ordinal"]}
{"id": "C05", "title": "Option, Result, Either, Box, Ordering and Infallible preserve the Ordinal laws", "statement": "If A and B satisfy the Ordinal laws (and the total number of values fits in usize) then Option<A>, Result<A,B>, Either<A,B>, Box<A> do, with sizes |A|+1, |A|+|B|, |A|+|B|, |A|; Ordering and Infallible satisfy them outright.", "quantifier": "all lawful component implementations (including user-written ones), all values, all usize ordinals", "why_tests_cant": "quantifies over arbitrary nested type constructors", "anchors": ["ordinal-map/src/ordinal/impls/std.rs", "ordinal-map/src/ordinal/impls/either.rs", "ordinal-map/src/ordinal/impls/boxed.rs", "ordinal-map/src/ordinal/impls/ordering.rs"]}
{"id": "C06", "title": "Arrays [T; N] preserve the Ordinal laws", "statement": "For every N and lawful T with |T|^N <= usize::MAX, [T; N] is in bijection with 0..|T|^N, first element most significant; no arithmetic overflow, no unwrap panics; out-of-range ordinals give None. Includes N = 0 and uninhabited T.", "quantifier": "all N, all lawful T, all arrays, all usize ordinals", "why_tests_cant": "unbounded N and T", "anchors": ["ordinal-map/src/ordinal/impls/array.rs"]}
{"id": "C07", "title": "Tuples preserve the Ordinal laws", "statement": "For every tuple arity generated by the crate (0..=16) over lawful component types whose ORDINAL_SIZE const evaluates (in particular whenever all components are inhabited and the product of sizes fits in usize), the tuple impl is a bijection with 0..product and rejects out-of-range ordinals without panicking or dividing by zero.", "quantifier": "all arities, all lawful component types, all values, all usize ordinals", "why_tests_cant": "arity x type x value space is unbounded", "anchors": ["ordinal-map-derive/src/ordinal.rs: impl_ordinal_for_tuple_n, struct_ordinal, struct_from_ordinal, struct_ordinal_size"]}
{"id": "C08", "title": "#[derive(Ordinal)] on structs is a lawful Ordinal", "statement": "For any unit/tuple/named struct whose field types are lawful and whose ORDINAL_SIZE const evaluates, the generated impl is a bijection with 0..product of field sizes; ordinal() never overflows; from_ordinal never panics and returns None for every out-of-range ordinal.", "quantifier": "all field lists, all lawful field types, all values and ordinals", "why_tests_cant": "ranges over all programs the macro can be applied to", "anchors": ["ordinal-map-derive/src/ordinal.rs: StructGen, SizeExpr, derive_ordinal"]}
{"id": "C09", "title": "#[derive(Ordinal)] on enums is a lawful Ordinal", "statement": "For any enum (any number of unit/tuple/named variants, uninhabited variants allowed) with lawful field types and evaluating ORDINAL_SIZE, the generated impl is a bijection with 0..sum over variants of products; no panic, no underflow in `ordinal - before`, None out of range.", "quantifier": "all variant lists, all field lists, all lawful field types, all values and ordinals", "why_tests_cant": "ranges over all programs the macro can be applied to", "anchors": ["ordinal-map-derive/src/ordinal.rs: EnumGen, size_of_first_variants, SizeExpr::sum"]}
{"id": "C10", "title": "derive works whatever the fields are called", "statement": "#[derive(Ordinal)] produces compiling code for every struct or enum variant irrespective of its (distinct) field names.", "quantifier": "all field-name assignments", "why_tests_cant": "the space of identifiers is unbounded; tests use a and b", "anchors": ["ordinal-map-derive/src/ordinal.rs: struct_from_ordinal (let mut rem), field_vars"]}
{"id": "C11", "title": "ordinal() agrees with Ord on builtin leaf types", "statement": "For bool, all integer and NonZero types, char, Ordering: a < b iff a.ordinal() < b.ordinal().", "quantifier": "all pairs of values", "why_tests_cant": "quadratic in up to 2^64 values", "anchors": ["ordinal-map/src/ordinal/impls/primitive.rs", "ordinal-map/src/ordinal/impls/non_zero.rs", "ordinal-map/src/ordinal/impls/char.rs", "ordinal-map/src/ordinal/impls/ordering.rs"]}
{"id": "C12", "title": "ordinal() agrees with Ord on Option, Result, Either, Box, arrays and tuples", "statement": "If the component types are lawful and order-compatible then a < b (None < Some, Ok < Err, Left < Right, lexicographic for arrays and tuples) iff a.ordinal() < b.ordinal().", "quantifier": "all component types, all pairs of values, all arities", "why_tests_cant": "unbounded type constructors and pairs", "anchors": ["ordinal-map/src/ordinal/impls/std.rs", "ordinal-map/src/ordinal/impls/either.rs", "ordinal-map/src/ordinal/impls/array.rs", "ordinal-map-derive/src/ordinal.rs: impl_ordinal_for_tuple_n"]}
{"id": "C13", "title": "Derived ordinal() agrees with derived Ord", "statement": "For derived structs: a.ordinal() < b.ordinal() iff a precedes b lexicographically by field declaration order; for derived enums: iff variant declaration index is smaller, or equal and fields are lexicographically smaller.", "quantifier": "all struct/enum shapes over order-compatible fields, all pairs of values", "why_tests_cant": "unbounded shapes and pairs", "anchors": ["ordinal-map-derive/src/ordinal.rs: struct_ordinal, EnumGen::ordinal"]}
{"id": "C14", "title": "A type with more than usize::MAX values cannot be used silently (derive and tuples)", "statement": "For derived types and tuples with inhabited fields: if the number of values exceeds usize::MAX then ORDINAL_SIZE, ordinal() and from_ordinal() are compile errors; if it fits, they are not.", "quantifier": "all field lists and field sizes", "why_tests_cant": "arithmetic over arbitrary products and sums", "anchors": ["ordinal-map-derive/src/ordinal.rs: check_overflow, check_zero_size, SizeExpr::expr"]}
{"id": "C15", "title": "A type with more than usize::MAX values cannot be used silently (Option, Result, Either, arrays)", "statement": "For Option/Result/Either/array types with more than usize::MAX values, ordinal() is a compile error and two different values never get the same ordinal.", "quantifier": "all component types and values", "why_tests_cant": "needs values beyond 2^64; and release-mode wrapping", "anchors": ["ordinal-map/src/ordinal/impls/std.rs", "ordinal-map/src/ordinal/impls/either.rs", "ordinal-map/src/ordinal/impls/array.rs", "ordinal-map/src/ordinal/traits.rs: ORDINAL_SIZE doc"]}
{"id": "C16", "title": "all_values enumerates every value exactly once, in ordinal order, from both ends", "statement": "T::all_values() behaves under any interleaving of next()/next_back() exactly like a double-ended queue holding every T once in increasing ordinal order; never panics.", "quantifier": "all lawful T, all call sequences", "why_tests_cant": "call sequences are unbounded", "anchors": ["ordinal-map/src/values.rs: OrdinalValues::next, next_back", "ordinal-map/src/ordinal/traits.rs: all_values"]}
{"id": "C17", "title": "OrdinalValues len, size_hint, count and last are exact at every point", "statement": "After any sequence of next/next_back calls, len() and size_hint() equal the number of values still to come, count() equals it too, and last() returns the final remaining value.", "quantifier": "all lawful T, all call sequences", "why_tests_cant": "unbounded histories", "anchors": ["ordinal-map/src/values.rs: len, size_hint, count, last"]}
{"id": "C18", "title": "OrdinalSet behaves like a mathematical set", "statement": "For any history of insert/contains starting at new()/default()/from_iter: contains(x) is true iff x was inserted before; insert returns true iff x was not yet present; no operation panics as long as ORDINAL_SIZE <= usize::MAX - 64 (beyond that the first insert panics).", "quantifier": "all lawful T (small and large), all histories", "why_tests_cant": "histories are unbounded and cross the 64-element small/large representation switch", "anchors": ["ordinal-map/src/set/set.rs", "ordinal-map/src/set/set_ref.rs", "ordinal-map/src/set/set_mut.rs"]}
{"id": "C19", "title": "OrdinalArraySet behaves like a mathematical set", "statement": "Same as for OrdinalSet, for OrdinalArraySet<T, S> with S == ordinal_array_set_s::<T>() (and without the size limit); with any other S, new/from_iter/contains/insert/Debug are compile errors.", "quantifier": "all lawful T, all S, all histories", "why_tests_cant": "unbounded histories and sizes", "anchors": ["ordinal-map/src/set/array.rs"]}
{"id": "C20", "title": "OrdinalSet64 behaves like a mathematical set", "statement": "For every lawful T with at most 64 values and every history of insert/contains from new()/from_iter(): contains and the insert result agree with the mathematical set; no shift overflow; larger T is a compile error.", "quantifier": "all lawful T with ORDINAL_SIZE <= 64, all histories", "why_tests_cant": "unbounded histories", "anchors": ["ordinal-map/src/set/set64.rs: OrdinalSet64"]}
{"id": "C21", "title": "OrdinalSet::iter yields exactly the elements in ordinal order from both ends", "statement": "iter() behaves under any interleaving of next/next_back like a deque holding the inserted elements once each in increasing ordinal order; size_hint always brackets the number of remaining elements; the skipping loop terminates.", "quantifier": "all inhabited lawful T, all insert histories, all call sequences", "why_tests_cant": "unbounded histories and call sequences", "anchors": ["ordinal-map/src/set/iter.rs", "ordinal-map/src/set/set.rs: iter"]}
{"id": "C22", "title": "OrdinalSet64::iter yields exactly the elements in ordinal order with exact length", "statement": "Iter64 behaves under any interleaving like a deque of the elements in increasing ordinal order and len()/size_hint() are exact after every step.", "quantifier": "all lawful T with ORDINAL_SIZE <= 64, all reachable sets, all call sequences", "why_tests_cant": "2^64 sets times unbounded call sequences", "anchors": ["ordinal-map/src/set/set64.rs: Iter64"]}
{"id": "C23", "title": "OrdinalSet64::all contains every value", "statement": "OrdinalSet64::<T>::all() returns a set for which contains(x) is true for every x: T, for every T accepted by the type (ORDINAL_SIZE <= 64).", "quantifier": "all lawful T with ORDINAL_SIZE <= 64, both overflow-check modes", "why_tests_cant": "the boundary ORDINAL_SIZE == 64 is not tested and depends on build profile", "anchors": ["ordinal-map/src/set/set64.rs: all"]}
{"id": "C24", "title": "OrdinalSet64 equality is extensional", "statement": "Two reachable OrdinalSet64<T> values compare equal iff they contain the same elements.", "quantifier": "all pairs of reachable sets", "why_tests_cant": "2^128 pairs", "anchors": ["ordinal-map/src/set/set64.rs: #[derive(Eq, PartialEq)]"]}
{"id": "C25", "title": "Iterating an empty-element-type set is safe", "statement": "OrdinalSet<T>::iter() on an uninhabited T (ORDINAL_SIZE == 0) yields nothing and does not panic, in every build profile.", "quantifier": "all build profiles, all uninhabited T", "why_tests_cant": "profile-dependent debug_assert; no test uses an uninhabited element type", "anchors": ["ordinal-map/src/set/set.rs: as_ref", "ordinal-map/src/set/set_ref.rs: new"]}
{"id": "C26", "title": "The three set types agree", "statement": "For any T with ORDINAL_SIZE in 1..=64 and any history, OrdinalSet, OrdinalArraySet and OrdinalSet64 give identical insert results, contains answers, and (OrdinalSet vs OrdinalSet64) iteration results.", "quantifier": "all lawful T, all histories", "why_tests_cant": "unbounded histories", "anchors": ["ordinal-map/src/set/set.rs", "ordinal-map/src/set/array.rs", "ordinal-map/src/set/set64.rs"]}
{"id": "C27", "title": "OrdinalMap refines a mathematical partial map", "statement": "For any history of insert/remove/get/get_mut/entry/len/is_empty/iterator/drain/clear operations starting from new(), every returned value equals that of a partial function K -> Option<V>; no operation panics, provided that ORDINAL_SIZE * size_of::<Option<V>>() <= isize::MAX (contains_key excluded, see next). Beyond that limit a history without insert and entry behaves the same and every other one panics at its first insert or entry.", "quantifier": "all lawful K, all V, all histories", "why_tests_cant": "unbounded histories", "anchors": ["ordinal-map/src/map/map.rs: OrdinalMap"]}
{"id": "C28", "title": "OrdinalMap::contains_key(k) is equivalent to get(k).is_some()", "statement": "After every history, contains_key(&k) == get(&k).is_some().", "quantifier": "all lawful K, all histories, all k", "why_tests_cant": "must hold in every reachable state", "anchors": ["ordinal-map/src/map/map.rs: contains_key"]}
{"id": "C29", "title": "OrdinalMap len and is_empty count exactly the present keys", "statement": "len() is the number of keys k with get(k).is_some(), and is_empty() iff there is none.", "quantifier": "all reachable maps", "why_tests_cant": "unbounded histories", "anchors": ["ordinal-map/src/map/map.rs: len, is_empty"]}
{"id": "C30", "title": "OrdinalMap does not allocate before the first insert/entry", "statement": "new(), get, get_mut, contains_key, remove, iter, drain, clear leave a fresh map without storage; the first insert or entry allocates exactly ORDINAL_SIZE slots, and the slot count never changes again.", "quantifier": "all lawful K, all histories", "why_tests_cant": "unbounded histories", "anchors": ["ordinal-map/src/map/map.rs: init_full_map"]}
{"id": "C31", "title": "Entry API reads and writes exactly the addressed key", "statement": "entry(k) is Occupied iff k is present; key() returns k; get/get_mut access the value of k; or_insert(v) returns a reference to the existing value or to v after inserting it; VacantEntry::insert makes get(k)==Some(v); no other key changes; the internal unwraps never panic.", "quantifier": "all reachable maps, all keys and values", "why_tests_cant": "unbounded states", "anchors": ["ordinal-map/src/map/entry.rs", "ordinal-map/src/map/map.rs: entry", "ordinal-map/src/map/array_map.rs: entry"]}
{"id": "C32", "title": "Sparse map iteration yields exactly the present pairs in ordinal order from both ends", "statement": "iter()/keys()/values()/into_iter() of OrdinalMap and OrdinalArrayMap behave under any interleaving of next/next_back like a deque of the present (key, value) pairs in increasing key ordinal; size_hint brackets the remaining count; no panic; loops terminate.", "quantifier": "all reachable maps, all call sequences", "why_tests_cant": "unbounded", "anchors": ["ordinal-map/src/map/iter.rs: Iter, Keys, Values, IntoIter, IntoIterArray", "ordinal-map/src/map/enumerate.rs"]}
{"id": "C33", "title": "iter_mut/values_mut hand out disjoint references to the right slots", "statement": "Under any interleaving of next/next_back and writes through the references handed out so far, each present key is yielded exactly once, every reference aliases only its own key's value, and afterwards get(k) is the last value written through k's reference (or the old value); absent keys stay absent.", "quantifier": "all reachable maps, all interleavings of iteration steps and writes", "why_tests_cant": "unbounded interleavings", "anchors": ["ordinal-map/src/map/iter.rs: IterMut, ValuesMut", "ordinal-map/src/map/total/iter.rs: IterMut"]}
{"id": "C34", "title": "drain and clear empty the map and lose nothing", "statement": "drain() yields each present pair at most once, from either end in order; when the Drain is dropped at any point the map is empty; if it is leaked (mem::forget) exactly the pairs not yet visited remain; clear() empties the map.", "quantifier": "all reachable maps, all partial consumptions, drop or leak", "why_tests_cant": "unbounded interleavings and abandonment points", "anchors": ["ordinal-map/src/map/iter.rs: Drain", "ordinal-map/src/map/map.rs: drain, clear", "ordinal-map/src/map/array_map.rs: drain, clear"]}
{"id": "C35", "title": "from_iter keeps the last value for each key", "statement": "OrdinalMap::from_iter / OrdinalArrayMap::from_iter: get(k) is the value of the last pair with key k, None if there is none.", "quantifier": "all input sequences", "why_tests_cant": "unbounded sequences", "anchors": ["ordinal-map/src/map/map.rs: from_iter", "ordinal-map/src/map/array_map.rs: from_iter"]}
{"id": "C36", "title": "OrdinalArrayMap refines a mathematical partial map", "statement": "Same as OrdinalMap including contains_key, for OrdinalArrayMap<K, V, {K::ORDINAL_SIZE}>.", "quantifier": "all lawful K, all V, all histories", "why_tests_cant": "unbounded histories", "anchors": ["ordinal-map/src/map/array_map.rs"]}
{"id": "C37", "title": "OrdinalArrayMap::retain keeps exactly the accepted pairs", "statement": "retain(f) calls f once per present key in ordinal order with the current value, stores the mutated value back, removes exactly the keys for which f returned false, and touches no other key; for stateful f too.", "quantifier": "all reachable maps, all (stateful, mutating) closures f", "why_tests_cant": "closures and states unbounded", "anchors": ["ordinal-map/src/map/array_map.rs: retain"]}
{"id": "C38", "title": "OrdinalMap and OrdinalArrayMap are observationally equivalent", "statement": "Any history of common operations other than contains_key produces identical outputs on OrdinalMap and OrdinalArrayMap.", "quantifier": "all lawful K, all histories", "why_tests_cant": "unbounded histories", "anchors": ["ordinal-map/src/map/map.rs", "ordinal-map/src/map/array_map.rs"]}
{"id": "C39", "title": "Total maps call init once per key in ordinal order and stop at the first error", "statement": "OrdinalTotalMap/OrdinalTotalArrayMap::try_new(init) calls init on the keys in ordinal order until the first Err, which it returns; if there is none, get(k) is what init returned for k. new/default likewise. For OrdinalTotalMap the values must fit in isize::MAX bytes; beyond that limit construction panics before the first call of init.", "quantifier": "all lawful K, all stateful fallible closures", "why_tests_cant": "closures unbounded", "anchors": ["ordinal-map/src/map/total/map.rs: try_new, new", "ordinal-map/src/map/total/array_map.rs: try_new, new"]}
{"id": "C40", "title": "Total maps behave like a total function", "statement": "For any history of get/get_mut/index/insert from new: get(k) returns the last value stored for k; insert returns the previous value; len() == ORDINAL_SIZE; never panics.", "quantifier": "all lawful K, all histories", "why_tests_cant": "unbounded histories", "anchors": ["ordinal-map/src/map/total/map.rs", "ordinal-map/src/map/total/array_map.rs"]}
{"id": "C41", "title": "Total map iteration is a complete ordered double-ended exact-size traversal", "statement": "iter/iter_mut/into_iter/keys/values of total maps yield each (k, get(k)) exactly once in ordinal order from both ends under any interleaving; len() is exact after every step.", "quantifier": "all lawful K, all maps, all call sequences", "why_tests_cant": "unbounded", "anchors": ["ordinal-map/src/map/total/iter.rs", "ordinal-map/src/map/enumerate.rs", "ordinal-map/src/map/total/map.rs", "ordinal-map/src/map/total/array_map.rs"]}
{"id": "C42", "title": "ExactSizeIterator implementations report the exact size_hint", "statement": "For every iterator of the crate implementing ExactSizeIterator (OrdinalValues, Iter64, total Iter/IterMut/IntoIter/IntoIterArray): size_hint() == (len(), Some(len())) in every state, as the trait requires.", "quantifier": "all iterators, all states", "why_tests_cant": "unbounded states", "anchors": ["ordinal-map/src/map/total/iter.rs: IntoIterArray (no size_hint)", "ordinal-map/src/values.rs", "ordinal-map/src/set/set64.rs"]}
{"id": "C43", "title": "zip, map, map_values, as_ref and as_mut are pointwise", "statement": "zip(a,b).get(k) == (a.get(k), b.get(k)); map(f).get(k) == f(k, get(k)) with f called in ordinal order; map_values likewise; as_ref().get(k) == &get(k); writing through as_mut().get(k) changes exactly key k.", "quantifier": "all lawful K, all maps, all (stateful) closures", "why_tests_cant": "unbounded", "anchors": ["ordinal-map/src/map/total/array_map.rs: zip, map, map_values, as_ref, as_mut", "ordinal-map/src/array_from_iter.rs", "ordinal-map/src/array_as_mut.rs"]}
{"id": "C44", "title": "from_array / into_values round-trip in ordinal order", "statement": "from_array(a).get(k) == a[k.ordinal()] and from_array(a).into_values() == a when S == K::ORDINAL_SIZE.", "quantifier": "all lawful K, all arrays", "why_tests_cant": "unbounded", "anchors": ["ordinal-map/src/map/total/array_map.rs: from_array, into_values, values_array"]}
{"id": "C45", "title": "OrdinalTotalArrayMap::len() always equals K::ORDINAL_SIZE", "statement": "Every constructible OrdinalTotalArrayMap<K, V, S> has len() == K::ORDINAL_SIZE (as documented) and get/iter on it never panic; a wrong S is a compile error.", "quantifier": "all constructors, all S", "why_tests_cant": "quantifies over all instantiations of the const parameter", "anchors": ["ordinal-map/src/map/total/array_map.rs: len, from_array, ASSERT"]}
{"id": "C46", "title": "Array construction neither leaks nor double-drops", "statement": "In array_from_iter / try_new / [T;N]::from_ordinal, whatever the number of items, and whether construction finishes, is abandoned by an early return, or unwinds from a panic at any point: every item pushed is either handed to the caller in the array or dropped exactly once, and no uninitialised slot is read or dropped.", "quantifier": "all item sequences, all lengths S, all abandonment/panic points", "why_tests_cant": "memory-safety over all crash points of unsafe code", "anchors": ["ordinal-map/src/array_builder.rs", "ordinal-map/src/array_from_iter.rs"]}
{"id": "C47", "title": "array_from_iter succeeds exactly on S items", "statement": "array_from_iter returns the items in order iff the iterator yields exactly S items, and panics otherwise.", "quantifier": "all iterators, all S", "why_tests_cant": "unbounded", "anchors": ["ordinal-map/src/array_from_iter.rs", "ordinal-map/src/array_builder.rs: push, finish"]}
{"id": "C48", "title": "array_as_mut yields the S disjoint element references in order", "statement": "array_as_mut returns references to elements 0,1,..,S-1 in order; no two alias.", "quantifier": "all S", "why_tests_cant": "unbounded", "anchors": ["ordinal-map/src/array_as_mut.rs"]}
{"id": "C49", "title": "AtomicOrdinal is a linearizable register", "statement": "Under any number of threads and any interleaving, load/store/compare_exchange behave like an atomic cell holding a T: compare_exchange succeeds iff the cell equals `old`, returns the previous value (Ok on success, Err on failure), and a load returns the latest stored value; no operation with valid orderings panics.", "quantifier": "all lawful T, all thread counts, programs and schedules", "why_tests_cant": "unbounded schedules", "anchors": ["ordinal-map/src/atomic.rs"]}
{"id": "C50", "title": "AtomicOrdinal loads never invent values, whatever the memory orderings", "statement": "In any execution where each read reads from some write to the same cell, a load or failed compare_exchange returns a value previously passed to new, store or a successful compare_exchange, and never panics, even with Relaxed orderings.", "quantifier": "all executions (reads-from relations), all valid Ordering arguments", "why_tests_cant": "weak-memory behaviours cannot be exhaustively scheduled", "anchors": ["ordinal-map/src/atomic.rs: load, compare_exchange"]}
{"id": "C51", "title": "AtomicOrdinal rejects invalid orderings without changing the cell", "statement": "load with Release/AcqRel, store with Acquire/AcqRel, and compare_exchange with Release/AcqRel failure ordering panic and leave the cell unchanged; all other ordering combinations are accepted.", "quantifier": "all ordering combinations, all cells", "why_tests_cant": "must leave state intact for all states", "anchors": ["ordinal-map/src/atomic.rs"]}
{"id": "C52", "title": "Debug output lists exactly the contents", "statement": "The Debug rendering of OrdinalMap, OrdinalArrayMap, total maps, OrdinalSet, OrdinalArraySet, OrdinalSet64, their iterators and AtomicOrdinal lists exactly the (remaining) elements in ordinal order.", "quantifier": "all reachable collections and iterator states", "why_tests_cant": "unbounded states", "anchors": ["ordinal-map/src/map/map.rs: Debug", "ordinal-map/src/map/iter.rs: Debug", "ordinal-map/src/map/total/iter.rs: Debug", "ordinal-map/src/set/set_ref.rs: Debug"]}
{"id": "C53", "title": "OrdinalValues Debug describes the remaining range", "statement": "Debug of OrdinalValues prints [] when exhausted, [first..] when the back end is untouched, [x] when one value remains and the back end was consumed, [first..=last] otherwise.", "quantifier": "all lawful T, all iterator states", "why_tests_cant": "unbounded states", "anchors": ["ordinal-map/src/values.rs: Debug"]}
{"id": "C54", "title": "Clones are independent", "statement": "A clone of a map, set or iterator produces the same results as the original and subsequent operations on one do not affect the other.", "quantifier": "all states, all histories on both copies", "why_tests_cant": "unbounded histories", "anchors": ["ordinal-map/src/map/map.rs: Clone", "ordinal-map/src/set/set.rs: Clone", "ordinal-map/src/map/iter.rs: Clone", "ordinal-map/src/values.rs: Clone"]}
{"id": "C55", "title": "A wrong Ordinal impl cannot cause undefined behaviour or an endless loop", "statement": "Ordinal is a safe trait. For every implementation of it whose functions return or panic, however inconsistent with each other and with ORDINAL_SIZE, every function of the crate on every state either returns or panics (or the program is rejected): no unsafe block reads uninitialised memory, no reference dangles, and no loop of the crate runs for ever.", "quantifier": "all implementations of Ordinal, all states and histories of all collections and iterators, all closures, all const parameters S, all build configurations", "why_tests_cant": "the space of wrong implementations is unbounded and undefined behaviour may go unnoticed in a test", "anchors": ["ordinal-map/src/array_builder.rs", "ordinal-map/src/ordinal/impls/array.rs", "ordinal-map/src/map/iter.rs", "ordinal-map/src/set/iter.rs", "ordinal-map/src/map/total/array_map.rs: try_new"]}
{"id": "C56", "title": "Total map construction and map/zip neither leak nor double-drop values", "statement": "OrdinalTotalMap::try_new, OrdinalTotalArrayMap::try_new (hence new and default): whenever and however the initialiser fails or panics (or from_ordinal of the key type panics), every value the initialiser returned is either in the map handed to the caller or dropped exactly once; on Err and on panic all of them are dropped. map/map_values: every input value is moved into the closure or dropped exactly once, every output is handed out or dropped exactly once, even if the closure panics. zip drops nothing and moves every value of both maps into the result.", "quantifier": "all key types (lawful or not), all stateful closures, all panic and error points", "why_tests_cant": "ranges over every point at which user code may panic", "anchors": ["ordinal-map/src/map/total/map.rs: try_new, new", "ordinal-map/src/map/total/array_map.rs: try_new, map, map_values, zip", "ordinal-map/src/array_builder.rs"]}
{"id": "C57", "title": "retain leaves a well-defined map when the closure panics", "statement": "If the closure passed to OrdinalArrayMap::retain panics (possibly after writing through its &mut V) and the panic is caught: the keys before have been decided, the current key keeps the value the closure left, later keys are untouched and the closure was not called on them; the map then behaves like that partial map under every further history.", "quantifier": "all lawful K, all reachable maps, all stateful closures, all panic points, all later histories", "why_tests_cant": "unbounded histories and panic points", "anchors": ["ordinal-map/src/map/array_map.rs: retain"]}
{"id": "C58", "title": "With explicit discriminants the derived ordinal agrees with derived Ord exactly when they increase", "statement": "For a derived enum with explicit discriminants (documented exception in traits.rs): a < b iff a.ordinal() < b.ordinal(), for all a and b with #[derive(PartialOrd, Ord)], holds iff the discriminants increase in declaration order along the variants that have values. Without explicit discriminants, or with explicit ones never below the implicit value, they do increase.", "quantifier": "all enums, all discriminant assignments, all lawful order-compatible field types", "why_tests_cant": "ranges over all programs the macro can be applied to", "anchors": ["ordinal-map/src/ordinal/traits.rs: Relation to Ord and PartialOrd", "ordinal-map-derive/src/ordinal.rs: EnumGen"]}
{"id": "C59", "title": "Consuming any iterator gives what consuming the list gives", "statement": "For all_values, set iterators, sparse map iterators (iter, keys, values, into_iter, drain) and total map iterators, from both ends: collect, rev().collect(), count, last, find, try_fold (for loops that may break), try_rfold, nth and nth_back terminate without panic and return what they return on the list of items in ordinal order, and a partly consumed iterator continues with exactly the unvisited items.", "quantifier": "all lawful types, all reachable collections, all closures, all n", "why_tests_cant": "unbounded", "anchors": ["ordinal-map/src/values.rs", "ordinal-map/src/set/iter.rs", "ordinal-map/src/set/set64.rs", "ordinal-map/src/map/iter.rs", "ordinal-map/src/map/total/iter.rs"]}
{"id": "C60", "title": "Every type built from the crate's impls, however nested, is lawful", "statement": "For every type built in finitely many steps from the crate's leaf impls by Box, Option, Result, Either, arrays, tuples (up to 16), derived structs and derived enums: either its ORDINAL_SIZE does not compile, or ORDINAL_SIZE is the number of values, ordinal and from_ordinal are mutually inverse bijections with 0..ORDINAL_SIZE, the ordinal order is the Ord order, and from_ordinal is None outside the range, unless it ends in char through Option, Box or the second component of Result/Either on a 64-bit target (C04).", "quantifier": "all nesting shapes and depths, both pointer widths, all build profiles", "why_tests_cant": "infinitely many types", "anchors": ["ordinal-map/src/ordinal/impls", "ordinal-map-derive/src/ordinal.rs"]}
{"id": "C61", "title": "Standard length-dependent adapters work over every ExactSizeIterator of the crate", "statement": "rev, take(k), enumerate, zip (with any other exact-size iterator, on either side) and skip(k) over all_values(), OrdinalSet64::iter(), and iter/iter_mut/into_iter of both total maps, driven from both ends in any interleaving, behave as on the list of items: no panic, right items, right indices.", "quantifier": "all lawful types, all reachable collections, all k, all call sequences, all zip partners", "why_tests_cant": "unbounded", "anchors": ["ordinal-map/src/map/total/iter.rs: IntoIterArray (no size_hint)", "ordinal-map/src/values.rs", "ordinal-map/src/set/set64.rs", "ordinal-map/src/map/total/iter.rs"]}
{"id": "C62", "title": "The arithmetic the derive macro emits is read by rustc as meant", "statement": "For every struct, enum and tuple: the tokens emitted for ORDINAL_SIZE, for ordinal, and for every size, remainder, difference and comparison in from_ordinal, read with Rust's operator precedence and associativity, give exactly the expression trees whose evaluation the other properties are about; in particular the parentheses emitted are sufficient, and a reading is unique.", "quantifier": "all structs, enums, tuples with any number of fields and variants", "why_tests_cant": "ranges over all programs the macro can be applied to", "anchors": ["ordinal-map-derive/src/ordinal.rs: SizeExpr::expr, const_expr, struct_from_ordinal, EnumGen::from_ordinal"]}
{"id": "C63", "title": "The array views of OrdinalTotalArrayMap agree with the map", "statement": "For every OrdinalTotalArrayMap<K, V, K::ORDINAL_SIZE>, from a constructor or from_array, and after every history mixing map operations with reads and writes of elements of values_array/values_array_mut, replacement of the whole array through values_array_mut, from_array of the permuted into_values, writes through as_mut and reads through as_ref: element k.ordinal() of values_array, values_array_mut and into_values is *get(&k), the array has ORDINAL_SIZE elements, and a write to element i is a write to the key with ordinal i only.", "quantifier": "all lawful K, all V, all histories, all element indices, all replacement arrays and permutations", "why_tests_cant": "unbounded histories over all key types", "anchors": ["ordinal-map/src/map/total/array_map.rs: values_array, values_array_mut, into_values, from_array, as_mut, as_ref"]}
{"id": "C64", "title": "Rebuilding a collection from its own items gives the same collection", "statement": "After any history, iter()/into_iter()/drain() of a sparse map, forwards or reversed, collected into OrdinalMap or OrdinalArrayMap give a map that behaves like the original under every further history; keys() collected into any set kind gives the set of present keys; total maps collect to the sparse map with the same values; iterating an OrdinalSet or OrdinalSet64 and collecting into any set kind gives the same set. The order of the items, and for sets repetitions, do not matter.", "quantifier": "all lawful types, all reachable collections, all pairs of collection kinds, all item orders, all later histories", "why_tests_cant": "unbounded histories", "anchors": ["ordinal-map/src/map/map.rs: FromIterator, IntoIterator, drain", "ordinal-map/src/map/array_map.rs: FromIterator", "ordinal-map/src/set/set.rs: FromIterator", "ordinal-map/src/set/set64.rs: FromIterator", "ordinal-map/src/set/array.rs: FromIterator"]}
{"id": "C65", "title": "What ordinal() answers for Result, Either and arrays of any size", "statement": "For Result<A,B> and Either<A,B> with any A, B (even with more than usize::MAX values in total), ordinal() answers the position of the value (ordinal of a, or A::ORDINAL_SIZE + ordinal of b) if that is a usize, else panics exactly with overflow checks and wraps modulo 2^usize::BITS without. For [T; N] it answers the big-endian positional value of the element ordinals if that is a usize, else panics or (only without overflow checks) answers it modulo 2^usize::BITS. An Ok and an Err value collide iff overflow checks are off and their positions differ by exactly 2^usize::BITS.", "quantifier": "all lawful component types, all N, all values, all targets and profiles", "why_tests_cant": "the interesting types have more than 2^64 values", "anchors": ["ordinal-map/src/ordinal/impls/std.rs: Result", "ordinal-map/src/ordinal/impls/either.rs", "ordinal-map/src/ordinal/impls/array.rs: ordinal"]}
{"id": "C66", "title": "char::from_ordinal on every usize", "statement": "char::from_ordinal(i) is Some(x) iff i < 0xD800 and x is i, or i >= 0xD800 and x is (i mod 2^32) + 0x800. (The exact behaviour, including out of range, where C04 fails.)", "quantifier": "all usize, all char, all targets", "why_tests_cant": "2^64 inputs", "anchors": ["ordinal-map/src/ordinal/impls/char.rs: from_ordinal"]}
{"id": "C67", "title": "OrdinalSet64::all for every type", "statement": "all() contains every value if T has fewer than 64 values; with exactly 64 it panics with overflow checks and without them is the empty set; with more it does not compile.", "quantifier": "all lawful T, all profiles", "why_tests_cant": "ranges over all types", "anchors": ["ordinal-map/src/set/set64.rs: all"]}
{"id": "C68", "title": "Sets of a type without values, in every build", "statement": "For a type without values: iterating an OrdinalSet and formatting an OrdinalSet or OrdinalSet64 panic exactly with debug assertions and otherwise find nothing ({}); formatting an OrdinalArraySet and iterating an OrdinalSet64 work in every build.", "quantifier": "all uninhabited lawful T, all profiles", "why_tests_cant": "ranges over all types and builds", "anchors": ["ordinal-map/src/set/set_ref.rs: new", "ordinal-map/src/set/set.rs: iter, Debug", "ordinal-map/src/set/set64.rs: Debug"]}
{"id": "C69", "title": "OrdinalTotalArrayMap::from_array with an array of any length", "statement": "For any S: from_array compiles, len() is S; get, index, get_mut, index_mut and insert on a key act on element ordinal(k) of the array, and panic exactly if ordinal(k) >= S; iter() and into_iter() answer, under any interleaving of next and next_back, the array elements paired with the key of their index, and panic exactly when they reach an index that is no ordinal.", "quantifier": "all lawful key types that reject out-of-range ordinals, all arrays, all call sequences", "why_tests_cant": "ranges over all lengths and call sequences", "anchors": ["ordinal-map/src/map/total/array_map.rs: from_array, get, insert, iter", "ordinal-map/src/map/enumerate.rs"]}
{"id": "C70", "title": "A panicking destructor cannot cause a double drop in ArrayBuilder", "statement": "After any pushes, dropping the builder (as on Err or unwinding out of OrdinalTotalArrayMap::try_new) starts the destructor of each pushed value at most once, in order, up to and including the first destructor that panics; no uninitialised cell is touched. If none panics, all are dropped.", "quantifier": "all values, all S, all choices of destructors that panic", "why_tests_cant": "ranges over all panic points", "anchors": ["ordinal-map/src/array_builder.rs: Drop"]}
{"id": "C71", "title": "Collections iterate in Ord order", "statement": "If ordinal() agrees with Ord, then after any history all_values, set iter, sparse map iter/into_iter and total map iter/into_iter yield, from both ends, the unique list of their members in strictly increasing Ord order: what BTreeSet and BTreeMap would yield.", "quantifier": "all lawful order-compatible types, all histories, all call sequences", "why_tests_cant": "unbounded histories", "anchors": ["ordinal-map/src/ordinal/traits.rs", "ordinal-map/src/set", "ordinal-map/src/map"]}
{"id": "C72", "title": "ordinal() is the number of smaller values, on every target", "statement": "A lawful ordinal() that agrees with Ord answers the number of values smaller than its argument. So for every type built from the crate's impls, any two targets or profiles that both accept it agree on ORDINAL_SIZE, on ordinal() of every value and on from_ordinal() of every ordinal in range.", "quantifier": "all types built from the crate's impls, all values, all pairs of targets/profiles", "why_tests_cant": "compares builds for different targets on all types", "anchors": ["ordinal-map/src/ordinal/traits.rs", "ordinal-map/src/ordinal/impls"]}
{"id": "C73", "title": "derive works on items produced by macro_rules", "statement": "#[derive(Ordinal)] on a struct or enum produced by a macro_rules! macro generates code whose local variables and self all resolve to the intended bindings, wherever the tokens of the item (names of fields and variants, keywords, types) come from: the macro body or its arguments.", "quantifier": "all structs and enums, all assignments of syntax contexts to the tokens the macro takes spans from", "why_tests_cant": "the repository has no test that derives through macro_rules, and the combinations of contexts are unbounded", "anchors": ["ordinal-map-derive/src/ordinal.rs: struct_from_ordinal (spans of rem), field_ref_exprs (span of self), EnumGen::ordinal, field_vars"]}
{"id": "C74", "title": "derive on generic items adds no bounds and works for every allowed instantiation", "statement": "#[derive(Ordinal)] on a struct or enum with type and const parameters is accepted exactly when, in every instantiation allowed by the bounds the item itself declares, every field type implements Ordinal; no T: Ordinal bound is added by the macro. For every accepted item and every instantiation with types whose impls come from the crate or from derive, the generated impl is correct (or its ORDINAL_SIZE does not compile): bijective, ORDINAL_SIZE is the number of values, from_ordinal returns None outside, and the order agrees with Ord. An accepted generic item can itself be used in the fields of further generic items.", "quantifier": "all generic structs and enums whose field types are built from parameters, closed types, Box, Option, Result, Either, tuples, arrays (also [T; N] with a const parameter N) and other generic types; all sets of bounded parameters; all instantiations", "why_tests_cant": "instantiations are unbounded, and acceptance for all of them is not observable by any finite set of compiled programs", "anchors": ["ordinal-map-derive/src/ordinal.rs: derive_ordinal (split_for_impl), struct_ordinal_size, EnumGen"]}
{"id": "C75", "title": "Panicking destructors leave the map consistent", "statement": "When the destructor of a value panics inside clear(), inside the drop of a Drain, or inside retain of OrdinalArrayMap, nothing is dropped twice and nothing that was not reached is lost: destructors ran on a prefix of the remaining pairs in ordinal order ending with the panicking one, the map then holds exactly the pairs after it (for retain: rejected keys up to and including the panicking one are gone, kept ones stay, later ones are untouched), and it behaves as such a map under every further sequence of operations.", "quantifier": "all lawful key types, all reachable OrdinalMap and OrdinalArrayMap, all next/next_back calls made on the Drain before it is dropped, all stateful destructors and closures, panicking at any call", "why_tests_cant": "the point of the panic, the partial consumption and the later history are unbounded; no test has panicking destructors", "anchors": ["ordinal-map/src/map/iter.rs: Drop for Drain", "ordinal-map/src/map/map.rs: clear", "ordinal-map/src/map/array_map.rs: clear, retain"]}
{"id": "C76", "title": "from_iter neither leaks nor double-drops values", "statement": "OrdinalMap::from_iter and OrdinalArrayMap::from_iter take the values of a prefix of the items; each value taken is in the returned map or has been dropped, exactly once, also when the source iterator panics, when an Ordinal impl answers out of range or panics, or when the capacity overflows. For a lawful key type every item is taken, the values dropped while inserting are exactly the replaced ones in the order of their replacement, and after a panic of the iterator the remaining ones follow in ordinal order.", "quantifier": "all Ordinal impls that return or panic, all item sequences, iterators that end or panic after any number of items, all value sizes", "why_tests_cant": "needs drop accounting over unbounded inputs and impls that break the contract; the tests only look at the returned map", "anchors": ["ordinal-map/src/map/map.rs: FromIterator, insert, init_full_map", "ordinal-map/src/map/array_map.rs: FromIterator, insert, new"]}
{"id": "C77", "title": "OrdinalSet allocates only for types with more than 64 values, once, at the first insert", "statement": "OrdinalSet<T> with ORDINAL_SIZE <= 64 never holds heap memory, under any history of insert and contains or from_iter. With ORDINAL_SIZE > 64 it holds none until the first insert, and from then on exactly ceil(ORDINAL_SIZE/64) words, whatever follows. Within the size limit of C18 that allocation never exceeds isize::MAX bytes, has a bit for every value and wastes less than one word.", "quantifier": "all lawful T with ORDINAL_SIZE + 64 <= usize::MAX, all histories, all source iterators, 32- and 64-bit targets", "why_tests_cant": "the tests look at answers, not at storage; ranges over all histories and sizes", "anchors": ["ordinal-map/src/set/set.rs: doc of OrdinalSet, SetImpl, new, insert, FromIterator"]}
{"id": "C78", "title": "Operations with a key use only ORDINAL_SIZE and ordinal of that key; the others never use ordinal", "statement": "Two Ordinal impls for the same key type that agree on ORDINAL_SIZE and on ordinal(k) are indistinguishable by any map or set operation that is given the key k (get, get_mut, contains_key, insert, remove, entry and what is done with it, index, set insert and contains): results, panics and the state afterwards are equal, whatever from_ordinal does. Two impls that agree on ORDINAL_SIZE and from_ordinal are indistinguishable by every other map operation (len, is_empty, all iterators, drain, clear, retain, try_new, map, into_iter) and by all_values, whatever ordinal does. In particular a broken from_ordinal cannot affect lookups, and a broken ordinal cannot affect iteration over a map.", "quantifier": "all impls, lawful or not, all map states, all operations, all closures", "why_tests_cant": "quantifies over all pairs of impls, including ones that break the contract", "anchors": ["ordinal-map/src/map/map.rs", "ordinal-map/src/map/array_map.rs", "ordinal-map/src/map/total/map.rs", "ordinal-map/src/map/total/array_map.rs", "ordinal-map/src/map/enumerate.rs", "ordinal-map/src/map/iter.rs", "ordinal-map/src/set/set_ref.rs", "ordinal-map/src/set/set_mut.rs", "ordinal-map/src/set/set64.rs"]}
{"id": "C79", "title": "An operation with a key reads and writes that key's slot only", "statement": "On OrdinalMap, OrdinalArrayMap, OrdinalTotalMap and OrdinalTotalArrayMap, an operation given a key of ordinal i behaves the same on any two maps of equal storage length with equal slot i: same result or same panic, equal slot i afterwards; and it leaves every other slot's contents as they were. The allocation at the first insertion into an OrdinalMap changes no contents. This is the data-access side of the documented constant-time claim.", "quantifier": "all impls, lawful or not, all map states, all operations with a key", "why_tests_cant": "quantifies over all states and over impls that break the contract", "anchors": ["ordinal-map/src/map/map.rs: get, get_mut, insert, entry, remove, init_full_map", "ordinal-map/src/map/array_map.rs", "ordinal-map/src/map/entry.rs", "ordinal-map/src/map/total/map.rs", "ordinal-map/src/map/total/array_map.rs"]}
{"id": "C80", "title": "No undefined behaviour and no endless loop with Ordinal impls and closures that have state", "statement": "With any Ordinal impl in safe code whose calls return or panic - also one that keeps state, answers differently on two calls with the same argument, or panics on a later call - every operation of the four maps and every history of them, the constructors, from_iter, map, as_ref and retain with closures that share that state, insert, contains, from_iter and double-ended iteration of the sets, and ordinal and from_ordinal of Option, Result, Either, Box and arrays over such types return or panic. They never read out of bounds, misuse the uninitialised array of the builder, or loop forever.", "quantifier": "all impls with state, all states they start in, all closures, all map and set states, all histories", "why_tests_cant": "the tests use lawful impls without state; ranges over all programs that implement a safe trait", "anchors": ["ordinal-map/src/array_builder.rs", "ordinal-map/src/map/map.rs", "ordinal-map/src/map/array_map.rs", "ordinal-map/src/map/total/map.rs", "ordinal-map/src/map/total/array_map.rs", "ordinal-map/src/values.rs", "ordinal-map/src/set/set_mut.rs", "ordinal-map/src/set/iter.rs", "ordinal-map/src/ordinal/impls/array.rs"]}
{"id": "C81", "title": "How often and on what the crate calls the Ordinal impl", "statement": "A map operation given a key calls ordinal on that key exactly once and makes no other call. A map operation without a key never calls ordinal, and calls from_ordinal on positions of the map only, on none of them twice, also if it panics and whatever a client of iter_mut or drain does. len and clear call from_ordinal on every position, is_empty on the positions up to the first value, each in increasing order; an OrdinalMap that has not allocated makes no call. from_iter of a map or an OrdinalSet64 calls ordinal once for each item in order; of another set three or four times. try_new, new, map and retain call from_ordinal once for each position in order. contains of a set makes at most two calls of ordinal, insert at most four; OrdinalSet64 makes one and two. Iterating a set calls from_ordinal on no number twice, iterating an OrdinalSet64 only on members. ordinal of an array calls ordinal of each element once in order; from_ordinal of an array of N elements makes at most N calls.", "quantifier": "all impls whose calls return or panic, with or without state, all map and set states, all operations and clients", "why_tests_cant": "the tests do not count calls; ranges over all impls and states", "anchors": ["ordinal-map/src/map/map.rs", "ordinal-map/src/map/array_map.rs", "ordinal-map/src/map/enumerate.rs", "ordinal-map/src/map/iter.rs", "ordinal-map/src/map/total/map.rs", "ordinal-map/src/map/total/array_map.rs", "ordinal-map/src/set/set_ref.rs", "ordinal-map/src/set/set_mut.rs", "ordinal-map/src/set/set64.rs", "ordinal-map/src/ordinal/impls/array.rs"]}
{"id": "C82", "title": "In which scopes derive compiles, and that it means the same in all of them", "statement": "The code derive(Ordinal) emits for a struct compiles exactly where ordinal_map, std and usize have their usual meaning, the bare name None is Option::None, Self::ORDINAL_SIZE is the trait's constant or an inherent usize constant, and the names ordinal, rem, _check_overflow and the fields can be bound by a pattern, that is, no constant, static, tuple constructor or const parameter has the name (a field name may also be the only value of the field's type); for an enum also _ignore, every field name must bind (rem only if there are variants), and no variant is called ORDINAL_SIZE. Wherever it compiles and the type has no inherent ORDINAL_SIZE the impl is the same, lawful and strict. Consequences: after use Level::* with a variant None no type can derive Ordinal there; an inherent const ORDINAL_SIZE: usize = 0 is accepted and makes from_ordinal return None always; a nonzero one changes nothing for a type with values.", "quantifier": "all scopes, all structs and enums, all lawful field types", "why_tests_cant": "ranges over all modules the derive can be written in", "anchors": ["ordinal-map-derive/src/ordinal.rs: derive_ordinal", "ordinal-map-derive/src/ordinal.rs: check_overflow", "ordinal-map-derive/src/ordinal.rs: check_zero_size", "ordinal-map-derive/src/ordinal.rs: struct_from_ordinal", "ordinal-map-derive/src/ordinal.rs: EnumGen"]}
{"id": "C83", "title": "The derive macro answers every item: code for structs and enums, an error for unions", "statement": "derive_ordinal emits code for every struct and every enum, whatever its fields and variants, and reports an error for every union; its internal errors and assertions (mismatched fields and types, fewer than two operands, size overflow) never occur; the tuple generator emits code for every arity.", "quantifier": "all items, all field lists; enums with fewer than 2^64 variants", "why_tests_cant": "ranges over all programs the macro can be applied to", "anchors": ["ordinal-map-derive/src/ordinal.rs: derive_ordinal", "ordinal-map-derive/src/ordinal.rs: SizeExpr", "ordinal-map-derive/src/ordinal.rs: struct_ordinal"]}
{"id": "C84", "title": "Derived impls over field types with state: safety and the calls they make", "statement": "If the impls of the field types are safe code with state (every call returns or panics), so are the derived impls and the tuple impls over them. ordinal of a struct, tuple or enum value calls ordinal on each field of the value (of its variant) exactly once, in declaration order. from_ordinal(i) of a struct or tuple with values calls from_ordinal of each field type exactly once, the last field first, with the digits of i in the mixed base of the sizes, also when i is too large; without values it calls nothing. from_ordinal(i) of an enum does this for the variant i falls into and touches no other; for an i that is too large it calls nothing. When a call panics, the calls made are a prefix of these. Over field types without state these are the impls of the other properties.", "quantifier": "all structs, tuples and enums, all field impls whose calls return or panic, all numbers and states", "why_tests_cant": "the tests do not count calls; ranges over all programs the macro can be applied to", "anchors": ["ordinal-map-derive/src/ordinal.rs: struct_ordinal", "ordinal-map-derive/src/ordinal.rs: struct_from_ordinal", "ordinal-map-derive/src/ordinal.rs: EnumGen", "ordinal-map/src/ordinal/impls/tuple.rs"]}
{"id": "C85", "title": "Debug and AtomicOrdinal over user code with state: safety and the calls they make", "statement": "Let the Ordinal impl and the Debug of keys, values and items be any safe code, with state, which may panic, and Debug may return an error. Then Debug of every map, set and iterator and every method and Debug of AtomicOrdinal returns or panics. Debug of a map calls from_ordinal on every position of the map, in increasing order, each once, and never ordinal; also on empty slots, and also after the Debug of a key or value has returned an error. Debug of a map iterator does so for the positions it has left. Debug of a set, OrdinalSet64 included, calls from_ordinal on every number below ORDINAL_SIZE in increasing order and after each at most twice ordinal; Debug of Iter64 calls from_ordinal on the members it has left. Debug of OrdinalValues calls it on the first number left and, if there is another and something was taken from the back, on the last. AtomicOrdinal::store calls ordinal once, load from_ordinal once on the number in the cell, compare_exchange ordinal on old and then on new before it touches the cell and from_ordinal once afterwards, whether or not it has exchanged; Debug calls from_ordinal once. If user code panics the calls made are a prefix of these.", "quantifier": "all Ordinal impls and all Debug impls of keys and values whose calls return or panic, all collections, iterators, cells and states, {:?} and {:#?}", "why_tests_cant": "the tests do not count calls and have no failing Debug; ranges over all user code", "anchors": ["ordinal-map/src/map/iter.rs: Debug", "ordinal-map/src/map/total/iter.rs: Debug", "ordinal-map/src/map/map.rs: Debug", "ordinal-map/src/set/set_ref.rs: Debug", "ordinal-map/src/set/set64.rs: Debug", "ordinal-map/src/atomic.rs", "ordinal-map/src/values.rs: Debug"]}
{"id": "C86", "title": "The whole text the derive macro emits is read by rustc as meant", "statement": "For every struct, enum (with any variant names) and tuple, the complete token sequence the macro emits for the impl (attributes, constant, both functions, every let, if, return, match arm, constructor and path) is accepted by Rust's grammar and read, uniquely, as the impl the other properties are about: the `{` after each condition starts its body and not a struct literal, each if/match/block at the start of a statement is a statement of its own, operators bind as meant, match arms and constructors get the right variables in the right order, and the last expression of each block is its value.", "quantifier": "all structs, enums, tuples with any number of fields and variants, all names of fields and variants", "why_tests_cant": "ranges over all programs the macro can be applied to", "anchors": ["ordinal-map-derive/src/ordinal.rs: derive_ordinal, StructGen, EnumGen, struct_from_ordinal, impl_ordinal_for_tuple_n"]}
{"id": "C87", "title": "Running the text the derive macro emits is a lawful impl", "statement": "For every struct, enum and tuple whose expansion compiles, take whatever Rust's grammar reads the emitted text as and run that: constants at compile time, the functions statement by statement, with shadowing, reassignment, early return, matching by variant name and construction by field name. ORDINAL_SIZE, ordinal and from_ordinal obtained this way agree, for every value and every ordinal, with the impl the other derive properties are about; so over lawful field types the emitted text is a lawful, strict impl with the size of the product (struct, tuple) or of the sum of products (enum).", "quantifier": "all structs, enums, tuples, all field types, all values and ordinals, all readings of the text", "why_tests_cant": "ranges over all programs the macro can be applied to", "anchors": ["ordinal-map-derive/src/ordinal.rs: derive_ordinal, StructGen, EnumGen, struct_from_ordinal, impl_ordinal_for_tuple_n"]}
{"id": "C88", "title": "Collections stay consistent when the key type panics and the panic is caught", "statement": "Let ordinal and from_ordinal of the key type panic at any calls, otherwise being lawful, and let the caller catch each panic and go on using the collection. In every history each operation that returns has the result and effect it has without panics. An operation that panics leaves the map or set as it was, except: iter_mut() and values_mut() keep what was written before the panic (on total maps values_mut() does not panic); clear() has removed the values of the keys up to some key; drain() has removed all values but at most one (a call panicked) or those of the calls and of the keys up to some key (the destructor panicked). Afterwards the collection works as an ordinary one with this contents. An operation panics only if the key type does. Only drain() can abort the process: next() does not pass over the ordinal at which it panicked, so the destructor asks for it again while the panic unwinds; if from_ordinal(0) panics every time, drain() of an allocated map of two or more keys starting with next() always aborts.", "quantifier": "all lawful key types, all placements of panics (depending on any state), all histories of operations, OrdinalMap, OrdinalArrayMap, the total maps and the three sets", "why_tests_cant": "ranges over all placements of panics in all histories", "anchors": ["ordinal-map/src/map/map.rs: OrdinalMap", "ordinal-map/src/map/array_map.rs: OrdinalArrayMap", "ordinal-map/src/map/iter.rs: IterMut, Drain", "ordinal-map/src/map/enumerate.rs: OrdinalEnumerate", "ordinal-map/src/map/total: OrdinalTotalMap, OrdinalTotalArrayMap", "ordinal-map/src/set: OrdinalSet, OrdinalArraySet, OrdinalSet64, OrdinalSetMut"]}
{"id": "C89", "title": "Iterators go on after a caught panic of the key type", "statement": "Let from_ordinal (and ordinal) of the key type panic at any calls, otherwise being lawful, and let the caller catch each panic in next() or next_back() and go on using the iterator. Nothing but these panics happens (no undefined behaviour, endless loop or abort), every call returns exactly when no call of the key type panics in it, and no key and no slot comes twice; so no two references handed out by iter_mut() are to the same value. OrdinalValues and OrdinalSet64::iter() lose exactly the items of the calls that panicked, OrdinalSet::iter() at most these. Iterators of maps (iter, into_iter, iter_mut): a next_back() that panics loses one pair; a next() that panics loses a value but no key, so that after f such calls every pair that comes has the value of the key f places further on. This does happen for every key type of two or more values: if the first next() panics, the second returns the first key with the second key's value. len() of the total iterators and of Iter64 stays exact, and size_hint() of OrdinalSet::iter() and of iter() of the sparse maps a bound.", "quantifier": "all lawful key types, all placements of panics (depending on any state), all sequences of next() and next_back() on the iterators of all maps and sets after any history, and of OrdinalValues", "why_tests_cant": "ranges over all placements of panics in all sequences of calls", "anchors": ["ordinal-map/src/map/enumerate.rs: OrdinalEnumerate::next, next_back", "ordinal-map/src/map/total/iter.rs: Iter, IterMut, IntoIter, IntoIterArray", "ordinal-map/src/map/iter.rs: Iter, IterMut, IntoIter, IntoIterArray", "ordinal-map/src/values.rs: OrdinalValues", "ordinal-map/src/set/iter.rs: Iter", "ordinal-map/src/set/set64.rs: Iter64"]}
{"id": "C90", "title": "drain() goes on after a caught panic of the key type, and loses no value", "statement": "Let from_ordinal (and ordinal) of the key type panic at any calls, otherwise being lawful. Take map.drain() of a sparse map after any history, call next() and next_back() on it in any order, each panic being caught, and then leak it or drop it, a panic of the drop being caught too. Nothing but these panics happens. A call that panics takes nothing out of the map. The values returned and the values then in the map are together exactly those that were in the map, each once. No key that is in the map at the end has another value than before. If the Drain was dropped and the drop returned, the map holds at most as many values as calls panicked; if the drop panicked, the values from some key on may be left as well; if it was leaked, everything that was not returned. After f calls of next() that panicked, each key comes with the value of the key f places further on. Afterwards the map works as an ordinary one with this contents.", "quantifier": "all lawful key types, all placements of panics (depending on any state), all histories before and after, all sequences of next() and next_back(), leaked or dropped, OrdinalMap and OrdinalArrayMap", "why_tests_cant": "ranges over all placements of panics in all sequences of calls and all histories", "anchors": ["ordinal-map/src/map/iter.rs: Drain", "ordinal-map/src/map/enumerate.rs: OrdinalEnumerate::next, next_back", "ordinal-map/src/map/map.rs: OrdinalMap::drain", "ordinal-map/src/map/array_map.rs: OrdinalArrayMap::drain"]}
{"id": "C91", "title": "retain leaves an ordinary map after caught panics of the key type, the closure or a destructor", "statement": "Let from_ordinal, the closure of OrdinalArrayMap::retain (which may write through its &mut V first) and the destructor of the values panic at any calls, sharing any state, the key type otherwise being lawful; all panics are caught. In every history of retain and the other operations, nothing but these panics happens (only drain can abort the process). retain goes through the keys in ordinal order, calls from_ordinal once for each and the closure once for each that has a value, with that value, until something panics. Keys before are decided: kept with the value the closure left, or gone, the value the closure left being dropped once. Keys after are as they were. The key itself is as it was if from_ordinal panicked, has the value that the closure left if the closure panicked, and is gone if the destructor panicked. Afterwards the map works as an ordinary one with this contents.", "quantifier": "all lawful key types, all placements of panics (depending on any shared state), all closures and destructors, all histories before and after", "why_tests_cant": "ranges over all user code with state and all placements of its panics in all histories", "anchors": ["ordinal-map/src/map/array_map.rs: OrdinalArrayMap::retain", "ordinal-map/src/map/enumerate.rs: OrdinalEnumerate::next"]}
{"id": "C92", "title": "AtomicOrdinal stays a linearizable register when ordinal or from_ordinal panic", "statement": "Let ordinal and from_ordinal of T panic at any calls, otherwise being lawful, and let threads catch the panics and go on. Under every schedule: a call that returns has taken effect at one moment between call and return and returns what an atomic cell holding a T says at that moment; a store that panics has not taken effect; a load that panics has changed nothing; a compare_exchange that panics has either taken effect at one moment, as one that returns, or not at all. The cell always holds the ordinal of a T. If no call of user code panics the history is linearizable. No call waits for another thread. Under every memory ordering, each value returned by a call was passed to new, store or a successful compare_exchange (also one that has panicked afterwards).", "quantifier": "all lawful T, all placements of panics, any number of threads, all programs, all schedules, all reads-from relations", "why_tests_cant": "ranges over all schedules and all placements of panics", "anchors": ["ordinal-map/src/atomic.rs: AtomicOrdinal::load, store, compare_exchange"]}
{"id": "C93", "title": "The crate's own tests hold for all inputs, and what they can and cannot see", "statement": "Every unit test and every example in the documentation passes on every 64-bit build, and on every 32-bit build except test_non_zero_u32 and test_non_zero_i32, which test u32 and i32 and do not compile there. The counting loop in the documentation of the crate counts correctly for every list of fewer than 2^64 errors, every key type and every classification. Every quickcheck test passes for every input (not only random ones) and for every lawful key or element type within the size limits of the collection. The helper test_ordinal(expected), given a list of all the values and a strict order, passes exactly if the list is increasing, the Ordinal implementation is lawful for it, the ordinals follow the order, and from_ordinal is None at ORDINAL_SIZE and usize::MAX. It does not see from_ordinal in between: test_char passes on 64-bit builds though char::from_ordinal accepts ordinals that belong to no char.", "quantifier": "all builds (pointer width, overflow checks, debug assertions); all inputs of the quickcheck tests; all lawful types; for test_ordinal all implementations", "why_tests_cant": "it is about the tests themselves: all inputs instead of random ones, all implementations that could be tested", "anchors": ["ordinal-map/src/tests/util.rs: test_ordinal_value, test_ordinal_some, test_ordinal, test_exact_size_iterator", "ordinal-map/src/tests/derive.rs", "ordinal-map/src/map/map.rs: tests::qc", "ordinal-map/src/map/array_map.rs: tests::qc, qc_retain", "ordinal-map/src/set: tests", "ordinal-map/src/ordinal/impls: tests", "ordinal-map/src/ordinal/traits.rs: doc tests", "ordinal-map/src/lib.rs: example", "ordinal-map/src/atomic.rs, values.rs, map/array_map.rs, map/total/array_map.rs, set/array.rs: examples"]}
{"id": "C94", "title": "Which uses of a type the compiler accepts", "statement": "For every type built from the crate's impls and the derive macro, to any depth, and taking into account that rustc evaluates every constant that compiled code mentions, reached or not: if ORDINAL_SIZE is accepted then so are ordinal and from_ordinal, and the type has exactly ORDINAL_SIZE values and obeys the laws; a type with 2^bits values or more is never accepted. Code that is accepted never meets a constant that cannot be evaluated. For tuples and derived types the three uses are accepted or rejected together. Not so for hand-written impls: Option<NonZeroUsize> has no ORDINAL_SIZE, but ordinal and from_ordinal compile. Acceptance of ORDINAL_SIZE is the same as its evaluation succeeding, except for [T; 0] of a type that is rejected itself ([u32; 0] on 32-bit targets), which is rejected too.", "quantifier": "all types of any nesting depth, 32-bit and 64-bit targets", "why_tests_cant": "ranges over all types, and a program that must not compile cannot be part of a test binary", "anchors": ["ordinal-map-derive/src/ordinal.rs: check_overflow, check_zero_size", "ordinal-map/src/ordinal/impls/primitive.rs: u32, i32", "ordinal-map/src/ordinal/impls/non_zero.rs: NonZeroU64, NonZeroI64", "ordinal-map/src/ordinal/impls/std.rs, either.rs, boxed.rs, array.rs"]}
{"id": "C95", "title": "Send, Sync, Unpin, variance and borrows of the public types", "statement": "For all key types K and value types V, with any auto traits and any lifetimes inside: the maps and their consuming iterators are Send and Sync exactly if (K, V) is; Iter, Keys and Values exactly if (K, &V) is; IterMut, ValuesMut, Drain and the entries exactly if (K, &mut V) is; the sets, their iterators, OrdinalValues and AtomicOrdinal exactly if T is. An iterator that is Send hands out items that are Send. Every type is covariant in lifetime, key and value, except that those with mutable access are invariant in the value; so a borrow can always be shortened and the type of a value cannot change under mutable access. A type lives as long as its parameters and its borrow; Iter64 and the keys of the total maps borrow nothing. Unpin depends on K, and on V only for the types that hold the values inline.", "quantifier": "all K and V with any combination of auto traits and any lifetimes, all 26 public types", "why_tests_cant": "these are questions to the type checker about all type arguments; negative ones cannot be part of a program that compiles", "anchors": ["ordinal-map/src/map/map.rs: OrdinalMap", "ordinal-map/src/map/array_map.rs: OrdinalArrayMap", "ordinal-map/src/map/total/map.rs, array_map.rs", "ordinal-map/src/map/iter.rs, total/iter.rs, enumerate.rs, entry.rs: struct declarations", "ordinal-map/src/set/set.rs, array.rs, set64.rs, iter.rs, set_ref.rs: struct declarations", "ordinal-map/src/atomic.rs: AtomicOrdinal", "ordinal-map/src/values.rs: OrdinalValues"]}
{"id": "C96", "title": "Whatever the Ordinal impl does, no value is lost or duplicated", "statement": "Take any map, sparse or total, and an implementation of Ordinal of which nothing is assumed: it may give wrong answers, different answers from call to call, and panic at any call, and the panics may be caught and the map used further. Over every history of operations (get, get_mut, insert, remove, entry, iter, keys, values, iter_mut, values_mut, len, drain, clear, with the caller's reads and writes through the references) there is no undefined behaviour and no endless loop, and every value that was in the map or was given to it is afterwards in exactly one of three places: in the map, handed back to the caller, destroyed. An operation that returns destroys nothing, except the assignments of the caller, clear and the end of a Drain. An operation that panics leaves the map with the values it had, except iter_mut, values_mut, clear and drain. So if the given values are all different, no value is handed back twice, and none that has been handed back is still in the map.", "quantifier": "all implementations of Ordinal with state (no laws assumed), all maps, all histories, all points of panic, 32-bit and 64-bit targets, debug and release", "why_tests_cant": "ranges over all misbehaving implementations, unbounded histories and all points of panic", "anchors": ["ordinal-map/src/map/map.rs", "ordinal-map/src/map/array_map.rs", "ordinal-map/src/map/total/map.rs", "ordinal-map/src/map/total/array_map.rs", "ordinal-map/src/map/iter.rs: Drain", "ordinal-map/src/map/entry.rs"]}
{"id": "C97", "title": "Recursive types are rejected at compile time", "statement": "A type with #[derive(Ordinal)] that contains itself, directly or through Box, Option, Result, Either, arrays (also of length 0), tuples and other derived types, cannot be used: a program that mentions its ORDINAL_SIZE, calls ordinal or calls from_ordinal is rejected by the compiler, and so is a program that does this with any type containing it. The same holds if no type contains itself but the chain of instantiations of a generic type does not end. In a program without such chains every written type stands for a type of finite nesting, each use is accepted exactly when C94 says so, and ORDINAL_SIZE has the value given there. So whenever ORDINAL_SIZE of a type is accepted the type has finitely many values, exactly that many, and the impl obeys the laws; no call of ordinal or from_ordinal on a recursive value can run for ever or overflow the stack. (Types such as struct Never(Box<Never>), without values, or struct One([Box<One>; 0]), with a single one, are rejected as well.)", "quantifier": "all programs of mutually recursive definitions, also infinitely many instantiations; all written types; 32-bit and 64-bit targets", "why_tests_cant": "quantifies over all systems of type definitions, and a rejected program is not a test case", "anchors": ["ordinal-map-derive/src/ordinal.rs:44-78", "ordinal-map-derive/src/ordinal.rs:205-330", "ordinal-map/src/ordinal/impls/boxed.rs", "ordinal-map/src/ordinal/impls/std.rs", "ordinal-map/src/ordinal/impls/array.rs", "ordinal-map/src/ordinal/impls/either.rs"]}
{"id": "C98", "title": "Debug on any writer, with any flags", "statement": "Printing a map, set or iterator of the crate with any flags (alternate, width, precision, fill, ...) to any writer, which may refuse (fmt::Error) or panic at any call, makes exactly these calls, in this order: the opening bracket; for each item in ordinal order its separator and then the Debug of key, value or item with the flags of the caller, on an indenting writer if the flag # is given; the closing bracket. The first refusal or error reported by an item ends the output: nothing more is written or formatted and the result is that error; a panic passes through. So width, precision and fill apply to each key and value, not to the whole. If the Debug impls of keys, values and items write a text in pieces and stop when refused, so does the collection, and the text is that of C52. OrdinalValues prints the first and last item with default flags, whatever the caller asked for; AtomicOrdinal passes the flags on. Excepted: OrdinalSet and OrdinalSet64 of an uninhabited type in builds with debug assertions, which panic before anything is written (C52).", "quantifier": "all lawful types, all reachable collections and partly consumed iterators, all writers with any state, all flags, all Debug impls of keys, values and items (also ones that ignore refusals, report errors of their own or panic)", "why_tests_cant": "quantifies over all writers, all points of failure and all Debug impls", "anchors": ["ordinal-map/src/map/map.rs:173-177", "ordinal-map/src/map/array_map.rs:184-188", "ordinal-map/src/map/iter.rs: Debug impls", "ordinal-map/src/map/total/map.rs:141-145", "ordinal-map/src/map/total/array_map.rs:219-223", "ordinal-map/src/map/total/iter.rs: Debug impls", "ordinal-map/src/set/set.rs:114-118", "ordinal-map/src/set/array.rs:105-109", "ordinal-map/src/set/set64.rs:63-67,160-164", "ordinal-map/src/set/set_ref.rs:47-51", "ordinal-map/src/set/iter.rs:64-68", "ordinal-map/src/values.rs:92-107", "ordinal-map/src/atomic.rs:40-45"]}
{"id": "C99", "title": "Clone calls V::clone once per value and survives its panics", "statement": "Cloning a map or an owning map iterator calls V::clone exactly once on each value it holds, in ordinal order, and on nothing else, up to the first panic. If no call panics, nothing is dropped and the copy holds, at the same keys, exactly the values returned by those calls, and from then on behaves like any map (or iterator) with these contents. If a call panics, no copy is returned and exactly the clones made before it are dropped, each once. Excepted: value types that are Copy, whose bits std may copy without calling clone.", "quantifier": "all lawful types, all value types that are not Copy, all reachable maps and all partly consumed owning iterators, all V::clone with state, that panic at any call", "why_tests_cant": "quantifies over all implementations of V::clone, all points of panic and all histories", "anchors": ["ordinal-map/src/map/map.rs:164-171", "ordinal-map/src/map/array_map.rs:176-182", "ordinal-map/src/map/total/map.rs:132-139", "ordinal-map/src/map/total/array_map.rs:204-211", "ordinal-map/src/map/iter.rs:364-371,423-429", "ordinal-map/src/map/total/iter.rs:156-162,222-228", "ordinal-map/src/map/enumerate.rs:56-65"]}
{"id": "C100", "title": "The source text of the hand-written Ordinal impls, parsed and run, meets the contract", "statement": "The source text of every hand-written impl of Ordinal (bool, integers, NonZero integers, char, Ordering, Infallible, Option, Result, Either, Box, arrays), lexed, parsed and run as Rust, meets the contract: ORDINAL_SIZE is the number of values n, ordinal and from_ordinal are mutually inverse between the values and 0..n without panics, and (except for char on 64-bit targets) from_ordinal is None outside 0..n. Where ORDINAL_SIZE does not fit usize the text is rejected at compile time. For generic impls this holds for all lawful parts, and for all parts, lawful or not, the text computes exactly what the modelled impl computes, panics included.", "quantifier": "all values, all ordinals, all array lengths below 2^bits, all impls of the type parameters, both widths, all build profiles", "why_tests_cant": "quantifies over all impls of the type parameters, all array lengths and all values of 32- and 64-bit types", "anchors": ["ordinal-map/src/ordinal/impls/primitive.rs:1-105", "ordinal-map/src/ordinal/impls/non_zero.rs:1-197", "ordinal-map/src/ordinal/impls/char.rs:1-24", "ordinal-map/src/ordinal/impls/ordering.rs:1-24", "ordinal-map/src/ordinal/impls/std.rs:1-53", "ordinal-map/src/ordinal/impls/either.rs:1-24", "ordinal-map/src/ordinal/impls/boxed.rs:1-13", "ordinal-map/src/ordinal/impls/array.rs:1-42"]}
{"id": "C101", "title": "The source text of all_values and of the sets, parsed and run, behaves as sets and iterators must", "statement": "The source text of Ordinal::all_values, values.rs and the files in set/, lexed, parsed and run as Rust: all_values() behaves like a deque of all values in ordinal order with exact len, size_hint, count and last; OrdinalSet, OrdinalArraySet (with the right S) and OrdinalSet64 (up to 64 values), made by new, default, from_iter or all, answer every history of insert and contains as the mathematical set does and never panic; iter() on OrdinalSet and OrdinalSet64 behaves, under every sequence of next and next_back, like a deque of the elements in increasing ordinal order, with size_hint (and len) right. A wrong S and more than 64 values are rejected at compile time. With every impl of Ordinal, lawful or not, the text computes exactly what the modelled functions compute, panics and writes to memory included.", "quantifier": "all impls of Ordinal for the element type, all collections, all histories, all places a set can be stored in, both widths, all build profiles", "why_tests_cant": "quantifies over all impls of the element type, all histories and all heaps", "anchors": ["ordinal-map/src/ordinal/traits.rs: all_values", "ordinal-map/src/values.rs:1-90", "ordinal-map/src/set/array.rs", "ordinal-map/src/set/iter.rs", "ordinal-map/src/set/set_ref.rs", "ordinal-map/src/set/set_mut.rs", "ordinal-map/src/set/set.rs", "ordinal-map/src/set/set64.rs"]}
{"id": "C102", "title": "The source text of OrdinalMap, its entries and its iterators, parsed and run, behaves as a map must", "statement": "The source text of the files in map/, lexed, parsed and run as Rust: an OrdinalMap made by new(), default() or from_iter answers every history of get, get_mut, insert, remove, entry, or_insert, len, is_empty, iter, keys, values, iter_mut, values_mut, drain (dropped or leaked) and clear as the partial function does, writes through handed-out references included, and never panics. After every history iter, keys, values and into_iter behave, under every sequence of next and next_back, like deques of the present pairs in increasing ordinal order, with size_hint right; clones of the borrowing iterators are equal to them. contains_key answers whether insert or entry was ever called (the finding C28). With every impl of Ordinal, lawful or not, the text computes exactly what the modelled functions compute, panics and writes to memory included, on every heap and for a map stored at any place.", "quantifier": "all impls of Ordinal for the key type, all value types, all histories, all collections, all places a map can be stored in, both widths, all build profiles", "why_tests_cant": "quantifies over all impls of the key type, all value types, all histories and all heaps", "anchors": ["ordinal-map/src/map/map.rs", "ordinal-map/src/map/entry.rs", "ordinal-map/src/map/iter.rs", "ordinal-map/src/map/enumerate.rs", "ordinal-map/src/map/total/iter.rs"]}
{"id": "C103", "title": "The source text of OrdinalArrayMap, parsed and run, behaves as a map must and rejects a wrong array length", "statement": "The source text of map/array_map.rs and of the total array map it is built on, lexed, parsed and run as Rust: with S the number of keys, an OrdinalArrayMap made by new(), default() or from_iter answers every history of get, get_mut, insert, remove, entry, or_insert, len, is_empty, iter, keys, values, iter_mut, values_mut, drain (dropped or leaked) and clear as the partial function does, writes through handed-out references included, and never panics. After every history contains_key says exactly which keys have values, and iter, keys, values and into_iter behave, under every sequence of next and next_back, like deques of the present pairs in increasing ordinal order. With any other S, new(), default() and from_iter are rejected at compile time. With every impl of Ordinal, lawful or not, the text computes exactly what the modelled functions compute, panics and writes to memory included, on every heap and for a map stored at any place.", "quantifier": "all impls of Ordinal for the key type, all value types, all S, all histories, all collections, all places a map can be stored in, both widths, all build profiles", "why_tests_cant": "quantifies over all impls of the key type, all value types, all histories and all heaps", "anchors": ["ordinal-map/src/map/array_map.rs", "ordinal-map/src/map/total/array_map.rs", "ordinal-map/src/map/entry.rs", "ordinal-map/src/map/iter.rs", "ordinal-map/src/map/total/iter.rs", "ordinal-map/src/values.rs"]}
{"id": "C104", "title": "The source text of OrdinalTotalMap and OrdinalTotalArrayMap, parsed and run, behaves as a total map must", "statement": "The source text of map/total/map.rs, map/total/array_map.rs and map/total/iter.rs, lexed, parsed and run as Rust: new calls the client's stateful closure on the keys in ordinal order, and try_new does so until the first error, which it returns; panics of the closure come through. The map made (for OrdinalTotalArrayMap also by from_array) answers every history of get, index, get_mut, index_mut, insert, len, is_empty, iter, keys, values, iter_mut and values_mut as the total function of the closure's answers does, writes through handed-out references included, and never panics. After every history iter, keys, into_keys and into_iter behave, under every sequence of next and next_back, like deques of the pairs or keys in ordinal order and know their length exactly (size_hint too, except for into_iter of the array map), and values and into_values hold the values in ordinal order. default calls V::default once for each key and makes the map of these values in ordinal order, whatever V::default does; its panics come through. With S not the number of keys, new, try_new and default of OrdinalTotalArrayMap are rejected at compile time. With every impl of Ordinal, lawful or not, the text computes exactly what the modelled functions compute, panics included.", "quantifier": "all impls of Ordinal for the key type, all value types, all stateful closures, all V::default, all S, all histories, both widths, all build profiles", "why_tests_cant": "quantifies over all impls of the key type, all closures and all histories", "anchors": ["ordinal-map/src/map/total/map.rs", "ordinal-map/src/map/total/array_map.rs", "ordinal-map/src/map/total/iter.rs", "ordinal-map/src/map/enumerate.rs", "ordinal-map/src/values.rs"]}
{"id": "C105", "title": "The source text of retain, map, map_values, zip, as_ref and as_mut, parsed and run, does what it must with every closure", "statement": "The source text of map/array_map.rs, map/total/array_map.rs, array_from_iter.rs and array_as_mut.rs, lexed, parsed and run as Rust. OrdinalTotalArrayMap: zip of maps made by from_array from any two arrays holds at each key the pair of their values; as_ref holds at each key a reference to the value; as_mut holds at each key a mutable reference, and after any sequence of writes through these references they read, and the original map holds, at each key the value last written for it, or else the old one; map and map_values call the client's stateful closure on the pairs in ordinal order, its panics come through, and otherwise the map returned holds at each key what the closure answered for it. array_from_iter returns exactly the items of the iterator if there are S of them and panics otherwise. OrdinalArrayMap: in every history of operations on the map that new makes, in which retain is called any number of times with any stateful closures that may read and overwrite values through the reference they are handed, all answers and all closure states are those of the partial function on which retain visits the present keys in ordinal order and keeps exactly the values accepted; panics of a closure come through; and after every history without panic the map answers every further history and iterates as that partial function does. With every impl of Ordinal, lawful or not, the text computes exactly what the modelled functions compute, panics included.", "quantifier": "all impls of Ordinal for the key type, all value types, all arrays, all stateful closures, all histories, both widths, all build profiles", "why_tests_cant": "quantifies over all impls of the key type, all closures and all histories", "anchors": ["ordinal-map/src/map/array_map.rs", "ordinal-map/src/map/total/array_map.rs", "ordinal-map/src/array_from_iter.rs", "ordinal-map/src/array_as_mut.rs", "ordinal-map/src/map/total/iter.rs"]}
{"id": "C106", "title": "The source text of AtomicOrdinal, parsed and run, makes one atomic access per call and is linearizable", "statement": "The source text of atomic.rs, lexed, parsed and run as Rust on an arbitrary AtomicUsize, arbitrary T: Ordinal and arbitrary Debug of T: load, store and compare_exchange each make exactly one access to their AtomicUsize, after computing the ordinals of the arguments and before turning the answer into a value with from_ordinal and unwrap, and neither part depends on anything shared; fmt makes one relaxed load and passes the value on to T's Debug. If T is lawful: with any number of threads running any programs on one AtomicOrdinal made by new, in any schedule of calls, accesses and returns, the history is linearizable to a cell of T; no call with valid orderings panics; a thread finishes k calls within 4k of its own steps. For every reads-from relation a memory model may allow on the AtomicUsize, the answers are those of a cell of T with the same relation: no value is invented, and no unwrap fails. Printing shows the value stored.", "quantifier": "all impls of Ordinal for T, all AtomicUsize behaviours, all threads, programs and schedules, all reads-from relations, both widths, all build profiles", "why_tests_cant": "quantifies over all interleavings and memory models, and over all types", "anchors": ["ordinal-map/src/atomic.rs:34-85"]}
{"id": "C107", "title": "Types nested to any depth satisfy the contract when every hand-written impl in them is run from its source text", "statement": "Take any type built from bool, Ordering, Infallible, char, the integers and the NonZero integers by any nesting of Option, Result, Either, Box, arrays, tuples and derived structs and enums, where the impl of Ordinal at each leaf and each Option, Result, Either, Box and array layer is whatever its source text computes when lexed, parsed and run on what the layers below compute. Then ORDINAL_SIZE evaluates or the program is rejected at compile time; if it evaluates, it is the number of values of the type, ordinal numbers them from 0 without gaps in the order of Ord, from_ordinal inverts it, and ordinals out of range are rejected (except where char on 64-bit targets is in the last component, finding C04). For every such type the text computes an impl.", "quantifier": "all types of any nesting depth, all values, all ordinals, both widths, all build profiles", "why_tests_cant": "infinitely many types; each has up to 2^64 values", "anchors": ["ordinal-map/src/ordinal/impls/primitive.rs:1-105", "ordinal-map/src/ordinal/impls/non_zero.rs:1-197", "ordinal-map/src/ordinal/impls/char.rs:1-24", "ordinal-map/src/ordinal/impls/ordering.rs:1-24", "ordinal-map/src/ordinal/impls/std.rs:1-53", "ordinal-map/src/ordinal/impls/either.rs:1-24", "ordinal-map/src/ordinal/impls/boxed.rs:1-13", "ordinal-map/src/ordinal/impls/array.rs:1-42"]}
{"id": "C108", "title": "The source text of ArrayBuilder never touches uninitialized memory wrongly, and drops or returns each item exactly once", "statement": "Lex, parse and run the text of array_builder.rs, the unsafe code of the crate, on uninitialized memory with raw pointers, where reading or dropping an uninitialized element, or a pointer out of bounds, is an error. For every capacity S and every list of items: new and up to S calls of push return. The builder's drop then drops exactly the items pushed, each once and in order. try_finish and finish return exactly these items in order and drop none, if there are S of them; otherwise they drop each once, in order, before they return an error or panic. A push beyond S panics. Nothing is undefined, nothing leaks, nothing is dropped twice. The destructor of T is arbitrary and may panic. The builder that the evaluator supplies to the other texts, and the model of C46, behave as this text does.", "quantifier": "all capacities, all lists of items, all destructors, both widths, all build profiles", "why_tests_cant": "undefined behaviour may be invisible in a test; unboundedly many capacities and items", "anchors": ["ordinal-map/src/array_builder.rs:1-59"]}
{"id": "C109", "title": "The source text of the Debug impls passes exactly the entries, in ordinal order, to the right builder", "statement": "Lex, parse and run the text of the Debug impls. After every history of operations, fmt of OrdinalMap, OrdinalArrayMap, OrdinalTotalMap and OrdinalTotalArrayMap makes a map builder, passes it exactly the entries of the map in ordinal order, each once, and finishes it; fmt of OrdinalSet, OrdinalArraySet, OrdinalSet64 does so with a set builder and the elements. After any sequence of next and next_back, fmt of map::Iter, Keys, Values, map::IntoIter, map::IntoIterArray, total::Iter, total::IntoIter, total::IntoIterArray, set::Iter and Iter64 makes a list builder, passes it exactly the items that are left, and finishes it. After any interleaving of next, next_back and writes through references handed out, fmt of map::IterMut, ValuesMut and total::IterMut does so with the items that are left and their current values, and leaves the map as it is. fmt of OrdinalValues writes [] if nothing is left, the first item and .. if no item has been taken from the back, and otherwise the first item and, if there is another, the last. core::fmt is arbitrary: its functions change the state of the world and may panic or fail, and the result and the state are those of the calls above in this order. With a core::fmt that puts brackets around the entries, the characters are those of C52. Exception (finding C52): with debug assertions, the empty OrdinalSet or OrdinalSet64 of an uninhabited type panics. With every impl, lawful or not, the texts pass on what the iterators of the model yield.", "quantifier": "all key, element and value types, all histories, all iterator states, all behaviours of core::fmt, both widths, all build profiles", "why_tests_cant": "unboundedly many types, histories, iterator states and formatters", "anchors": ["ordinal-map/src/map/map.rs:173-177", "ordinal-map/src/map/array_map.rs:184-188", "ordinal-map/src/map/total/map.rs:141-145", "ordinal-map/src/map/total/array_map.rs:219-223", "ordinal-map/src/map/iter.rs:62-66", "ordinal-map/src/map/iter.rs:165-169", "ordinal-map/src/map/iter.rs:214-218", "ordinal-map/src/map/total/iter.rs:60-64", "ordinal-map/src/set/set.rs:114-118", "ordinal-map/src/set/array.rs:105-109", "ordinal-map/src/set/set64.rs:63-67", "ordinal-map/src/set/set64.rs:160-164", "ordinal-map/src/set/set_ref.rs:47-51", "ordinal-map/src/set/iter.rs:64-68", "ordinal-map/src/map/iter.rs:358-362", "ordinal-map/src/map/iter.rs:417-421", "ordinal-map/src/map/total/iter.rs:164-168", "ordinal-map/src/map/total/iter.rs:216-220", "ordinal-map/src/values.rs:92-107", "ordinal-map/src/map/iter.rs:116-120", "ordinal-map/src/map/iter.rs:260-264", "ordinal-map/src/map/total/iter.rs:110-114"]}
{"id": "C110", "title": "The source text of the Clone impls clones each value once, in ordinal order, and copies the keys", "statement": "Lex, parse and run the text of the Clone impls. After every history of operations, clone of OrdinalMap, OrdinalArrayMap, OrdinalTotalMap and OrdinalTotalArrayMap calls V::clone exactly once on each value of the map, in ordinal order, and on nothing else. V::clone is arbitrary: it changes the state of the world and may panic, and a panic in it ends the clone there with that panic. If there is none, the result is a map with the same keys and the clones as values, which answers every further history of operations like such a map. After any sequence of next and next_back, the same holds of into_iter() of each of them: the clone is an iterator over the keys that are left, with the clones of their values. clone of map::Iter, Keys, Values and total::Iter returns an iterator in the same state over the same references and clones no value; this, and what the texts of the owning iterators do, holds for every impl, lawful or not.", "quantifier": "all key and value types, all histories, all iterator states, all behaviours of V::clone, both widths, all build profiles", "why_tests_cant": "unboundedly many types, histories, iterator states and behaviours of V::clone", "anchors": ["ordinal-map/src/map/map.rs:164-171", "ordinal-map/src/map/array_map.rs:176-182", "ordinal-map/src/map/total/map.rs:132-139", "ordinal-map/src/map/total/array_map.rs:204-211", "ordinal-map/src/map/iter.rs:364-371", "ordinal-map/src/map/iter.rs:423-429", "ordinal-map/src/map/total/iter.rs:156-162", "ordinal-map/src/map/total/iter.rs:222-228", "ordinal-map/src/map/enumerate.rs:56-65"]}
{"id": "C111", "title": "Iterating over a reference to a map, by the source text, is iterating over its pairs in ordinal order", "statement": "Lex, parse and run the text of `impl IntoIterator for &OrdinalMap`, `&OrdinalArrayMap`, `&OrdinalTotalMap` and `&OrdinalTotalArrayMap`. After every history of operations on the map, `(&map).into_iter()` returns an iterator that behaves like a deque of the key and a reference to the value, for exactly the keys in the map, in ordinal order, under every sequence of next and next_back. At every point its size_hint brackets what is left (for the total maps its length is exact), and its clone is the same iterator. With every impl of Ordinal, lawful or not, into_iter of the reference returns exactly what iter returns.", "quantifier": "all key and value types, all histories, all iterator scripts, all closures that fill the total map, both widths, all build profiles", "why_tests_cant": "unboundedly many types, histories and iterator scripts", "anchors": ["ordinal-map/src/map/map.rs:189-196", "ordinal-map/src/map/array_map.rs:200-207", "ordinal-map/src/map/total/map.rs:156-162", "ordinal-map/src/map/total/array_map.rs:234-240"]}
