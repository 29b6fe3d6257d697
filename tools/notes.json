{
 "C04": [
  "partial",
  "False of the code on 64-bit targets (C04_false, witness from_ordinal(1<<32)); exact behaviour in C04_exact; proved below 2^32 and on 32-bit targets."
 ],
 "C15": [
  "partial",
  "False of the code in release builds (C15_false_*: two values share an ordinal; ordinal() is not a compile error). Proved: ORDINAL_SIZE itself is rejected, Option never collides, checked builds never collide."
 ],
 "C10": [
  "partial",
  "False of the code: a field named `rem` clashes with the macro's `let mut rem`, and fields named `None`, `Some`, `Ok` or `Err` cannot be bound by the generated patterns (C10_false). Exact characterisation proved: the expansion compiles iff no field has one of these five names."
 ],
 "C23": [
  "partial",
  "False of the code at ORDINAL_SIZE == 64 (C23_false): all() panics with overflow checks and is empty without. Proved for every T with fewer than 64 values."
 ],
 "C25": [
  "partial",
  "False of the code with debug assertions (C25_false): iter() panics in OrdinalSetRef::new. Proved for builds without debug assertions."
 ],
 "C28": [
  "partial",
  "The stated equivalence is false for the code as written: contains_key (map/map.rs:58-60) tests whether the slot exists, not whether it holds a value, so it answers true for every key once storage is allocated. C28_false is a counterexample for any two distinct keys, C28_exact says what contains_key really answers after every history, and C28_contains_key_partial is the exact set of cases in which the equivalence holds."
 ],
 "C42": [
  "partial",
  "False for total::IntoIterArray (map/total/iter.rs:134-147), which implements ExactSizeIterator but inherits the default size_hint (0, None); C42_false. C42_values, C42_iter64, C42_total_map and C42_total_array_map_partial prove len and size_hint equal to the number of items left, after any calls and any history, for every other ExactSizeIterator."
 ],
 "C45": [
  "partial",
  "False for OrdinalTotalArrayMap::from_array (map/total/array_map.rs:73-78), which has no size assertion: C45_false_short and C45_false_long show a wrong S compiles, len() is S, and get/iter panic. C45_len_partial covers new, try_new, default and as_ref."
 ],
 "C52": [
  "partial",
  "False for OrdinalSet and OrdinalSet64 of an uninhabited type in builds with debug assertions: formatting panics in OrdinalSetRef::new (C52_false). Proved in every other case, for both {:?} and {:#?}, with default width/precision flags and a formatter that does not fail."
 ],
 "C55": [
  "proved",
  "Deterministic implementations: ordinal() and from_ordinal() are functions of their arguments; ones with interior state that answer differently on each call are not modelled. Slot indices stand for references; uninitialised reads, out-of-bounds reads and dangling slots are Fault.ub."
 ],
 "C56": [
  "proved",
  "Stated on versions of the loops with drop accounting (Model/Own.lean); the theorems also say that these return what the plain model functions return. User closures return or panic; a panic in a destructor is not modelled."
 ],
 "C57": [
  "proved",
  "The closure's effect on its &mut V is a value it leaves behind, also when it panics. A panic in the destructor of a removed value is not modelled."
 ],
 "C58": [
  "proved",
  "Discriminant values are assumed to be those rustc assigns (explicit, else previous + 1, else 0). C13 is the case of no explicit discriminants."
 ],
 "C59": [
  "proved",
  "The provided methods of Iterator/DoubleEndedIterator are modelled as std defines them from next/next_back; the mutable iterators are covered by C33/C41, which quantify over all call sequences."
 ],
 "C60": [
  "proved",
  "Induction over the way a type is built, from the per-impl properties C01-C14."
 ],
 "C61": [
  "partial",
  "False for OrdinalTotalArrayMap::into_iter(): skip(k).next_back() and the len() of peekable()/skip() panic in every state (C61_false), a consequence of C42_false. Proved for every other iterator and adapter."
 ],
 "C62": [
  "proved",
  "Paths, calls and literals are single tokens; statement keywords are not part of the token model."
 ],
 "C63": [
  "proved",
  "A mutable reference to the whole array is modelled as the array plus what storing through it leaves in the map."
 ],
 "C64": [
  "proved",
  "collect() is modelled as listing the items and then from_iter; the iterators have no outside effects."
 ],
 "C73": [
  "partial",
  "False of the code (C73_false): when a field name (or the type of an unnamed field) comes from a macro_rules argument and the rest of the item from the macro body, the generated `rem` and `self` do not resolve. Exact characterisation proved for structs and enums, and that field-less enums always work."
 ]
}