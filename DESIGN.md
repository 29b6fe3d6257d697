# Formal model of stepancheg/ordinal-map in Lean 4 — design

## 1. Shape of the model

The crate is a pure/sequential core (an `Ordinal` trait, its impls, a derive
macro, bit sets, slot-array maps, iterators) plus one atomic cell and one small
piece of `unsafe` (ArrayBuilder). Everything is modelled as total, computable
Lean functions, one per Rust function, each citing file and lines.

* **Effects.** `R α = Except Fault α` with `Fault = panic | compileError | diverge | ub`.
  `unwrap`, indexing, `assert!`, `unreachable!`, integer overflow (in builds with
  overflow checks), division by zero, `debug_assert!` are explicit `panic`s.
  Overflow inside a `const` and failing `const { assert!(..) }` are `compileError`.
  Rust `loop`s carry fuel; running out is `diverge`; theorems show it never happens.
* **Configuration.** `Cfg` = pointer width (32 or 64), overflow checks on/off,
  debug assertions on/off. Every theorem is for every `Cfg` unless it says otherwise.
* **usize** is `Nat` below `2^bits` with explicit checked/wrapping/const operations.
  Fixed-width integers are range-restricted `Nat`/`Int` with Rust's casts. `u64`
  set words are `BitVec 64`.
* **Ordinal trait** is a record (`size`, `ordinal`, `fromOrdinal`), so that the
  collections are verified against *any* lawful implementation, user-written ones included.
* **`&mut`** to a slot is a slot index (`Ref`); handing out a reference returns the
  index, writes go through it, so aliasing statements are expressible.
* **Iterators** are state + `next`/`nextBack`; the specification is a deque
  (`Spec.Deque`), quantified over every sequence of calls.
* **Derive macro.** Deep embedding: the macro's `SizeExpr` builder and code generators
  are modelled as functions producing an AST of the generated code; the AST has
  an evaluator (const or runtime arithmetic) and a scope/type checker. The
  theorems are about evaluating generated code.
* **ArrayBuilder.** Explicit memory cells (uninit / initialised) with a drop log;
  reading or dropping an uninitialised cell is `ub`.
* **AtomicOrdinal.** Interleaving machine with micro-steps per operation (single
  location coherence makes every C11 execution on one cell SC), plus a
  reads-from (execution-graph) theorem independent of orderings.

Layout: `Verif/Rust.lean` (machine), `Verif/Spec.lean` (specifications used in
statements), `Verif/Model/*.lean` (model), `Verif/Lemmas/*.lean` (helper proofs), `Verif/Props/*.lean`
(property theorems and non-vacuity examples only).  An `example := Cnn_name …` right after a theorem applies it to a
concrete non-trivial case, so its hypotheses are checked to be satisfiable; the `example :` blocks further down show
what the model computes there.

## 2. Plan per property

| id | modelled | proof |
|---|---|---|
| C01 | each impl in primitive.rs, over width-indexed ints, casts explicit | `Lawful` ∧ `Strict` per type by arithmetic; 32-bit compile error |
| C02 | each impl in non_zero.rs | same |
| C03 | char.rs | `Lawful` |
| C04 | char.rs | false on 64-bit (truncation): negation with witness, exact characterisation, partial: true on 32-bit and below 2^32 |
| C05 | std.rs, either.rs, boxed.rs, ordering.rs over arbitrary component impls | `Lawful`/`Strict` preservation |
| C06 | array.rs loops, ArrayBuilder | induction on N |
| C07 | tuple codegen, arity n | evaluation of generated AST, induction over fields |
| C08 | StructGen codegen | same |
| C09 | EnumGen codegen | same + prefix sums |
| C10 | scope checker on generated statements | true unless a field is called `rem`, `None`, `Some`, `Ok`, `Err`; negation for these |
| C11–C13 | strict order compat `OrdCompat` | from bijection arithmetic; lexicographic induction |
| C14 | const evaluation of SizeExpr | overflow ↔ compileError |
| C15 | runtime arithmetic of ordinal() for oversize types | false: negations with witnesses; partial when it fits |
| C16–C17, C53 | values.rs | deque refinement |
| C18–C20 | set.rs, set_ref.rs, set_mut.rs, array.rs, set64.rs over BitVec 64 words | history refinement to `T → Bool` |
| C21–C22 | set iterators | deque refinement |
| C23 | `all` | false at 64: negation; partial for < 64 |
| C24 | derived PartialEq on the word | invariant "no bits ≥ size" + extensionality |
| C25 | debug_assert in set_ref.rs | negation with debug assertions; partial otherwise |
| C26 | — | corollary of C18–C22 |
| C27, C29–C35 | map.rs, entry.rs, iter.rs, enumerate.rs | history refinement to `K → Option V` |
| C28 | contains_key as written | false: negation; exact characterisation; partial direction |
| C36–C38 | array_map.rs | history refinement; equivalence as corollary |
| C39–C45 | total/*.rs | refinement; negation for from_array with wrong S, for IntoIterArray size_hint (C42) |
| C46–C48 | array_builder.rs, array_from_iter.rs, array_as_mut.rs | cell machine invariants |
| C49–C51 | atomic.rs | simulation between micro-step machine and register; execution-graph lemma |
| C52 | Debug impls: `core::fmt` list/set/map builders, plain and `{:#?}` | from iteration theorems; false for sets of uninhabited types with debug assertions |
| C54 | Clone copies the state | value semantics + iterator theorems |
| C55 | everything, over arbitrary (unlawful) `Ordinal` impls | no `ub`, no endless loop: invariants that do not use lawfulness |
| C56 | construction, `map`, `zip` with a ledger of dropped values | ledger invariant; agreement of ledger loops with the plain ones |
| C57 | `retain` with the state left when the closure panics | induction over the visited keys |
| C58 | discriminants of enums | derived `Ord` vs ordinal order, iff discriminants increase |
| C59 | std consumers (`try_fold`, `nth`, `collect`, …) written as std writes them | induction from `BehavesLike` |
| C60 | a grammar of types closed under the crate's type constructors | induction on the grammar from C01–C14 |
| C61 | std adapters `rev`, `skip`, `take`, `enumerate`, `zip`, which call `len`/`size_hint` | simulation; false for `IntoIterArray` |
| C62 | emitted tokens; a parser for Rust's `+ - * / %` and `<` | every emitted token list parses to the tree of Model/Derive.lean |
| C63 | `values_array`, `values_array_mut` | history refinement |
| C64 | `from_iter` of what the iterators yield | from C35, C59 |
| C65–C69 | as C04, C15, C23, C25, C45, C52 | exact behaviour where those are false |
| C70 | builder destructor with destructors that panic | induction over the cells |
| C71–C72 | — | sorted listings are unique; from C16, C21, C32, C41, C60 |
| C73 | all bindings and uses of local variables with their syntax contexts (Model/Hygiene.lean) | negation; exact condition; agrees with the check of C10 when there is one context |
| C74 | items with type parameters, declared bounds, field types built from parameters (Model/Generics.lean) | both directions; every instantiation satisfies C60 |
| C75 | `clear`, dropping a `Drain`, `retain`, with destructors that may panic (Model/Own.lean) | every reachable map, every partial consumption, every history afterwards |
| C76 | `from_iter` of the sparse maps with drop accounting, iterators that panic (Model/Own.lean) | any impl: conservation; lawful impls: which values are dropped in which order |
| C77 | `OrdinalSet` storage (Model/Set.lean) | every history; the words on the heap, not addresses: that the box is never replaced is not modelled |
| C78 | which parts of the `Ordinal` impl an operation uses (all map and set operations of Model/) | any two impls; for the number of calls see C81 |
| C79 | which slots an operation uses (all four maps) | any impl, any state; the number of accesses is not modelled |
| C80 | the map, set and array operations again, over an `Ordinal` impl with state (Model/Effect.lean) | the impl's calls return or panic; the owning iterators of C70 are not in this model |
| C81 | the calls an operation makes (Model/Effect.lean) | the impl itself records its calls (`SImpl.logged`) |
| C82 | the generated code checked and run in an arbitrary scope (Model/Names.lean) | exact condition; findings: `use Level::*` with a variant `None`, an inherent `ORDINAL_SIZE`; equals the impls of C08 and C09 when only the prelude is in scope |
| C83 | `derive_ordinal` as a whole | - |
| C84 | the generated code run over field impls with state (Model/EffectDerive.lean) | the field impls' calls return or panic |
| C85 | `Debug` and `AtomicOrdinal` once more, over user code with state (Model/EffectDebug.lean) | text is written to a `String`, which never fails |
| C86 | the whole emitted text as tokens, a parser for the part of Rust it uses (Model/Source.lean) | every emitted text parses to the tree of SpecSource.lean |
| C87 | an interpreter for the parsed text, independent of the generator's own trees (Model/Run.lean) | the parsed text, run, equals the impl of C07 to C09 |
| C88 | the operations with `&mut` access once more, write by write, so that the collection survives a failure (Model/Caught.lean) | every history with caught panics gives what SpecCaught.lean allows; operations return exactly when those of Model/Effect.lean do |
| C89 | `next` and `next_back` of the iterators, write by write (Model/CaughtIter.lean) | every sequence of calls with caught panics gives what SpecCaughtIter.lean allows; calls return exactly when those of Model/Effect.lean do; finding: `C89_misaligned` |
| C90 | a `Drain` that outlives the panics of its calls (`drainCalls` in Model/CaughtIter.lean) | every use gives what SpecCaughtDrain.lean allows; values returned and values left are a permutation of those before |
| C91 | `retain` with key type, closure and destructor that panic (Model/CaughtRetain.lean) in histories of caught operations | every `retain` ends as `Retains` of SpecCaughtRetain.lean says; agreement with C80 |
| C92 | threads on an `AtomicOrdinal` whose type panics (Model/CaughtAtomic.lean, one step per call of user code) | every history is allowed by SpecCaughtAtomic.lean; linearizable if nothing panics; wait-free; reads-from executions |
| C93 | the bodies of the unit, quickcheck and doc tests as programs over the model (Model/Tests.lean); `HashMap`, `HashSet` as association lists, `sort` as merge sort | each test returns `.ok ()`, quickcheck inputs universally quantified; `test_ordinal` characterised by an iff |
| C94 | which constants and functions each impl mentions (Model/Compile.lean) | `Checked`, the closure of C60 with the verdict of the compiler; accepted implies no `compileError` at run time, lawful; derived types: all three uses or none |
| C95 | the declarations of all types, field by field (Model/AutoTraits.lean); auto traits and subtyping of std types | each type has the `Send`, `Sync` and subtypes of the plain type named in SpecAutoTraits.lean |
| C96 | as C88 | SpecLedger.lean: what each operation is given, hands back and may destroy; the values before and given are a permutation of those after, handed back and destroyed, for implementations that need not be honest |
| C97 | definitions by name, with the mentions between constants and functions (Model/Recursive.lean) | `Denotes`, which relates written types to those of C94; infinite chains of mentions |
| C98 | the `Debug` impls once more, with the builders and `PadAdapter` of `core::fmt` call by call (Model/Format.lean) | equality with a list of calls (SpecFormat.lean), as functions of any writer and any flags; text as in C52 |
| C99 | the `Clone` impls that clone values, with the loops of `std` and their guards (Model/CloneOwn.lean) | calls, copies and dropped values of a list (SpecCloneOwn.lean); the copy as in C27/C36/C40 and the iterator properties |
| C100 | the source files of the hand-written impls as text (Text/Files.lean), a lexer and parser for the Rust they use, an evaluator for the trees (Text/Run.lean) | the parser's result is computed by the kernel; each function, run, equals the impl of Model/Ordinal.lean, for arbitrary impls of the type parameters; hence `Lawful` and `Strict` as in C01 to C06 |
| C101 | ordinal/traits.rs, values.rs and set/ as text (Text/FilesSet.lean), with a heap of variables in the evaluator (`Text/Mem.lean`) | the parser's result is computed by the kernel; each function, run on an arbitrary heap with `self` at an arbitrary place, equals the function of Model/Values.lean or Model/Set.lean; hence the histories of C16 to C26 for the text |
| C102 | map/ as text (Text/FilesMap.lean); the evaluator also has iterators of `std`, closures and user functions | the parser's result is computed by the kernel; each function, run on an arbitrary heap with `self` at an arbitrary place, equals the function of Model/Map.lean or Model/MapIter.lean; a client that keeps the map in a variable then runs every history as `OMap.step` does, hence C27 to C35 for the text |
| C103 | map/array_map.rs and map/total/array_map.rs as text (Text/FilesMap.lean) | as C102: each function, run on an arbitrary heap, equals the function of Model/Map.lean; `new` runs the loop of `try_new` with the closure `\|_\| None` of the text; hence C27 to C36 for the text |
| C104 | map/total/*.rs as text (Text/FilesMap.lean); closures of the client are functions on keys and a state (SpecTextTotal.lean) | as C102: each function equals the function of Model/TotalMap.lean; hence C39 to C41 for the text |
| C105 | `retain` of map/array_map.rs, `zip`, `as_ref`, `as_mut`, `map`, `map_values` of map/total/array_map.rs, array_from_iter.rs and array_as_mut.rs as text; closures of the client read and write through the references they are handed (SpecTextFns.lean) | as C102: each function equals the function of Model/Map.lean or Model/TotalMap.lean; hence C37 and C43 for the text |
| C106 | atomic.rs as text (Text/FilesAtomic.lean), run on an arbitrary `AtomicUsize` that reads and changes a state of the world (SpecTextAtomic.lean) | each function of the text, on every such `AtomicUsize`, equals what Model/Atomic.lean does before the access, the access, and what the model does after it; hence C49 to C51 for the text |
| C107 | the texts of C100, one on top of the other | `TextBuilt`: `Built` of C60 with each hand-written layer replaced by an arbitrary impl that agrees with the run of its text; the text determines the impl (`runs_unique`), so C60's steps apply |
| C108 | array_builder.rs as text (Text/FilesBuilder.lean), run on uninitialized memory with raw pointers and with destructors (SpecTextBuilder.lean) | the memory after each push is the items, then uninitialized elements; the loop of `drop` by induction on the items; agreement with `.bld` of the evaluator and with C46 |
| C109 | the `fmt`s in the texts of the maps, sets and their iterators, run with an arbitrary `core::fmt` (SpecTextDebug.lean) | one run of the common body `f.debug_…().entries(self.g()).finish()`; the loop of `entries` by induction; then the iterators behave like deques (C101 to C104) |
| C110 | the `clone`s in the texts of the maps and their iterators, run with an arbitrary `V::clone` (SpecTextClone.lean) | one run of each body; cloning the slots is cloning the values in them, by induction; the result is stored and viewed like the original (C99), so it behaves like a map or deque (C102 to C104) |
| C111 | `into_iter` in the texts of `impl IntoIterator for &X`, found by the type `&X` (SpecTextRef.lean) | one run of each body: it is `iter`, which C102 to C104 have |

## 3. Trusted base

**Checker.** The Lean 4.33 kernel. Axioms: at most `propext`, `Classical.choice`, `Quot.sound`; the
list per theorem is in AXIOMS.md (made by `tools/axioms.py` from `#print axioms`). No own axioms,
`sorry`, `native_decide` or `bv_decide`.

**That the model says what the code does.** Every definition under `Verif/Model` cites the Rust lines it
transcribes; this correspondence is by reading. It rests on the reading of Rust in `Verif/Rust.lean`:
`usize` arithmetic with and without overflow checks, const evaluation, `as` casts, indexing, shifts,
`div_ceil`, `checked_*`, `debug_assert!`; and on the reading of the std pieces used: slice/array/`Vec`
iterators, `zip`, `map`, `Range<usize>`, `mem::replace`/`take`, `Option::take`,
`u64::trailing_zeros/leading_zeros/count_ones`, `AtomicUsize`, `core::fmt` builders, the provided
methods of `Iterator`/`DoubleEndedIterator`/`ExactSizeIterator` (SpecIter.lean).

**What is modelled.**

| source | model |
|---|---|
| ordinal/traits.rs, ordinal/impls/{primitive,non_zero,char,std,either,boxed,ordering,array}.rs | Spec.lean (`OrdinalImpl`), Model/Ordinal.lean |
| ordinal/impls/tuple.rs (macro call) and ordinal-map-derive/src/ordinal.rs | Model/Derive.lean, Model/Tokens.lean, Model/Source.lean, Model/Run.lean, Model/Hygiene.lean, Model/Generics.lean, Model/Names.lean |
| values.rs | Model/Values.lean |
| array_builder.rs, array_from_iter.rs, array_as_mut.rs | Model/ArrayBuilder.lean |
| set/{set,set_ref,set_mut,array,iter,set64}.rs | Model/Set.lean |
| map/{map,array_map,entry,iter,enumerate}.rs | Model/Map.lean, Model/MapIter.lean |
| map/total/{map,array_map,iter}.rs | Model/TotalMap.lean, Model/MapIter.lean |
| atomic.rs | Model/Atomic.lean |
| all Debug impls; Clone impls | Model/Debug.lean; in the respective file |
| the map, set and array functions once more, with `Ordinal` impls and closures that have state | Model/Effect.lean, Model/EffectImpls.lean |
| the code generated by the macro once more, over field types with state | Model/EffectDerive.lean |
| `Debug` and `AtomicOrdinal` once more, over user code with state | Model/EffectDebug.lean |
| the functions with `&mut` access, the iterators, `retain` and `AtomicOrdinal` once more, write by write, under caught panics | Model/Caught.lean, Model/CaughtIter.lean, Model/CaughtRetain.lean, Model/CaughtAtomic.lean |
| the type declarations, for auto traits and variance | Model/AutoTraits.lean |
| the mentions of constants, for what compiles | Model/Compile.lean |
| type definitions by name, for recursive types | Model/Recursive.lean |
| the `Debug` impls with any writer and flags | Model/Format.lean |
| `Clone` with a `V::clone` that has state and may panic | Model/CloneOwn.lean |
| ordinal/impls/{primitive,non_zero,char,std,either,boxed,ordering,array}.rs once more, as source text | Text/Files.lean, run by Text/{Lex,Parse,Run}.lean |
| ordinal/traits.rs (`all_values`), values.rs and set/ once more, as source text (not `Debug`) | Text/FilesSet.lean, run by Text/{Lex,Parse,Run}.lean |
| map/map.rs, map/entry.rs, map/iter.rs, map/enumerate.rs and map/total/ once more, as source text (not `Debug`, not `clone` of owned values) | Text/FilesMap.lean, run by Text/{Lex,Parse,Names,Run}.lean |
| unwinding and drops in try_new, new, map, zip, retain, clear, Drain, from_iter, `[T; N]::from_ordinal`, array_from_iter | Model/Own.lean, Model/ArrayBuilder.lean |

**Simplifications.**

* A `&V` is represented by the value, a `&mut V` by its slot in the memory of the map. That two `&mut`
  do not alias is proved for the crate's `unsafe`-free iterators as a statement about slots; that a
  `Box<[V]>` or array is not aliased from outside is left to the borrow checker.
* User code: `Ordinal` impls are deterministic and pure, but otherwise arbitrary in C55 (they may
  panic and answer inconsistently with each other), except in C80, C81, C84, C85, C88 to C92 and C96, where they have state. The
  only `unsafe` code is ArrayBuilder; C46_builder covers every sequence of pushes. Closures are functions on an explicit state which may
  panic. `V::clone` and `Debug` of components are pure functions in the plain model; a cloning
  function with state and panics is in C99. Destructors do not panic,
  except in C70, C75 and C91.
* rustc evaluates the constants that a compiled function mentions whether or not a run reaches them; the model
  raises `compileError` when the run reaches them. C94 (Model/Compile.lean) follows the mentions instead; no other
  property depends on the difference, as derived impls force `ORDINAL_SIZE` in their first statement. The lint on
  long-running constant evaluation (for `[T; N]` with huge `N`) is not modelled.
* `size_of::<V>()` is a parameter; capacity overflow is modelled, allocation failure is not.
* In Model/Derive.lean a field type is an index with an impl. Generics (`split_for_impl`, C74) are modelled on top: a
  written type is built from parameters, closed types, the compound types that have impls, and other generic types; array
  lengths may be const parameters; a bound is `T: Ordinal` or absent. Lifetimes, associated types and other `where`
  clauses are not modelled.
  Recursive types are modelled in C97 only (they are rejected). The reading of rustc there: a constant that mentions itself
  through others is a query cycle (E0391), and an endless chain of instantiations meets the recursion limit. Only C82
  knows the items in scope (Model/Names.lean); elsewhere the scope is the prelude, and a field called
  `None` counts as rejected even if its type is `Option` of an uninhabited type, though recent
  compilers accept `let None = ..` there. In C82 a user constant called `None` of type `Option<Self>`,
  and a user `PartialEq<i32>` that would accept `Self::ORDINAL_SIZE == 0` for a variant of that name,
  are left out.
* Syntax contexts (C73): which context a token has is a parameter. The reading of rustc is: a local
  variable or `self` resolves to the innermost binding of the same name and the same `macro_rules!`
  context; items, fields and paths ignore these contexts.
* rustc lints are outside, including deny-by-default ones that could reject generated code (for
  instance `unconditional_panic` on `rem % 0` for variants with an uninhabited field).
* Tokens: in C62 paths, calls and literals are single tokens. In C86 everything is spelled out except a
  written type, the generics and the self type; `parse_quote!` is taken to splice tokens (syn parses
  and prints them unchanged).
* Atomics: threads interleave at single atomic accesses (C49), and separately any reads-from relation
  allowed by coherence of one location (C50, C51). No other memory is involved.
* `Formatter` flags other than `#`, and write errors, are modelled in C98 only. There a `Debug` impl of a key or value is a
  function of writer and flags with no other state; impls with state of their own are in C85, which prints to a `String`.
* The cloning loops of `std` (`to_vec`, `[T; S]::clone`, `vec::IntoIter`, `array::IntoIter`) are transcribed from knowledge of
  `std`, whose source is not in the repository. Specialisations for `Copy` types, which call no `clone`, are not modelled, and a
  destructor that panics while a panic unwinds aborts, so it is not followed (C99).
* Source texts (C100): `tools/text.py --check` compares Text/Files.lean with the repository. For these files the reading of Rust
  is in Text/Run.lean instead of in hand-made definitions: an evaluator that knows nothing about the crate except that
  `ArrayBuilder` is a bounded list (its own code is in Model/ArrayBuilder.lean). It has no type inference: a literal takes the type of
  the other operand or of the function's result, and one that is shifted is a `u64`; a shared reference holds a copy of the value; a
  type parameter has one meaning in the whole program; calls nest to depth 4. What it does not know is an error, so it cannot make a
  theorem of C100 true by accident. `#[cfg(test)]` modules are skipped.
* Source texts of the sets (C101): as for C100. Variables live in a list (the heap); a place is a variable and a path of fields and
  indices; `&mut` is a place, `&` is a copy of the value, which cannot be told apart while the borrow lasts. Borrow checking is left to
  rustc. Calls nest to depth 7 and a `loop` runs at most `usize::MAX + 1` times, so a theorem about an iterator asks that its range is no
  longer than that, which is true of every range of `usize`. A `for` loop runs over an array value, which stands for any iterator that
  yields those items and does not panic. `Vec`, `vec![x; n]`, boxed slices and arrays are lists. The theorems about the operations
  of `OrdinalSet` and `OrdinalArraySet` ask that `ORDINAL_SIZE` evaluates; if it does not, the program does not compile. The texts
  of the `Debug` impls are run for C109. The derived `PartialEq` is not in the text (C24 has it).
* Source texts of the maps (C102): as for C101. `map/total` has types with the names of those in `map`; `Text/Names.lean` reads them as
  `total::…` following the `use` lines. Iterators of `std` over slices, arrays and vectors are lists of what is left (of references for
  `iter` and `iter_mut`), and `next`, `next_back`, `len`, `size_hint` and `clone` on them are built in, as are the methods of `Option`
  that the texts call, `mem::replace` and `mem::take`. A method is looked up by the name of the type alone: `impl … for &OrdinalMap`
  is read as a second `impl … for OrdinalMap` and is not used (C111 finds it by its type). A statement `f();` drops its value, by running its `Drop` if it has one; other
  destructors are not run (the values dropped are in C56, C57 and C76). The client of the theorems keeps the map in variable 0, calls the
  functions by the name of the type and follows the references it is handed. Allocation always succeeds, so the model it is compared with
  is the one with `size_of::<Option<V>>() = 0` (C27_limit has the limit). Calls nest to depth 9.
* Source text of `OrdinalArrayMap` (C103): as for C102. `ArrayBuilder` is supplied by the evaluator as a list that takes at most `S` values
  (array_builder.rs is `unsafe` code; it is modelled apart, C46, and its text is run apart, C108). `retain` takes a user function; it is run for C105.
* Source text of the total maps (C104): as for C102 and C103. `slice::Iter` and `slice::IterMut` are supplied by the evaluator as lists of
  references. The text of `OrdinalTotalMap` is run without the limit on the size of an allocation (C39 has it). `V::default` is
  an arbitrary function on the state of the world. `fmt` is in C109 and `clone` in C110; `map`, `map_values`, `zip`, `as_ref` and `as_mut` are in C105.
* Source text of functions with closures (C105): as for C103 and C104. `Iterator::map` on an iterator of the crate, `Iterator::zip` of arrays and
  `ArrayBuilder` are supplied by the evaluator (`ArrayBuilder` itself is modelled for C46). The map and the state of the closure are the only
  variables of the caller. `split_first_mut` is supplied by the evaluator; the rest of a mutable
  slice is the list of references to its elements. That two of these references do not alias is proved (the writes of C105_as_mut), not assumed.
* Source text of `AtomicOrdinal` (C106): `AtomicUsize` and `T`'s `Debug` are functions on a state of the world; interference by other threads
  during a call is part of them. That a thread stops only before, at and after an access is sound because the text shares nothing else.
* Source text of `ArrayBuilder` (C108): SpecTextBuilder.lean says what the functions of `std` do that the unsafe code calls
  (`MaybeUninit::uninit`, `assume_init_drop`, `as_mut_ptr`, `cast`, `add`, `write`, `drop_in_place`, `transmute_copy`, `forget`,
  `array::from_fn`) and when they are undefined. A pointer is an array and an index. A function that takes `self` drops it at its end unless
  it has moved it; what happens during unwinding is not run from the text (that is in Model/ArrayBuilder.lean, C46 and C70).
  With C108 the `ArrayBuilder` that the evaluator supplies to the texts of C100 to C105 is no longer an assumption about that file.
* Source text of the `Debug` impls (C109): SpecTextDebug.lean supplies `core::fmt`. What `debug_list`, `debug_set`, `debug_map`, the entries
  and `finish` do is arbitrary; only `entries` is fixed: it takes items until there is none and passes on each before it takes the next.
  (The real `entries` does this too; after an error of the writer it still takes all items.) `Debug::fmt(&x, f)` is the `fmt` of the type of `x`.
  `as_slice` of an iterator of `std` is the slice of the items that are left. `write!` gets the format string and the values.
  For the mutable iterators the variables of the client come after the world (`Val.later` renumbers the references in the iterator).
  Not run from the text here: `fmt` of `AtomicOrdinal` (it is in C106).
* Source text of the `Clone` impls (C110): SpecTextClone.lean supplies `V::clone`, which is arbitrary (it changes the state of the world and may
  panic), and `clone` of boxed slices, arrays and owning iterators of `std`, which clones the items in order; an `Option` clones what is in it.
  An iterator of `std` over references is copied. The clones made before a panic are dropped by `std`; that is in C99, not here.
* Source text of `IntoIterator` for references (C111): the function is looked up in the impls whose type is `&X`; its body is run as for C102 to C104,
  so the `self.iter()` in it is the `iter` of `X` (auto-dereferencing is part of the evaluator). That `for … in &map` calls it is the language's.
* Auto traits, variance and lifetimes: only the declarations of the types (C95), not the signatures of the functions;
  `UnwindSafe` and drop check are left out. A type of the user counts as covariant, invariant or contravariant only through the
  references, `fn`s and std types written in it. `#[must_use]`, performance: not modelled.
* The README example indexes with `error_counts[category]` while the impl is `Index<&K>`; documentation
  is outside the model.

## 4. Where the code does not do what is claimed

Each has a theorem with `_false` in its name, and where possible an exact characterisation and the
part that does hold (`_partial`):

* C04: `char::from_ordinal` truncates to `u32`, so on 64-bit targets ordinals `≥ 2^32` can give `Some`.
* C10: a field called `rem` clashes with the generated variable `rem`; fields called `None`, `Some`, `Ok`,
  `Err` cannot be bound by the generated patterns.
* C15: `ordinal()` of a type too large for `usize` is not a compile error when `ORDINAL_SIZE` is never
  named, and can collide in release builds.
* C23: `OrdinalSet64::all()` with exactly 64 values panics (checked) or is empty (unchecked).
* C25: a debug assertion in `set_ref.rs` fails for uninhabited types.
* C28: `OrdinalMap::contains_key` says whether storage is allocated.
* C42, C61: `OrdinalTotalArrayMap::into_iter()` has the default `size_hint`, so `len`-based std adapters panic.
* C45: `from_array` accepts arrays of any length; later calls panic.
* C52: `{:?}` of an `OrdinalSet`/`OrdinalSet64` of an uninhabited type panics in builds with debug assertions (as C25).
* C73: in `macro_rules! m { ($f:ident) => { #[derive(Ordinal)] struct S { $f: bool } } }` the generated
  `rem` and `self` have different syntax contexts at binding and use.
* Limits: C18_limit (sets need `ORDINAL_SIZE + 64 < 2^bits`), C27_limit, C39_limit (capacity overflow).

## 5. Testing the theorems

`seeded/m*.json` are edits of the model that imitate bugs; `seeded/mutate.py` applies each in a scratch
copy, rebuilds, admits what fails and goes on, and reports which property theorems rest on something
that failed. `seeded/LOG.jsonl` has one line per edit. A failure only shows that a proof no longer goes
through; `seeded/probe.lean.txt` therefore runs instances of the property statements on the edited model, and the
log says for each edit whether an instance became false (`witness`). Edits that change nothing
observable are kept as controls.
