import Verif.Text.Parse
/-!
# Syntax trees

The trees of the texts in `Verif.Text.FilesSet`, written by `tools/text.py`.  `Verif.Text.ParsedSet` proves that they are right.
-/

namespace OrdinalMap.Text

/-- `all_values` of item 0 of `ordinal/traits.rs`. -/
def ordinalTraitsFn0_0 : FnDef :=
  ⟨"all_values", SelfKind.none, [], Ty.path ["crate", "OrdinalValues"] (Tys.cons (Ty.path ["Self"] Tys.nil) Tys.nil),
  Blk.tail (Ex.call (Ex.path [⟨"crate", Tys.nil⟩, ⟨"OrdinalValues", Tys.nil⟩, ⟨"new", Tys.nil⟩]) (Exs.nil))⟩

/-- Item 0 of `ordinal/traits.rs`. -/
def ordinalTraitsItem0 : Item :=
  Item.trait "Ordinal" [ordinalTraitsFn0_0]

/-- The items of `ordinal/traits.rs`. -/
def ordinalTraitsTree : List Item :=
  [ordinalTraitsItem0]

/-- Item 0 of `values.rs`. -/
def valuesItem0 : Item :=
  Item.struct "OrdinalValues" [("range", Ty.path ["Range"] (Tys.cons (Ty.path ["usize"] Tys.nil) Tys.nil)),
  ("_phantom", Ty.path ["PhantomData"] (Tys.cons (Ty.path ["T"] Tys.nil) Tys.nil))]

/-- `new` of item 1 of `values.rs`. -/
def valuesFn1_0 : FnDef :=
  ⟨"new", SelfKind.none, [], Ty.path ["Self"] Tys.nil, Blk.tail (Ex.record [⟨"OrdinalValues", Tys.nil⟩] (Fls.cons
  "range" (Ex.range (Ex.num 0 "") (Ex.path [⟨"T", Tys.nil⟩, ⟨"ORDINAL_SIZE", Tys.nil⟩])) (Fls.cons "_phantom"
  (Ex.path [⟨"PhantomData", Tys.nil⟩]) (Fls.nil))))⟩

/-- Item 1 of `values.rs`. -/
def valuesItem1 : Item :=
  Item.impl ⟨[("T", false)], none, Ty.path ["OrdinalValues"] (Tys.cons (Ty.path ["T"] Tys.nil) Tys.nil), [],
  [valuesFn1_0]⟩

/-- `next` of item 2 of `values.rs`. -/
def valuesFn2_0 : FnDef :=
  ⟨"next", SelfKind.refMut, [], Ty.path ["Option"] (Tys.cons (Ty.path ["Self", "Item"] Tys.nil) Tys.nil), Blk.letS
  (Pat.path ["next"]) (Ex.try (Ex.method (Ex.field (Ex.path [⟨"self", Tys.nil⟩]) "range") "next" Tys.nil (Exs.nil)))
  (Blk.tail (Ex.call (Ex.path [⟨"Some", Tys.nil⟩]) (Exs.cons (Ex.method (Ex.call (Ex.path [⟨"T", Tys.nil⟩,
  ⟨"from_ordinal", Tys.nil⟩]) (Exs.cons (Ex.path [⟨"next", Tys.nil⟩]) (Exs.nil))) "unwrap" Tys.nil (Exs.nil))
  (Exs.nil))))⟩

/-- `size_hint` of item 2 of `values.rs`. -/
def valuesFn2_1 : FnDef :=
  ⟨"size_hint", SelfKind.ref, [], Ty.tuple (Tys.cons (Ty.path ["usize"] Tys.nil) (Tys.cons (Ty.path ["Option"]
  (Tys.cons (Ty.path ["usize"] Tys.nil) Tys.nil)) Tys.nil)), Blk.tail (Ex.method (Ex.field (Ex.path [⟨"self",
  Tys.nil⟩]) "range") "size_hint" Tys.nil (Exs.nil))⟩

/-- `count` of item 2 of `values.rs`. -/
def valuesFn2_2 : FnDef :=
  ⟨"count", SelfKind.value, [], Ty.path ["usize"] Tys.nil, Blk.tail (Ex.method (Ex.field (Ex.path [⟨"self",
  Tys.nil⟩]) "range") "count" Tys.nil (Exs.nil))⟩

/-- `last` of item 2 of `values.rs`. -/
def valuesFn2_3 : FnDef :=
  ⟨"last", SelfKind.value, [], Ty.path ["Option"] (Tys.cons (Ty.path ["Self", "Item"] Tys.nil) Tys.nil), Blk.tail
  (Ex.method (Ex.path [⟨"self", Tys.nil⟩]) "next_back" Tys.nil (Exs.nil))⟩

/-- Item 2 of `values.rs`. -/
def valuesItem2 : Item :=
  Item.impl ⟨[("T", false)], some (Ty.path ["Iterator"] Tys.nil), Ty.path ["OrdinalValues"] (Tys.cons (Ty.path ["T"]
  Tys.nil) Tys.nil), [], [valuesFn2_0, valuesFn2_1, valuesFn2_2, valuesFn2_3]⟩

/-- `len` of item 3 of `values.rs`. -/
def valuesFn3_0 : FnDef :=
  ⟨"len", SelfKind.ref, [], Ty.path ["usize"] Tys.nil, Blk.tail (Ex.method (Ex.field (Ex.path [⟨"self", Tys.nil⟩])
  "range") "len" Tys.nil (Exs.nil))⟩

/-- Item 3 of `values.rs`. -/
def valuesItem3 : Item :=
  Item.impl ⟨[("T", false)], some (Ty.path ["ExactSizeIterator"] Tys.nil), Ty.path ["OrdinalValues"] (Tys.cons
  (Ty.path ["T"] Tys.nil) Tys.nil), [], [valuesFn3_0]⟩

/-- `next_back` of item 4 of `values.rs`. -/
def valuesFn4_0 : FnDef :=
  ⟨"next_back", SelfKind.refMut, [], Ty.path ["Option"] (Tys.cons (Ty.path ["Self", "Item"] Tys.nil) Tys.nil),
  Blk.letS (Pat.path ["next"]) (Ex.try (Ex.method (Ex.field (Ex.path [⟨"self", Tys.nil⟩]) "range") "next_back"
  Tys.nil (Exs.nil))) (Blk.tail (Ex.call (Ex.path [⟨"Some", Tys.nil⟩]) (Exs.cons (Ex.method (Ex.call (Ex.path [⟨"T",
  Tys.nil⟩, ⟨"from_ordinal", Tys.nil⟩]) (Exs.cons (Ex.path [⟨"next", Tys.nil⟩]) (Exs.nil))) "unwrap" Tys.nil
  (Exs.nil)) (Exs.nil))))⟩

/-- Item 4 of `values.rs`. -/
def valuesItem4 : Item :=
  Item.impl ⟨[("T", false)], some (Ty.path ["DoubleEndedIterator"] Tys.nil), Ty.path ["OrdinalValues"] (Tys.cons
  (Ty.path ["T"] Tys.nil) Tys.nil), [], [valuesFn4_0]⟩

/-- `clone` of item 5 of `values.rs`. -/
def valuesFn5_0 : FnDef :=
  ⟨"clone", SelfKind.ref, [], Ty.path ["Self"] Tys.nil, Blk.tail (Ex.record [⟨"OrdinalValues", Tys.nil⟩] (Fls.cons
  "range" (Ex.method (Ex.field (Ex.path [⟨"self", Tys.nil⟩]) "range") "clone" Tys.nil (Exs.nil)) (Fls.cons "_phantom"
  (Ex.path [⟨"PhantomData", Tys.nil⟩]) (Fls.nil))))⟩

/-- Item 5 of `values.rs`. -/
def valuesItem5 : Item :=
  Item.impl ⟨[("T", false)], some (Ty.path ["Clone"] Tys.nil), Ty.path ["OrdinalValues"] (Tys.cons (Ty.path ["T"]
  Tys.nil) Tys.nil), [], [valuesFn5_0]⟩

/-- `fmt` of item 6 of `values.rs`. -/
def valuesFn6_0 : FnDef :=
  ⟨"fmt", SelfKind.ref, [(Pat.path ["f"], Ty.ref true (Ty.path ["Formatter"] Tys.nil))], Ty.path ["fmt", "Result"]
  Tys.nil, Blk.letS (Pat.mutVar "iter") (Ex.method (Ex.path [⟨"self", Tys.nil⟩]) "clone" Tys.nil (Exs.nil))
  (Blk.letElse (Pat.ctor ["Some"] (Pats.cons (Pat.path ["first"]) (Pats.nil))) (Ex.method (Ex.path [⟨"iter",
  Tys.nil⟩]) "next" Tys.nil (Exs.nil)) (Blk.semi (Ex.ret (Ex.mac "write" (Exs.cons (Ex.path [⟨"f", Tys.nil⟩])
  (Exs.cons (Ex.str "[]") (Exs.nil))))) (Blk.nil)) (Blk.tail (Ex.ifE (Ex.bin (BinOp.eq) (Ex.field (Ex.field (Ex.path
  [⟨"self", Tys.nil⟩]) "range") "end") (Ex.path [⟨"T", Tys.nil⟩, ⟨"ORDINAL_SIZE", Tys.nil⟩])) (Blk.tail (Ex.mac
  "write" (Exs.cons (Ex.path [⟨"f", Tys.nil⟩]) (Exs.cons (Ex.str "[{:?}..]") (Exs.cons (Ex.path [⟨"first", Tys.nil⟩])
  (Exs.nil)))))) (Ex.block (Blk.letElse (Pat.ctor ["Some"] (Pats.cons (Pat.path ["last"]) (Pats.nil))) (Ex.method
  (Ex.path [⟨"iter", Tys.nil⟩]) "next_back" Tys.nil (Exs.nil)) (Blk.semi (Ex.ret (Ex.mac "write" (Exs.cons (Ex.path
  [⟨"f", Tys.nil⟩]) (Exs.cons (Ex.str "[{:?}]") (Exs.cons (Ex.path [⟨"first", Tys.nil⟩]) (Exs.nil)))))) (Blk.nil))
  (Blk.tail (Ex.mac "write" (Exs.cons (Ex.path [⟨"f", Tys.nil⟩]) (Exs.cons (Ex.str "[{:?}..={:?}]") (Exs.cons
  (Ex.path [⟨"first", Tys.nil⟩]) (Exs.cons (Ex.path [⟨"last", Tys.nil⟩]) (Exs.nil))))))))))))⟩

/-- Item 6 of `values.rs`. -/
def valuesItem6 : Item :=
  Item.impl ⟨[("T", false)], some (Ty.path ["Debug"] Tys.nil), Ty.path ["OrdinalValues"] (Tys.cons (Ty.path ["T"]
  Tys.nil) Tys.nil), [], [valuesFn6_0]⟩

/-- The items of `values.rs`. -/
def valuesTree : List Item :=
  [valuesItem0, valuesItem1, valuesItem2, valuesItem3, valuesItem4, valuesItem5, valuesItem6]

/-- `ordinal_array_set_s` of item 0 of `set/array.rs`. -/
def setArrayFn0_0 : FnDef :=
  ⟨"ordinal_array_set_s", SelfKind.none, [], Ty.path ["usize"] Tys.nil, Blk.tail (Ex.method (Ex.path [⟨"T", Tys.nil⟩,
  ⟨"ORDINAL_SIZE", Tys.nil⟩]) "div_ceil" Tys.nil (Exs.cons (Ex.cast (Ex.path [⟨"u64", Tys.nil⟩, ⟨"BITS", Tys.nil⟩])
  (Ty.path ["usize"] Tys.nil)) (Exs.nil)))⟩

/-- Item 0 of `set/array.rs`. -/
def setArrayItem0 : Item :=
  Item.fn [("T", false)] setArrayFn0_0

/-- Item 1 of `set/array.rs`. -/
def setArrayItem1 : Item :=
  Item.struct "OrdinalArraySet" [("words", Ty.arr (Ty.path ["u64"] Tys.nil) "S"), ("_phantom", Ty.path
  ["PhantomData"] (Tys.cons (Ty.path ["T"] Tys.nil) Tys.nil))]

/-- `ASSERT` of item 2 of `set/array.rs`. -/
def setArrayConst2_0 : Ex :=
  Ex.mac "assert" (Exs.cons (Ex.bin (BinOp.eq) (Ex.path [⟨"S", Tys.nil⟩]) (Ex.call (Ex.path [⟨"ordinal_array_set_s",
  Tys.cons (Ty.path ["T"] Tys.nil) Tys.nil⟩]) (Exs.nil))) (Exs.nil))

/-- `new` of item 2 of `set/array.rs`. -/
def setArrayFn2_0 : FnDef :=
  ⟨"new", SelfKind.none, [], Ty.path ["Self"] Tys.nil, Blk.semi (Ex.constBlock (Blk.tail (Ex.path [⟨"Self", Tys.nil⟩,
  ⟨"ASSERT", Tys.nil⟩]))) (Blk.tail (Ex.call (Ex.path [⟨"OrdinalArraySet", Tys.nil⟩, ⟨"default", Tys.nil⟩])
  (Exs.nil)))⟩

/-- `as_ref` of item 2 of `set/array.rs`. -/
def setArrayFn2_1 : FnDef :=
  ⟨"as_ref", SelfKind.ref, [], Ty.path ["OrdinalSetRef"] (Tys.cons (Ty.path ["T"] Tys.nil) Tys.nil), Blk.semi
  (Ex.constBlock (Blk.tail (Ex.path [⟨"Self", Tys.nil⟩, ⟨"ASSERT", Tys.nil⟩]))) (Blk.tail (Ex.call (Ex.path
  [⟨"OrdinalSetRef", Tys.nil⟩, ⟨"new", Tys.nil⟩]) (Exs.cons (Ex.ref false (Ex.field (Ex.path [⟨"self", Tys.nil⟩])
  "words")) (Exs.nil))))⟩

/-- `as_mut` of item 2 of `set/array.rs`. -/
def setArrayFn2_2 : FnDef :=
  ⟨"as_mut", SelfKind.refMut, [], Ty.path ["OrdinalSetMut"] (Tys.cons (Ty.path ["T"] Tys.nil) Tys.nil), Blk.semi
  (Ex.constBlock (Blk.tail (Ex.path [⟨"Self", Tys.nil⟩, ⟨"ASSERT", Tys.nil⟩]))) (Blk.tail (Ex.call (Ex.path
  [⟨"OrdinalSetMut", Tys.nil⟩, ⟨"new", Tys.nil⟩]) (Exs.cons (Ex.ref true (Ex.field (Ex.path [⟨"self", Tys.nil⟩])
  "words")) (Exs.nil))))⟩

/-- `contains` of item 2 of `set/array.rs`. -/
def setArrayFn2_3 : FnDef :=
  ⟨"contains", SelfKind.ref, [(Pat.path ["ordinal"], Ty.ref false (Ty.path ["T"] Tys.nil))], Ty.path ["bool"]
  Tys.nil, Blk.tail (Ex.method (Ex.method (Ex.path [⟨"self", Tys.nil⟩]) "as_ref" Tys.nil (Exs.nil)) "contains"
  Tys.nil (Exs.cons (Ex.path [⟨"ordinal", Tys.nil⟩]) (Exs.nil)))⟩

/-- `insert` of item 2 of `set/array.rs`. -/
def setArrayFn2_4 : FnDef :=
  ⟨"insert", SelfKind.refMut, [(Pat.path ["ordinal"], Ty.path ["T"] Tys.nil)], Ty.path ["bool"] Tys.nil, Blk.tail
  (Ex.method (Ex.method (Ex.path [⟨"self", Tys.nil⟩]) "as_mut" Tys.nil (Exs.nil)) "insert" Tys.nil (Exs.cons (Ex.path
  [⟨"ordinal", Tys.nil⟩]) (Exs.nil)))⟩

/-- Item 2 of `set/array.rs`. -/
def setArrayItem2 : Item :=
  Item.impl ⟨[("T", false), ("S", true)], none, Ty.path ["OrdinalArraySet"] (Tys.cons (Ty.path ["T"] Tys.nil)
  (Tys.cons (Ty.path ["S"] Tys.nil) Tys.nil)), [("ASSERT", Ty.tuple Tys.nil, setArrayConst2_0)], [setArrayFn2_0,
  setArrayFn2_1, setArrayFn2_2, setArrayFn2_3, setArrayFn2_4]⟩

/-- `default` of item 3 of `set/array.rs`. -/
def setArrayFn3_0 : FnDef :=
  ⟨"default", SelfKind.none, [], Ty.path ["Self"] Tys.nil, Blk.tail (Ex.record [⟨"OrdinalArraySet", Tys.nil⟩]
  (Fls.cons "words" (Ex.repeat (Ex.num 0 "") (Ex.path [⟨"S", Tys.nil⟩])) (Fls.cons "_phantom" (Ex.path
  [⟨"PhantomData", Tys.nil⟩]) (Fls.nil))))⟩

/-- Item 3 of `set/array.rs`. -/
def setArrayItem3 : Item :=
  Item.impl ⟨[("T", false), ("S", true)], some (Ty.path ["Default"] Tys.nil), Ty.path ["OrdinalArraySet"] (Tys.cons
  (Ty.path ["T"] Tys.nil) (Tys.cons (Ty.path ["S"] Tys.nil) Tys.nil)), [], [setArrayFn3_0]⟩

/-- `from_iter` of item 4 of `set/array.rs`. -/
def setArrayFn4_0 : FnDef :=
  ⟨"from_iter", SelfKind.none, [(Pat.path ["iter"], Ty.path ["I"] Tys.nil)], Ty.path ["Self"] Tys.nil, Blk.letS
  (Pat.mutVar "set") (Ex.call (Ex.path [⟨"OrdinalArraySet", Tys.nil⟩, ⟨"new", Tys.nil⟩]) (Exs.nil)) (Blk.stmt
  (Ex.forE (Pat.path ["value"]) (Ex.path [⟨"iter", Tys.nil⟩]) (Blk.semi (Ex.method (Ex.path [⟨"set", Tys.nil⟩])
  "insert" Tys.nil (Exs.cons (Ex.path [⟨"value", Tys.nil⟩]) (Exs.nil))) (Blk.nil))) (Blk.tail (Ex.path [⟨"set",
  Tys.nil⟩])))⟩

/-- Item 4 of `set/array.rs`. -/
def setArrayItem4 : Item :=
  Item.impl ⟨[("T", false), ("S", true)], some (Ty.path ["FromIterator"] (Tys.cons (Ty.path ["T"] Tys.nil) Tys.nil)),
  Ty.path ["OrdinalArraySet"] (Tys.cons (Ty.path ["T"] Tys.nil) (Tys.cons (Ty.path ["S"] Tys.nil) Tys.nil)), [],
  [setArrayFn4_0]⟩

/-- `clone` of item 5 of `set/array.rs`. -/
def setArrayFn5_0 : FnDef :=
  ⟨"clone", SelfKind.ref, [], Ty.path ["Self"] Tys.nil, Blk.tail (Ex.record [⟨"OrdinalArraySet", Tys.nil⟩] (Fls.cons
  "words" (Ex.field (Ex.path [⟨"self", Tys.nil⟩]) "words") (Fls.cons "_phantom" (Ex.path [⟨"PhantomData", Tys.nil⟩])
  (Fls.nil))))⟩

/-- Item 5 of `set/array.rs`. -/
def setArrayItem5 : Item :=
  Item.impl ⟨[("T", false), ("S", true)], some (Ty.path ["Clone"] Tys.nil), Ty.path ["OrdinalArraySet"] (Tys.cons
  (Ty.path ["T"] Tys.nil) (Tys.cons (Ty.path ["S"] Tys.nil) Tys.nil)), [], [setArrayFn5_0]⟩

/-- `fmt` of item 6 of `set/array.rs`. -/
def setArrayFn6_0 : FnDef :=
  ⟨"fmt", SelfKind.ref, [(Pat.path ["f"], Ty.ref true (Ty.path ["fmt", "Formatter"] Tys.nil))], Ty.path ["fmt",
  "Result"] Tys.nil, Blk.tail (Ex.call (Ex.path [⟨"Debug", Tys.nil⟩, ⟨"fmt", Tys.nil⟩]) (Exs.cons (Ex.ref false
  (Ex.method (Ex.path [⟨"self", Tys.nil⟩]) "as_ref" Tys.nil (Exs.nil))) (Exs.cons (Ex.path [⟨"f", Tys.nil⟩])
  (Exs.nil))))⟩

/-- Item 6 of `set/array.rs`. -/
def setArrayItem6 : Item :=
  Item.impl ⟨[("T", false), ("S", true)], some (Ty.path ["Debug"] Tys.nil), Ty.path ["OrdinalArraySet"] (Tys.cons
  (Ty.path ["T"] Tys.nil) (Tys.cons (Ty.path ["S"] Tys.nil) Tys.nil)), [], [setArrayFn6_0]⟩

/-- The items of `set/array.rs`. -/
def setArrayTree : List Item :=
  [setArrayItem0, setArrayItem1, setArrayItem2, setArrayItem3, setArrayItem4, setArrayItem5, setArrayItem6]

/-- Item 0 of `set/iter.rs`. -/
def setIterItem0 : Item :=
  Item.struct "Iter" [("iter", Ty.path ["crate", "OrdinalValues"] (Tys.cons (Ty.path ["T"] Tys.nil) Tys.nil)),
  ("set", Ty.path ["OrdinalSetRef"] (Tys.cons (Ty.path ["T"] Tys.nil) Tys.nil))]

/-- `new` of item 1 of `set/iter.rs`. -/
def setIterFn1_0 : FnDef :=
  ⟨"new", SelfKind.none, [(Pat.path ["set"], Ty.path ["OrdinalSetRef"] (Tys.cons (Ty.path ["T"] Tys.nil) Tys.nil))],
  Ty.path ["Self"] Tys.nil, Blk.tail (Ex.record [⟨"Iter", Tys.nil⟩] (Fls.cons "iter" (Ex.call (Ex.path [⟨"T",
  Tys.nil⟩, ⟨"all_values", Tys.nil⟩]) (Exs.nil)) (Fls.cons "set" (Ex.path [⟨"set", Tys.nil⟩]) (Fls.nil))))⟩

/-- Item 1 of `set/iter.rs`. -/
def setIterItem1 : Item :=
  Item.impl ⟨[("T", false)], none, Ty.path ["Iter"] (Tys.cons (Ty.path ["T"] Tys.nil) Tys.nil), [], [setIterFn1_0]⟩

/-- `next` of item 2 of `set/iter.rs`. -/
def setIterFn2_0 : FnDef :=
  ⟨"next", SelfKind.refMut, [], Ty.path ["Option"] (Tys.cons (Ty.path ["Self", "Item"] Tys.nil) Tys.nil), Blk.tail
  (Ex.loopE (Blk.letS (Pat.path ["next"]) (Ex.try (Ex.method (Ex.field (Ex.path [⟨"self", Tys.nil⟩]) "iter") "next"
  Tys.nil (Exs.nil))) (Blk.tail (Ex.ifE (Ex.method (Ex.field (Ex.path [⟨"self", Tys.nil⟩]) "set") "contains" Tys.nil
  (Exs.cons (Ex.ref false (Ex.path [⟨"next", Tys.nil⟩])) (Exs.nil))) (Blk.semi (Ex.ret (Ex.call (Ex.path [⟨"Some",
  Tys.nil⟩]) (Exs.cons (Ex.path [⟨"next", Tys.nil⟩]) (Exs.nil)))) (Blk.nil)) (Ex.tuple (Exs.nil))))))⟩

/-- `size_hint` of item 2 of `set/iter.rs`. -/
def setIterFn2_1 : FnDef :=
  ⟨"size_hint", SelfKind.ref, [], Ty.tuple (Tys.cons (Ty.path ["usize"] Tys.nil) (Tys.cons (Ty.path ["Option"]
  (Tys.cons (Ty.path ["usize"] Tys.nil) Tys.nil)) Tys.nil)), Blk.tail (Ex.tuple (Exs.cons (Ex.num 0 "") (Exs.cons
  (Ex.call (Ex.path [⟨"Some", Tys.nil⟩]) (Exs.cons (Ex.method (Ex.field (Ex.path [⟨"self", Tys.nil⟩]) "iter") "len"
  Tys.nil (Exs.nil)) (Exs.nil))) (Exs.nil))))⟩

/-- Item 2 of `set/iter.rs`. -/
def setIterItem2 : Item :=
  Item.impl ⟨[("T", false)], some (Ty.path ["Iterator"] Tys.nil), Ty.path ["Iter"] (Tys.cons (Ty.path ["T"] Tys.nil)
  Tys.nil), [], [setIterFn2_0, setIterFn2_1]⟩

/-- `next_back` of item 3 of `set/iter.rs`. -/
def setIterFn3_0 : FnDef :=
  ⟨"next_back", SelfKind.refMut, [], Ty.path ["Option"] (Tys.cons (Ty.path ["Self", "Item"] Tys.nil) Tys.nil),
  Blk.tail (Ex.loopE (Blk.letS (Pat.path ["next"]) (Ex.try (Ex.method (Ex.field (Ex.path [⟨"self", Tys.nil⟩]) "iter")
  "next_back" Tys.nil (Exs.nil))) (Blk.tail (Ex.ifE (Ex.method (Ex.field (Ex.path [⟨"self", Tys.nil⟩]) "set")
  "contains" Tys.nil (Exs.cons (Ex.ref false (Ex.path [⟨"next", Tys.nil⟩])) (Exs.nil))) (Blk.semi (Ex.ret (Ex.call
  (Ex.path [⟨"Some", Tys.nil⟩]) (Exs.cons (Ex.path [⟨"next", Tys.nil⟩]) (Exs.nil)))) (Blk.nil)) (Ex.tuple
  (Exs.nil))))))⟩

/-- Item 3 of `set/iter.rs`. -/
def setIterItem3 : Item :=
  Item.impl ⟨[("T", false)], some (Ty.path ["DoubleEndedIterator"] Tys.nil), Ty.path ["Iter"] (Tys.cons (Ty.path
  ["T"] Tys.nil) Tys.nil), [], [setIterFn3_0]⟩

/-- `clone` of item 4 of `set/iter.rs`. -/
def setIterFn4_0 : FnDef :=
  ⟨"clone", SelfKind.ref, [], Ty.path ["Self"] Tys.nil, Blk.tail (Ex.record [⟨"Iter", Tys.nil⟩] (Fls.cons "iter"
  (Ex.method (Ex.field (Ex.path [⟨"self", Tys.nil⟩]) "iter") "clone" Tys.nil (Exs.nil)) (Fls.cons "set" (Ex.method
  (Ex.field (Ex.path [⟨"self", Tys.nil⟩]) "set") "clone" Tys.nil (Exs.nil)) (Fls.nil))))⟩

/-- Item 4 of `set/iter.rs`. -/
def setIterItem4 : Item :=
  Item.impl ⟨[("T", false)], some (Ty.path ["Clone"] Tys.nil), Ty.path ["Iter"] (Tys.cons (Ty.path ["T"] Tys.nil)
  Tys.nil), [], [setIterFn4_0]⟩

/-- `fmt` of item 5 of `set/iter.rs`. -/
def setIterFn5_0 : FnDef :=
  ⟨"fmt", SelfKind.ref, [(Pat.path ["f"], Ty.ref true (Ty.path ["std", "fmt", "Formatter"] Tys.nil))], Ty.path
  ["std", "fmt", "Result"] Tys.nil, Blk.tail (Ex.method (Ex.method (Ex.method (Ex.path [⟨"f", Tys.nil⟩]) "debug_list"
  Tys.nil (Exs.nil)) "entries" Tys.nil (Exs.cons (Ex.method (Ex.path [⟨"self", Tys.nil⟩]) "clone" Tys.nil (Exs.nil))
  (Exs.nil))) "finish" Tys.nil (Exs.nil))⟩

/-- Item 5 of `set/iter.rs`. -/
def setIterItem5 : Item :=
  Item.impl ⟨[("T", false)], some (Ty.path ["Debug"] Tys.nil), Ty.path ["Iter"] (Tys.cons (Ty.path ["T"] Tys.nil)
  Tys.nil), [], [setIterFn5_0]⟩

/-- The items of `set/iter.rs`. -/
def setIterTree : List Item :=
  [setIterItem0, setIterItem1, setIterItem2, setIterItem3, setIterItem4, setIterItem5]

/-- Item 0 of `set/set_ref.rs`. -/
def setRefItem0 : Item :=
  Item.struct "OrdinalSetRef" [("words", Ty.ref false (Ty.slice (Ty.path ["u64"] Tys.nil))), ("_phantom", Ty.path
  ["PhantomData"] (Tys.cons (Ty.path ["T"] Tys.nil) Tys.nil))]

/-- `iter` of item 1 of `set/set_ref.rs`. -/
def setRefFn1_0 : FnDef :=
  ⟨"iter", SelfKind.value, [], Ty.path ["Iter"] (Tys.cons (Ty.path ["T"] Tys.nil) Tys.nil), Blk.tail (Ex.call
  (Ex.path [⟨"Iter", Tys.nil⟩, ⟨"new", Tys.nil⟩]) (Exs.cons (Ex.path [⟨"self", Tys.nil⟩]) (Exs.nil)))⟩

/-- `new` of item 1 of `set/set_ref.rs`. -/
def setRefFn1_1 : FnDef :=
  ⟨"new", SelfKind.none, [(Pat.path ["words"], Ty.ref false (Ty.slice (Ty.path ["u64"] Tys.nil)))], Ty.path ["Self"]
  Tys.nil, Blk.semi (Ex.mac "debug_assert" (Exs.cons (Ex.bin (BinOp.lor) (Ex.bin (BinOp.eq) (Ex.method (Ex.path
  [⟨"words", Tys.nil⟩]) "len" Tys.nil (Exs.nil)) (Ex.num 0 "")) (Ex.bin (BinOp.eq) (Ex.method (Ex.path [⟨"words",
  Tys.nil⟩]) "len" Tys.nil (Exs.nil)) (Ex.call (Ex.path [⟨"ordinal_array_set_s", Tys.cons (Ty.path ["T"] Tys.nil)
  Tys.nil⟩]) (Exs.nil)))) (Exs.nil))) (Blk.tail (Ex.record [⟨"OrdinalSetRef", Tys.nil⟩] (Fls.cons "words" (Ex.path
  [⟨"words", Tys.nil⟩]) (Fls.cons "_phantom" (Ex.path [⟨"PhantomData", Tys.nil⟩]) (Fls.nil)))))⟩

/-- `contains` of item 1 of `set/set_ref.rs`. -/
def setRefFn1_2 : FnDef :=
  ⟨"contains", SelfKind.ref, [(Pat.path ["ordinal"], Ty.ref false (Ty.path ["T"] Tys.nil))], Ty.path ["bool"]
  Tys.nil, Blk.letElse (Pat.ctor ["Some"] (Pats.cons (Pat.path ["word"]) (Pats.nil))) (Ex.method (Ex.field (Ex.path
  [⟨"self", Tys.nil⟩]) "words") "get" Tys.nil (Exs.cons (Ex.bin (BinOp.div) (Ex.method (Ex.path [⟨"ordinal",
  Tys.nil⟩]) "ordinal" Tys.nil (Exs.nil)) (Ex.cast (Ex.path [⟨"u64", Tys.nil⟩, ⟨"BITS", Tys.nil⟩]) (Ty.path ["usize"]
  Tys.nil))) (Exs.nil))) (Blk.semi (Ex.ret (Ex.bool false)) (Blk.nil)) (Blk.tail (Ex.bin (BinOp.ne) (Ex.bin
  (BinOp.and) (Ex.path [⟨"word", Tys.nil⟩]) (Ex.bin (BinOp.shl) (Ex.num 1 "") (Ex.bin (BinOp.rem) (Ex.method (Ex.path
  [⟨"ordinal", Tys.nil⟩]) "ordinal" Tys.nil (Exs.nil)) (Ex.cast (Ex.path [⟨"u64", Tys.nil⟩, ⟨"BITS", Tys.nil⟩])
  (Ty.path ["usize"] Tys.nil))))) (Ex.num 0 "")))⟩

/-- Item 1 of `set/set_ref.rs`. -/
def setRefItem1 : Item :=
  Item.impl ⟨[("T", false)], none, Ty.path ["OrdinalSetRef"] (Tys.cons (Ty.path ["T"] Tys.nil) Tys.nil), [],
  [setRefFn1_0, setRefFn1_1, setRefFn1_2]⟩

/-- `clone` of item 2 of `set/set_ref.rs`. -/
def setRefFn2_0 : FnDef :=
  ⟨"clone", SelfKind.ref, [], Ty.path ["Self"] Tys.nil, Blk.tail (Ex.record [⟨"OrdinalSetRef", Tys.nil⟩] (Fls.cons
  "words" (Ex.field (Ex.path [⟨"self", Tys.nil⟩]) "words") (Fls.cons "_phantom" (Ex.path [⟨"PhantomData", Tys.nil⟩])
  (Fls.nil))))⟩

/-- Item 2 of `set/set_ref.rs`. -/
def setRefItem2 : Item :=
  Item.impl ⟨[("T", false)], some (Ty.path ["Clone"] Tys.nil), Ty.path ["OrdinalSetRef"] (Tys.cons (Ty.path ["T"]
  Tys.nil) Tys.nil), [], [setRefFn2_0]⟩

/-- `fmt` of item 3 of `set/set_ref.rs`. -/
def setRefFn3_0 : FnDef :=
  ⟨"fmt", SelfKind.ref, [(Pat.path ["f"], Ty.ref true (Ty.path ["Formatter"] Tys.nil))], Ty.path ["std", "fmt",
  "Result"] Tys.nil, Blk.tail (Ex.method (Ex.method (Ex.method (Ex.path [⟨"f", Tys.nil⟩]) "debug_set" Tys.nil
  (Exs.nil)) "entries" Tys.nil (Exs.cons (Ex.method (Ex.method (Ex.path [⟨"self", Tys.nil⟩]) "clone" Tys.nil
  (Exs.nil)) "iter" Tys.nil (Exs.nil)) (Exs.nil))) "finish" Tys.nil (Exs.nil))⟩

/-- Item 3 of `set/set_ref.rs`. -/
def setRefItem3 : Item :=
  Item.impl ⟨[("T", false)], some (Ty.path ["Debug"] Tys.nil), Ty.path ["OrdinalSetRef"] (Tys.cons (Ty.path ["T"]
  Tys.nil) Tys.nil), [], [setRefFn3_0]⟩

/-- The items of `set/set_ref.rs`. -/
def setRefTree : List Item :=
  [setRefItem0, setRefItem1, setRefItem2, setRefItem3]

/-- Item 0 of `set/set_mut.rs`. -/
def setMutItem0 : Item :=
  Item.struct "OrdinalSetMut" [("words", Ty.ref true (Ty.slice (Ty.path ["u64"] Tys.nil))), ("_phantom", Ty.path
  ["PhantomData"] (Tys.cons (Ty.path ["T"] Tys.nil) Tys.nil))]

/-- `new` of item 1 of `set/set_mut.rs`. -/
def setMutFn1_0 : FnDef :=
  ⟨"new", SelfKind.none, [(Pat.path ["words"], Ty.ref true (Ty.slice (Ty.path ["u64"] Tys.nil)))], Ty.path ["Self"]
  Tys.nil, Blk.semi (Ex.mac "debug_assert" (Exs.cons (Ex.bin (BinOp.eq) (Ex.method (Ex.path [⟨"words", Tys.nil⟩])
  "len" Tys.nil (Exs.nil)) (Ex.call (Ex.path [⟨"ordinal_array_set_s", Tys.cons (Ty.path ["T"] Tys.nil) Tys.nil⟩])
  (Exs.nil))) (Exs.nil))) (Blk.tail (Ex.record [⟨"OrdinalSetMut", Tys.nil⟩] (Fls.cons "words" (Ex.path [⟨"words",
  Tys.nil⟩]) (Fls.cons "_phantom" (Ex.path [⟨"PhantomData", Tys.nil⟩]) (Fls.nil)))))⟩

/-- `as_ref` of item 1 of `set/set_mut.rs`. -/
def setMutFn1_1 : FnDef :=
  ⟨"as_ref", SelfKind.ref, [], Ty.path ["OrdinalSetRef"] (Tys.cons (Ty.path ["T"] Tys.nil) Tys.nil), Blk.tail
  (Ex.call (Ex.path [⟨"OrdinalSetRef", Tys.nil⟩, ⟨"new", Tys.nil⟩]) (Exs.cons (Ex.field (Ex.path [⟨"self", Tys.nil⟩])
  "words") (Exs.nil)))⟩

/-- `insert` of item 1 of `set/set_mut.rs`. -/
def setMutFn1_2 : FnDef :=
  ⟨"insert", SelfKind.refMut, [(Pat.path ["value"], Ty.path ["T"] Tys.nil)], Ty.path ["bool"] Tys.nil, Blk.letS
  (Pat.path ["prev"]) (Ex.method (Ex.method (Ex.path [⟨"self", Tys.nil⟩]) "as_ref" Tys.nil (Exs.nil)) "contains"
  Tys.nil (Exs.cons (Ex.ref false (Ex.path [⟨"value", Tys.nil⟩])) (Exs.nil))) (Blk.semi (Ex.assignOp (BinOp.or)
  (Ex.index (Ex.field (Ex.path [⟨"self", Tys.nil⟩]) "words") (Ex.bin (BinOp.div) (Ex.method (Ex.path [⟨"value",
  Tys.nil⟩]) "ordinal" Tys.nil (Exs.nil)) (Ex.cast (Ex.path [⟨"u64", Tys.nil⟩, ⟨"BITS", Tys.nil⟩]) (Ty.path ["usize"]
  Tys.nil)))) (Ex.bin (BinOp.shl) (Ex.num 1 "") (Ex.bin (BinOp.rem) (Ex.method (Ex.path [⟨"value", Tys.nil⟩])
  "ordinal" Tys.nil (Exs.nil)) (Ex.cast (Ex.path [⟨"u64", Tys.nil⟩, ⟨"BITS", Tys.nil⟩]) (Ty.path ["usize"]
  Tys.nil))))) (Blk.tail (Ex.un (UnOp.not) (Ex.path [⟨"prev", Tys.nil⟩]))))⟩

/-- Item 1 of `set/set_mut.rs`. -/
def setMutItem1 : Item :=
  Item.impl ⟨[("T", false)], none, Ty.path ["OrdinalSetMut"] (Tys.cons (Ty.path ["T"] Tys.nil) Tys.nil), [],
  [setMutFn1_0, setMutFn1_1, setMutFn1_2]⟩

/-- The items of `set/set_mut.rs`. -/
def setMutTree : List Item :=
  [setMutItem0, setMutItem1]

/-- Item 0 of `set/set.rs`. -/
def setItem0 : Item :=
  Item.enum "SetImpl" [("Small", Tys.cons (Ty.path ["u64"] Tys.nil) Tys.nil), ("Large", Tys.cons (Ty.path ["Box"]
  (Tys.cons (Ty.slice (Ty.path ["u64"] Tys.nil)) Tys.nil)) Tys.nil)]

/-- Item 1 of `set/set.rs`. -/
def setItem1 : Item :=
  Item.struct "OrdinalSet" [("set", Ty.path ["SetImpl"] Tys.nil), ("_phantom", Ty.path ["PhantomData"] (Tys.cons
  (Ty.path ["T"] Tys.nil) Tys.nil))]

/-- `IS_SMALL` of item 2 of `set/set.rs`. -/
def setConst2_0 : Ex :=
  Ex.bin (BinOp.le) (Ex.path [⟨"T", Tys.nil⟩, ⟨"ORDINAL_SIZE", Tys.nil⟩]) (Ex.cast (Ex.path [⟨"u64", Tys.nil⟩,
  ⟨"BITS", Tys.nil⟩]) (Ty.path ["usize"] Tys.nil))

/-- `new` of item 2 of `set/set.rs`. -/
def setFn2_0 : FnDef :=
  ⟨"new", SelfKind.none, [], Ty.path ["Self"] Tys.nil, Blk.tail (Ex.record [⟨"OrdinalSet", Tys.nil⟩] (Fls.cons "set"
  (Ex.ifE (Ex.path [⟨"Self", Tys.nil⟩, ⟨"IS_SMALL", Tys.nil⟩]) (Blk.tail (Ex.call (Ex.path [⟨"SetImpl", Tys.nil⟩,
  ⟨"Small", Tys.nil⟩]) (Exs.cons (Ex.num 0 "") (Exs.nil)))) (Ex.block (Blk.tail (Ex.call (Ex.path [⟨"SetImpl",
  Tys.nil⟩, ⟨"Large", Tys.nil⟩]) (Exs.cons (Ex.method (Ex.call (Ex.path [⟨"Vec", Tys.cons (Ty.path ["u64"] Tys.nil)
  Tys.nil⟩, ⟨"new", Tys.nil⟩]) (Exs.nil)) "into_boxed_slice" Tys.nil (Exs.nil)) (Exs.nil)))))) (Fls.cons "_phantom"
  (Ex.path [⟨"PhantomData", Tys.nil⟩]) (Fls.nil))))⟩

/-- `as_ref` of item 2 of `set/set.rs`. -/
def setFn2_1 : FnDef :=
  ⟨"as_ref", SelfKind.ref, [], Ty.path ["OrdinalSetRef"] (Tys.cons (Ty.path ["T"] Tys.nil) Tys.nil), Blk.tail
  (Ex.matchE (Ex.tuple (Exs.cons (Ex.path [⟨"Self", Tys.nil⟩, ⟨"IS_SMALL", Tys.nil⟩]) (Exs.cons (Ex.ref false
  (Ex.field (Ex.path [⟨"self", Tys.nil⟩]) "set")) (Exs.nil)))) (Arms.cons (Pat.tuple (Pats.cons (Pat.bool true)
  (Pats.cons (Pat.ctor ["SetImpl", "Small"] (Pats.cons (Pat.path ["set"]) (Pats.nil))) (Pats.nil)))) (Ex.call
  (Ex.path [⟨"OrdinalSetRef", Tys.nil⟩, ⟨"new", Tys.nil⟩]) (Exs.cons (Ex.call (Ex.path [⟨"slice", Tys.nil⟩,
  ⟨"from_ref", Tys.nil⟩]) (Exs.cons (Ex.path [⟨"set", Tys.nil⟩]) (Exs.nil))) (Exs.nil))) (Arms.cons (Pat.tuple
  (Pats.cons (Pat.bool false) (Pats.cons (Pat.ctor ["SetImpl", "Large"] (Pats.cons (Pat.path ["set"]) (Pats.nil)))
  (Pats.nil)))) (Ex.call (Ex.path [⟨"OrdinalSetRef", Tys.nil⟩, ⟨"new", Tys.nil⟩]) (Exs.cons (Ex.path [⟨"set",
  Tys.nil⟩]) (Exs.nil))) (Arms.cons (Pat.wild) (Ex.mac "unreachable" (Exs.nil)) (Arms.nil)))))⟩

/-- `contains` of item 2 of `set/set.rs`. -/
def setFn2_2 : FnDef :=
  ⟨"contains", SelfKind.ref, [(Pat.path ["ordinal"], Ty.ref false (Ty.path ["T"] Tys.nil))], Ty.path ["bool"]
  Tys.nil, Blk.tail (Ex.method (Ex.method (Ex.path [⟨"self", Tys.nil⟩]) "as_ref" Tys.nil (Exs.nil)) "contains"
  Tys.nil (Exs.cons (Ex.path [⟨"ordinal", Tys.nil⟩]) (Exs.nil)))⟩

/-- `insert` of item 2 of `set/set.rs`. -/
def setFn2_3 : FnDef :=
  ⟨"insert", SelfKind.refMut, [(Pat.path ["ordinal"], Ty.path ["T"] Tys.nil)], Ty.path ["bool"] Tys.nil, Blk.tail
  (Ex.matchE (Ex.tuple (Exs.cons (Ex.path [⟨"Self", Tys.nil⟩, ⟨"IS_SMALL", Tys.nil⟩]) (Exs.cons (Ex.ref true
  (Ex.field (Ex.path [⟨"self", Tys.nil⟩]) "set")) (Exs.nil)))) (Arms.cons (Pat.tuple (Pats.cons (Pat.bool true)
  (Pats.cons (Pat.ctor ["SetImpl", "Small"] (Pats.cons (Pat.path ["set"]) (Pats.nil))) (Pats.nil)))) (Ex.method
  (Ex.call (Ex.path [⟨"OrdinalSetMut", Tys.nil⟩, ⟨"new", Tys.nil⟩]) (Exs.cons (Ex.call (Ex.path [⟨"slice", Tys.nil⟩,
  ⟨"from_mut", Tys.nil⟩]) (Exs.cons (Ex.path [⟨"set", Tys.nil⟩]) (Exs.nil))) (Exs.nil))) "insert" Tys.nil (Exs.cons
  (Ex.path [⟨"ordinal", Tys.nil⟩]) (Exs.nil))) (Arms.cons (Pat.tuple (Pats.cons (Pat.bool false) (Pats.cons (Pat.ctor
  ["SetImpl", "Large"] (Pats.cons (Pat.path ["set"]) (Pats.nil))) (Pats.nil)))) (Ex.block (Blk.stmt (Ex.ifE
  (Ex.method (Ex.path [⟨"set", Tys.nil⟩]) "is_empty" Tys.nil (Exs.nil)) (Blk.semi (Ex.assign (Ex.un (UnOp.deref)
  (Ex.path [⟨"set", Tys.nil⟩])) (Ex.method (Ex.mac "vec" (Exs.cons (Ex.repeat (Ex.num 0 "") (Ex.bin (BinOp.div)
  (Ex.bin (BinOp.sub) (Ex.method (Ex.method (Ex.path [⟨"T", Tys.nil⟩, ⟨"ORDINAL_SIZE", Tys.nil⟩]) "checked_add"
  Tys.nil (Exs.cons (Ex.cast (Ex.path [⟨"u64", Tys.nil⟩, ⟨"BITS", Tys.nil⟩]) (Ty.path ["usize"] Tys.nil)) (Exs.nil)))
  "unwrap" Tys.nil (Exs.nil)) (Ex.num 1 "")) (Ex.cast (Ex.path [⟨"u64", Tys.nil⟩, ⟨"BITS", Tys.nil⟩]) (Ty.path
  ["usize"] Tys.nil)))) (Exs.nil))) "into_boxed_slice" Tys.nil (Exs.nil))) (Blk.nil)) (Ex.tuple (Exs.nil))) (Blk.tail
  (Ex.method (Ex.call (Ex.path [⟨"OrdinalSetMut", Tys.nil⟩, ⟨"new", Tys.nil⟩]) (Exs.cons (Ex.path [⟨"set", Tys.nil⟩])
  (Exs.nil))) "insert" Tys.nil (Exs.cons (Ex.path [⟨"ordinal", Tys.nil⟩]) (Exs.nil)))))) (Arms.cons (Pat.wild)
  (Ex.mac "unreachable" (Exs.nil)) (Arms.nil)))))⟩

/-- `iter` of item 2 of `set/set.rs`. -/
def setFn2_4 : FnDef :=
  ⟨"iter", SelfKind.ref, [], Ty.path ["Iter"] (Tys.cons (Ty.path ["T"] Tys.nil) Tys.nil), Blk.tail (Ex.method
  (Ex.method (Ex.path [⟨"self", Tys.nil⟩]) "as_ref" Tys.nil (Exs.nil)) "iter" Tys.nil (Exs.nil))⟩

/-- Item 2 of `set/set.rs`. -/
def setItem2 : Item :=
  Item.impl ⟨[("T", false)], none, Ty.path ["OrdinalSet"] (Tys.cons (Ty.path ["T"] Tys.nil) Tys.nil), [("IS_SMALL",
  Ty.path ["bool"] Tys.nil, setConst2_0)], [setFn2_0, setFn2_1, setFn2_2, setFn2_3, setFn2_4]⟩

/-- `default` of item 3 of `set/set.rs`. -/
def setFn3_0 : FnDef :=
  ⟨"default", SelfKind.none, [], Ty.path ["Self"] Tys.nil, Blk.tail (Ex.call (Ex.path [⟨"Self", Tys.nil⟩, ⟨"new",
  Tys.nil⟩]) (Exs.nil))⟩

/-- Item 3 of `set/set.rs`. -/
def setItem3 : Item :=
  Item.impl ⟨[("T", false)], some (Ty.path ["Default"] Tys.nil), Ty.path ["OrdinalSet"] (Tys.cons (Ty.path ["T"]
  Tys.nil) Tys.nil), [], [setFn3_0]⟩

/-- `from_iter` of item 4 of `set/set.rs`. -/
def setFn4_0 : FnDef :=
  ⟨"from_iter", SelfKind.none, [(Pat.path ["iter"], Ty.path ["I"] Tys.nil)], Ty.path ["Self"] Tys.nil, Blk.letS
  (Pat.mutVar "set") (Ex.call (Ex.path [⟨"OrdinalSet", Tys.nil⟩, ⟨"new", Tys.nil⟩]) (Exs.nil)) (Blk.stmt (Ex.forE
  (Pat.path ["ordinal"]) (Ex.path [⟨"iter", Tys.nil⟩]) (Blk.semi (Ex.method (Ex.path [⟨"set", Tys.nil⟩]) "insert"
  Tys.nil (Exs.cons (Ex.path [⟨"ordinal", Tys.nil⟩]) (Exs.nil))) (Blk.nil))) (Blk.tail (Ex.path [⟨"set",
  Tys.nil⟩])))⟩

/-- Item 4 of `set/set.rs`. -/
def setItem4 : Item :=
  Item.impl ⟨[("T", false)], some (Ty.path ["FromIterator"] (Tys.cons (Ty.path ["T"] Tys.nil) Tys.nil)), Ty.path
  ["OrdinalSet"] (Tys.cons (Ty.path ["T"] Tys.nil) Tys.nil), [], [setFn4_0]⟩

/-- `clone` of item 5 of `set/set.rs`. -/
def setFn5_0 : FnDef :=
  ⟨"clone", SelfKind.ref, [], Ty.path ["Self"] Tys.nil, Blk.tail (Ex.record [⟨"OrdinalSet", Tys.nil⟩] (Fls.cons "set"
  (Ex.method (Ex.field (Ex.path [⟨"self", Tys.nil⟩]) "set") "clone" Tys.nil (Exs.nil)) (Fls.cons "_phantom" (Ex.path
  [⟨"PhantomData", Tys.nil⟩]) (Fls.nil))))⟩

/-- Item 5 of `set/set.rs`. -/
def setItem5 : Item :=
  Item.impl ⟨[("T", false)], some (Ty.path ["Clone"] Tys.nil), Ty.path ["OrdinalSet"] (Tys.cons (Ty.path ["T"]
  Tys.nil) Tys.nil), [], [setFn5_0]⟩

/-- `fmt` of item 6 of `set/set.rs`. -/
def setFn6_0 : FnDef :=
  ⟨"fmt", SelfKind.ref, [(Pat.path ["f"], Ty.ref true (Ty.path ["Formatter"] Tys.nil))], Ty.path ["fmt", "Result"]
  Tys.nil, Blk.tail (Ex.call (Ex.path [⟨"Debug", Tys.nil⟩, ⟨"fmt", Tys.nil⟩]) (Exs.cons (Ex.ref false (Ex.method
  (Ex.path [⟨"self", Tys.nil⟩]) "as_ref" Tys.nil (Exs.nil))) (Exs.cons (Ex.path [⟨"f", Tys.nil⟩]) (Exs.nil))))⟩

/-- Item 6 of `set/set.rs`. -/
def setItem6 : Item :=
  Item.impl ⟨[("T", false)], some (Ty.path ["Debug"] Tys.nil), Ty.path ["OrdinalSet"] (Tys.cons (Ty.path ["T"]
  Tys.nil) Tys.nil), [], [setFn6_0]⟩

/-- The items of `set/set.rs`. -/
def setTree : List Item :=
  [setItem0, setItem1, setItem2, setItem3, setItem4, setItem5, setItem6]

/-- Item 0 of `set/set64.rs`. -/
def set64Item0 : Item :=
  Item.struct "Iter64" [("set", Ty.path ["u64"] Tys.nil), ("_phantom", Ty.path ["PhantomData"] (Tys.cons (Ty.path
  ["T"] Tys.nil) Tys.nil))]

/-- `next` of item 1 of `set/set64.rs`. -/
def set64Fn1_0 : FnDef :=
  ⟨"next", SelfKind.refMut, [], Ty.path ["Option"] (Tys.cons (Ty.path ["Self", "Item"] Tys.nil) Tys.nil), Blk.letS
  (Pat.path ["ordinal"]) (Ex.method (Ex.field (Ex.path [⟨"self", Tys.nil⟩]) "set") "trailing_zeros" Tys.nil
  (Exs.nil)) (Blk.tail (Ex.ifE (Ex.bin (BinOp.eq) (Ex.path [⟨"ordinal", Tys.nil⟩]) (Ex.path [⟨"u64", Tys.nil⟩,
  ⟨"BITS", Tys.nil⟩])) (Blk.tail (Ex.path [⟨"None", Tys.nil⟩])) (Ex.block (Blk.semi (Ex.assignOp (BinOp.and)
  (Ex.field (Ex.path [⟨"self", Tys.nil⟩]) "set") (Ex.un (UnOp.not) (Ex.bin (BinOp.shl) (Ex.num 1 "") (Ex.path
  [⟨"ordinal", Tys.nil⟩])))) (Blk.tail (Ex.call (Ex.path [⟨"Some", Tys.nil⟩]) (Exs.cons (Ex.method (Ex.call (Ex.path
  [⟨"T", Tys.nil⟩, ⟨"from_ordinal", Tys.nil⟩]) (Exs.cons (Ex.cast (Ex.path [⟨"ordinal", Tys.nil⟩]) (Ty.path ["usize"]
  Tys.nil)) (Exs.nil))) "unwrap" Tys.nil (Exs.nil)) (Exs.nil))))))))⟩

/-- `size_hint` of item 1 of `set/set64.rs`. -/
def set64Fn1_1 : FnDef :=
  ⟨"size_hint", SelfKind.ref, [], Ty.tuple (Tys.cons (Ty.path ["usize"] Tys.nil) (Tys.cons (Ty.path ["Option"]
  (Tys.cons (Ty.path ["usize"] Tys.nil) Tys.nil)) Tys.nil)), Blk.letS (Pat.path ["len"]) (Ex.method (Ex.path
  [⟨"self", Tys.nil⟩]) "len" Tys.nil (Exs.nil)) (Blk.tail (Ex.tuple (Exs.cons (Ex.path [⟨"len", Tys.nil⟩]) (Exs.cons
  (Ex.call (Ex.path [⟨"Some", Tys.nil⟩]) (Exs.cons (Ex.path [⟨"len", Tys.nil⟩]) (Exs.nil))) (Exs.nil)))))⟩

/-- Item 1 of `set/set64.rs`. -/
def set64Item1 : Item :=
  Item.impl ⟨[("T", false)], some (Ty.path ["Iterator"] Tys.nil), Ty.path ["Iter64"] (Tys.cons (Ty.path ["T"]
  Tys.nil) Tys.nil), [], [set64Fn1_0, set64Fn1_1]⟩

/-- `len` of item 2 of `set/set64.rs`. -/
def set64Fn2_0 : FnDef :=
  ⟨"len", SelfKind.ref, [], Ty.path ["usize"] Tys.nil, Blk.tail (Ex.cast (Ex.method (Ex.field (Ex.path [⟨"self",
  Tys.nil⟩]) "set") "count_ones" Tys.nil (Exs.nil)) (Ty.path ["usize"] Tys.nil))⟩

/-- Item 2 of `set/set64.rs`. -/
def set64Item2 : Item :=
  Item.impl ⟨[("T", false)], some (Ty.path ["ExactSizeIterator"] Tys.nil), Ty.path ["Iter64"] (Tys.cons (Ty.path
  ["T"] Tys.nil) Tys.nil), [], [set64Fn2_0]⟩

/-- `next_back` of item 3 of `set/set64.rs`. -/
def set64Fn3_0 : FnDef :=
  ⟨"next_back", SelfKind.refMut, [], Ty.path ["Option"] (Tys.cons (Ty.path ["Self", "Item"] Tys.nil) Tys.nil),
  Blk.letS (Pat.path ["ordinal"]) (Ex.try (Ex.method (Ex.bin (BinOp.sub) (Ex.path [⟨"u64", Tys.nil⟩, ⟨"BITS",
  Tys.nil⟩]) (Ex.num 1 "")) "checked_sub" Tys.nil (Exs.cons (Ex.method (Ex.field (Ex.path [⟨"self", Tys.nil⟩]) "set")
  "leading_zeros" Tys.nil (Exs.nil)) (Exs.nil)))) (Blk.semi (Ex.assignOp (BinOp.and) (Ex.field (Ex.path [⟨"self",
  Tys.nil⟩]) "set") (Ex.un (UnOp.not) (Ex.bin (BinOp.shl) (Ex.num 1 "") (Ex.path [⟨"ordinal", Tys.nil⟩])))) (Blk.tail
  (Ex.call (Ex.path [⟨"Some", Tys.nil⟩]) (Exs.cons (Ex.method (Ex.call (Ex.path [⟨"T", Tys.nil⟩, ⟨"from_ordinal",
  Tys.nil⟩]) (Exs.cons (Ex.cast (Ex.path [⟨"ordinal", Tys.nil⟩]) (Ty.path ["usize"] Tys.nil)) (Exs.nil))) "unwrap"
  Tys.nil (Exs.nil)) (Exs.nil)))))⟩

/-- Item 3 of `set/set64.rs`. -/
def set64Item3 : Item :=
  Item.impl ⟨[("T", false)], some (Ty.path ["DoubleEndedIterator"] Tys.nil), Ty.path ["Iter64"] (Tys.cons (Ty.path
  ["T"] Tys.nil) Tys.nil), [], [set64Fn3_0]⟩

/-- `clone` of item 4 of `set/set64.rs`. -/
def set64Fn4_0 : FnDef :=
  ⟨"clone", SelfKind.ref, [], Ty.path ["Self"] Tys.nil, Blk.tail (Ex.record [⟨"Iter64", Tys.nil⟩] (Fls.cons "set"
  (Ex.field (Ex.path [⟨"self", Tys.nil⟩]) "set") (Fls.cons "_phantom" (Ex.path [⟨"PhantomData", Tys.nil⟩])
  (Fls.nil))))⟩

/-- Item 4 of `set/set64.rs`. -/
def set64Item4 : Item :=
  Item.impl ⟨[("T", false)], some (Ty.path ["Clone"] Tys.nil), Ty.path ["Iter64"] (Tys.cons (Ty.path ["T"] Tys.nil)
  Tys.nil), [], [set64Fn4_0]⟩

/-- `fmt` of item 5 of `set/set64.rs`. -/
def set64Fn5_0 : FnDef :=
  ⟨"fmt", SelfKind.ref, [(Pat.path ["f"], Ty.ref true (Ty.path ["fmt", "Formatter"] Tys.nil))], Ty.path ["fmt",
  "Result"] Tys.nil, Blk.tail (Ex.method (Ex.method (Ex.method (Ex.path [⟨"f", Tys.nil⟩]) "debug_list" Tys.nil
  (Exs.nil)) "entries" Tys.nil (Exs.cons (Ex.method (Ex.path [⟨"self", Tys.nil⟩]) "clone" Tys.nil (Exs.nil))
  (Exs.nil))) "finish" Tys.nil (Exs.nil))⟩

/-- Item 5 of `set/set64.rs`. -/
def set64Item5 : Item :=
  Item.impl ⟨[("T", false)], some (Ty.path ["Debug"] Tys.nil), Ty.path ["Iter64"] (Tys.cons (Ty.path ["T"] Tys.nil)
  Tys.nil), [], [set64Fn5_0]⟩

/-- Item 6 of `set/set64.rs`. -/
def set64Item6 : Item :=
  Item.struct "OrdinalSet64" [("set", Ty.path ["u64"] Tys.nil), ("_phantom", Ty.path ["PhantomData"] (Tys.cons
  (Ty.path ["T"] Tys.nil) Tys.nil))]

/-- `ASSERT` of item 7 of `set/set64.rs`. -/
def set64Const7_0 : Ex :=
  Ex.block (Blk.semi (Ex.mac "assert" (Exs.cons (Ex.bin (BinOp.le) (Ex.path [⟨"T", Tys.nil⟩, ⟨"ORDINAL_SIZE",
  Tys.nil⟩]) (Ex.cast (Ex.path [⟨"u64", Tys.nil⟩, ⟨"BITS", Tys.nil⟩]) (Ty.path ["usize"] Tys.nil))) (Exs.nil)))
  (Blk.nil))

/-- `new` of item 7 of `set/set64.rs`. -/
def set64Fn7_0 : FnDef :=
  ⟨"new", SelfKind.none, [], Ty.path ["Self"] Tys.nil, Blk.semi (Ex.constBlock (Blk.tail (Ex.path [⟨"Self", Tys.nil⟩,
  ⟨"ASSERT", Tys.nil⟩]))) (Blk.tail (Ex.record [⟨"OrdinalSet64", Tys.nil⟩] (Fls.cons "set" (Ex.num 0 "") (Fls.cons
  "_phantom" (Ex.path [⟨"PhantomData", Tys.nil⟩]) (Fls.nil)))))⟩

/-- `as_ref` of item 7 of `set/set64.rs`. -/
def set64Fn7_1 : FnDef :=
  ⟨"as_ref", SelfKind.ref, [], Ty.path ["OrdinalSetRef"] (Tys.cons (Ty.path ["T"] Tys.nil) Tys.nil), Blk.tail
  (Ex.call (Ex.path [⟨"OrdinalSetRef", Tys.nil⟩, ⟨"new", Tys.nil⟩]) (Exs.cons (Ex.call (Ex.path [⟨"slice", Tys.nil⟩,
  ⟨"from_ref", Tys.nil⟩]) (Exs.cons (Ex.ref false (Ex.field (Ex.path [⟨"self", Tys.nil⟩]) "set")) (Exs.nil)))
  (Exs.nil)))⟩

/-- `all` of item 7 of `set/set64.rs`. -/
def set64Fn7_2 : FnDef :=
  ⟨"all", SelfKind.none, [], Ty.path ["Self"] Tys.nil, Blk.semi (Ex.constBlock (Blk.tail (Ex.path [⟨"Self", Tys.nil⟩,
  ⟨"ASSERT", Tys.nil⟩]))) (Blk.tail (Ex.record [⟨"OrdinalSet64", Tys.nil⟩] (Fls.cons "set" (Ex.bin (BinOp.sub)
  (Ex.bin (BinOp.shl) (Ex.num 1 "") (Ex.path [⟨"T", Tys.nil⟩, ⟨"ORDINAL_SIZE", Tys.nil⟩])) (Ex.num 1 "")) (Fls.cons
  "_phantom" (Ex.path [⟨"PhantomData", Tys.nil⟩]) (Fls.nil)))))⟩

/-- `insert` of item 7 of `set/set64.rs`. -/
def set64Fn7_3 : FnDef :=
  ⟨"insert", SelfKind.refMut, [(Pat.path ["ordinal"], Ty.path ["T"] Tys.nil)], Ty.path ["bool"] Tys.nil, Blk.semi
  (Ex.constBlock (Blk.tail (Ex.path [⟨"Self", Tys.nil⟩, ⟨"ASSERT", Tys.nil⟩]))) (Blk.letS (Pat.path ["r"]) (Ex.un
  (UnOp.not) (Ex.method (Ex.path [⟨"self", Tys.nil⟩]) "contains" Tys.nil (Exs.cons (Ex.ref false (Ex.path
  [⟨"ordinal", Tys.nil⟩])) (Exs.nil)))) (Blk.semi (Ex.assignOp (BinOp.or) (Ex.field (Ex.path [⟨"self", Tys.nil⟩])
  "set") (Ex.bin (BinOp.shl) (Ex.num 1 "") (Ex.method (Ex.path [⟨"ordinal", Tys.nil⟩]) "ordinal" Tys.nil (Exs.nil))))
  (Blk.tail (Ex.path [⟨"r", Tys.nil⟩]))))⟩

/-- `iter` of item 7 of `set/set64.rs`. -/
def set64Fn7_4 : FnDef :=
  ⟨"iter", SelfKind.ref, [], Ty.path ["Iter64"] (Tys.cons (Ty.path ["T"] Tys.nil) Tys.nil), Blk.semi (Ex.constBlock
  (Blk.tail (Ex.path [⟨"Self", Tys.nil⟩, ⟨"ASSERT", Tys.nil⟩]))) (Blk.tail (Ex.record [⟨"Iter64", Tys.nil⟩] (Fls.cons
  "set" (Ex.field (Ex.path [⟨"self", Tys.nil⟩]) "set") (Fls.cons "_phantom" (Ex.path [⟨"PhantomData", Tys.nil⟩])
  (Fls.nil)))))⟩

/-- `contains` of item 7 of `set/set64.rs`. -/
def set64Fn7_5 : FnDef :=
  ⟨"contains", SelfKind.ref, [(Pat.path ["ordinal"], Ty.ref false (Ty.path ["T"] Tys.nil))], Ty.path ["bool"]
  Tys.nil, Blk.semi (Ex.constBlock (Blk.tail (Ex.path [⟨"Self", Tys.nil⟩, ⟨"ASSERT", Tys.nil⟩]))) (Blk.tail (Ex.bin
  (BinOp.ne) (Ex.bin (BinOp.and) (Ex.field (Ex.path [⟨"self", Tys.nil⟩]) "set") (Ex.bin (BinOp.shl) (Ex.num 1 "")
  (Ex.method (Ex.path [⟨"ordinal", Tys.nil⟩]) "ordinal" Tys.nil (Exs.nil)))) (Ex.num 0 "")))⟩

/-- Item 7 of `set/set64.rs`. -/
def set64Item7 : Item :=
  Item.impl ⟨[("T", false)], none, Ty.path ["OrdinalSet64"] (Tys.cons (Ty.path ["T"] Tys.nil) Tys.nil), [("ASSERT",
  Ty.tuple Tys.nil, set64Const7_0)], [set64Fn7_0, set64Fn7_1, set64Fn7_2, set64Fn7_3, set64Fn7_4, set64Fn7_5]⟩

/-- `default` of item 8 of `set/set64.rs`. -/
def set64Fn8_0 : FnDef :=
  ⟨"default", SelfKind.none, [], Ty.path ["Self"] Tys.nil, Blk.tail (Ex.call (Ex.path [⟨"OrdinalSet64", Tys.nil⟩,
  ⟨"new", Tys.nil⟩]) (Exs.nil))⟩

/-- Item 8 of `set/set64.rs`. -/
def set64Item8 : Item :=
  Item.impl ⟨[("T", false)], some (Ty.path ["Default"] Tys.nil), Ty.path ["OrdinalSet64"] (Tys.cons (Ty.path ["T"]
  Tys.nil) Tys.nil), [], [set64Fn8_0]⟩

/-- `from_iter` of item 9 of `set/set64.rs`. -/
def set64Fn9_0 : FnDef :=
  ⟨"from_iter", SelfKind.none, [(Pat.path ["iter"], Ty.path ["I"] Tys.nil)], Ty.path ["Self"] Tys.nil, Blk.letS
  (Pat.mutVar "set") (Ex.call (Ex.path [⟨"OrdinalSet64", Tys.nil⟩, ⟨"new", Tys.nil⟩]) (Exs.nil)) (Blk.stmt (Ex.forE
  (Pat.path ["ordinal"]) (Ex.path [⟨"iter", Tys.nil⟩]) (Blk.semi (Ex.assignOp (BinOp.or) (Ex.field (Ex.path [⟨"set",
  Tys.nil⟩]) "set") (Ex.bin (BinOp.shl) (Ex.num 1 "") (Ex.method (Ex.path [⟨"ordinal", Tys.nil⟩]) "ordinal" Tys.nil
  (Exs.nil)))) (Blk.nil))) (Blk.tail (Ex.path [⟨"set", Tys.nil⟩])))⟩

/-- Item 9 of `set/set64.rs`. -/
def set64Item9 : Item :=
  Item.impl ⟨[("T", false)], some (Ty.path ["FromIterator"] (Tys.cons (Ty.path ["T"] Tys.nil) Tys.nil)), Ty.path
  ["OrdinalSet64"] (Tys.cons (Ty.path ["T"] Tys.nil) Tys.nil), [], [set64Fn9_0]⟩

/-- `clone` of item 10 of `set/set64.rs`. -/
def set64Fn10_0 : FnDef :=
  ⟨"clone", SelfKind.ref, [], Ty.path ["Self"] Tys.nil, Blk.tail (Ex.record [⟨"OrdinalSet64", Tys.nil⟩] (Fls.cons
  "set" (Ex.field (Ex.path [⟨"self", Tys.nil⟩]) "set") (Fls.cons "_phantom" (Ex.path [⟨"PhantomData", Tys.nil⟩])
  (Fls.nil))))⟩

/-- Item 10 of `set/set64.rs`. -/
def set64Item10 : Item :=
  Item.impl ⟨[("T", false)], some (Ty.path ["Clone"] Tys.nil), Ty.path ["OrdinalSet64"] (Tys.cons (Ty.path ["T"]
  Tys.nil) Tys.nil), [], [set64Fn10_0]⟩

/-- `fmt` of item 11 of `set/set64.rs`. -/
def set64Fn11_0 : FnDef :=
  ⟨"fmt", SelfKind.ref, [(Pat.path ["f"], Ty.ref true (Ty.path ["Formatter"] Tys.nil))], Ty.path ["fmt", "Result"]
  Tys.nil, Blk.tail (Ex.call (Ex.path [⟨"Debug", Tys.nil⟩, ⟨"fmt", Tys.nil⟩]) (Exs.cons (Ex.ref false (Ex.method
  (Ex.path [⟨"self", Tys.nil⟩]) "as_ref" Tys.nil (Exs.nil))) (Exs.cons (Ex.path [⟨"f", Tys.nil⟩]) (Exs.nil))))⟩

/-- Item 11 of `set/set64.rs`. -/
def set64Item11 : Item :=
  Item.impl ⟨[("T", false)], some (Ty.path ["Debug"] Tys.nil), Ty.path ["OrdinalSet64"] (Tys.cons (Ty.path ["T"]
  Tys.nil) Tys.nil), [], [set64Fn11_0]⟩

/-- The items of `set/set64.rs`. -/
def set64Tree : List Item :=
  [set64Item0, set64Item1, set64Item2, set64Item3, set64Item4, set64Item5, set64Item6, set64Item7, set64Item8, set64Item9, set64Item10, set64Item11]

end OrdinalMap.Text
