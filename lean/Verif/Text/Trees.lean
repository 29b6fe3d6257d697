import Verif.Text.Parse
/-!
# Syntax trees

The trees of the texts in `Verif.Text.Files`, written by `tools/text.py`.  `Verif.Text.Parsed` proves that they are right.
-/

namespace OrdinalMap.Text

/-- `ORDINAL_SIZE` of item 0 of `ordinal/impls/primitive.rs`. -/
def primitiveConst0_0 : Ex :=
  Ex.num 2 ""

/-- `ordinal` of item 0 of `ordinal/impls/primitive.rs`. -/
def primitiveFn0_0 : FnDef :=
  ⟨"ordinal", SelfKind.ref, [], Ty.path ["usize"] Tys.nil, Blk.tail (Ex.cast (Ex.un (UnOp.deref) (Ex.path [⟨"self",
  Tys.nil⟩])) (Ty.path ["usize"] Tys.nil))⟩

/-- `from_ordinal` of item 0 of `ordinal/impls/primitive.rs`. -/
def primitiveFn0_1 : FnDef :=
  ⟨"from_ordinal", SelfKind.none, [(Pat.path ["ordinal"], Ty.path ["usize"] Tys.nil)], Ty.path ["Option"] (Tys.cons
  (Ty.path ["Self"] Tys.nil) Tys.nil), Blk.tail (Ex.matchE (Ex.path [⟨"ordinal", Tys.nil⟩]) (Arms.cons (Pat.num 0)
  (Ex.call (Ex.path [⟨"Some", Tys.nil⟩]) (Exs.cons (Ex.bool false) (Exs.nil))) (Arms.cons (Pat.num 1) (Ex.call
  (Ex.path [⟨"Some", Tys.nil⟩]) (Exs.cons (Ex.bool true) (Exs.nil))) (Arms.cons (Pat.wild) (Ex.path [⟨"None",
  Tys.nil⟩]) (Arms.nil)))))⟩

/-- Item 0 of `ordinal/impls/primitive.rs`. -/
def primitiveItem0 : Item :=
  Item.impl ⟨[], some (Ty.path ["Ordinal"] Tys.nil), Ty.path ["bool"] Tys.nil, [("ORDINAL_SIZE", Ty.path ["usize"]
  Tys.nil, primitiveConst0_0)], [primitiveFn0_0, primitiveFn0_1]⟩

/-- `ORDINAL_SIZE` of item 1 of `ordinal/impls/primitive.rs`. -/
def primitiveConst1_0 : Ex :=
  Ex.bin (BinOp.add) (Ex.cast (Ex.path [⟨"u8", Tys.nil⟩, ⟨"MAX", Tys.nil⟩]) (Ty.path ["usize"] Tys.nil)) (Ex.num 1
  "")

/-- `ordinal` of item 1 of `ordinal/impls/primitive.rs`. -/
def primitiveFn1_0 : FnDef :=
  ⟨"ordinal", SelfKind.ref, [], Ty.path ["usize"] Tys.nil, Blk.tail (Ex.cast (Ex.un (UnOp.deref) (Ex.path [⟨"self",
  Tys.nil⟩])) (Ty.path ["usize"] Tys.nil))⟩

/-- `from_ordinal` of item 1 of `ordinal/impls/primitive.rs`. -/
def primitiveFn1_1 : FnDef :=
  ⟨"from_ordinal", SelfKind.none, [(Pat.path ["ordinal"], Ty.path ["usize"] Tys.nil)], Ty.path ["Option"] (Tys.cons
  (Ty.path ["Self"] Tys.nil) Tys.nil), Blk.tail (Ex.method (Ex.call (Ex.path [⟨"u8", Tys.nil⟩, ⟨"try_from",
  Tys.nil⟩]) (Exs.cons (Ex.path [⟨"ordinal", Tys.nil⟩]) (Exs.nil))) "ok" Tys.nil (Exs.nil))⟩

/-- Item 1 of `ordinal/impls/primitive.rs`. -/
def primitiveItem1 : Item :=
  Item.impl ⟨[], some (Ty.path ["Ordinal"] Tys.nil), Ty.path ["u8"] Tys.nil, [("ORDINAL_SIZE", Ty.path ["usize"]
  Tys.nil, primitiveConst1_0)], [primitiveFn1_0, primitiveFn1_1]⟩

/-- `ORDINAL_SIZE` of item 2 of `ordinal/impls/primitive.rs`. -/
def primitiveConst2_0 : Ex :=
  Ex.cast (Ex.bin (BinOp.add) (Ex.bin (BinOp.sub) (Ex.cast (Ex.path [⟨"i8", Tys.nil⟩, ⟨"MAX", Tys.nil⟩]) (Ty.path
  ["i16"] Tys.nil)) (Ex.cast (Ex.path [⟨"i8", Tys.nil⟩, ⟨"MIN", Tys.nil⟩]) (Ty.path ["i16"] Tys.nil))) (Ex.num 1 ""))
  (Ty.path ["usize"] Tys.nil)

/-- `ordinal` of item 2 of `ordinal/impls/primitive.rs`. -/
def primitiveFn2_0 : FnDef :=
  ⟨"ordinal", SelfKind.ref, [], Ty.path ["usize"] Tys.nil, Blk.tail (Ex.cast (Ex.method (Ex.path [⟨"self", Tys.nil⟩])
  "abs_diff" Tys.nil (Exs.cons (Ex.path [⟨"i8", Tys.nil⟩, ⟨"MIN", Tys.nil⟩]) (Exs.nil))) (Ty.path ["usize"]
  Tys.nil))⟩

/-- `from_ordinal` of item 2 of `ordinal/impls/primitive.rs`. -/
def primitiveFn2_1 : FnDef :=
  ⟨"from_ordinal", SelfKind.none, [(Pat.path ["ordinal"], Ty.path ["usize"] Tys.nil)], Ty.path ["Option"] (Tys.cons
  (Ty.path ["Self"] Tys.nil) Tys.nil), Blk.tail (Ex.method (Ex.path [⟨"i8", Tys.nil⟩, ⟨"MIN", Tys.nil⟩])
  "checked_add_unsigned" Tys.nil (Exs.cons (Ex.try (Ex.method (Ex.call (Ex.path [⟨"u8", Tys.nil⟩, ⟨"try_from",
  Tys.nil⟩]) (Exs.cons (Ex.path [⟨"ordinal", Tys.nil⟩]) (Exs.nil))) "ok" Tys.nil (Exs.nil))) (Exs.nil)))⟩

/-- Item 2 of `ordinal/impls/primitive.rs`. -/
def primitiveItem2 : Item :=
  Item.impl ⟨[], some (Ty.path ["Ordinal"] Tys.nil), Ty.path ["i8"] Tys.nil, [("ORDINAL_SIZE", Ty.path ["usize"]
  Tys.nil, primitiveConst2_0)], [primitiveFn2_0, primitiveFn2_1]⟩

/-- `ORDINAL_SIZE` of item 3 of `ordinal/impls/primitive.rs`. -/
def primitiveConst3_0 : Ex :=
  Ex.bin (BinOp.add) (Ex.cast (Ex.path [⟨"u16", Tys.nil⟩, ⟨"MAX", Tys.nil⟩]) (Ty.path ["usize"] Tys.nil)) (Ex.num 1
  "")

/-- `ordinal` of item 3 of `ordinal/impls/primitive.rs`. -/
def primitiveFn3_0 : FnDef :=
  ⟨"ordinal", SelfKind.ref, [], Ty.path ["usize"] Tys.nil, Blk.tail (Ex.cast (Ex.un (UnOp.deref) (Ex.path [⟨"self",
  Tys.nil⟩])) (Ty.path ["usize"] Tys.nil))⟩

/-- `from_ordinal` of item 3 of `ordinal/impls/primitive.rs`. -/
def primitiveFn3_1 : FnDef :=
  ⟨"from_ordinal", SelfKind.none, [(Pat.path ["ordinal"], Ty.path ["usize"] Tys.nil)], Ty.path ["Option"] (Tys.cons
  (Ty.path ["Self"] Tys.nil) Tys.nil), Blk.tail (Ex.method (Ex.call (Ex.path [⟨"u16", Tys.nil⟩, ⟨"try_from",
  Tys.nil⟩]) (Exs.cons (Ex.path [⟨"ordinal", Tys.nil⟩]) (Exs.nil))) "ok" Tys.nil (Exs.nil))⟩

/-- Item 3 of `ordinal/impls/primitive.rs`. -/
def primitiveItem3 : Item :=
  Item.impl ⟨[], some (Ty.path ["Ordinal"] Tys.nil), Ty.path ["u16"] Tys.nil, [("ORDINAL_SIZE", Ty.path ["usize"]
  Tys.nil, primitiveConst3_0)], [primitiveFn3_0, primitiveFn3_1]⟩

/-- `ORDINAL_SIZE` of item 4 of `ordinal/impls/primitive.rs`. -/
def primitiveConst4_0 : Ex :=
  Ex.cast (Ex.bin (BinOp.add) (Ex.bin (BinOp.sub) (Ex.cast (Ex.path [⟨"i16", Tys.nil⟩, ⟨"MAX", Tys.nil⟩]) (Ty.path
  ["isize"] Tys.nil)) (Ex.cast (Ex.path [⟨"i16", Tys.nil⟩, ⟨"MIN", Tys.nil⟩]) (Ty.path ["isize"] Tys.nil))) (Ex.num 1
  "")) (Ty.path ["usize"] Tys.nil)

/-- `ordinal` of item 4 of `ordinal/impls/primitive.rs`. -/
def primitiveFn4_0 : FnDef :=
  ⟨"ordinal", SelfKind.ref, [], Ty.path ["usize"] Tys.nil, Blk.tail (Ex.cast (Ex.method (Ex.path [⟨"self", Tys.nil⟩])
  "abs_diff" Tys.nil (Exs.cons (Ex.path [⟨"i16", Tys.nil⟩, ⟨"MIN", Tys.nil⟩]) (Exs.nil))) (Ty.path ["usize"]
  Tys.nil))⟩

/-- `from_ordinal` of item 4 of `ordinal/impls/primitive.rs`. -/
def primitiveFn4_1 : FnDef :=
  ⟨"from_ordinal", SelfKind.none, [(Pat.path ["ordinal"], Ty.path ["usize"] Tys.nil)], Ty.path ["Option"] (Tys.cons
  (Ty.path ["Self"] Tys.nil) Tys.nil), Blk.tail (Ex.method (Ex.path [⟨"i16", Tys.nil⟩, ⟨"MIN", Tys.nil⟩])
  "checked_add_unsigned" Tys.nil (Exs.cons (Ex.try (Ex.method (Ex.call (Ex.path [⟨"u16", Tys.nil⟩, ⟨"try_from",
  Tys.nil⟩]) (Exs.cons (Ex.path [⟨"ordinal", Tys.nil⟩]) (Exs.nil))) "ok" Tys.nil (Exs.nil))) (Exs.nil)))⟩

/-- Item 4 of `ordinal/impls/primitive.rs`. -/
def primitiveItem4 : Item :=
  Item.impl ⟨[], some (Ty.path ["Ordinal"] Tys.nil), Ty.path ["i16"] Tys.nil, [("ORDINAL_SIZE", Ty.path ["usize"]
  Tys.nil, primitiveConst4_0)], [primitiveFn4_0, primitiveFn4_1]⟩

/-- `ORDINAL_SIZE` of item 5 of `ordinal/impls/primitive.rs`. -/
def primitiveConst5_0 : Ex :=
  Ex.bin (BinOp.add) (Ex.cast (Ex.path [⟨"u32", Tys.nil⟩, ⟨"MAX", Tys.nil⟩]) (Ty.path ["usize"] Tys.nil)) (Ex.num 1
  "")

/-- `ordinal` of item 5 of `ordinal/impls/primitive.rs`. -/
def primitiveFn5_0 : FnDef :=
  ⟨"ordinal", SelfKind.ref, [], Ty.path ["usize"] Tys.nil, Blk.semi (Ex.constBlock (Blk.tail (Ex.path [⟨"Self",
  Tys.nil⟩, ⟨"ORDINAL_SIZE", Tys.nil⟩]))) (Blk.tail (Ex.cast (Ex.un (UnOp.deref) (Ex.path [⟨"self", Tys.nil⟩]))
  (Ty.path ["usize"] Tys.nil)))⟩

/-- `from_ordinal` of item 5 of `ordinal/impls/primitive.rs`. -/
def primitiveFn5_1 : FnDef :=
  ⟨"from_ordinal", SelfKind.none, [(Pat.path ["ordinal"], Ty.path ["usize"] Tys.nil)], Ty.path ["Option"] (Tys.cons
  (Ty.path ["Self"] Tys.nil) Tys.nil), Blk.tail (Ex.method (Ex.call (Ex.path [⟨"u32", Tys.nil⟩, ⟨"try_from",
  Tys.nil⟩]) (Exs.cons (Ex.path [⟨"ordinal", Tys.nil⟩]) (Exs.nil))) "ok" Tys.nil (Exs.nil))⟩

/-- Item 5 of `ordinal/impls/primitive.rs`. -/
def primitiveItem5 : Item :=
  Item.impl ⟨[], some (Ty.path ["Ordinal"] Tys.nil), Ty.path ["u32"] Tys.nil, [("ORDINAL_SIZE", Ty.path ["usize"]
  Tys.nil, primitiveConst5_0)], [primitiveFn5_0, primitiveFn5_1]⟩

/-- `ORDINAL_SIZE` of item 6 of `ordinal/impls/primitive.rs`. -/
def primitiveConst6_0 : Ex :=
  Ex.path [⟨"u32", Tys.nil⟩, ⟨"ORDINAL_SIZE", Tys.nil⟩]

/-- `ordinal` of item 6 of `ordinal/impls/primitive.rs`. -/
def primitiveFn6_0 : FnDef :=
  ⟨"ordinal", SelfKind.ref, [], Ty.path ["usize"] Tys.nil, Blk.semi (Ex.constBlock (Blk.tail (Ex.path [⟨"Self",
  Tys.nil⟩, ⟨"ORDINAL_SIZE", Tys.nil⟩]))) (Blk.tail (Ex.cast (Ex.method (Ex.path [⟨"self", Tys.nil⟩]) "abs_diff"
  Tys.nil (Exs.cons (Ex.path [⟨"i32", Tys.nil⟩, ⟨"MIN", Tys.nil⟩]) (Exs.nil))) (Ty.path ["usize"] Tys.nil)))⟩

/-- `from_ordinal` of item 6 of `ordinal/impls/primitive.rs`. -/
def primitiveFn6_1 : FnDef :=
  ⟨"from_ordinal", SelfKind.none, [(Pat.path ["ordinal"], Ty.path ["usize"] Tys.nil)], Ty.path ["Option"] (Tys.cons
  (Ty.path ["Self"] Tys.nil) Tys.nil), Blk.semi (Ex.constBlock (Blk.tail (Ex.path [⟨"Self", Tys.nil⟩,
  ⟨"ORDINAL_SIZE", Tys.nil⟩]))) (Blk.tail (Ex.method (Ex.path [⟨"i32", Tys.nil⟩, ⟨"MIN", Tys.nil⟩])
  "checked_add_unsigned" Tys.nil (Exs.cons (Ex.try (Ex.method (Ex.call (Ex.path [⟨"u32", Tys.nil⟩, ⟨"try_from",
  Tys.nil⟩]) (Exs.cons (Ex.path [⟨"ordinal", Tys.nil⟩]) (Exs.nil))) "ok" Tys.nil (Exs.nil))) (Exs.nil))))⟩

/-- Item 6 of `ordinal/impls/primitive.rs`. -/
def primitiveItem6 : Item :=
  Item.impl ⟨[], some (Ty.path ["Ordinal"] Tys.nil), Ty.path ["i32"] Tys.nil, [("ORDINAL_SIZE", Ty.path ["usize"]
  Tys.nil, primitiveConst6_0)], [primitiveFn6_0, primitiveFn6_1]⟩

/-- The items of `ordinal/impls/primitive.rs`. -/
def primitiveTree : List Item :=
  [primitiveItem0, primitiveItem1, primitiveItem2, primitiveItem3, primitiveItem4, primitiveItem5, primitiveItem6]

/-- `ORDINAL_SIZE` of item 0 of `ordinal/impls/non_zero.rs`. -/
def nonZeroConst0_0 : Ex :=
  Ex.cast (Ex.path [⟨"u8", Tys.nil⟩, ⟨"MAX", Tys.nil⟩]) (Ty.path ["usize"] Tys.nil)

/-- `ordinal` of item 0 of `ordinal/impls/non_zero.rs`. -/
def nonZeroFn0_0 : FnDef :=
  ⟨"ordinal", SelfKind.ref, [], Ty.path ["usize"] Tys.nil, Blk.tail (Ex.bin (BinOp.sub) (Ex.cast (Ex.method (Ex.path
  [⟨"self", Tys.nil⟩]) "get" Tys.nil (Exs.nil)) (Ty.path ["usize"] Tys.nil)) (Ex.num 1 ""))⟩

/-- `from_ordinal` of item 0 of `ordinal/impls/non_zero.rs`. -/
def nonZeroFn0_1 : FnDef :=
  ⟨"from_ordinal", SelfKind.none, [(Pat.path ["ordinal"], Ty.path ["usize"] Tys.nil)], Ty.path ["Option"] (Tys.cons
  (Ty.path ["Self"] Tys.nil) Tys.nil), Blk.tail (Ex.method (Ex.call (Ex.path [⟨"NonZeroU8", Tys.nil⟩, ⟨"try_from",
  Tys.nil⟩]) (Exs.cons (Ex.try (Ex.method (Ex.call (Ex.path [⟨"u8", Tys.nil⟩, ⟨"try_from", Tys.nil⟩]) (Exs.cons
  (Ex.try (Ex.method (Ex.path [⟨"ordinal", Tys.nil⟩]) "checked_add" Tys.nil (Exs.cons (Ex.num 1 "") (Exs.nil))))
  (Exs.nil))) "ok" Tys.nil (Exs.nil))) (Exs.nil))) "ok" Tys.nil (Exs.nil))⟩

/-- Item 0 of `ordinal/impls/non_zero.rs`. -/
def nonZeroItem0 : Item :=
  Item.impl ⟨[], some (Ty.path ["Ordinal"] Tys.nil), Ty.path ["NonZeroU8"] Tys.nil, [("ORDINAL_SIZE", Ty.path
  ["usize"] Tys.nil, nonZeroConst0_0)], [nonZeroFn0_0, nonZeroFn0_1]⟩

/-- `ORDINAL_SIZE` of item 1 of `ordinal/impls/non_zero.rs`. -/
def nonZeroConst1_0 : Ex :=
  Ex.path [⟨"NonZeroU8", Tys.nil⟩, ⟨"ORDINAL_SIZE", Tys.nil⟩]

/-- `ordinal` of item 1 of `ordinal/impls/non_zero.rs`. -/
def nonZeroFn1_0 : FnDef :=
  ⟨"ordinal", SelfKind.ref, [], Ty.path ["usize"] Tys.nil, Blk.tail (Ex.ifE (Ex.bin (BinOp.gt) (Ex.method (Ex.path
  [⟨"self", Tys.nil⟩]) "get" Tys.nil (Exs.nil)) (Ex.num 0 "")) (Blk.tail (Ex.bin (BinOp.add) (Ex.num 127 "") (Ex.cast
  (Ex.method (Ex.path [⟨"self", Tys.nil⟩]) "get" Tys.nil (Exs.nil)) (Ty.path ["usize"] Tys.nil)))) (Ex.block
  (Blk.tail (Ex.cast (Ex.method (Ex.method (Ex.path [⟨"self", Tys.nil⟩]) "get" Tys.nil (Exs.nil)) "abs_diff" Tys.nil
  (Exs.cons (Ex.path [⟨"i8", Tys.nil⟩, ⟨"MIN", Tys.nil⟩]) (Exs.nil))) (Ty.path ["usize"] Tys.nil)))))⟩

/-- `from_ordinal` of item 1 of `ordinal/impls/non_zero.rs`. -/
def nonZeroFn1_1 : FnDef :=
  ⟨"from_ordinal", SelfKind.none, [(Pat.path ["ordinal"], Ty.path ["usize"] Tys.nil)], Ty.path ["Option"] (Tys.cons
  (Ty.path ["Self"] Tys.nil) Tys.nil), Blk.tail (Ex.matchE (Ex.method (Ex.path [⟨"ordinal", Tys.nil⟩]) "checked_sub"
  Tys.nil (Exs.cons (Ex.bin (BinOp.add) (Ex.cast (Ex.path [⟨"i8", Tys.nil⟩, ⟨"MAX", Tys.nil⟩]) (Ty.path ["usize"]
  Tys.nil)) (Ex.num 1 "")) (Exs.nil))) (Arms.cons (Pat.path ["None"]) (Ex.call (Ex.path [⟨"NonZeroI8", Tys.nil⟩,
  ⟨"new", Tys.nil⟩]) (Exs.cons (Ex.method (Ex.method (Ex.path [⟨"i8", Tys.nil⟩, ⟨"MIN", Tys.nil⟩])
  "checked_add_unsigned" Tys.nil (Exs.cons (Ex.method (Ex.call (Ex.path [⟨"u8", Tys.nil⟩, ⟨"try_from", Tys.nil⟩])
  (Exs.cons (Ex.path [⟨"ordinal", Tys.nil⟩]) (Exs.nil))) "unwrap" Tys.nil (Exs.nil)) (Exs.nil))) "unwrap" Tys.nil
  (Exs.nil)) (Exs.nil))) (Arms.cons (Pat.ctor ["Some"] (Pats.cons (Pat.path ["rem"]) (Pats.nil))) (Ex.call (Ex.path
  [⟨"NonZeroI8", Tys.nil⟩, ⟨"new", Tys.nil⟩]) (Exs.cons (Ex.try (Ex.method (Ex.call (Ex.path [⟨"i8", Tys.nil⟩,
  ⟨"try_from", Tys.nil⟩]) (Exs.cons (Ex.bin (BinOp.add) (Ex.path [⟨"rem", Tys.nil⟩]) (Ex.num 1 "")) (Exs.nil))) "ok"
  Tys.nil (Exs.nil))) (Exs.nil))) (Arms.nil))))⟩

/-- Item 1 of `ordinal/impls/non_zero.rs`. -/
def nonZeroItem1 : Item :=
  Item.impl ⟨[], some (Ty.path ["Ordinal"] Tys.nil), Ty.path ["NonZeroI8"] Tys.nil, [("ORDINAL_SIZE", Ty.path
  ["usize"] Tys.nil, nonZeroConst1_0)], [nonZeroFn1_0, nonZeroFn1_1]⟩

/-- `ORDINAL_SIZE` of item 2 of `ordinal/impls/non_zero.rs`. -/
def nonZeroConst2_0 : Ex :=
  Ex.cast (Ex.path [⟨"u16", Tys.nil⟩, ⟨"MAX", Tys.nil⟩]) (Ty.path ["usize"] Tys.nil)

/-- `ordinal` of item 2 of `ordinal/impls/non_zero.rs`. -/
def nonZeroFn2_0 : FnDef :=
  ⟨"ordinal", SelfKind.ref, [], Ty.path ["usize"] Tys.nil, Blk.tail (Ex.bin (BinOp.sub) (Ex.cast (Ex.method (Ex.path
  [⟨"self", Tys.nil⟩]) "get" Tys.nil (Exs.nil)) (Ty.path ["usize"] Tys.nil)) (Ex.num 1 ""))⟩

/-- `from_ordinal` of item 2 of `ordinal/impls/non_zero.rs`. -/
def nonZeroFn2_1 : FnDef :=
  ⟨"from_ordinal", SelfKind.none, [(Pat.path ["ordinal"], Ty.path ["usize"] Tys.nil)], Ty.path ["Option"] (Tys.cons
  (Ty.path ["Self"] Tys.nil) Tys.nil), Blk.tail (Ex.method (Ex.call (Ex.path [⟨"NonZeroU16", Tys.nil⟩, ⟨"try_from",
  Tys.nil⟩]) (Exs.cons (Ex.try (Ex.method (Ex.call (Ex.path [⟨"u16", Tys.nil⟩, ⟨"try_from", Tys.nil⟩]) (Exs.cons
  (Ex.try (Ex.method (Ex.path [⟨"ordinal", Tys.nil⟩]) "checked_add" Tys.nil (Exs.cons (Ex.num 1 "") (Exs.nil))))
  (Exs.nil))) "ok" Tys.nil (Exs.nil))) (Exs.nil))) "ok" Tys.nil (Exs.nil))⟩

/-- Item 2 of `ordinal/impls/non_zero.rs`. -/
def nonZeroItem2 : Item :=
  Item.impl ⟨[], some (Ty.path ["Ordinal"] Tys.nil), Ty.path ["NonZeroU16"] Tys.nil, [("ORDINAL_SIZE", Ty.path
  ["usize"] Tys.nil, nonZeroConst2_0)], [nonZeroFn2_0, nonZeroFn2_1]⟩

/-- `ORDINAL_SIZE` of item 3 of `ordinal/impls/non_zero.rs`. -/
def nonZeroConst3_0 : Ex :=
  Ex.path [⟨"NonZeroU16", Tys.nil⟩, ⟨"ORDINAL_SIZE", Tys.nil⟩]

/-- `ordinal` of item 3 of `ordinal/impls/non_zero.rs`. -/
def nonZeroFn3_0 : FnDef :=
  ⟨"ordinal", SelfKind.ref, [], Ty.path ["usize"] Tys.nil, Blk.tail (Ex.ifE (Ex.bin (BinOp.gt) (Ex.method (Ex.path
  [⟨"self", Tys.nil⟩]) "get" Tys.nil (Exs.nil)) (Ex.num 0 "")) (Blk.tail (Ex.bin (BinOp.add) (Ex.num 32767 "")
  (Ex.cast (Ex.method (Ex.path [⟨"self", Tys.nil⟩]) "get" Tys.nil (Exs.nil)) (Ty.path ["usize"] Tys.nil)))) (Ex.block
  (Blk.tail (Ex.cast (Ex.method (Ex.method (Ex.path [⟨"self", Tys.nil⟩]) "get" Tys.nil (Exs.nil)) "abs_diff" Tys.nil
  (Exs.cons (Ex.path [⟨"i16", Tys.nil⟩, ⟨"MIN", Tys.nil⟩]) (Exs.nil))) (Ty.path ["usize"] Tys.nil)))))⟩

/-- `from_ordinal` of item 3 of `ordinal/impls/non_zero.rs`. -/
def nonZeroFn3_1 : FnDef :=
  ⟨"from_ordinal", SelfKind.none, [(Pat.path ["ordinal"], Ty.path ["usize"] Tys.nil)], Ty.path ["Option"] (Tys.cons
  (Ty.path ["Self"] Tys.nil) Tys.nil), Blk.tail (Ex.matchE (Ex.method (Ex.path [⟨"ordinal", Tys.nil⟩]) "checked_sub"
  Tys.nil (Exs.cons (Ex.bin (BinOp.add) (Ex.cast (Ex.path [⟨"i16", Tys.nil⟩, ⟨"MAX", Tys.nil⟩]) (Ty.path ["usize"]
  Tys.nil)) (Ex.num 1 "")) (Exs.nil))) (Arms.cons (Pat.path ["None"]) (Ex.call (Ex.path [⟨"NonZeroI16", Tys.nil⟩,
  ⟨"new", Tys.nil⟩]) (Exs.cons (Ex.method (Ex.method (Ex.path [⟨"i16", Tys.nil⟩, ⟨"MIN", Tys.nil⟩])
  "checked_add_unsigned" Tys.nil (Exs.cons (Ex.method (Ex.call (Ex.path [⟨"u16", Tys.nil⟩, ⟨"try_from", Tys.nil⟩])
  (Exs.cons (Ex.path [⟨"ordinal", Tys.nil⟩]) (Exs.nil))) "unwrap" Tys.nil (Exs.nil)) (Exs.nil))) "unwrap" Tys.nil
  (Exs.nil)) (Exs.nil))) (Arms.cons (Pat.ctor ["Some"] (Pats.cons (Pat.path ["rem"]) (Pats.nil))) (Ex.call (Ex.path
  [⟨"NonZeroI16", Tys.nil⟩, ⟨"new", Tys.nil⟩]) (Exs.cons (Ex.try (Ex.method (Ex.call (Ex.path [⟨"i16", Tys.nil⟩,
  ⟨"try_from", Tys.nil⟩]) (Exs.cons (Ex.bin (BinOp.add) (Ex.path [⟨"rem", Tys.nil⟩]) (Ex.num 1 "")) (Exs.nil))) "ok"
  Tys.nil (Exs.nil))) (Exs.nil))) (Arms.nil))))⟩

/-- Item 3 of `ordinal/impls/non_zero.rs`. -/
def nonZeroItem3 : Item :=
  Item.impl ⟨[], some (Ty.path ["Ordinal"] Tys.nil), Ty.path ["NonZeroI16"] Tys.nil, [("ORDINAL_SIZE", Ty.path
  ["usize"] Tys.nil, nonZeroConst3_0)], [nonZeroFn3_0, nonZeroFn3_1]⟩

/-- `ORDINAL_SIZE` of item 4 of `ordinal/impls/non_zero.rs`. -/
def nonZeroConst4_0 : Ex :=
  Ex.cast (Ex.path [⟨"u32", Tys.nil⟩, ⟨"MAX", Tys.nil⟩]) (Ty.path ["usize"] Tys.nil)

/-- `ordinal` of item 4 of `ordinal/impls/non_zero.rs`. -/
def nonZeroFn4_0 : FnDef :=
  ⟨"ordinal", SelfKind.ref, [], Ty.path ["usize"] Tys.nil, Blk.tail (Ex.bin (BinOp.sub) (Ex.cast (Ex.method (Ex.path
  [⟨"self", Tys.nil⟩]) "get" Tys.nil (Exs.nil)) (Ty.path ["usize"] Tys.nil)) (Ex.num 1 ""))⟩

/-- `from_ordinal` of item 4 of `ordinal/impls/non_zero.rs`. -/
def nonZeroFn4_1 : FnDef :=
  ⟨"from_ordinal", SelfKind.none, [(Pat.path ["ordinal"], Ty.path ["usize"] Tys.nil)], Ty.path ["Option"] (Tys.cons
  (Ty.path ["Self"] Tys.nil) Tys.nil), Blk.tail (Ex.method (Ex.call (Ex.path [⟨"NonZeroU32", Tys.nil⟩, ⟨"try_from",
  Tys.nil⟩]) (Exs.cons (Ex.try (Ex.method (Ex.call (Ex.path [⟨"u32", Tys.nil⟩, ⟨"try_from", Tys.nil⟩]) (Exs.cons
  (Ex.try (Ex.method (Ex.path [⟨"ordinal", Tys.nil⟩]) "checked_add" Tys.nil (Exs.cons (Ex.num 1 "") (Exs.nil))))
  (Exs.nil))) "ok" Tys.nil (Exs.nil))) (Exs.nil))) "ok" Tys.nil (Exs.nil))⟩

/-- Item 4 of `ordinal/impls/non_zero.rs`. -/
def nonZeroItem4 : Item :=
  Item.impl ⟨[], some (Ty.path ["Ordinal"] Tys.nil), Ty.path ["NonZeroU32"] Tys.nil, [("ORDINAL_SIZE", Ty.path
  ["usize"] Tys.nil, nonZeroConst4_0)], [nonZeroFn4_0, nonZeroFn4_1]⟩

/-- `ORDINAL_SIZE` of item 5 of `ordinal/impls/non_zero.rs`. -/
def nonZeroConst5_0 : Ex :=
  Ex.path [⟨"NonZeroU32", Tys.nil⟩, ⟨"ORDINAL_SIZE", Tys.nil⟩]

/-- `ordinal` of item 5 of `ordinal/impls/non_zero.rs`. -/
def nonZeroFn5_0 : FnDef :=
  ⟨"ordinal", SelfKind.ref, [], Ty.path ["usize"] Tys.nil, Blk.tail (Ex.ifE (Ex.bin (BinOp.gt) (Ex.method (Ex.path
  [⟨"self", Tys.nil⟩]) "get" Tys.nil (Exs.nil)) (Ex.num 0 "")) (Blk.tail (Ex.bin (BinOp.add) (Ex.num 2147483647 "")
  (Ex.cast (Ex.method (Ex.path [⟨"self", Tys.nil⟩]) "get" Tys.nil (Exs.nil)) (Ty.path ["usize"] Tys.nil)))) (Ex.block
  (Blk.tail (Ex.cast (Ex.method (Ex.method (Ex.path [⟨"self", Tys.nil⟩]) "get" Tys.nil (Exs.nil)) "abs_diff" Tys.nil
  (Exs.cons (Ex.path [⟨"i32", Tys.nil⟩, ⟨"MIN", Tys.nil⟩]) (Exs.nil))) (Ty.path ["usize"] Tys.nil)))))⟩

/-- `from_ordinal` of item 5 of `ordinal/impls/non_zero.rs`. -/
def nonZeroFn5_1 : FnDef :=
  ⟨"from_ordinal", SelfKind.none, [(Pat.path ["ordinal"], Ty.path ["usize"] Tys.nil)], Ty.path ["Option"] (Tys.cons
  (Ty.path ["Self"] Tys.nil) Tys.nil), Blk.tail (Ex.matchE (Ex.method (Ex.path [⟨"ordinal", Tys.nil⟩]) "checked_sub"
  Tys.nil (Exs.cons (Ex.bin (BinOp.add) (Ex.cast (Ex.path [⟨"i32", Tys.nil⟩, ⟨"MAX", Tys.nil⟩]) (Ty.path ["usize"]
  Tys.nil)) (Ex.num 1 "")) (Exs.nil))) (Arms.cons (Pat.path ["None"]) (Ex.call (Ex.path [⟨"NonZeroI32", Tys.nil⟩,
  ⟨"new", Tys.nil⟩]) (Exs.cons (Ex.method (Ex.method (Ex.path [⟨"i32", Tys.nil⟩, ⟨"MIN", Tys.nil⟩])
  "checked_add_unsigned" Tys.nil (Exs.cons (Ex.method (Ex.call (Ex.path [⟨"u32", Tys.nil⟩, ⟨"try_from", Tys.nil⟩])
  (Exs.cons (Ex.path [⟨"ordinal", Tys.nil⟩]) (Exs.nil))) "unwrap" Tys.nil (Exs.nil)) (Exs.nil))) "unwrap" Tys.nil
  (Exs.nil)) (Exs.nil))) (Arms.cons (Pat.ctor ["Some"] (Pats.cons (Pat.path ["rem"]) (Pats.nil))) (Ex.call (Ex.path
  [⟨"NonZeroI32", Tys.nil⟩, ⟨"new", Tys.nil⟩]) (Exs.cons (Ex.try (Ex.method (Ex.call (Ex.path [⟨"i32", Tys.nil⟩,
  ⟨"try_from", Tys.nil⟩]) (Exs.cons (Ex.bin (BinOp.add) (Ex.path [⟨"rem", Tys.nil⟩]) (Ex.num 1 "")) (Exs.nil))) "ok"
  Tys.nil (Exs.nil))) (Exs.nil))) (Arms.nil))))⟩

/-- Item 5 of `ordinal/impls/non_zero.rs`. -/
def nonZeroItem5 : Item :=
  Item.impl ⟨[], some (Ty.path ["Ordinal"] Tys.nil), Ty.path ["NonZeroI32"] Tys.nil, [("ORDINAL_SIZE", Ty.path
  ["usize"] Tys.nil, nonZeroConst5_0)], [nonZeroFn5_0, nonZeroFn5_1]⟩

/-- `ORDINAL_SIZE` of item 6 of `ordinal/impls/non_zero.rs`. -/
def nonZeroConst6_0 : Ex :=
  Ex.path [⟨"usize", Tys.nil⟩, ⟨"MAX", Tys.nil⟩]

/-- `ordinal` of item 6 of `ordinal/impls/non_zero.rs`. -/
def nonZeroFn6_0 : FnDef :=
  ⟨"ordinal", SelfKind.ref, [], Ty.path ["usize"] Tys.nil, Blk.tail (Ex.bin (BinOp.sub) (Ex.method (Ex.path [⟨"self",
  Tys.nil⟩]) "get" Tys.nil (Exs.nil)) (Ex.num 1 ""))⟩

/-- `from_ordinal` of item 6 of `ordinal/impls/non_zero.rs`. -/
def nonZeroFn6_1 : FnDef :=
  ⟨"from_ordinal", SelfKind.none, [(Pat.path ["ordinal"], Ty.path ["usize"] Tys.nil)], Ty.path ["Option"] (Tys.cons
  (Ty.path ["Self"] Tys.nil) Tys.nil), Blk.tail (Ex.call (Ex.path [⟨"NonZeroUsize", Tys.nil⟩, ⟨"new", Tys.nil⟩])
  (Exs.cons (Ex.try (Ex.method (Ex.path [⟨"ordinal", Tys.nil⟩]) "checked_add" Tys.nil (Exs.cons (Ex.num 1 "")
  (Exs.nil)))) (Exs.nil)))⟩

/-- Item 6 of `ordinal/impls/non_zero.rs`. -/
def nonZeroItem6 : Item :=
  Item.impl ⟨[], some (Ty.path ["Ordinal"] Tys.nil), Ty.path ["NonZeroUsize"] Tys.nil, [("ORDINAL_SIZE", Ty.path
  ["usize"] Tys.nil, nonZeroConst6_0)], [nonZeroFn6_0, nonZeroFn6_1]⟩

/-- `ORDINAL_SIZE` of item 7 of `ordinal/impls/non_zero.rs`. -/
def nonZeroConst7_0 : Ex :=
  Ex.path [⟨"NonZeroUsize", Tys.nil⟩, ⟨"ORDINAL_SIZE", Tys.nil⟩]

/-- `ordinal` of item 7 of `ordinal/impls/non_zero.rs`. -/
def nonZeroFn7_0 : FnDef :=
  ⟨"ordinal", SelfKind.ref, [], Ty.path ["usize"] Tys.nil, Blk.tail (Ex.ifE (Ex.bin (BinOp.gt) (Ex.method (Ex.path
  [⟨"self", Tys.nil⟩]) "get" Tys.nil (Exs.nil)) (Ex.num 0 "")) (Blk.tail (Ex.bin (BinOp.add) (Ex.bin (BinOp.div)
  (Ex.path [⟨"usize", Tys.nil⟩, ⟨"MAX", Tys.nil⟩]) (Ex.num 2 "")) (Ex.cast (Ex.method (Ex.path [⟨"self", Tys.nil⟩])
  "get" Tys.nil (Exs.nil)) (Ty.path ["usize"] Tys.nil)))) (Ex.block (Blk.tail (Ex.method (Ex.method (Ex.path
  [⟨"self", Tys.nil⟩]) "get" Tys.nil (Exs.nil)) "abs_diff" Tys.nil (Exs.cons (Ex.path [⟨"isize", Tys.nil⟩, ⟨"MIN",
  Tys.nil⟩]) (Exs.nil))))))⟩

/-- `from_ordinal` of item 7 of `ordinal/impls/non_zero.rs`. -/
def nonZeroFn7_1 : FnDef :=
  ⟨"from_ordinal", SelfKind.none, [(Pat.path ["ordinal"], Ty.path ["usize"] Tys.nil)], Ty.path ["Option"] (Tys.cons
  (Ty.path ["Self"] Tys.nil) Tys.nil), Blk.tail (Ex.matchE (Ex.method (Ex.path [⟨"ordinal", Tys.nil⟩]) "checked_sub"
  Tys.nil (Exs.cons (Ex.bin (BinOp.add) (Ex.cast (Ex.path [⟨"isize", Tys.nil⟩, ⟨"MAX", Tys.nil⟩]) (Ty.path ["usize"]
  Tys.nil)) (Ex.num 1 "")) (Exs.nil))) (Arms.cons (Pat.path ["None"]) (Ex.call (Ex.path [⟨"NonZeroIsize", Tys.nil⟩,
  ⟨"new", Tys.nil⟩]) (Exs.cons (Ex.method (Ex.method (Ex.path [⟨"isize", Tys.nil⟩, ⟨"MIN", Tys.nil⟩])
  "checked_add_unsigned" Tys.nil (Exs.cons (Ex.path [⟨"ordinal", Tys.nil⟩]) (Exs.nil))) "unwrap" Tys.nil (Exs.nil))
  (Exs.nil))) (Arms.cons (Pat.ctor ["Some"] (Pats.cons (Pat.path ["rem"]) (Pats.nil))) (Ex.call (Ex.path
  [⟨"NonZeroIsize", Tys.nil⟩, ⟨"new", Tys.nil⟩]) (Exs.cons (Ex.try (Ex.method (Ex.call (Ex.path [⟨"isize", Tys.nil⟩,
  ⟨"try_from", Tys.nil⟩]) (Exs.cons (Ex.bin (BinOp.add) (Ex.path [⟨"rem", Tys.nil⟩]) (Ex.num 1 "")) (Exs.nil))) "ok"
  Tys.nil (Exs.nil))) (Exs.nil))) (Arms.nil))))⟩

/-- Item 7 of `ordinal/impls/non_zero.rs`. -/
def nonZeroItem7 : Item :=
  Item.impl ⟨[], some (Ty.path ["Ordinal"] Tys.nil), Ty.path ["NonZeroIsize"] Tys.nil, [("ORDINAL_SIZE", Ty.path
  ["usize"] Tys.nil, nonZeroConst7_0)], [nonZeroFn7_0, nonZeroFn7_1]⟩

/-- `ORDINAL_SIZE` of item 8 of `ordinal/impls/non_zero.rs`. -/
def nonZeroConst8_0 : Ex :=
  Ex.ifE (Ex.bin (BinOp.eq) (Ex.path [⟨"u64", Tys.nil⟩, ⟨"MAX", Tys.nil⟩]) (Ex.cast (Ex.path [⟨"usize", Tys.nil⟩,
  ⟨"MAX", Tys.nil⟩]) (Ty.path ["u64"] Tys.nil))) (Blk.tail (Ex.path [⟨"usize", Tys.nil⟩, ⟨"MAX", Tys.nil⟩]))
  (Ex.block (Blk.tail (Ex.mac "panic" (Exs.cons (Ex.str "NonZeroU64::ORDINAL_SIZE is too large for 32-bit platforms")
  (Exs.nil)))))

/-- `ordinal` of item 8 of `ordinal/impls/non_zero.rs`. -/
def nonZeroFn8_0 : FnDef :=
  ⟨"ordinal", SelfKind.ref, [], Ty.path ["usize"] Tys.nil, Blk.semi (Ex.constBlock (Blk.tail (Ex.path [⟨"Self",
  Tys.nil⟩, ⟨"ORDINAL_SIZE", Tys.nil⟩]))) (Blk.tail (Ex.method (Ex.method (Ex.call (Ex.path [⟨"NonZeroUsize",
  Tys.nil⟩, ⟨"new", Tys.nil⟩]) (Exs.cons (Ex.cast (Ex.method (Ex.path [⟨"self", Tys.nil⟩]) "get" Tys.nil (Exs.nil))
  (Ty.path ["usize"] Tys.nil)) (Exs.nil))) "unwrap" Tys.nil (Exs.nil)) "ordinal" Tys.nil (Exs.nil)))⟩

/-- `from_ordinal` of item 8 of `ordinal/impls/non_zero.rs`. -/
def nonZeroFn8_1 : FnDef :=
  ⟨"from_ordinal", SelfKind.none, [(Pat.path ["ordinal"], Ty.path ["usize"] Tys.nil)], Ty.path ["Option"] (Tys.cons
  (Ty.path ["Self"] Tys.nil) Tys.nil), Blk.semi (Ex.constBlock (Blk.tail (Ex.path [⟨"Self", Tys.nil⟩,
  ⟨"ORDINAL_SIZE", Tys.nil⟩]))) (Blk.tail (Ex.call (Ex.path [⟨"Some", Tys.nil⟩]) (Exs.cons (Ex.method (Ex.call
  (Ex.path [⟨"NonZeroU64", Tys.nil⟩, ⟨"new", Tys.nil⟩]) (Exs.cons (Ex.cast (Ex.method (Ex.try (Ex.call (Ex.path
  [⟨"NonZeroUsize", Tys.nil⟩, ⟨"from_ordinal", Tys.nil⟩]) (Exs.cons (Ex.path [⟨"ordinal", Tys.nil⟩]) (Exs.nil))))
  "get" Tys.nil (Exs.nil)) (Ty.path ["u64"] Tys.nil)) (Exs.nil))) "unwrap" Tys.nil (Exs.nil)) (Exs.nil))))⟩

/-- Item 8 of `ordinal/impls/non_zero.rs`. -/
def nonZeroItem8 : Item :=
  Item.impl ⟨[], some (Ty.path ["Ordinal"] Tys.nil), Ty.path ["NonZeroU64"] Tys.nil, [("ORDINAL_SIZE", Ty.path
  ["usize"] Tys.nil, nonZeroConst8_0)], [nonZeroFn8_0, nonZeroFn8_1]⟩

/-- `ORDINAL_SIZE` of item 9 of `ordinal/impls/non_zero.rs`. -/
def nonZeroConst9_0 : Ex :=
  Ex.path [⟨"NonZeroU64", Tys.nil⟩, ⟨"ORDINAL_SIZE", Tys.nil⟩]

/-- `ordinal` of item 9 of `ordinal/impls/non_zero.rs`. -/
def nonZeroFn9_0 : FnDef :=
  ⟨"ordinal", SelfKind.ref, [], Ty.path ["usize"] Tys.nil, Blk.semi (Ex.constBlock (Blk.tail (Ex.path [⟨"Self",
  Tys.nil⟩, ⟨"ORDINAL_SIZE", Tys.nil⟩]))) (Blk.tail (Ex.method (Ex.method (Ex.call (Ex.path [⟨"NonZeroIsize",
  Tys.nil⟩, ⟨"new", Tys.nil⟩]) (Exs.cons (Ex.cast (Ex.method (Ex.path [⟨"self", Tys.nil⟩]) "get" Tys.nil (Exs.nil))
  (Ty.path ["isize"] Tys.nil)) (Exs.nil))) "unwrap" Tys.nil (Exs.nil)) "ordinal" Tys.nil (Exs.nil)))⟩

/-- `from_ordinal` of item 9 of `ordinal/impls/non_zero.rs`. -/
def nonZeroFn9_1 : FnDef :=
  ⟨"from_ordinal", SelfKind.none, [(Pat.path ["ordinal"], Ty.path ["usize"] Tys.nil)], Ty.path ["Option"] (Tys.cons
  (Ty.path ["Self"] Tys.nil) Tys.nil), Blk.semi (Ex.constBlock (Blk.tail (Ex.path [⟨"Self", Tys.nil⟩,
  ⟨"ORDINAL_SIZE", Tys.nil⟩]))) (Blk.tail (Ex.call (Ex.path [⟨"Some", Tys.nil⟩]) (Exs.cons (Ex.method (Ex.call
  (Ex.path [⟨"NonZeroI64", Tys.nil⟩, ⟨"new", Tys.nil⟩]) (Exs.cons (Ex.cast (Ex.method (Ex.try (Ex.call (Ex.path
  [⟨"NonZeroIsize", Tys.nil⟩, ⟨"from_ordinal", Tys.nil⟩]) (Exs.cons (Ex.path [⟨"ordinal", Tys.nil⟩]) (Exs.nil))))
  "get" Tys.nil (Exs.nil)) (Ty.path ["i64"] Tys.nil)) (Exs.nil))) "unwrap" Tys.nil (Exs.nil)) (Exs.nil))))⟩

/-- Item 9 of `ordinal/impls/non_zero.rs`. -/
def nonZeroItem9 : Item :=
  Item.impl ⟨[], some (Ty.path ["Ordinal"] Tys.nil), Ty.path ["NonZeroI64"] Tys.nil, [("ORDINAL_SIZE", Ty.path
  ["usize"] Tys.nil, nonZeroConst9_0)], [nonZeroFn9_0, nonZeroFn9_1]⟩

/-- The items of `ordinal/impls/non_zero.rs`. -/
def nonZeroTree : List Item :=
  [nonZeroItem0, nonZeroItem1, nonZeroItem2, nonZeroItem3, nonZeroItem4, nonZeroItem5, nonZeroItem6, nonZeroItem7, nonZeroItem8, nonZeroItem9]

/-- Item 0 of `ordinal/impls/char.rs`. -/
def charItem0 : Item :=
  Item.const "SURROGATE_START" (Ty.path ["u32"] Tys.nil) (Ex.num 55296 "")

/-- `ORDINAL_SIZE` of item 1 of `ordinal/impls/char.rs`. -/
def charConst1_0 : Ex :=
  Ex.bin (BinOp.sub) (Ex.bin (BinOp.add) (Ex.cast (Ex.path [⟨"char", Tys.nil⟩, ⟨"MAX", Tys.nil⟩]) (Ty.path ["usize"]
  Tys.nil)) (Ex.num 1 "")) (Ex.num 2048 "")

/-- `ordinal` of item 1 of `ordinal/impls/char.rs`. -/
def charFn1_0 : FnDef :=
  ⟨"ordinal", SelfKind.ref, [], Ty.path ["usize"] Tys.nil, Blk.letS (Pat.path ["c"]) (Ex.cast (Ex.un (UnOp.deref)
  (Ex.path [⟨"self", Tys.nil⟩])) (Ty.path ["u32"] Tys.nil)) (Blk.tail (Ex.ifE (Ex.bin (BinOp.lt) (Ex.path [⟨"c",
  Tys.nil⟩]) (Ex.path [⟨"SURROGATE_START", Tys.nil⟩])) (Blk.tail (Ex.cast (Ex.path [⟨"c", Tys.nil⟩]) (Ty.path
  ["usize"] Tys.nil))) (Ex.block (Blk.tail (Ex.bin (BinOp.sub) (Ex.cast (Ex.path [⟨"c", Tys.nil⟩]) (Ty.path ["usize"]
  Tys.nil)) (Ex.num 2048 ""))))))⟩

/-- `from_ordinal` of item 1 of `ordinal/impls/char.rs`. -/
def charFn1_1 : FnDef :=
  ⟨"from_ordinal", SelfKind.none, [(Pat.path ["ordinal"], Ty.path ["usize"] Tys.nil)], Ty.path ["Option"] (Tys.cons
  (Ty.path ["Self"] Tys.nil) Tys.nil), Blk.tail (Ex.ifE (Ex.bin (BinOp.lt) (Ex.path [⟨"ordinal", Tys.nil⟩]) (Ex.cast
  (Ex.path [⟨"SURROGATE_START", Tys.nil⟩]) (Ty.path ["usize"] Tys.nil))) (Blk.tail (Ex.call (Ex.path [⟨"char",
  Tys.nil⟩, ⟨"from_u32", Tys.nil⟩]) (Exs.cons (Ex.cast (Ex.path [⟨"ordinal", Tys.nil⟩]) (Ty.path ["u32"] Tys.nil))
  (Exs.nil)))) (Ex.block (Blk.tail (Ex.call (Ex.path [⟨"char", Tys.nil⟩, ⟨"from_u32", Tys.nil⟩]) (Exs.cons (Ex.try
  (Ex.method (Ex.cast (Ex.path [⟨"ordinal", Tys.nil⟩]) (Ty.path ["u32"] Tys.nil)) "checked_add" Tys.nil (Exs.cons
  (Ex.num 2048 "") (Exs.nil)))) (Exs.nil))))))⟩

/-- Item 1 of `ordinal/impls/char.rs`. -/
def charItem1 : Item :=
  Item.impl ⟨[], some (Ty.path ["Ordinal"] Tys.nil), Ty.path ["char"] Tys.nil, [("ORDINAL_SIZE", Ty.path ["usize"]
  Tys.nil, charConst1_0)], [charFn1_0, charFn1_1]⟩

/-- The items of `ordinal/impls/char.rs`. -/
def charTree : List Item :=
  [charItem0, charItem1]

/-- `ORDINAL_SIZE` of item 0 of `ordinal/impls/ordering.rs`. -/
def orderingConst0_0 : Ex :=
  Ex.num 3 ""

/-- `ordinal` of item 0 of `ordinal/impls/ordering.rs`. -/
def orderingFn0_0 : FnDef :=
  ⟨"ordinal", SelfKind.ref, [], Ty.path ["usize"] Tys.nil, Blk.tail (Ex.matchE (Ex.path [⟨"self", Tys.nil⟩])
  (Arms.cons (Pat.path ["Ordering", "Less"]) (Ex.num 0 "") (Arms.cons (Pat.path ["Ordering", "Equal"]) (Ex.num 1 "")
  (Arms.cons (Pat.path ["Ordering", "Greater"]) (Ex.num 2 "") (Arms.nil)))))⟩

/-- `from_ordinal` of item 0 of `ordinal/impls/ordering.rs`. -/
def orderingFn0_1 : FnDef :=
  ⟨"from_ordinal", SelfKind.none, [(Pat.path ["ordinal"], Ty.path ["usize"] Tys.nil)], Ty.path ["Option"] (Tys.cons
  (Ty.path ["Self"] Tys.nil) Tys.nil), Blk.tail (Ex.matchE (Ex.path [⟨"ordinal", Tys.nil⟩]) (Arms.cons (Pat.num 0)
  (Ex.call (Ex.path [⟨"Some", Tys.nil⟩]) (Exs.cons (Ex.path [⟨"Ordering", Tys.nil⟩, ⟨"Less", Tys.nil⟩]) (Exs.nil)))
  (Arms.cons (Pat.num 1) (Ex.call (Ex.path [⟨"Some", Tys.nil⟩]) (Exs.cons (Ex.path [⟨"Ordering", Tys.nil⟩, ⟨"Equal",
  Tys.nil⟩]) (Exs.nil))) (Arms.cons (Pat.num 2) (Ex.call (Ex.path [⟨"Some", Tys.nil⟩]) (Exs.cons (Ex.path
  [⟨"Ordering", Tys.nil⟩, ⟨"Greater", Tys.nil⟩]) (Exs.nil))) (Arms.cons (Pat.wild) (Ex.path [⟨"None", Tys.nil⟩])
  (Arms.nil))))))⟩

/-- Item 0 of `ordinal/impls/ordering.rs`. -/
def orderingItem0 : Item :=
  Item.impl ⟨[], some (Ty.path ["Ordinal"] Tys.nil), Ty.path ["Ordering"] Tys.nil, [("ORDINAL_SIZE", Ty.path
  ["usize"] Tys.nil, orderingConst0_0)], [orderingFn0_0, orderingFn0_1]⟩

/-- The items of `ordinal/impls/ordering.rs`. -/
def orderingTree : List Item :=
  [orderingItem0]

/-- `ORDINAL_SIZE` of item 0 of `ordinal/impls/std.rs`. -/
def stdConst0_0 : Ex :=
  Ex.bin (BinOp.add) (Ex.path [⟨"A", Tys.nil⟩, ⟨"ORDINAL_SIZE", Tys.nil⟩]) (Ex.num 1 "")

/-- `ordinal` of item 0 of `ordinal/impls/std.rs`. -/
def stdFn0_0 : FnDef :=
  ⟨"ordinal", SelfKind.ref, [], Ty.path ["usize"] Tys.nil, Blk.tail (Ex.matchE (Ex.path [⟨"self", Tys.nil⟩])
  (Arms.cons (Pat.path ["None"]) (Ex.num 0 "") (Arms.cons (Pat.ctor ["Some"] (Pats.cons (Pat.path ["a"]) (Pats.nil)))
  (Ex.bin (BinOp.add) (Ex.method (Ex.path [⟨"a", Tys.nil⟩]) "ordinal" Tys.nil (Exs.nil)) (Ex.num 1 ""))
  (Arms.nil))))⟩

/-- `from_ordinal` of item 0 of `ordinal/impls/std.rs`. -/
def stdFn0_1 : FnDef :=
  ⟨"from_ordinal", SelfKind.none, [(Pat.path ["ordinal"], Ty.path ["usize"] Tys.nil)], Ty.path ["Option"] (Tys.cons
  (Ty.path ["Self"] Tys.nil) Tys.nil), Blk.tail (Ex.ifE (Ex.bin (BinOp.eq) (Ex.path [⟨"ordinal", Tys.nil⟩]) (Ex.num 0
  "")) (Blk.tail (Ex.call (Ex.path [⟨"Some", Tys.nil⟩]) (Exs.cons (Ex.path [⟨"None", Tys.nil⟩]) (Exs.nil))))
  (Ex.block (Blk.tail (Ex.method (Ex.call (Ex.path [⟨"A", Tys.nil⟩, ⟨"from_ordinal", Tys.nil⟩]) (Exs.cons (Ex.bin
  (BinOp.sub) (Ex.path [⟨"ordinal", Tys.nil⟩]) (Ex.num 1 "")) (Exs.nil))) "map" Tys.nil (Exs.cons (Ex.path [⟨"Some",
  Tys.nil⟩]) (Exs.nil))))))⟩

/-- Item 0 of `ordinal/impls/std.rs`. -/
def stdItem0 : Item :=
  Item.impl ⟨[("A", false)], some (Ty.path ["Ordinal"] Tys.nil), Ty.path ["Option"] (Tys.cons (Ty.path ["A"] Tys.nil)
  Tys.nil), [("ORDINAL_SIZE", Ty.path ["usize"] Tys.nil, stdConst0_0)], [stdFn0_0, stdFn0_1]⟩

/-- `ORDINAL_SIZE` of item 1 of `ordinal/impls/std.rs`. -/
def stdConst1_0 : Ex :=
  Ex.bin (BinOp.add) (Ex.path [⟨"A", Tys.nil⟩, ⟨"ORDINAL_SIZE", Tys.nil⟩]) (Ex.path [⟨"B", Tys.nil⟩, ⟨"ORDINAL_SIZE",
  Tys.nil⟩])

/-- `ordinal` of item 1 of `ordinal/impls/std.rs`. -/
def stdFn1_0 : FnDef :=
  ⟨"ordinal", SelfKind.ref, [], Ty.path ["usize"] Tys.nil, Blk.tail (Ex.matchE (Ex.path [⟨"self", Tys.nil⟩])
  (Arms.cons (Pat.ctor ["Ok"] (Pats.cons (Pat.path ["a"]) (Pats.nil))) (Ex.method (Ex.path [⟨"a", Tys.nil⟩])
  "ordinal" Tys.nil (Exs.nil)) (Arms.cons (Pat.ctor ["Err"] (Pats.cons (Pat.path ["b"]) (Pats.nil))) (Ex.bin
  (BinOp.add) (Ex.path [⟨"A", Tys.nil⟩, ⟨"ORDINAL_SIZE", Tys.nil⟩]) (Ex.method (Ex.path [⟨"b", Tys.nil⟩]) "ordinal"
  Tys.nil (Exs.nil))) (Arms.nil))))⟩

/-- `from_ordinal` of item 1 of `ordinal/impls/std.rs`. -/
def stdFn1_1 : FnDef :=
  ⟨"from_ordinal", SelfKind.none, [(Pat.path ["ordinal"], Ty.path ["usize"] Tys.nil)], Ty.path ["Option"] (Tys.cons
  (Ty.path ["Self"] Tys.nil) Tys.nil), Blk.tail (Ex.ifE (Ex.bin (BinOp.lt) (Ex.path [⟨"ordinal", Tys.nil⟩]) (Ex.path
  [⟨"A", Tys.nil⟩, ⟨"ORDINAL_SIZE", Tys.nil⟩])) (Blk.tail (Ex.call (Ex.path [⟨"Some", Tys.nil⟩]) (Exs.cons (Ex.call
  (Ex.path [⟨"Ok", Tys.nil⟩]) (Exs.cons (Ex.method (Ex.call (Ex.path [⟨"A", Tys.nil⟩, ⟨"from_ordinal", Tys.nil⟩])
  (Exs.cons (Ex.path [⟨"ordinal", Tys.nil⟩]) (Exs.nil))) "unwrap" Tys.nil (Exs.nil)) (Exs.nil))) (Exs.nil))))
  (Ex.block (Blk.tail (Ex.method (Ex.call (Ex.path [⟨"B", Tys.nil⟩, ⟨"from_ordinal", Tys.nil⟩]) (Exs.cons (Ex.bin
  (BinOp.sub) (Ex.path [⟨"ordinal", Tys.nil⟩]) (Ex.path [⟨"A", Tys.nil⟩, ⟨"ORDINAL_SIZE", Tys.nil⟩])) (Exs.nil)))
  "map" Tys.nil (Exs.cons (Ex.path [⟨"Err", Tys.nil⟩]) (Exs.nil))))))⟩

/-- Item 1 of `ordinal/impls/std.rs`. -/
def stdItem1 : Item :=
  Item.impl ⟨[("A", false), ("B", false)], some (Ty.path ["Ordinal"] Tys.nil), Ty.path ["Result"] (Tys.cons (Ty.path
  ["A"] Tys.nil) (Tys.cons (Ty.path ["B"] Tys.nil) Tys.nil)), [("ORDINAL_SIZE", Ty.path ["usize"] Tys.nil,
  stdConst1_0)], [stdFn1_0, stdFn1_1]⟩

/-- `ORDINAL_SIZE` of item 2 of `ordinal/impls/std.rs`. -/
def stdConst2_0 : Ex :=
  Ex.num 0 ""

/-- `ordinal` of item 2 of `ordinal/impls/std.rs`. -/
def stdFn2_0 : FnDef :=
  ⟨"ordinal", SelfKind.ref, [], Ty.path ["usize"] Tys.nil, Blk.tail (Ex.matchE (Ex.un (UnOp.deref) (Ex.path [⟨"self",
  Tys.nil⟩])) (Arms.nil))⟩

/-- `from_ordinal` of item 2 of `ordinal/impls/std.rs`. -/
def stdFn2_1 : FnDef :=
  ⟨"from_ordinal", SelfKind.none, [(Pat.wild, Ty.path ["usize"] Tys.nil)], Ty.path ["Option"] (Tys.cons (Ty.path
  ["Self"] Tys.nil) Tys.nil), Blk.tail (Ex.path [⟨"None", Tys.nil⟩])⟩

/-- Item 2 of `ordinal/impls/std.rs`. -/
def stdItem2 : Item :=
  Item.impl ⟨[], some (Ty.path ["Ordinal"] Tys.nil), Ty.path ["Infallible"] Tys.nil, [("ORDINAL_SIZE", Ty.path
  ["usize"] Tys.nil, stdConst2_0)], [stdFn2_0, stdFn2_1]⟩

/-- The items of `ordinal/impls/std.rs`. -/
def stdTree : List Item :=
  [stdItem0, stdItem1, stdItem2]

/-- `ORDINAL_SIZE` of item 0 of `ordinal/impls/either.rs`. -/
def eitherConst0_0 : Ex :=
  Ex.path [⟨"Result", Tys.cons (Ty.path ["A"] Tys.nil) (Tys.cons (Ty.path ["B"] Tys.nil) Tys.nil)⟩, ⟨"ORDINAL_SIZE",
  Tys.nil⟩]

/-- `ordinal` of item 0 of `ordinal/impls/either.rs`. -/
def eitherFn0_0 : FnDef :=
  ⟨"ordinal", SelfKind.ref, [], Ty.path ["usize"] Tys.nil, Blk.tail (Ex.matchE (Ex.path [⟨"self", Tys.nil⟩])
  (Arms.cons (Pat.ctor ["Either", "Left"] (Pats.cons (Pat.path ["a"]) (Pats.nil))) (Ex.method (Ex.path [⟨"a",
  Tys.nil⟩]) "ordinal" Tys.nil (Exs.nil)) (Arms.cons (Pat.ctor ["Either", "Right"] (Pats.cons (Pat.path ["b"])
  (Pats.nil))) (Ex.bin (BinOp.add) (Ex.path [⟨"A", Tys.nil⟩, ⟨"ORDINAL_SIZE", Tys.nil⟩]) (Ex.method (Ex.path [⟨"b",
  Tys.nil⟩]) "ordinal" Tys.nil (Exs.nil))) (Arms.nil))))⟩

/-- `from_ordinal` of item 0 of `ordinal/impls/either.rs`. -/
def eitherFn0_1 : FnDef :=
  ⟨"from_ordinal", SelfKind.none, [(Pat.path ["ordinal"], Ty.path ["usize"] Tys.nil)], Ty.path ["Option"] (Tys.cons
  (Ty.path ["Self"] Tys.nil) Tys.nil), Blk.tail (Ex.ifE (Ex.bin (BinOp.lt) (Ex.path [⟨"ordinal", Tys.nil⟩]) (Ex.path
  [⟨"A", Tys.nil⟩, ⟨"ORDINAL_SIZE", Tys.nil⟩])) (Blk.tail (Ex.call (Ex.path [⟨"Some", Tys.nil⟩]) (Exs.cons (Ex.call
  (Ex.path [⟨"Either", Tys.nil⟩, ⟨"Left", Tys.nil⟩]) (Exs.cons (Ex.method (Ex.call (Ex.path [⟨"A", Tys.nil⟩,
  ⟨"from_ordinal", Tys.nil⟩]) (Exs.cons (Ex.path [⟨"ordinal", Tys.nil⟩]) (Exs.nil))) "unwrap" Tys.nil (Exs.nil))
  (Exs.nil))) (Exs.nil)))) (Ex.block (Blk.tail (Ex.method (Ex.call (Ex.path [⟨"B", Tys.nil⟩, ⟨"from_ordinal",
  Tys.nil⟩]) (Exs.cons (Ex.bin (BinOp.sub) (Ex.path [⟨"ordinal", Tys.nil⟩]) (Ex.path [⟨"A", Tys.nil⟩,
  ⟨"ORDINAL_SIZE", Tys.nil⟩])) (Exs.nil))) "map" Tys.nil (Exs.cons (Ex.path [⟨"Either", Tys.nil⟩, ⟨"Right",
  Tys.nil⟩]) (Exs.nil))))))⟩

/-- Item 0 of `ordinal/impls/either.rs`. -/
def eitherItem0 : Item :=
  Item.impl ⟨[("A", false), ("B", false)], some (Ty.path ["Ordinal"] Tys.nil), Ty.path ["Either"] (Tys.cons (Ty.path
  ["A"] Tys.nil) (Tys.cons (Ty.path ["B"] Tys.nil) Tys.nil)), [("ORDINAL_SIZE", Ty.path ["usize"] Tys.nil,
  eitherConst0_0)], [eitherFn0_0, eitherFn0_1]⟩

/-- The items of `ordinal/impls/either.rs`. -/
def eitherTree : List Item :=
  [eitherItem0]

/-- `ORDINAL_SIZE` of item 0 of `ordinal/impls/boxed.rs`. -/
def boxedConst0_0 : Ex :=
  Ex.path [⟨"T", Tys.nil⟩, ⟨"ORDINAL_SIZE", Tys.nil⟩]

/-- `ordinal` of item 0 of `ordinal/impls/boxed.rs`. -/
def boxedFn0_0 : FnDef :=
  ⟨"ordinal", SelfKind.ref, [], Ty.path ["usize"] Tys.nil, Blk.tail (Ex.method (Ex.un (UnOp.deref) (Ex.un
  (UnOp.deref) (Ex.path [⟨"self", Tys.nil⟩]))) "ordinal" Tys.nil (Exs.nil))⟩

/-- `from_ordinal` of item 0 of `ordinal/impls/boxed.rs`. -/
def boxedFn0_1 : FnDef :=
  ⟨"from_ordinal", SelfKind.none, [(Pat.path ["ordinal"], Ty.path ["usize"] Tys.nil)], Ty.path ["Option"] (Tys.cons
  (Ty.path ["Self"] Tys.nil) Tys.nil), Blk.tail (Ex.call (Ex.path [⟨"Some", Tys.nil⟩]) (Exs.cons (Ex.call (Ex.path
  [⟨"Box", Tys.nil⟩, ⟨"new", Tys.nil⟩]) (Exs.cons (Ex.try (Ex.call (Ex.path [⟨"T", Tys.nil⟩, ⟨"from_ordinal",
  Tys.nil⟩]) (Exs.cons (Ex.path [⟨"ordinal", Tys.nil⟩]) (Exs.nil)))) (Exs.nil))) (Exs.nil)))⟩

/-- Item 0 of `ordinal/impls/boxed.rs`. -/
def boxedItem0 : Item :=
  Item.impl ⟨[("T", false)], some (Ty.path ["Ordinal"] Tys.nil), Ty.path ["Box"] (Tys.cons (Ty.path ["T"] Tys.nil)
  Tys.nil), [("ORDINAL_SIZE", Ty.path ["usize"] Tys.nil, boxedConst0_0)], [boxedFn0_0, boxedFn0_1]⟩

/-- The items of `ordinal/impls/boxed.rs`. -/
def boxedTree : List Item :=
  [boxedItem0]

/-- `ORDINAL_SIZE` of item 0 of `ordinal/impls/array.rs`. -/
def arrayConst0_0 : Ex :=
  Ex.block (Blk.letS (Pat.mutVar "s") (Ex.num 1 "usize") (Blk.letS (Pat.mutVar "i") (Ex.num 0 "") (Blk.stmt
  (Ex.whileE (Ex.bin (BinOp.lt) (Ex.path [⟨"i", Tys.nil⟩]) (Ex.path [⟨"N", Tys.nil⟩])) (Blk.semi (Ex.assign (Ex.path
  [⟨"s", Tys.nil⟩]) (Ex.method (Ex.method (Ex.path [⟨"s", Tys.nil⟩]) "checked_mul" Tys.nil (Exs.cons (Ex.path [⟨"T",
  Tys.nil⟩, ⟨"ORDINAL_SIZE", Tys.nil⟩]) (Exs.nil))) "unwrap" Tys.nil (Exs.nil))) (Blk.semi (Ex.assignOp (BinOp.add)
  (Ex.path [⟨"i", Tys.nil⟩]) (Ex.num 1 "")) (Blk.nil)))) (Blk.tail (Ex.path [⟨"s", Tys.nil⟩])))))

/-- `ordinal` of item 0 of `ordinal/impls/array.rs`. -/
def arrayFn0_0 : FnDef :=
  ⟨"ordinal", SelfKind.ref, [], Ty.path ["usize"] Tys.nil, Blk.letS (Pat.mutVar "r") (Ex.num 0 "usize") (Blk.stmt
  (Ex.forE (Pat.path ["v"]) (Ex.path [⟨"self", Tys.nil⟩]) (Blk.semi (Ex.assign (Ex.path [⟨"r", Tys.nil⟩]) (Ex.method
  (Ex.method (Ex.path [⟨"r", Tys.nil⟩]) "checked_mul" Tys.nil (Exs.cons (Ex.path [⟨"T", Tys.nil⟩, ⟨"ORDINAL_SIZE",
  Tys.nil⟩]) (Exs.nil))) "unwrap" Tys.nil (Exs.nil))) (Blk.semi (Ex.assignOp (BinOp.add) (Ex.path [⟨"r", Tys.nil⟩])
  (Ex.method (Ex.path [⟨"v", Tys.nil⟩]) "ordinal" Tys.nil (Exs.nil))) (Blk.nil)))) (Blk.tail (Ex.path [⟨"r",
  Tys.nil⟩])))⟩

/-- `from_ordinal` of item 0 of `ordinal/impls/array.rs`. -/
def arrayFn0_1 : FnDef :=
  ⟨"from_ordinal", SelfKind.none, [(Pat.path ["ordinal"], Ty.path ["usize"] Tys.nil)], Ty.path ["Option"] (Tys.cons
  (Ty.path ["Self"] Tys.nil) Tys.nil), Blk.letS (Pat.mutVar "n") (Ex.path [⟨"ordinal", Tys.nil⟩]) (Blk.letS
  (Pat.mutVar "array") (Ex.call (Ex.path [⟨"ArrayBuilder", Tys.nil⟩, ⟨"new", Tys.nil⟩]) (Exs.nil)) (Blk.stmt (Ex.forE
  (Pat.wild) (Ex.range (Ex.num 0 "") (Ex.path [⟨"N", Tys.nil⟩])) (Blk.letElse (Pat.ctor ["Some"] (Pats.cons (Pat.path
  ["i"]) (Pats.nil))) (Ex.method (Ex.path [⟨"n", Tys.nil⟩]) "checked_rem" Tys.nil (Exs.cons (Ex.path [⟨"T", Tys.nil⟩,
  ⟨"ORDINAL_SIZE", Tys.nil⟩]) (Exs.nil))) (Blk.semi (Ex.ret (Ex.path [⟨"None", Tys.nil⟩])) (Blk.nil)) (Blk.semi
  (Ex.method (Ex.path [⟨"array", Tys.nil⟩]) "push" Tys.nil (Exs.cons (Ex.method (Ex.call (Ex.path [⟨"T", Tys.nil⟩,
  ⟨"from_ordinal", Tys.nil⟩]) (Exs.cons (Ex.path [⟨"i", Tys.nil⟩]) (Exs.nil))) "unwrap" Tys.nil (Exs.nil))
  (Exs.nil))) (Blk.semi (Ex.assignOp (BinOp.div) (Ex.path [⟨"n", Tys.nil⟩]) (Ex.path [⟨"T", Tys.nil⟩,
  ⟨"ORDINAL_SIZE", Tys.nil⟩])) (Blk.nil))))) (Blk.tail (Ex.ifE (Ex.bin (BinOp.ne) (Ex.path [⟨"n", Tys.nil⟩]) (Ex.num
  0 "")) (Blk.tail (Ex.path [⟨"None", Tys.nil⟩])) (Ex.block (Blk.letS (Pat.mutVar "array") (Ex.method (Ex.path
  [⟨"array", Tys.nil⟩]) "finish" Tys.nil (Exs.nil)) (Blk.semi (Ex.method (Ex.path [⟨"array", Tys.nil⟩]) "reverse"
  Tys.nil (Exs.nil)) (Blk.tail (Ex.call (Ex.path [⟨"Some", Tys.nil⟩]) (Exs.cons (Ex.path [⟨"array", Tys.nil⟩])
  (Exs.nil)))))))))))⟩

/-- Item 0 of `ordinal/impls/array.rs`. -/
def arrayItem0 : Item :=
  Item.impl ⟨[("T", false), ("N", true)], some (Ty.path ["Ordinal"] Tys.nil), Ty.arr (Ty.path ["T"] Tys.nil) "N",
  [("ORDINAL_SIZE", Ty.path ["usize"] Tys.nil, arrayConst0_0)], [arrayFn0_0, arrayFn0_1]⟩

/-- The items of `ordinal/impls/array.rs`. -/
def arrayTree : List Item :=
  [arrayItem0]

end OrdinalMap.Text
