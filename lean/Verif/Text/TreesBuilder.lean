import Verif.Text.Parse
/-!
# Syntax trees

The trees of the texts in `Verif.Text.FilesBuilder`, written by `tools/text.py`.  `Verif.Text.ParsedBuilder` proves that they are right.
-/

namespace OrdinalMap.Text

/-- Item 0 of `array_builder.rs`. -/
def arrayBuilderItem0 : Item :=
  Item.struct "ArrayBuilder" [("array", Ty.arr (Ty.path ["MaybeUninit"] (Tys.cons (Ty.path ["T"] Tys.nil) Tys.nil))
  "S"), ("filled", Ty.path ["usize"] Tys.nil)]

/-- `drop` of item 1 of `array_builder.rs`. -/
def arrayBuilderFn1_0 : FnDef :=
  ⟨"drop", SelfKind.refMut, [], Ty.tuple Tys.nil, Blk.tail (Ex.forE (Pat.path ["i"]) (Ex.range (Ex.num 0 "")
  (Ex.field (Ex.path [⟨"self", Tys.nil⟩]) "filled")) (Blk.tail (Ex.unsafeBlock (Blk.semi (Ex.method (Ex.index
  (Ex.field (Ex.path [⟨"self", Tys.nil⟩]) "array") (Ex.path [⟨"i", Tys.nil⟩])) "assume_init_drop" Tys.nil (Exs.nil))
  (Blk.nil)))))⟩

/-- Item 1 of `array_builder.rs`. -/
def arrayBuilderItem1 : Item :=
  Item.impl ⟨[("T", false), ("S", true)], some (Ty.path ["Drop"] Tys.nil), Ty.path ["ArrayBuilder"] (Tys.cons
  (Ty.path ["T"] Tys.nil) (Tys.cons (Ty.path ["S"] Tys.nil) Tys.nil)), [], [arrayBuilderFn1_0]⟩

/-- `new` of item 2 of `array_builder.rs`. -/
def arrayBuilderFn2_0 : FnDef :=
  ⟨"new", SelfKind.none, [], Ty.path ["Self"] Tys.nil, Blk.tail (Ex.record [⟨"ArrayBuilder", Tys.nil⟩] (Fls.cons
  "array" (Ex.call (Ex.path [⟨"array", Tys.nil⟩, ⟨"from_fn", Tys.nil⟩]) (Exs.cons (Ex.closure (Pats.cons (Pat.wild)
  (Pats.nil)) (Ex.call (Ex.path [⟨"MaybeUninit", Tys.nil⟩, ⟨"uninit", Tys.nil⟩]) (Exs.nil))) (Exs.nil))) (Fls.cons
  "filled" (Ex.num 0 "") (Fls.nil))))⟩

/-- `push` of item 2 of `array_builder.rs`. -/
def arrayBuilderFn2_1 : FnDef :=
  ⟨"push", SelfKind.refMut, [(Pat.path ["value"], Ty.path ["T"] Tys.nil)], Ty.tuple Tys.nil, Blk.semi (Ex.mac
  "assert" (Exs.cons (Ex.bin (BinOp.lt) (Ex.field (Ex.path [⟨"self", Tys.nil⟩]) "filled") (Ex.path [⟨"S", Tys.nil⟩]))
  (Exs.nil))) (Blk.stmt (Ex.unsafeBlock (Blk.semi (Ex.method (Ex.method (Ex.method (Ex.method (Ex.field (Ex.path
  [⟨"self", Tys.nil⟩]) "array") "as_mut_ptr" Tys.nil (Exs.nil)) "cast" (Tys.cons (Ty.path ["T"] Tys.nil) Tys.nil)
  (Exs.nil)) "add" Tys.nil (Exs.cons (Ex.field (Ex.path [⟨"self", Tys.nil⟩]) "filled") (Exs.nil))) "write" Tys.nil
  (Exs.cons (Ex.path [⟨"value", Tys.nil⟩]) (Exs.nil))) (Blk.nil))) (Blk.semi (Ex.assignOp (BinOp.add) (Ex.field
  (Ex.path [⟨"self", Tys.nil⟩]) "filled") (Ex.num 1 "")) (Blk.nil)))⟩

/-- `try_finish` of item 2 of `array_builder.rs`. -/
def arrayBuilderFn2_2 : FnDef :=
  ⟨"try_finish", SelfKind.value, [], Ty.path ["Result"] (Tys.cons (Ty.arr (Ty.path ["T"] Tys.nil) "S") (Tys.cons
  (Ty.path ["ArrayNotFilled"] Tys.nil) Tys.nil)), Blk.stmt (Ex.ifE (Ex.bin (BinOp.ne) (Ex.field (Ex.path [⟨"self",
  Tys.nil⟩]) "filled") (Ex.path [⟨"S", Tys.nil⟩])) (Blk.stmt (Ex.unsafeBlock (Blk.semi (Ex.call (Ex.path [⟨"ptr",
  Tys.nil⟩, ⟨"drop_in_place", Tys.nil⟩]) (Exs.cons (Ex.ref true (Ex.index (Ex.field (Ex.path [⟨"self", Tys.nil⟩])
  "array") (Ex.range (Ex.field (Ex.path [⟨"self", Tys.nil⟩]) "filled") (Ex.path [⟨"S", Tys.nil⟩])))) (Exs.nil)))
  (Blk.nil))) (Blk.semi (Ex.ret (Ex.call (Ex.path [⟨"Err", Tys.nil⟩]) (Exs.cons (Ex.path [⟨"ArrayNotFilled",
  Tys.nil⟩]) (Exs.nil)))) (Blk.nil))) (Ex.tuple (Exs.nil))) (Blk.letS (Pat.path ["array"]) (Ex.unsafeBlock (Blk.tail
  (Ex.call (Ex.path [⟨"mem", Tys.nil⟩, ⟨"transmute_copy", Tys.cons (Ty.arr (Ty.path ["MaybeUninit"] (Tys.cons
  (Ty.path ["T"] Tys.nil) Tys.nil)) "S") (Tys.cons (Ty.arr (Ty.path ["T"] Tys.nil) "S") Tys.nil)⟩]) (Exs.cons (Ex.ref
  false (Ex.field (Ex.path [⟨"self", Tys.nil⟩]) "array")) (Exs.nil))))) (Blk.semi (Ex.call (Ex.path [⟨"mem",
  Tys.nil⟩, ⟨"forget", Tys.nil⟩]) (Exs.cons (Ex.path [⟨"self", Tys.nil⟩]) (Exs.nil))) (Blk.tail (Ex.call (Ex.path
  [⟨"Ok", Tys.nil⟩]) (Exs.cons (Ex.path [⟨"array", Tys.nil⟩]) (Exs.nil))))))⟩

/-- `finish` of item 2 of `array_builder.rs`. -/
def arrayBuilderFn2_3 : FnDef :=
  ⟨"finish", SelfKind.value, [], Ty.arr (Ty.path ["T"] Tys.nil) "S", Blk.tail (Ex.method (Ex.method (Ex.path
  [⟨"self", Tys.nil⟩]) "try_finish" Tys.nil (Exs.nil)) "unwrap" Tys.nil (Exs.nil))⟩

/-- Item 2 of `array_builder.rs`. -/
def arrayBuilderItem2 : Item :=
  Item.impl ⟨[("T", false), ("S", true)], none, Ty.path ["ArrayBuilder"] (Tys.cons (Ty.path ["T"] Tys.nil) (Tys.cons
  (Ty.path ["S"] Tys.nil) Tys.nil)), [], [arrayBuilderFn2_0, arrayBuilderFn2_1, arrayBuilderFn2_2,
  arrayBuilderFn2_3]⟩

/-- The items of `array_builder.rs`. -/
def arrayBuilderTree : List Item :=
  [arrayBuilderItem0, arrayBuilderItem1, arrayBuilderItem2]

end OrdinalMap.Text
