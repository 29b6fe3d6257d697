import Verif.Text.Parse
/-!
# Syntax trees

The trees of the texts in `Verif.Text.FilesMap`, written by `tools/text.py`.  `Verif.Text.ParsedMap` proves that they are right.
-/

namespace OrdinalMap.Text

/-- Item 0 of `map/enumerate.rs`. -/
def mapEnumerateItem0 : Item :=
  Item.struct "OrdinalEnumerate" [("next", Ty.path ["usize"] Tys.nil), ("iter", Ty.path ["I"] Tys.nil), ("_phantom",
  Ty.path ["PhantomData"] (Tys.cons (Ty.path ["K"] Tys.nil) Tys.nil))]

/-- `new` of item 1 of `map/enumerate.rs`. -/
def mapEnumerateFn1_0 : FnDef :=
  ⟨"new", SelfKind.none, [(Pat.path ["iter"], Ty.path ["I"] Tys.nil), (Pat.path ["next"], Ty.path ["usize"]
  Tys.nil)], Ty.path ["Self"] Tys.nil, Blk.tail (Ex.record [⟨"OrdinalEnumerate", Tys.nil⟩] (Fls.cons "next" (Ex.path
  [⟨"next", Tys.nil⟩]) (Fls.cons "iter" (Ex.path [⟨"iter", Tys.nil⟩]) (Fls.cons "_phantom" (Ex.path [⟨"PhantomData",
  Tys.nil⟩]) (Fls.nil)))))⟩

/-- Item 1 of `map/enumerate.rs`. -/
def mapEnumerateItem1 : Item :=
  Item.impl ⟨[("K", false), ("I", false)], none, Ty.path ["OrdinalEnumerate"] (Tys.cons (Ty.path ["K"] Tys.nil)
  (Tys.cons (Ty.path ["I"] Tys.nil) Tys.nil)), [], [mapEnumerateFn1_0]⟩

/-- `next` of item 2 of `map/enumerate.rs`. -/
def mapEnumerateFn2_0 : FnDef :=
  ⟨"next", SelfKind.refMut, [], Ty.path ["Option"] (Tys.cons (Ty.path ["Self", "Item"] Tys.nil) Tys.nil), Blk.letS
  (Pat.path ["v"]) (Ex.try (Ex.method (Ex.field (Ex.path [⟨"self", Tys.nil⟩]) "iter") "next" Tys.nil (Exs.nil)))
  (Blk.letS (Pat.path ["k"]) (Ex.method (Ex.call (Ex.path [⟨"K", Tys.nil⟩, ⟨"from_ordinal", Tys.nil⟩]) (Exs.cons
  (Ex.field (Ex.path [⟨"self", Tys.nil⟩]) "next") (Exs.nil))) "unwrap" Tys.nil (Exs.nil)) (Blk.semi (Ex.assignOp
  (BinOp.add) (Ex.field (Ex.path [⟨"self", Tys.nil⟩]) "next") (Ex.num 1 "")) (Blk.tail (Ex.call (Ex.path [⟨"Some",
  Tys.nil⟩]) (Exs.cons (Ex.tuple (Exs.cons (Ex.path [⟨"k", Tys.nil⟩]) (Exs.cons (Ex.path [⟨"v", Tys.nil⟩])
  (Exs.nil)))) (Exs.nil))))))⟩

/-- `size_hint` of item 2 of `map/enumerate.rs`. -/
def mapEnumerateFn2_1 : FnDef :=
  ⟨"size_hint", SelfKind.ref, [], Ty.tuple (Tys.cons (Ty.path ["usize"] Tys.nil) (Tys.cons (Ty.path ["Option"]
  (Tys.cons (Ty.path ["usize"] Tys.nil) Tys.nil)) Tys.nil)), Blk.tail (Ex.method (Ex.field (Ex.path [⟨"self",
  Tys.nil⟩]) "iter") "size_hint" Tys.nil (Exs.nil))⟩

/-- Item 2 of `map/enumerate.rs`. -/
def mapEnumerateItem2 : Item :=
  Item.impl ⟨[("K", false), ("I", false)], some (Ty.path ["Iterator"] Tys.nil), Ty.path ["OrdinalEnumerate"]
  (Tys.cons (Ty.path ["K"] Tys.nil) (Tys.cons (Ty.path ["I"] Tys.nil) Tys.nil)), [], [mapEnumerateFn2_0,
  mapEnumerateFn2_1]⟩

/-- `len` of item 3 of `map/enumerate.rs`. -/
def mapEnumerateFn3_0 : FnDef :=
  ⟨"len", SelfKind.ref, [], Ty.path ["usize"] Tys.nil, Blk.tail (Ex.method (Ex.field (Ex.path [⟨"self", Tys.nil⟩])
  "iter") "len" Tys.nil (Exs.nil))⟩

/-- Item 3 of `map/enumerate.rs`. -/
def mapEnumerateItem3 : Item :=
  Item.impl ⟨[("K", false), ("I", false)], some (Ty.path ["ExactSizeIterator"] Tys.nil), Ty.path ["OrdinalEnumerate"]
  (Tys.cons (Ty.path ["K"] Tys.nil) (Tys.cons (Ty.path ["I"] Tys.nil) Tys.nil)), [], [mapEnumerateFn3_0]⟩

/-- `next_back` of item 4 of `map/enumerate.rs`. -/
def mapEnumerateFn4_0 : FnDef :=
  ⟨"next_back", SelfKind.refMut, [], Ty.path ["Option"] (Tys.cons (Ty.path ["Self", "Item"] Tys.nil) Tys.nil),
  Blk.letS (Pat.path ["v"]) (Ex.try (Ex.method (Ex.field (Ex.path [⟨"self", Tys.nil⟩]) "iter") "next_back" Tys.nil
  (Exs.nil))) (Blk.letS (Pat.path ["k"]) (Ex.method (Ex.call (Ex.path [⟨"K", Tys.nil⟩, ⟨"from_ordinal", Tys.nil⟩])
  (Exs.cons (Ex.bin (BinOp.add) (Ex.field (Ex.path [⟨"self", Tys.nil⟩]) "next") (Ex.method (Ex.field (Ex.path
  [⟨"self", Tys.nil⟩]) "iter") "len" Tys.nil (Exs.nil))) (Exs.nil))) "unwrap" Tys.nil (Exs.nil)) (Blk.tail (Ex.call
  (Ex.path [⟨"Some", Tys.nil⟩]) (Exs.cons (Ex.tuple (Exs.cons (Ex.path [⟨"k", Tys.nil⟩]) (Exs.cons (Ex.path [⟨"v",
  Tys.nil⟩]) (Exs.nil)))) (Exs.nil)))))⟩

/-- Item 4 of `map/enumerate.rs`. -/
def mapEnumerateItem4 : Item :=
  Item.impl ⟨[("K", false), ("I", false)], some (Ty.path ["DoubleEndedIterator"] Tys.nil), Ty.path
  ["OrdinalEnumerate"] (Tys.cons (Ty.path ["K"] Tys.nil) (Tys.cons (Ty.path ["I"] Tys.nil) Tys.nil)), [],
  [mapEnumerateFn4_0]⟩

/-- `clone` of item 5 of `map/enumerate.rs`. -/
def mapEnumerateFn5_0 : FnDef :=
  ⟨"clone", SelfKind.ref, [], Ty.path ["Self"] Tys.nil, Blk.tail (Ex.record [⟨"OrdinalEnumerate", Tys.nil⟩] (Fls.cons
  "next" (Ex.field (Ex.path [⟨"self", Tys.nil⟩]) "next") (Fls.cons "iter" (Ex.method (Ex.field (Ex.path [⟨"self",
  Tys.nil⟩]) "iter") "clone" Tys.nil (Exs.nil)) (Fls.cons "_phantom" (Ex.path [⟨"PhantomData", Tys.nil⟩])
  (Fls.nil)))))⟩

/-- Item 5 of `map/enumerate.rs`. -/
def mapEnumerateItem5 : Item :=
  Item.impl ⟨[("K", false), ("I", false)], some (Ty.path ["Clone"] Tys.nil), Ty.path ["OrdinalEnumerate"] (Tys.cons
  (Ty.path ["K"] Tys.nil) (Tys.cons (Ty.path ["I"] Tys.nil) Tys.nil)), [], [mapEnumerateFn5_0]⟩

/-- The items of `map/enumerate.rs`. -/
def mapEnumerateTree : List Item :=
  [mapEnumerateItem0, mapEnumerateItem1, mapEnumerateItem2, mapEnumerateItem3, mapEnumerateItem4, mapEnumerateItem5]

/-- Item 0 of `map/total/iter.rs`. -/
def totalIterItem0 : Item :=
  Item.struct "total::Iter" [("iter", Ty.path ["OrdinalEnumerate"] (Tys.cons (Ty.path ["K"] Tys.nil) (Tys.cons
  (Ty.path ["slice", "Iter"] (Tys.cons (Ty.path ["V"] Tys.nil) Tys.nil)) Tys.nil)))]

/-- `new` of item 1 of `map/total/iter.rs`. -/
def totalIterFn1_0 : FnDef :=
  ⟨"new", SelfKind.none, [(Pat.path ["iter"], Ty.path ["slice", "Iter"] (Tys.cons (Ty.path ["V"] Tys.nil) Tys.nil)),
  (Pat.path ["next"], Ty.path ["usize"] Tys.nil)], Ty.path ["Self"] Tys.nil, Blk.tail (Ex.record [⟨"total::Iter",
  Tys.nil⟩] (Fls.cons "iter" (Ex.call (Ex.path [⟨"OrdinalEnumerate", Tys.nil⟩, ⟨"new", Tys.nil⟩]) (Exs.cons (Ex.path
  [⟨"iter", Tys.nil⟩]) (Exs.cons (Ex.path [⟨"next", Tys.nil⟩]) (Exs.nil)))) (Fls.nil)))⟩

/-- Item 1 of `map/total/iter.rs`. -/
def totalIterItem1 : Item :=
  Item.impl ⟨[("K", false), ("V", false)], none, Ty.path ["total::Iter"] (Tys.cons (Ty.path ["K"] Tys.nil) (Tys.cons
  (Ty.path ["V"] Tys.nil) Tys.nil)), [], [totalIterFn1_0]⟩

/-- `next` of item 2 of `map/total/iter.rs`. -/
def totalIterFn2_0 : FnDef :=
  ⟨"next", SelfKind.refMut, [], Ty.path ["Option"] (Tys.cons (Ty.path ["Self", "Item"] Tys.nil) Tys.nil), Blk.tail
  (Ex.method (Ex.field (Ex.path [⟨"self", Tys.nil⟩]) "iter") "next" Tys.nil (Exs.nil))⟩

/-- `size_hint` of item 2 of `map/total/iter.rs`. -/
def totalIterFn2_1 : FnDef :=
  ⟨"size_hint", SelfKind.ref, [], Ty.tuple (Tys.cons (Ty.path ["usize"] Tys.nil) (Tys.cons (Ty.path ["Option"]
  (Tys.cons (Ty.path ["usize"] Tys.nil) Tys.nil)) Tys.nil)), Blk.tail (Ex.method (Ex.field (Ex.path [⟨"self",
  Tys.nil⟩]) "iter") "size_hint" Tys.nil (Exs.nil))⟩

/-- Item 2 of `map/total/iter.rs`. -/
def totalIterItem2 : Item :=
  Item.impl ⟨[("K", false), ("V", false)], some (Ty.path ["Iterator"] Tys.nil), Ty.path ["total::Iter"] (Tys.cons
  (Ty.path ["K"] Tys.nil) (Tys.cons (Ty.path ["V"] Tys.nil) Tys.nil)), [], [totalIterFn2_0, totalIterFn2_1]⟩

/-- `len` of item 3 of `map/total/iter.rs`. -/
def totalIterFn3_0 : FnDef :=
  ⟨"len", SelfKind.ref, [], Ty.path ["usize"] Tys.nil, Blk.tail (Ex.method (Ex.field (Ex.path [⟨"self", Tys.nil⟩])
  "iter") "len" Tys.nil (Exs.nil))⟩

/-- Item 3 of `map/total/iter.rs`. -/
def totalIterItem3 : Item :=
  Item.impl ⟨[("K", false), ("V", false)], some (Ty.path ["ExactSizeIterator"] Tys.nil), Ty.path ["total::Iter"]
  (Tys.cons (Ty.path ["K"] Tys.nil) (Tys.cons (Ty.path ["V"] Tys.nil) Tys.nil)), [], [totalIterFn3_0]⟩

/-- `next_back` of item 4 of `map/total/iter.rs`. -/
def totalIterFn4_0 : FnDef :=
  ⟨"next_back", SelfKind.refMut, [], Ty.path ["Option"] (Tys.cons (Ty.path ["Self", "Item"] Tys.nil) Tys.nil),
  Blk.tail (Ex.method (Ex.field (Ex.path [⟨"self", Tys.nil⟩]) "iter") "next_back" Tys.nil (Exs.nil))⟩

/-- Item 4 of `map/total/iter.rs`. -/
def totalIterItem4 : Item :=
  Item.impl ⟨[("K", false), ("V", false)], some (Ty.path ["DoubleEndedIterator"] Tys.nil), Ty.path ["total::Iter"]
  (Tys.cons (Ty.path ["K"] Tys.nil) (Tys.cons (Ty.path ["V"] Tys.nil) Tys.nil)), [], [totalIterFn4_0]⟩

/-- `clone` of item 5 of `map/total/iter.rs`. -/
def totalIterFn5_0 : FnDef :=
  ⟨"clone", SelfKind.ref, [], Ty.path ["Self"] Tys.nil, Blk.tail (Ex.record [⟨"total::Iter", Tys.nil⟩] (Fls.cons
  "iter" (Ex.method (Ex.field (Ex.path [⟨"self", Tys.nil⟩]) "iter") "clone" Tys.nil (Exs.nil)) (Fls.nil)))⟩

/-- Item 5 of `map/total/iter.rs`. -/
def totalIterItem5 : Item :=
  Item.impl ⟨[("K", false), ("V", false)], some (Ty.path ["Clone"] Tys.nil), Ty.path ["total::Iter"] (Tys.cons
  (Ty.path ["K"] Tys.nil) (Tys.cons (Ty.path ["V"] Tys.nil) Tys.nil)), [], [totalIterFn5_0]⟩

/-- `fmt` of item 6 of `map/total/iter.rs`. -/
def totalIterFn6_0 : FnDef :=
  ⟨"fmt", SelfKind.ref, [(Pat.path ["f"], Ty.ref true (Ty.path ["Formatter"] Tys.nil))], Ty.path ["fmt", "Result"]
  Tys.nil, Blk.tail (Ex.method (Ex.method (Ex.method (Ex.path [⟨"f", Tys.nil⟩]) "debug_list" Tys.nil (Exs.nil))
  "entries" Tys.nil (Exs.cons (Ex.method (Ex.path [⟨"self", Tys.nil⟩]) "clone" Tys.nil (Exs.nil)) (Exs.nil)))
  "finish" Tys.nil (Exs.nil))⟩

/-- Item 6 of `map/total/iter.rs`. -/
def totalIterItem6 : Item :=
  Item.impl ⟨[("K", false), ("V", false)], some (Ty.path ["Debug"] Tys.nil), Ty.path ["total::Iter"] (Tys.cons
  (Ty.path ["K"] Tys.nil) (Tys.cons (Ty.path ["V"] Tys.nil) Tys.nil)), [], [totalIterFn6_0]⟩

/-- Item 7 of `map/total/iter.rs`. -/
def totalIterItem7 : Item :=
  Item.struct "total::IterMut" [("iter", Ty.path ["OrdinalEnumerate"] (Tys.cons (Ty.path ["K"] Tys.nil) (Tys.cons
  (Ty.path ["slice", "IterMut"] (Tys.cons (Ty.path ["V"] Tys.nil) Tys.nil)) Tys.nil)))]

/-- `new` of item 8 of `map/total/iter.rs`. -/
def totalIterFn8_0 : FnDef :=
  ⟨"new", SelfKind.none, [(Pat.path ["iter"], Ty.path ["slice", "IterMut"] (Tys.cons (Ty.path ["V"] Tys.nil)
  Tys.nil))], Ty.path ["Self"] Tys.nil, Blk.tail (Ex.record [⟨"total::IterMut", Tys.nil⟩] (Fls.cons "iter" (Ex.call
  (Ex.path [⟨"OrdinalEnumerate", Tys.nil⟩, ⟨"new", Tys.nil⟩]) (Exs.cons (Ex.path [⟨"iter", Tys.nil⟩]) (Exs.cons
  (Ex.num 0 "") (Exs.nil)))) (Fls.nil)))⟩

/-- `iter` of item 8 of `map/total/iter.rs`. -/
def totalIterFn8_1 : FnDef :=
  ⟨"iter", SelfKind.ref, [], Ty.path ["total::Iter"] (Tys.cons (Ty.path ["K"] Tys.nil) (Tys.cons (Ty.path ["V"]
  Tys.nil) Tys.nil)), Blk.tail (Ex.call (Ex.path [⟨"total::Iter", Tys.nil⟩, ⟨"new", Tys.nil⟩]) (Exs.cons (Ex.method
  (Ex.method (Ex.field (Ex.field (Ex.path [⟨"self", Tys.nil⟩]) "iter") "iter") "as_slice" Tys.nil (Exs.nil)) "iter"
  Tys.nil (Exs.nil)) (Exs.cons (Ex.field (Ex.field (Ex.path [⟨"self", Tys.nil⟩]) "iter") "next") (Exs.nil))))⟩

/-- Item 8 of `map/total/iter.rs`. -/
def totalIterItem8 : Item :=
  Item.impl ⟨[("K", false), ("V", false)], none, Ty.path ["total::IterMut"] (Tys.cons (Ty.path ["K"] Tys.nil)
  (Tys.cons (Ty.path ["V"] Tys.nil) Tys.nil)), [], [totalIterFn8_0, totalIterFn8_1]⟩

/-- `next` of item 9 of `map/total/iter.rs`. -/
def totalIterFn9_0 : FnDef :=
  ⟨"next", SelfKind.refMut, [], Ty.path ["Option"] (Tys.cons (Ty.path ["Self", "Item"] Tys.nil) Tys.nil), Blk.tail
  (Ex.method (Ex.field (Ex.path [⟨"self", Tys.nil⟩]) "iter") "next" Tys.nil (Exs.nil))⟩

/-- `size_hint` of item 9 of `map/total/iter.rs`. -/
def totalIterFn9_1 : FnDef :=
  ⟨"size_hint", SelfKind.ref, [], Ty.tuple (Tys.cons (Ty.path ["usize"] Tys.nil) (Tys.cons (Ty.path ["Option"]
  (Tys.cons (Ty.path ["usize"] Tys.nil) Tys.nil)) Tys.nil)), Blk.tail (Ex.method (Ex.field (Ex.path [⟨"self",
  Tys.nil⟩]) "iter") "size_hint" Tys.nil (Exs.nil))⟩

/-- Item 9 of `map/total/iter.rs`. -/
def totalIterItem9 : Item :=
  Item.impl ⟨[("K", false), ("V", false)], some (Ty.path ["Iterator"] Tys.nil), Ty.path ["total::IterMut"] (Tys.cons
  (Ty.path ["K"] Tys.nil) (Tys.cons (Ty.path ["V"] Tys.nil) Tys.nil)), [], [totalIterFn9_0, totalIterFn9_1]⟩

/-- `len` of item 10 of `map/total/iter.rs`. -/
def totalIterFn10_0 : FnDef :=
  ⟨"len", SelfKind.ref, [], Ty.path ["usize"] Tys.nil, Blk.tail (Ex.method (Ex.field (Ex.path [⟨"self", Tys.nil⟩])
  "iter") "len" Tys.nil (Exs.nil))⟩

/-- Item 10 of `map/total/iter.rs`. -/
def totalIterItem10 : Item :=
  Item.impl ⟨[("K", false), ("V", false)], some (Ty.path ["ExactSizeIterator"] Tys.nil), Ty.path ["total::IterMut"]
  (Tys.cons (Ty.path ["K"] Tys.nil) (Tys.cons (Ty.path ["V"] Tys.nil) Tys.nil)), [], [totalIterFn10_0]⟩

/-- `next_back` of item 11 of `map/total/iter.rs`. -/
def totalIterFn11_0 : FnDef :=
  ⟨"next_back", SelfKind.refMut, [], Ty.path ["Option"] (Tys.cons (Ty.path ["Self", "Item"] Tys.nil) Tys.nil),
  Blk.tail (Ex.method (Ex.field (Ex.path [⟨"self", Tys.nil⟩]) "iter") "next_back" Tys.nil (Exs.nil))⟩

/-- Item 11 of `map/total/iter.rs`. -/
def totalIterItem11 : Item :=
  Item.impl ⟨[("K", false), ("V", false)], some (Ty.path ["DoubleEndedIterator"] Tys.nil), Ty.path ["total::IterMut"]
  (Tys.cons (Ty.path ["K"] Tys.nil) (Tys.cons (Ty.path ["V"] Tys.nil) Tys.nil)), [], [totalIterFn11_0]⟩

/-- `fmt` of item 12 of `map/total/iter.rs`. -/
def totalIterFn12_0 : FnDef :=
  ⟨"fmt", SelfKind.ref, [(Pat.path ["f"], Ty.ref true (Ty.path ["Formatter"] Tys.nil))], Ty.path ["fmt", "Result"]
  Tys.nil, Blk.tail (Ex.method (Ex.method (Ex.method (Ex.path [⟨"f", Tys.nil⟩]) "debug_list" Tys.nil (Exs.nil))
  "entries" Tys.nil (Exs.cons (Ex.method (Ex.path [⟨"self", Tys.nil⟩]) "iter" Tys.nil (Exs.nil)) (Exs.nil))) "finish"
  Tys.nil (Exs.nil))⟩

/-- Item 12 of `map/total/iter.rs`. -/
def totalIterItem12 : Item :=
  Item.impl ⟨[("K", false), ("V", false)], some (Ty.path ["Debug"] Tys.nil), Ty.path ["total::IterMut"] (Tys.cons
  (Ty.path ["K"] Tys.nil) (Tys.cons (Ty.path ["V"] Tys.nil) Tys.nil)), [], [totalIterFn12_0]⟩

/-- Item 13 of `map/total/iter.rs`. -/
def totalIterItem13 : Item :=
  Item.struct "total::IntoIterArray" [("iter", Ty.path ["OrdinalEnumerate"] (Tys.cons (Ty.path ["K"] Tys.nil)
  (Tys.cons (Ty.path ["array", "IntoIter"] (Tys.cons (Ty.path ["V"] Tys.nil) (Tys.cons (Ty.path ["S"] Tys.nil)
  Tys.nil))) Tys.nil)))]

/-- `new` of item 14 of `map/total/iter.rs`. -/
def totalIterFn14_0 : FnDef :=
  ⟨"new", SelfKind.none, [(Pat.path ["iter"], Ty.path ["array", "IntoIter"] (Tys.cons (Ty.path ["V"] Tys.nil)
  (Tys.cons (Ty.path ["S"] Tys.nil) Tys.nil)))], Ty.path ["Self"] Tys.nil, Blk.tail (Ex.record
  [⟨"total::IntoIterArray", Tys.nil⟩] (Fls.cons "iter" (Ex.call (Ex.path [⟨"OrdinalEnumerate", Tys.nil⟩, ⟨"new",
  Tys.nil⟩]) (Exs.cons (Ex.path [⟨"iter", Tys.nil⟩]) (Exs.cons (Ex.num 0 "") (Exs.nil)))) (Fls.nil)))⟩

/-- `iter` of item 14 of `map/total/iter.rs`. -/
def totalIterFn14_1 : FnDef :=
  ⟨"iter", SelfKind.ref, [], Ty.path ["total::Iter"] (Tys.cons (Ty.path ["K"] Tys.nil) (Tys.cons (Ty.path ["V"]
  Tys.nil) Tys.nil)), Blk.tail (Ex.call (Ex.path [⟨"total::Iter", Tys.nil⟩, ⟨"new", Tys.nil⟩]) (Exs.cons (Ex.method
  (Ex.method (Ex.field (Ex.field (Ex.path [⟨"self", Tys.nil⟩]) "iter") "iter") "as_slice" Tys.nil (Exs.nil)) "iter"
  Tys.nil (Exs.nil)) (Exs.cons (Ex.field (Ex.field (Ex.path [⟨"self", Tys.nil⟩]) "iter") "next") (Exs.nil))))⟩

/-- Item 14 of `map/total/iter.rs`. -/
def totalIterItem14 : Item :=
  Item.impl ⟨[("K", false), ("V", false), ("S", true)], none, Ty.path ["total::IntoIterArray"] (Tys.cons (Ty.path
  ["K"] Tys.nil) (Tys.cons (Ty.path ["V"] Tys.nil) (Tys.cons (Ty.path ["S"] Tys.nil) Tys.nil))), [],
  [totalIterFn14_0, totalIterFn14_1]⟩

/-- `next` of item 15 of `map/total/iter.rs`. -/
def totalIterFn15_0 : FnDef :=
  ⟨"next", SelfKind.refMut, [], Ty.path ["Option"] (Tys.cons (Ty.path ["Self", "Item"] Tys.nil) Tys.nil), Blk.tail
  (Ex.method (Ex.field (Ex.path [⟨"self", Tys.nil⟩]) "iter") "next" Tys.nil (Exs.nil))⟩

/-- Item 15 of `map/total/iter.rs`. -/
def totalIterItem15 : Item :=
  Item.impl ⟨[("K", false), ("V", false), ("S", true)], some (Ty.path ["Iterator"] Tys.nil), Ty.path
  ["total::IntoIterArray"] (Tys.cons (Ty.path ["K"] Tys.nil) (Tys.cons (Ty.path ["V"] Tys.nil) (Tys.cons (Ty.path
  ["S"] Tys.nil) Tys.nil))), [], [totalIterFn15_0]⟩

/-- `len` of item 16 of `map/total/iter.rs`. -/
def totalIterFn16_0 : FnDef :=
  ⟨"len", SelfKind.ref, [], Ty.path ["usize"] Tys.nil, Blk.tail (Ex.method (Ex.field (Ex.path [⟨"self", Tys.nil⟩])
  "iter") "len" Tys.nil (Exs.nil))⟩

/-- Item 16 of `map/total/iter.rs`. -/
def totalIterItem16 : Item :=
  Item.impl ⟨[("K", false), ("V", false), ("S", true)], some (Ty.path ["ExactSizeIterator"] Tys.nil), Ty.path
  ["total::IntoIterArray"] (Tys.cons (Ty.path ["K"] Tys.nil) (Tys.cons (Ty.path ["V"] Tys.nil) (Tys.cons (Ty.path
  ["S"] Tys.nil) Tys.nil))), [], [totalIterFn16_0]⟩

/-- `next_back` of item 17 of `map/total/iter.rs`. -/
def totalIterFn17_0 : FnDef :=
  ⟨"next_back", SelfKind.refMut, [], Ty.path ["Option"] (Tys.cons (Ty.path ["Self", "Item"] Tys.nil) Tys.nil),
  Blk.tail (Ex.method (Ex.field (Ex.path [⟨"self", Tys.nil⟩]) "iter") "next_back" Tys.nil (Exs.nil))⟩

/-- Item 17 of `map/total/iter.rs`. -/
def totalIterItem17 : Item :=
  Item.impl ⟨[("K", false), ("V", false), ("S", true)], some (Ty.path ["DoubleEndedIterator"] Tys.nil), Ty.path
  ["total::IntoIterArray"] (Tys.cons (Ty.path ["K"] Tys.nil) (Tys.cons (Ty.path ["V"] Tys.nil) (Tys.cons (Ty.path
  ["S"] Tys.nil) Tys.nil))), [], [totalIterFn17_0]⟩

/-- `clone` of item 18 of `map/total/iter.rs`. -/
def totalIterFn18_0 : FnDef :=
  ⟨"clone", SelfKind.ref, [], Ty.path ["Self"] Tys.nil, Blk.tail (Ex.record [⟨"total::IntoIterArray", Tys.nil⟩]
  (Fls.cons "iter" (Ex.method (Ex.field (Ex.path [⟨"self", Tys.nil⟩]) "iter") "clone" Tys.nil (Exs.nil)) (Fls.nil)))⟩

/-- Item 18 of `map/total/iter.rs`. -/
def totalIterItem18 : Item :=
  Item.impl ⟨[("K", false), ("V", false), ("S", true)], some (Ty.path ["Clone"] Tys.nil), Ty.path
  ["total::IntoIterArray"] (Tys.cons (Ty.path ["K"] Tys.nil) (Tys.cons (Ty.path ["V"] Tys.nil) (Tys.cons (Ty.path
  ["S"] Tys.nil) Tys.nil))), [], [totalIterFn18_0]⟩

/-- `fmt` of item 19 of `map/total/iter.rs`. -/
def totalIterFn19_0 : FnDef :=
  ⟨"fmt", SelfKind.ref, [(Pat.path ["f"], Ty.ref true (Ty.path ["Formatter"] Tys.nil))], Ty.path ["fmt", "Result"]
  Tys.nil, Blk.tail (Ex.method (Ex.method (Ex.method (Ex.path [⟨"f", Tys.nil⟩]) "debug_list" Tys.nil (Exs.nil))
  "entries" Tys.nil (Exs.cons (Ex.method (Ex.path [⟨"self", Tys.nil⟩]) "iter" Tys.nil (Exs.nil)) (Exs.nil))) "finish"
  Tys.nil (Exs.nil))⟩

/-- Item 19 of `map/total/iter.rs`. -/
def totalIterItem19 : Item :=
  Item.impl ⟨[("K", false), ("V", false), ("S", true)], some (Ty.path ["Debug"] Tys.nil), Ty.path
  ["total::IntoIterArray"] (Tys.cons (Ty.path ["K"] Tys.nil) (Tys.cons (Ty.path ["V"] Tys.nil) (Tys.cons (Ty.path
  ["S"] Tys.nil) Tys.nil))), [], [totalIterFn19_0]⟩

/-- Item 20 of `map/total/iter.rs`. -/
def totalIterItem20 : Item :=
  Item.struct "total::IntoIter" [("iter", Ty.path ["OrdinalEnumerate"] (Tys.cons (Ty.path ["K"] Tys.nil) (Tys.cons
  (Ty.path ["vec", "IntoIter"] (Tys.cons (Ty.path ["V"] Tys.nil) Tys.nil)) Tys.nil)))]

/-- `new` of item 21 of `map/total/iter.rs`. -/
def totalIterFn21_0 : FnDef :=
  ⟨"new", SelfKind.none, [(Pat.path ["iter"], Ty.path ["vec", "IntoIter"] (Tys.cons (Ty.path ["V"] Tys.nil)
  Tys.nil))], Ty.path ["Self"] Tys.nil, Blk.tail (Ex.record [⟨"total::IntoIter", Tys.nil⟩] (Fls.cons "iter" (Ex.call
  (Ex.path [⟨"OrdinalEnumerate", Tys.nil⟩, ⟨"new", Tys.nil⟩]) (Exs.cons (Ex.path [⟨"iter", Tys.nil⟩]) (Exs.cons
  (Ex.num 0 "") (Exs.nil)))) (Fls.nil)))⟩

/-- `iter` of item 21 of `map/total/iter.rs`. -/
def totalIterFn21_1 : FnDef :=
  ⟨"iter", SelfKind.ref, [], Ty.path ["total::Iter"] (Tys.cons (Ty.path ["K"] Tys.nil) (Tys.cons (Ty.path ["V"]
  Tys.nil) Tys.nil)), Blk.tail (Ex.call (Ex.path [⟨"total::Iter", Tys.nil⟩, ⟨"new", Tys.nil⟩]) (Exs.cons (Ex.method
  (Ex.method (Ex.field (Ex.field (Ex.path [⟨"self", Tys.nil⟩]) "iter") "iter") "as_slice" Tys.nil (Exs.nil)) "iter"
  Tys.nil (Exs.nil)) (Exs.cons (Ex.field (Ex.field (Ex.path [⟨"self", Tys.nil⟩]) "iter") "next") (Exs.nil))))⟩

/-- Item 21 of `map/total/iter.rs`. -/
def totalIterItem21 : Item :=
  Item.impl ⟨[("K", false), ("V", false)], none, Ty.path ["total::IntoIter"] (Tys.cons (Ty.path ["K"] Tys.nil)
  (Tys.cons (Ty.path ["V"] Tys.nil) Tys.nil)), [], [totalIterFn21_0, totalIterFn21_1]⟩

/-- `next` of item 22 of `map/total/iter.rs`. -/
def totalIterFn22_0 : FnDef :=
  ⟨"next", SelfKind.refMut, [], Ty.path ["Option"] (Tys.cons (Ty.path ["Self", "Item"] Tys.nil) Tys.nil), Blk.tail
  (Ex.method (Ex.field (Ex.path [⟨"self", Tys.nil⟩]) "iter") "next" Tys.nil (Exs.nil))⟩

/-- `size_hint` of item 22 of `map/total/iter.rs`. -/
def totalIterFn22_1 : FnDef :=
  ⟨"size_hint", SelfKind.ref, [], Ty.tuple (Tys.cons (Ty.path ["usize"] Tys.nil) (Tys.cons (Ty.path ["Option"]
  (Tys.cons (Ty.path ["usize"] Tys.nil) Tys.nil)) Tys.nil)), Blk.tail (Ex.method (Ex.field (Ex.path [⟨"self",
  Tys.nil⟩]) "iter") "size_hint" Tys.nil (Exs.nil))⟩

/-- Item 22 of `map/total/iter.rs`. -/
def totalIterItem22 : Item :=
  Item.impl ⟨[("K", false), ("V", false)], some (Ty.path ["Iterator"] Tys.nil), Ty.path ["total::IntoIter"] (Tys.cons
  (Ty.path ["K"] Tys.nil) (Tys.cons (Ty.path ["V"] Tys.nil) Tys.nil)), [], [totalIterFn22_0, totalIterFn22_1]⟩

/-- `len` of item 23 of `map/total/iter.rs`. -/
def totalIterFn23_0 : FnDef :=
  ⟨"len", SelfKind.ref, [], Ty.path ["usize"] Tys.nil, Blk.tail (Ex.method (Ex.field (Ex.path [⟨"self", Tys.nil⟩])
  "iter") "len" Tys.nil (Exs.nil))⟩

/-- Item 23 of `map/total/iter.rs`. -/
def totalIterItem23 : Item :=
  Item.impl ⟨[("K", false), ("V", false)], some (Ty.path ["ExactSizeIterator"] Tys.nil), Ty.path ["total::IntoIter"]
  (Tys.cons (Ty.path ["K"] Tys.nil) (Tys.cons (Ty.path ["V"] Tys.nil) Tys.nil)), [], [totalIterFn23_0]⟩

/-- `next_back` of item 24 of `map/total/iter.rs`. -/
def totalIterFn24_0 : FnDef :=
  ⟨"next_back", SelfKind.refMut, [], Ty.path ["Option"] (Tys.cons (Ty.path ["Self", "Item"] Tys.nil) Tys.nil),
  Blk.tail (Ex.method (Ex.field (Ex.path [⟨"self", Tys.nil⟩]) "iter") "next_back" Tys.nil (Exs.nil))⟩

/-- Item 24 of `map/total/iter.rs`. -/
def totalIterItem24 : Item :=
  Item.impl ⟨[("K", false), ("V", false)], some (Ty.path ["DoubleEndedIterator"] Tys.nil), Ty.path
  ["total::IntoIter"] (Tys.cons (Ty.path ["K"] Tys.nil) (Tys.cons (Ty.path ["V"] Tys.nil) Tys.nil)), [],
  [totalIterFn24_0]⟩

/-- `fmt` of item 25 of `map/total/iter.rs`. -/
def totalIterFn25_0 : FnDef :=
  ⟨"fmt", SelfKind.ref, [(Pat.path ["f"], Ty.ref true (Ty.path ["Formatter"] Tys.nil))], Ty.path ["fmt", "Result"]
  Tys.nil, Blk.tail (Ex.method (Ex.method (Ex.method (Ex.path [⟨"f", Tys.nil⟩]) "debug_list" Tys.nil (Exs.nil))
  "entries" Tys.nil (Exs.cons (Ex.method (Ex.path [⟨"self", Tys.nil⟩]) "iter" Tys.nil (Exs.nil)) (Exs.nil))) "finish"
  Tys.nil (Exs.nil))⟩

/-- Item 25 of `map/total/iter.rs`. -/
def totalIterItem25 : Item :=
  Item.impl ⟨[("K", false), ("V", false)], some (Ty.path ["Debug"] Tys.nil), Ty.path ["total::IntoIter"] (Tys.cons
  (Ty.path ["K"] Tys.nil) (Tys.cons (Ty.path ["V"] Tys.nil) Tys.nil)), [], [totalIterFn25_0]⟩

/-- `clone` of item 26 of `map/total/iter.rs`. -/
def totalIterFn26_0 : FnDef :=
  ⟨"clone", SelfKind.ref, [], Ty.path ["Self"] Tys.nil, Blk.tail (Ex.record [⟨"total::IntoIter", Tys.nil⟩] (Fls.cons
  "iter" (Ex.method (Ex.field (Ex.path [⟨"self", Tys.nil⟩]) "iter") "clone" Tys.nil (Exs.nil)) (Fls.nil)))⟩

/-- Item 26 of `map/total/iter.rs`. -/
def totalIterItem26 : Item :=
  Item.impl ⟨[("K", false), ("V", false)], some (Ty.path ["Clone"] Tys.nil), Ty.path ["total::IntoIter"] (Tys.cons
  (Ty.path ["K"] Tys.nil) (Tys.cons (Ty.path ["V"] Tys.nil) Tys.nil)), [], [totalIterFn26_0]⟩

/-- The items of `map/total/iter.rs`. -/
def totalIterTree : List Item :=
  [totalIterItem0, totalIterItem1, totalIterItem2, totalIterItem3, totalIterItem4, totalIterItem5, totalIterItem6, totalIterItem7, totalIterItem8, totalIterItem9, totalIterItem10, totalIterItem11, totalIterItem12, totalIterItem13, totalIterItem14, totalIterItem15, totalIterItem16, totalIterItem17, totalIterItem18, totalIterItem19, totalIterItem20, totalIterItem21, totalIterItem22, totalIterItem23, totalIterItem24, totalIterItem25, totalIterItem26]

/-- Item 0 of `map/total/map.rs`. -/
def totalMapItem0 : Item :=
  Item.struct "OrdinalTotalMap" [("map", Ty.path ["Box"] (Tys.cons (Ty.slice (Ty.path ["V"] Tys.nil)) Tys.nil)),
  ("_phantom", Ty.path ["PhantomData"] (Tys.cons (Ty.path ["T"] Tys.nil) Tys.nil))]

/-- `try_new` of item 1 of `map/total/map.rs`. -/
def totalMapFn1_0 : FnDef :=
  ⟨"try_new", SelfKind.none, [(Pat.mutVar "init", Ty.impl (Ty.fn ["FnMut"] (Tys.cons (Ty.path ["K"] Tys.nil) Tys.nil)
  (Ty.path ["Result"] (Tys.cons (Ty.path ["V"] Tys.nil) (Tys.cons (Ty.path ["E"] Tys.nil) Tys.nil)))))], Ty.path
  ["Result"] (Tys.cons (Ty.path ["Self"] Tys.nil) (Tys.cons (Ty.path ["E"] Tys.nil) Tys.nil)), Blk.letS (Pat.mutVar
  "map") (Ex.call (Ex.path [⟨"Vec", Tys.nil⟩, ⟨"with_capacity", Tys.nil⟩]) (Exs.cons (Ex.path [⟨"K", Tys.nil⟩,
  ⟨"ORDINAL_SIZE", Tys.nil⟩]) (Exs.nil))) (Blk.stmt (Ex.forE (Pat.path ["v"]) (Ex.call (Ex.path [⟨"K", Tys.nil⟩,
  ⟨"all_values", Tys.nil⟩]) (Exs.nil)) (Blk.semi (Ex.method (Ex.path [⟨"map", Tys.nil⟩]) "push" Tys.nil (Exs.cons
  (Ex.try (Ex.call (Ex.path [⟨"init", Tys.nil⟩]) (Exs.cons (Ex.path [⟨"v", Tys.nil⟩]) (Exs.nil)))) (Exs.nil)))
  (Blk.nil))) (Blk.tail (Ex.call (Ex.path [⟨"Ok", Tys.nil⟩]) (Exs.cons (Ex.record [⟨"OrdinalTotalMap", Tys.nil⟩]
  (Fls.cons "map" (Ex.method (Ex.path [⟨"map", Tys.nil⟩]) "into_boxed_slice" Tys.nil (Exs.nil)) (Fls.cons "_phantom"
  (Ex.path [⟨"PhantomData", Tys.nil⟩]) (Fls.nil)))) (Exs.nil)))))⟩

/-- `new` of item 1 of `map/total/map.rs`. -/
def totalMapFn1_1 : FnDef :=
  ⟨"new", SelfKind.none, [(Pat.mutVar "init", Ty.impl (Ty.fn ["FnMut"] (Tys.cons (Ty.path ["K"] Tys.nil) Tys.nil)
  (Ty.path ["V"] Tys.nil)))], Ty.path ["Self"] Tys.nil, Blk.tail (Ex.matchE (Ex.call (Ex.path [⟨"Self", Tys.nil⟩,
  ⟨"try_new", Tys.nil⟩]) (Exs.cons (Ex.closure (Pats.cons (Pat.path ["k"]) (Pats.nil)) (Ex.call (Ex.path [⟨"Ok",
  Tys.cons (Ty.infer) (Tys.cons (Ty.path ["Infallible"] Tys.nil) Tys.nil)⟩]) (Exs.cons (Ex.call (Ex.path [⟨"init",
  Tys.nil⟩]) (Exs.cons (Ex.path [⟨"k", Tys.nil⟩]) (Exs.nil))) (Exs.nil)))) (Exs.nil))) (Arms.cons (Pat.ctor ["Ok"]
  (Pats.cons (Pat.path ["map"]) (Pats.nil))) (Ex.path [⟨"map", Tys.nil⟩]) (Arms.cons (Pat.ctor ["Err"] (Pats.cons
  (Pat.path ["infallible"]) (Pats.nil))) (Ex.matchE (Ex.path [⟨"infallible", Tys.nil⟩]) (Arms.nil)) (Arms.nil))))⟩

/-- `len` of item 1 of `map/total/map.rs`. -/
def totalMapFn1_2 : FnDef :=
  ⟨"len", SelfKind.ref, [], Ty.path ["usize"] Tys.nil, Blk.tail (Ex.path [⟨"K", Tys.nil⟩, ⟨"ORDINAL_SIZE",
  Tys.nil⟩])⟩

/-- `is_empty` of item 1 of `map/total/map.rs`. -/
def totalMapFn1_3 : FnDef :=
  ⟨"is_empty", SelfKind.ref, [], Ty.path ["bool"] Tys.nil, Blk.tail (Ex.bin (BinOp.eq) (Ex.method (Ex.path [⟨"self",
  Tys.nil⟩]) "len" Tys.nil (Exs.nil)) (Ex.num 0 ""))⟩

/-- `get` of item 1 of `map/total/map.rs`. -/
def totalMapFn1_4 : FnDef :=
  ⟨"get", SelfKind.ref, [(Pat.path ["key"], Ty.ref false (Ty.path ["K"] Tys.nil))], Ty.ref false (Ty.path ["V"]
  Tys.nil), Blk.tail (Ex.ref false (Ex.index (Ex.field (Ex.path [⟨"self", Tys.nil⟩]) "map") (Ex.method (Ex.path
  [⟨"key", Tys.nil⟩]) "ordinal" Tys.nil (Exs.nil))))⟩

/-- `get_mut` of item 1 of `map/total/map.rs`. -/
def totalMapFn1_5 : FnDef :=
  ⟨"get_mut", SelfKind.refMut, [(Pat.path ["key"], Ty.ref false (Ty.path ["K"] Tys.nil))], Ty.ref true (Ty.path ["V"]
  Tys.nil), Blk.tail (Ex.ref true (Ex.index (Ex.field (Ex.path [⟨"self", Tys.nil⟩]) "map") (Ex.method (Ex.path
  [⟨"key", Tys.nil⟩]) "ordinal" Tys.nil (Exs.nil))))⟩

/-- `keys` of item 1 of `map/total/map.rs`. -/
def totalMapFn1_6 : FnDef :=
  ⟨"keys", SelfKind.ref, [], Ty.path ["crate", "OrdinalValues"] (Tys.cons (Ty.path ["K"] Tys.nil) Tys.nil), Blk.tail
  (Ex.call (Ex.path [⟨"K", Tys.nil⟩, ⟨"all_values", Tys.nil⟩]) (Exs.nil))⟩

/-- `into_keys` of item 1 of `map/total/map.rs`. -/
def totalMapFn1_7 : FnDef :=
  ⟨"into_keys", SelfKind.value, [], Ty.path ["crate", "OrdinalValues"] (Tys.cons (Ty.path ["K"] Tys.nil) Tys.nil),
  Blk.tail (Ex.call (Ex.path [⟨"K", Tys.nil⟩, ⟨"all_values", Tys.nil⟩]) (Exs.nil))⟩

/-- `values` of item 1 of `map/total/map.rs`. -/
def totalMapFn1_8 : FnDef :=
  ⟨"values", SelfKind.ref, [], Ty.path ["slice", "Iter"] (Tys.cons (Ty.path ["V"] Tys.nil) Tys.nil), Blk.tail
  (Ex.method (Ex.field (Ex.path [⟨"self", Tys.nil⟩]) "map") "iter" Tys.nil (Exs.nil))⟩

/-- `values_mut` of item 1 of `map/total/map.rs`. -/
def totalMapFn1_9 : FnDef :=
  ⟨"values_mut", SelfKind.refMut, [], Ty.path ["slice", "IterMut"] (Tys.cons (Ty.path ["V"] Tys.nil) Tys.nil),
  Blk.tail (Ex.method (Ex.field (Ex.path [⟨"self", Tys.nil⟩]) "map") "iter_mut" Tys.nil (Exs.nil))⟩

/-- `into_values` of item 1 of `map/total/map.rs`. -/
def totalMapFn1_10 : FnDef :=
  ⟨"into_values", SelfKind.value, [], Ty.path ["Box"] (Tys.cons (Ty.slice (Ty.path ["V"] Tys.nil)) Tys.nil), Blk.tail
  (Ex.field (Ex.path [⟨"self", Tys.nil⟩]) "map")⟩

/-- `iter` of item 1 of `map/total/map.rs`. -/
def totalMapFn1_11 : FnDef :=
  ⟨"iter", SelfKind.ref, [], Ty.path ["total::Iter"] (Tys.cons (Ty.path ["K"] Tys.nil) (Tys.cons (Ty.path ["V"]
  Tys.nil) Tys.nil)), Blk.tail (Ex.call (Ex.path [⟨"total::Iter", Tys.nil⟩, ⟨"new", Tys.nil⟩]) (Exs.cons (Ex.method
  (Ex.field (Ex.path [⟨"self", Tys.nil⟩]) "map") "iter" Tys.nil (Exs.nil)) (Exs.cons (Ex.num 0 "") (Exs.nil))))⟩

/-- `iter_mut` of item 1 of `map/total/map.rs`. -/
def totalMapFn1_12 : FnDef :=
  ⟨"iter_mut", SelfKind.refMut, [], Ty.path ["total::IterMut"] (Tys.cons (Ty.path ["K"] Tys.nil) (Tys.cons (Ty.path
  ["V"] Tys.nil) Tys.nil)), Blk.tail (Ex.call (Ex.path [⟨"total::IterMut", Tys.nil⟩, ⟨"new", Tys.nil⟩]) (Exs.cons
  (Ex.method (Ex.field (Ex.path [⟨"self", Tys.nil⟩]) "map") "iter_mut" Tys.nil (Exs.nil)) (Exs.nil)))⟩

/-- `insert` of item 1 of `map/total/map.rs`. -/
def totalMapFn1_13 : FnDef :=
  ⟨"insert", SelfKind.refMut, [(Pat.path ["key"], Ty.path ["K"] Tys.nil), (Pat.path ["value"], Ty.path ["V"]
  Tys.nil)], Ty.path ["V"] Tys.nil, Blk.tail (Ex.call (Ex.path [⟨"mem", Tys.nil⟩, ⟨"replace", Tys.nil⟩]) (Exs.cons
  (Ex.ref true (Ex.index (Ex.field (Ex.path [⟨"self", Tys.nil⟩]) "map") (Ex.method (Ex.path [⟨"key", Tys.nil⟩])
  "ordinal" Tys.nil (Exs.nil)))) (Exs.cons (Ex.path [⟨"value", Tys.nil⟩]) (Exs.nil))))⟩

/-- Item 1 of `map/total/map.rs`. -/
def totalMapItem1 : Item :=
  Item.impl ⟨[("K", false), ("V", false)], none, Ty.path ["OrdinalTotalMap"] (Tys.cons (Ty.path ["K"] Tys.nil)
  (Tys.cons (Ty.path ["V"] Tys.nil) Tys.nil)), [], [totalMapFn1_0, totalMapFn1_1, totalMapFn1_2, totalMapFn1_3,
  totalMapFn1_4, totalMapFn1_5, totalMapFn1_6, totalMapFn1_7, totalMapFn1_8, totalMapFn1_9, totalMapFn1_10,
  totalMapFn1_11, totalMapFn1_12, totalMapFn1_13]⟩

/-- `default` of item 2 of `map/total/map.rs`. -/
def totalMapFn2_0 : FnDef :=
  ⟨"default", SelfKind.none, [], Ty.path ["Self"] Tys.nil, Blk.tail (Ex.call (Ex.path [⟨"OrdinalTotalMap", Tys.nil⟩,
  ⟨"new", Tys.nil⟩]) (Exs.cons (Ex.closure (Pats.cons (Pat.wild) (Pats.nil)) (Ex.call (Ex.path [⟨"V", Tys.nil⟩,
  ⟨"default", Tys.nil⟩]) (Exs.nil))) (Exs.nil)))⟩

/-- Item 2 of `map/total/map.rs`. -/
def totalMapItem2 : Item :=
  Item.impl ⟨[("K", false), ("V", false)], some (Ty.path ["Default"] Tys.nil), Ty.path ["OrdinalTotalMap"] (Tys.cons
  (Ty.path ["K"] Tys.nil) (Tys.cons (Ty.path ["V"] Tys.nil) Tys.nil)), [], [totalMapFn2_0]⟩

/-- `index` of item 3 of `map/total/map.rs`. -/
def totalMapFn3_0 : FnDef :=
  ⟨"index", SelfKind.ref, [(Pat.path ["key"], Ty.ref false (Ty.path ["K"] Tys.nil))], Ty.ref false (Ty.path ["Self",
  "Output"] Tys.nil), Blk.tail (Ex.method (Ex.path [⟨"self", Tys.nil⟩]) "get" Tys.nil (Exs.cons (Ex.path [⟨"key",
  Tys.nil⟩]) (Exs.nil)))⟩

/-- Item 3 of `map/total/map.rs`. -/
def totalMapItem3 : Item :=
  Item.impl ⟨[("K", false), ("V", false)], some (Ty.path ["Index"] (Tys.cons (Ty.ref false (Ty.path ["K"] Tys.nil))
  Tys.nil)), Ty.path ["OrdinalTotalMap"] (Tys.cons (Ty.path ["K"] Tys.nil) (Tys.cons (Ty.path ["V"] Tys.nil)
  Tys.nil)), [], [totalMapFn3_0]⟩

/-- `index_mut` of item 4 of `map/total/map.rs`. -/
def totalMapFn4_0 : FnDef :=
  ⟨"index_mut", SelfKind.refMut, [(Pat.path ["key"], Ty.ref false (Ty.path ["K"] Tys.nil))], Ty.ref true (Ty.path
  ["Self", "Output"] Tys.nil), Blk.tail (Ex.method (Ex.path [⟨"self", Tys.nil⟩]) "get_mut" Tys.nil (Exs.cons (Ex.path
  [⟨"key", Tys.nil⟩]) (Exs.nil)))⟩

/-- Item 4 of `map/total/map.rs`. -/
def totalMapItem4 : Item :=
  Item.impl ⟨[("K", false), ("V", false)], some (Ty.path ["IndexMut"] (Tys.cons (Ty.ref false (Ty.path ["K"]
  Tys.nil)) Tys.nil)), Ty.path ["OrdinalTotalMap"] (Tys.cons (Ty.path ["K"] Tys.nil) (Tys.cons (Ty.path ["V"]
  Tys.nil) Tys.nil)), [], [totalMapFn4_0]⟩

/-- `clone` of item 5 of `map/total/map.rs`. -/
def totalMapFn5_0 : FnDef :=
  ⟨"clone", SelfKind.ref, [], Ty.path ["Self"] Tys.nil, Blk.tail (Ex.record [⟨"OrdinalTotalMap", Tys.nil⟩] (Fls.cons
  "map" (Ex.method (Ex.field (Ex.path [⟨"self", Tys.nil⟩]) "map") "clone" Tys.nil (Exs.nil)) (Fls.cons "_phantom"
  (Ex.path [⟨"PhantomData", Tys.nil⟩]) (Fls.nil))))⟩

/-- Item 5 of `map/total/map.rs`. -/
def totalMapItem5 : Item :=
  Item.impl ⟨[("K", false), ("V", false)], some (Ty.path ["Clone"] Tys.nil), Ty.path ["OrdinalTotalMap"] (Tys.cons
  (Ty.path ["K"] Tys.nil) (Tys.cons (Ty.path ["V"] Tys.nil) Tys.nil)), [], [totalMapFn5_0]⟩

/-- `fmt` of item 6 of `map/total/map.rs`. -/
def totalMapFn6_0 : FnDef :=
  ⟨"fmt", SelfKind.ref, [(Pat.path ["f"], Ty.ref true (Ty.path ["Formatter"] Tys.nil))], Ty.path ["std", "fmt",
  "Result"] Tys.nil, Blk.tail (Ex.method (Ex.method (Ex.method (Ex.path [⟨"f", Tys.nil⟩]) "debug_map" Tys.nil
  (Exs.nil)) "entries" Tys.nil (Exs.cons (Ex.method (Ex.path [⟨"self", Tys.nil⟩]) "iter" Tys.nil (Exs.nil))
  (Exs.nil))) "finish" Tys.nil (Exs.nil))⟩

/-- Item 6 of `map/total/map.rs`. -/
def totalMapItem6 : Item :=
  Item.impl ⟨[("K", false), ("V", false)], some (Ty.path ["Debug"] Tys.nil), Ty.path ["OrdinalTotalMap"] (Tys.cons
  (Ty.path ["K"] Tys.nil) (Tys.cons (Ty.path ["V"] Tys.nil) Tys.nil)), [], [totalMapFn6_0]⟩

/-- `into_iter` of item 7 of `map/total/map.rs`. -/
def totalMapFn7_0 : FnDef :=
  ⟨"into_iter", SelfKind.value, [], Ty.path ["Self", "IntoIter"] Tys.nil, Blk.tail (Ex.call (Ex.path
  [⟨"total::IntoIter", Tys.nil⟩, ⟨"new", Tys.nil⟩]) (Exs.cons (Ex.method (Ex.method (Ex.field (Ex.path [⟨"self",
  Tys.nil⟩]) "map") "into_vec" Tys.nil (Exs.nil)) "into_iter" Tys.nil (Exs.nil)) (Exs.nil)))⟩

/-- Item 7 of `map/total/map.rs`. -/
def totalMapItem7 : Item :=
  Item.impl ⟨[("K", false), ("V", false)], some (Ty.path ["IntoIterator"] Tys.nil), Ty.path ["OrdinalTotalMap"]
  (Tys.cons (Ty.path ["K"] Tys.nil) (Tys.cons (Ty.path ["V"] Tys.nil) Tys.nil)), [], [totalMapFn7_0]⟩

/-- `into_iter` of item 8 of `map/total/map.rs`. -/
def totalMapFn8_0 : FnDef :=
  ⟨"into_iter", SelfKind.value, [], Ty.path ["Self", "IntoIter"] Tys.nil, Blk.tail (Ex.method (Ex.path [⟨"self",
  Tys.nil⟩]) "iter" Tys.nil (Exs.nil))⟩

/-- Item 8 of `map/total/map.rs`. -/
def totalMapItem8 : Item :=
  Item.impl ⟨[("K", false), ("V", false)], some (Ty.path ["IntoIterator"] Tys.nil), Ty.ref false (Ty.path
  ["OrdinalTotalMap"] (Tys.cons (Ty.path ["K"] Tys.nil) (Tys.cons (Ty.path ["V"] Tys.nil) Tys.nil))), [],
  [totalMapFn8_0]⟩

/-- The items of `map/total/map.rs`. -/
def totalMapTree : List Item :=
  [totalMapItem0, totalMapItem1, totalMapItem2, totalMapItem3, totalMapItem4, totalMapItem5, totalMapItem6, totalMapItem7, totalMapItem8]

/-- Item 0 of `map/total/array_map.rs`. -/
def totalArrayMapItem0 : Item :=
  Item.struct "OrdinalTotalArrayMap" [("map", Ty.arr (Ty.path ["V"] Tys.nil) "S"), ("_phantom", Ty.path
  ["PhantomData"] (Tys.cons (Ty.path ["K"] Tys.nil) Tys.nil))]

/-- `ASSERT` of item 1 of `map/total/array_map.rs`. -/
def totalArrayMapConst1_0 : Ex :=
  Ex.block (Blk.semi (Ex.mac "assert" (Exs.cons (Ex.bin (BinOp.eq) (Ex.path [⟨"K", Tys.nil⟩, ⟨"ORDINAL_SIZE",
  Tys.nil⟩]) (Ex.path [⟨"S", Tys.nil⟩])) (Exs.cons (Ex.str "K::ORDINAL_SIZE != S") (Exs.nil)))) (Blk.nil))

/-- `try_new` of item 1 of `map/total/array_map.rs`. -/
def totalArrayMapFn1_0 : FnDef :=
  ⟨"try_new", SelfKind.none, [(Pat.mutVar "init", Ty.impl (Ty.fn ["FnMut"] (Tys.cons (Ty.path ["K"] Tys.nil) Tys.nil)
  (Ty.path ["Result"] (Tys.cons (Ty.path ["V"] Tys.nil) (Tys.cons (Ty.path ["E"] Tys.nil) Tys.nil)))))], Ty.path
  ["Result"] (Tys.cons (Ty.path ["Self"] Tys.nil) (Tys.cons (Ty.path ["E"] Tys.nil) Tys.nil)), Blk.semi
  (Ex.constBlock (Blk.tail (Ex.path [⟨"Self", Tys.nil⟩, ⟨"ASSERT", Tys.nil⟩]))) (Blk.letS (Pat.mutVar "a") (Ex.call
  (Ex.path [⟨"ArrayBuilder", Tys.nil⟩, ⟨"new", Tys.nil⟩]) (Exs.nil)) (Blk.stmt (Ex.forE (Pat.path ["v"]) (Ex.call
  (Ex.path [⟨"K", Tys.nil⟩, ⟨"all_values", Tys.nil⟩]) (Exs.nil)) (Blk.semi (Ex.method (Ex.path [⟨"a", Tys.nil⟩])
  "push" Tys.nil (Exs.cons (Ex.try (Ex.call (Ex.path [⟨"init", Tys.nil⟩]) (Exs.cons (Ex.path [⟨"v", Tys.nil⟩])
  (Exs.nil)))) (Exs.nil))) (Blk.nil))) (Blk.tail (Ex.call (Ex.path [⟨"Ok", Tys.nil⟩]) (Exs.cons (Ex.record
  [⟨"OrdinalTotalArrayMap", Tys.nil⟩] (Fls.cons "map" (Ex.method (Ex.path [⟨"a", Tys.nil⟩]) "finish" Tys.nil
  (Exs.nil)) (Fls.cons "_phantom" (Ex.path [⟨"PhantomData", Tys.nil⟩]) (Fls.nil)))) (Exs.nil))))))⟩

/-- `new` of item 1 of `map/total/array_map.rs`. -/
def totalArrayMapFn1_1 : FnDef :=
  ⟨"new", SelfKind.none, [(Pat.mutVar "init", Ty.impl (Ty.fn ["FnMut"] (Tys.cons (Ty.path ["K"] Tys.nil) Tys.nil)
  (Ty.path ["V"] Tys.nil)))], Ty.path ["Self"] Tys.nil, Blk.semi (Ex.constBlock (Blk.tail (Ex.path [⟨"Self",
  Tys.nil⟩, ⟨"ASSERT", Tys.nil⟩]))) (Blk.tail (Ex.matchE (Ex.call (Ex.path [⟨"Self", Tys.nil⟩, ⟨"try_new", Tys.nil⟩])
  (Exs.cons (Ex.closure (Pats.cons (Pat.path ["k"]) (Pats.nil)) (Ex.call (Ex.path [⟨"Ok", Tys.cons (Ty.infer)
  (Tys.cons (Ty.path ["Infallible"] Tys.nil) Tys.nil)⟩]) (Exs.cons (Ex.call (Ex.path [⟨"init", Tys.nil⟩]) (Exs.cons
  (Ex.path [⟨"k", Tys.nil⟩]) (Exs.nil))) (Exs.nil)))) (Exs.nil))) (Arms.cons (Pat.ctor ["Ok"] (Pats.cons (Pat.path
  ["map"]) (Pats.nil))) (Ex.path [⟨"map", Tys.nil⟩]) (Arms.cons (Pat.ctor ["Err"] (Pats.cons (Pat.path
  ["infallible"]) (Pats.nil))) (Ex.matchE (Ex.path [⟨"infallible", Tys.nil⟩]) (Arms.nil)) (Arms.nil)))))⟩

/-- `from_array` of item 1 of `map/total/array_map.rs`. -/
def totalArrayMapFn1_2 : FnDef :=
  ⟨"from_array", SelfKind.none, [(Pat.path ["array"], Ty.arr (Ty.path ["V"] Tys.nil) "S")], Ty.path ["Self"] Tys.nil,
  Blk.tail (Ex.record [⟨"OrdinalTotalArrayMap", Tys.nil⟩] (Fls.cons "map" (Ex.path [⟨"array", Tys.nil⟩]) (Fls.cons
  "_phantom" (Ex.path [⟨"PhantomData", Tys.nil⟩]) (Fls.nil))))⟩

/-- `len` of item 1 of `map/total/array_map.rs`. -/
def totalArrayMapFn1_3 : FnDef :=
  ⟨"len", SelfKind.ref, [], Ty.path ["usize"] Tys.nil, Blk.tail (Ex.path [⟨"S", Tys.nil⟩])⟩

/-- `is_empty` of item 1 of `map/total/array_map.rs`. -/
def totalArrayMapFn1_4 : FnDef :=
  ⟨"is_empty", SelfKind.ref, [], Ty.path ["bool"] Tys.nil, Blk.tail (Ex.bin (BinOp.eq) (Ex.method (Ex.path [⟨"self",
  Tys.nil⟩]) "len" Tys.nil (Exs.nil)) (Ex.num 0 ""))⟩

/-- `get` of item 1 of `map/total/array_map.rs`. -/
def totalArrayMapFn1_5 : FnDef :=
  ⟨"get", SelfKind.ref, [(Pat.path ["key"], Ty.ref false (Ty.path ["K"] Tys.nil))], Ty.ref false (Ty.path ["V"]
  Tys.nil), Blk.tail (Ex.ref false (Ex.index (Ex.field (Ex.path [⟨"self", Tys.nil⟩]) "map") (Ex.method (Ex.path
  [⟨"key", Tys.nil⟩]) "ordinal" Tys.nil (Exs.nil))))⟩

/-- `get_mut` of item 1 of `map/total/array_map.rs`. -/
def totalArrayMapFn1_6 : FnDef :=
  ⟨"get_mut", SelfKind.refMut, [(Pat.path ["key"], Ty.ref false (Ty.path ["K"] Tys.nil))], Ty.ref true (Ty.path ["V"]
  Tys.nil), Blk.tail (Ex.ref true (Ex.index (Ex.field (Ex.path [⟨"self", Tys.nil⟩]) "map") (Ex.method (Ex.path
  [⟨"key", Tys.nil⟩]) "ordinal" Tys.nil (Exs.nil))))⟩

/-- `as_ref` of item 1 of `map/total/array_map.rs`. -/
def totalArrayMapFn1_7 : FnDef :=
  ⟨"as_ref", SelfKind.ref, [], Ty.path ["OrdinalTotalArrayMap"] (Tys.cons (Ty.path ["K"] Tys.nil) (Tys.cons (Ty.ref
  false (Ty.path ["V"] Tys.nil)) (Tys.cons (Ty.path ["S"] Tys.nil) Tys.nil))), Blk.tail (Ex.call (Ex.path
  [⟨"OrdinalTotalArrayMap", Tys.nil⟩, ⟨"new", Tys.nil⟩]) (Exs.cons (Ex.closure (Pats.cons (Pat.path ["k"])
  (Pats.nil)) (Ex.method (Ex.path [⟨"self", Tys.nil⟩]) "get" Tys.nil (Exs.cons (Ex.ref false (Ex.path [⟨"k",
  Tys.nil⟩])) (Exs.nil)))) (Exs.nil)))⟩

/-- `as_mut` of item 1 of `map/total/array_map.rs`. -/
def totalArrayMapFn1_8 : FnDef :=
  ⟨"as_mut", SelfKind.refMut, [], Ty.path ["OrdinalTotalArrayMap"] (Tys.cons (Ty.path ["K"] Tys.nil) (Tys.cons
  (Ty.ref true (Ty.path ["V"] Tys.nil)) (Tys.cons (Ty.path ["S"] Tys.nil) Tys.nil))), Blk.tail (Ex.call (Ex.path
  [⟨"OrdinalTotalArrayMap", Tys.nil⟩, ⟨"from_array", Tys.nil⟩]) (Exs.cons (Ex.call (Ex.path [⟨"array_as_mut",
  Tys.nil⟩]) (Exs.cons (Ex.ref true (Ex.field (Ex.path [⟨"self", Tys.nil⟩]) "map")) (Exs.nil))) (Exs.nil)))⟩

/-- `zip` of item 1 of `map/total/array_map.rs`. -/
def totalArrayMapFn1_9 : FnDef :=
  ⟨"zip", SelfKind.value, [(Pat.path ["other"], Ty.path ["OrdinalTotalArrayMap"] (Tys.cons (Ty.path ["K"] Tys.nil)
  (Tys.cons (Ty.path ["W"] Tys.nil) (Tys.cons (Ty.path ["S"] Tys.nil) Tys.nil))))], Ty.path ["OrdinalTotalArrayMap"]
  (Tys.cons (Ty.path ["K"] Tys.nil) (Tys.cons (Ty.tuple (Tys.cons (Ty.path ["V"] Tys.nil) (Tys.cons (Ty.path ["W"]
  Tys.nil) Tys.nil))) (Tys.cons (Ty.path ["S"] Tys.nil) Tys.nil))), Blk.tail (Ex.record [⟨"OrdinalTotalArrayMap",
  Tys.nil⟩] (Fls.cons "map" (Ex.call (Ex.path [⟨"array_from_iter", Tys.nil⟩]) (Exs.cons (Ex.method (Ex.method
  (Ex.field (Ex.path [⟨"self", Tys.nil⟩]) "map") "into_iter" Tys.nil (Exs.nil)) "zip" Tys.nil (Exs.cons (Ex.field
  (Ex.path [⟨"other", Tys.nil⟩]) "map") (Exs.nil))) (Exs.nil))) (Fls.cons "_phantom" (Ex.path [⟨"PhantomData",
  Tys.nil⟩]) (Fls.nil))))⟩

/-- `map` of item 1 of `map/total/array_map.rs`. -/
def totalArrayMapFn1_10 : FnDef :=
  ⟨"map", SelfKind.value, [(Pat.mutVar "f", Ty.impl (Ty.fn ["FnMut"] (Tys.cons (Ty.path ["K"] Tys.nil) (Tys.cons
  (Ty.path ["V"] Tys.nil) Tys.nil)) (Ty.path ["W"] Tys.nil)))], Ty.path ["OrdinalTotalArrayMap"] (Tys.cons (Ty.path
  ["K"] Tys.nil) (Tys.cons (Ty.path ["W"] Tys.nil) (Tys.cons (Ty.path ["S"] Tys.nil) Tys.nil))), Blk.tail (Ex.record
  [⟨"OrdinalTotalArrayMap", Tys.nil⟩] (Fls.cons "map" (Ex.call (Ex.path [⟨"array_from_iter", Tys.nil⟩]) (Exs.cons
  (Ex.method (Ex.method (Ex.path [⟨"self", Tys.nil⟩]) "into_iter" Tys.nil (Exs.nil)) "map" Tys.nil (Exs.cons
  (Ex.closure (Pats.cons (Pat.tuple (Pats.cons (Pat.path ["k"]) (Pats.cons (Pat.path ["v"]) (Pats.nil)))) (Pats.nil))
  (Ex.call (Ex.path [⟨"f", Tys.nil⟩]) (Exs.cons (Ex.path [⟨"k", Tys.nil⟩]) (Exs.cons (Ex.path [⟨"v", Tys.nil⟩])
  (Exs.nil))))) (Exs.nil))) (Exs.nil))) (Fls.cons "_phantom" (Ex.path [⟨"PhantomData", Tys.nil⟩]) (Fls.nil))))⟩

/-- `map_values` of item 1 of `map/total/array_map.rs`. -/
def totalArrayMapFn1_11 : FnDef :=
  ⟨"map_values", SelfKind.value, [(Pat.mutVar "f", Ty.impl (Ty.fn ["FnMut"] (Tys.cons (Ty.path ["V"] Tys.nil)
  Tys.nil) (Ty.path ["W"] Tys.nil)))], Ty.path ["OrdinalTotalArrayMap"] (Tys.cons (Ty.path ["K"] Tys.nil) (Tys.cons
  (Ty.path ["W"] Tys.nil) (Tys.cons (Ty.path ["S"] Tys.nil) Tys.nil))), Blk.tail (Ex.method (Ex.path [⟨"self",
  Tys.nil⟩]) "map" Tys.nil (Exs.cons (Ex.closure (Pats.cons (Pat.path ["_k"]) (Pats.cons (Pat.path ["v"])
  (Pats.nil))) (Ex.call (Ex.path [⟨"f", Tys.nil⟩]) (Exs.cons (Ex.path [⟨"v", Tys.nil⟩]) (Exs.nil)))) (Exs.nil)))⟩

/-- `iter` of item 1 of `map/total/array_map.rs`. -/
def totalArrayMapFn1_12 : FnDef :=
  ⟨"iter", SelfKind.ref, [], Ty.path ["total::Iter"] (Tys.cons (Ty.path ["K"] Tys.nil) (Tys.cons (Ty.path ["V"]
  Tys.nil) Tys.nil)), Blk.tail (Ex.call (Ex.path [⟨"total::Iter", Tys.nil⟩, ⟨"new", Tys.nil⟩]) (Exs.cons (Ex.method
  (Ex.field (Ex.path [⟨"self", Tys.nil⟩]) "map") "iter" Tys.nil (Exs.nil)) (Exs.cons (Ex.num 0 "") (Exs.nil))))⟩

/-- `iter_mut` of item 1 of `map/total/array_map.rs`. -/
def totalArrayMapFn1_13 : FnDef :=
  ⟨"iter_mut", SelfKind.refMut, [], Ty.path ["total::IterMut"] (Tys.cons (Ty.path ["K"] Tys.nil) (Tys.cons (Ty.path
  ["V"] Tys.nil) Tys.nil)), Blk.tail (Ex.call (Ex.path [⟨"total::IterMut", Tys.nil⟩, ⟨"new", Tys.nil⟩]) (Exs.cons
  (Ex.method (Ex.field (Ex.path [⟨"self", Tys.nil⟩]) "map") "iter_mut" Tys.nil (Exs.nil)) (Exs.nil)))⟩

/-- `keys` of item 1 of `map/total/array_map.rs`. -/
def totalArrayMapFn1_14 : FnDef :=
  ⟨"keys", SelfKind.ref, [], Ty.path ["crate", "OrdinalValues"] (Tys.cons (Ty.path ["K"] Tys.nil) Tys.nil), Blk.tail
  (Ex.call (Ex.path [⟨"K", Tys.nil⟩, ⟨"all_values", Tys.nil⟩]) (Exs.nil))⟩

/-- `into_keys` of item 1 of `map/total/array_map.rs`. -/
def totalArrayMapFn1_15 : FnDef :=
  ⟨"into_keys", SelfKind.value, [], Ty.path ["crate", "OrdinalValues"] (Tys.cons (Ty.path ["K"] Tys.nil) Tys.nil),
  Blk.tail (Ex.method (Ex.path [⟨"self", Tys.nil⟩]) "keys" Tys.nil (Exs.nil))⟩

/-- `values` of item 1 of `map/total/array_map.rs`. -/
def totalArrayMapFn1_16 : FnDef :=
  ⟨"values", SelfKind.ref, [], Ty.path ["slice", "Iter"] (Tys.cons (Ty.path ["V"] Tys.nil) Tys.nil), Blk.tail
  (Ex.method (Ex.field (Ex.path [⟨"self", Tys.nil⟩]) "map") "iter" Tys.nil (Exs.nil))⟩

/-- `values_array` of item 1 of `map/total/array_map.rs`. -/
def totalArrayMapFn1_17 : FnDef :=
  ⟨"values_array", SelfKind.ref, [], Ty.ref false (Ty.arr (Ty.path ["V"] Tys.nil) "S"), Blk.tail (Ex.ref false
  (Ex.field (Ex.path [⟨"self", Tys.nil⟩]) "map"))⟩

/-- `values_mut` of item 1 of `map/total/array_map.rs`. -/
def totalArrayMapFn1_18 : FnDef :=
  ⟨"values_mut", SelfKind.refMut, [], Ty.path ["slice", "IterMut"] (Tys.cons (Ty.path ["V"] Tys.nil) Tys.nil),
  Blk.tail (Ex.method (Ex.field (Ex.path [⟨"self", Tys.nil⟩]) "map") "iter_mut" Tys.nil (Exs.nil))⟩

/-- `values_array_mut` of item 1 of `map/total/array_map.rs`. -/
def totalArrayMapFn1_19 : FnDef :=
  ⟨"values_array_mut", SelfKind.refMut, [], Ty.ref true (Ty.arr (Ty.path ["V"] Tys.nil) "S"), Blk.tail (Ex.ref true
  (Ex.field (Ex.path [⟨"self", Tys.nil⟩]) "map"))⟩

/-- `into_values` of item 1 of `map/total/array_map.rs`. -/
def totalArrayMapFn1_20 : FnDef :=
  ⟨"into_values", SelfKind.value, [], Ty.arr (Ty.path ["V"] Tys.nil) "S", Blk.tail (Ex.field (Ex.path [⟨"self",
  Tys.nil⟩]) "map")⟩

/-- `insert` of item 1 of `map/total/array_map.rs`. -/
def totalArrayMapFn1_21 : FnDef :=
  ⟨"insert", SelfKind.refMut, [(Pat.path ["key"], Ty.path ["K"] Tys.nil), (Pat.path ["value"], Ty.path ["V"]
  Tys.nil)], Ty.path ["V"] Tys.nil, Blk.tail (Ex.call (Ex.path [⟨"mem", Tys.nil⟩, ⟨"replace", Tys.nil⟩]) (Exs.cons
  (Ex.ref true (Ex.index (Ex.field (Ex.path [⟨"self", Tys.nil⟩]) "map") (Ex.method (Ex.path [⟨"key", Tys.nil⟩])
  "ordinal" Tys.nil (Exs.nil)))) (Exs.cons (Ex.path [⟨"value", Tys.nil⟩]) (Exs.nil))))⟩

/-- Item 1 of `map/total/array_map.rs`. -/
def totalArrayMapItem1 : Item :=
  Item.impl ⟨[("K", false), ("V", false), ("S", true)], none, Ty.path ["OrdinalTotalArrayMap"] (Tys.cons (Ty.path
  ["K"] Tys.nil) (Tys.cons (Ty.path ["V"] Tys.nil) (Tys.cons (Ty.path ["S"] Tys.nil) Tys.nil))), [("ASSERT", Ty.tuple
  Tys.nil, totalArrayMapConst1_0)], [totalArrayMapFn1_0, totalArrayMapFn1_1, totalArrayMapFn1_2, totalArrayMapFn1_3,
  totalArrayMapFn1_4, totalArrayMapFn1_5, totalArrayMapFn1_6, totalArrayMapFn1_7, totalArrayMapFn1_8,
  totalArrayMapFn1_9, totalArrayMapFn1_10, totalArrayMapFn1_11, totalArrayMapFn1_12, totalArrayMapFn1_13,
  totalArrayMapFn1_14, totalArrayMapFn1_15, totalArrayMapFn1_16, totalArrayMapFn1_17, totalArrayMapFn1_18,
  totalArrayMapFn1_19, totalArrayMapFn1_20, totalArrayMapFn1_21]⟩

/-- `index` of item 2 of `map/total/array_map.rs`. -/
def totalArrayMapFn2_0 : FnDef :=
  ⟨"index", SelfKind.ref, [(Pat.path ["index"], Ty.ref false (Ty.path ["K"] Tys.nil))], Ty.ref false (Ty.path
  ["Self", "Output"] Tys.nil), Blk.tail (Ex.ref false (Ex.index (Ex.field (Ex.path [⟨"self", Tys.nil⟩]) "map")
  (Ex.method (Ex.path [⟨"index", Tys.nil⟩]) "ordinal" Tys.nil (Exs.nil))))⟩

/-- Item 2 of `map/total/array_map.rs`. -/
def totalArrayMapItem2 : Item :=
  Item.impl ⟨[("K", false), ("V", false), ("S", true)], some (Ty.path ["Index"] (Tys.cons (Ty.ref false (Ty.path
  ["K"] Tys.nil)) Tys.nil)), Ty.path ["OrdinalTotalArrayMap"] (Tys.cons (Ty.path ["K"] Tys.nil) (Tys.cons (Ty.path
  ["V"] Tys.nil) (Tys.cons (Ty.path ["S"] Tys.nil) Tys.nil))), [], [totalArrayMapFn2_0]⟩

/-- `index_mut` of item 3 of `map/total/array_map.rs`. -/
def totalArrayMapFn3_0 : FnDef :=
  ⟨"index_mut", SelfKind.refMut, [(Pat.path ["index"], Ty.ref false (Ty.path ["K"] Tys.nil))], Ty.ref true (Ty.path
  ["Self", "Output"] Tys.nil), Blk.tail (Ex.ref true (Ex.index (Ex.field (Ex.path [⟨"self", Tys.nil⟩]) "map")
  (Ex.method (Ex.path [⟨"index", Tys.nil⟩]) "ordinal" Tys.nil (Exs.nil))))⟩

/-- Item 3 of `map/total/array_map.rs`. -/
def totalArrayMapItem3 : Item :=
  Item.impl ⟨[("K", false), ("V", false), ("S", true)], some (Ty.path ["IndexMut"] (Tys.cons (Ty.ref false (Ty.path
  ["K"] Tys.nil)) Tys.nil)), Ty.path ["OrdinalTotalArrayMap"] (Tys.cons (Ty.path ["K"] Tys.nil) (Tys.cons (Ty.path
  ["V"] Tys.nil) (Tys.cons (Ty.path ["S"] Tys.nil) Tys.nil))), [], [totalArrayMapFn3_0]⟩

/-- `clone` of item 4 of `map/total/array_map.rs`. -/
def totalArrayMapFn4_0 : FnDef :=
  ⟨"clone", SelfKind.ref, [], Ty.path ["Self"] Tys.nil, Blk.tail (Ex.record [⟨"OrdinalTotalArrayMap", Tys.nil⟩]
  (Fls.cons "map" (Ex.method (Ex.field (Ex.path [⟨"self", Tys.nil⟩]) "map") "clone" Tys.nil (Exs.nil)) (Fls.cons
  "_phantom" (Ex.path [⟨"PhantomData", Tys.nil⟩]) (Fls.nil))))⟩

/-- Item 4 of `map/total/array_map.rs`. -/
def totalArrayMapItem4 : Item :=
  Item.impl ⟨[("K", false), ("V", false), ("S", true)], some (Ty.path ["Clone"] Tys.nil), Ty.path
  ["OrdinalTotalArrayMap"] (Tys.cons (Ty.path ["K"] Tys.nil) (Tys.cons (Ty.path ["V"] Tys.nil) (Tys.cons (Ty.path
  ["S"] Tys.nil) Tys.nil))), [], [totalArrayMapFn4_0]⟩

/-- `default` of item 5 of `map/total/array_map.rs`. -/
def totalArrayMapFn5_0 : FnDef :=
  ⟨"default", SelfKind.none, [], Ty.path ["Self"] Tys.nil, Blk.tail (Ex.call (Ex.path [⟨"OrdinalTotalArrayMap",
  Tys.nil⟩, ⟨"new", Tys.nil⟩]) (Exs.cons (Ex.closure (Pats.cons (Pat.wild) (Pats.nil)) (Ex.call (Ex.path [⟨"V",
  Tys.nil⟩, ⟨"default", Tys.nil⟩]) (Exs.nil))) (Exs.nil)))⟩

/-- Item 5 of `map/total/array_map.rs`. -/
def totalArrayMapItem5 : Item :=
  Item.impl ⟨[("K", false), ("V", false), ("S", true)], some (Ty.path ["Default"] Tys.nil), Ty.path
  ["OrdinalTotalArrayMap"] (Tys.cons (Ty.path ["K"] Tys.nil) (Tys.cons (Ty.path ["V"] Tys.nil) (Tys.cons (Ty.path
  ["S"] Tys.nil) Tys.nil))), [], [totalArrayMapFn5_0]⟩

/-- `fmt` of item 6 of `map/total/array_map.rs`. -/
def totalArrayMapFn6_0 : FnDef :=
  ⟨"fmt", SelfKind.ref, [(Pat.path ["f"], Ty.ref true (Ty.path ["std", "fmt", "Formatter"] Tys.nil))], Ty.path
  ["std", "fmt", "Result"] Tys.nil, Blk.tail (Ex.method (Ex.method (Ex.method (Ex.path [⟨"f", Tys.nil⟩]) "debug_map"
  Tys.nil (Exs.nil)) "entries" Tys.nil (Exs.cons (Ex.method (Ex.path [⟨"self", Tys.nil⟩]) "iter" Tys.nil (Exs.nil))
  (Exs.nil))) "finish" Tys.nil (Exs.nil))⟩

/-- Item 6 of `map/total/array_map.rs`. -/
def totalArrayMapItem6 : Item :=
  Item.impl ⟨[("K", false), ("V", false), ("S", true)], some (Ty.path ["Debug"] Tys.nil), Ty.path
  ["OrdinalTotalArrayMap"] (Tys.cons (Ty.path ["K"] Tys.nil) (Tys.cons (Ty.path ["V"] Tys.nil) (Tys.cons (Ty.path
  ["S"] Tys.nil) Tys.nil))), [], [totalArrayMapFn6_0]⟩

/-- `into_iter` of item 7 of `map/total/array_map.rs`. -/
def totalArrayMapFn7_0 : FnDef :=
  ⟨"into_iter", SelfKind.value, [], Ty.path ["Self", "IntoIter"] Tys.nil, Blk.tail (Ex.call (Ex.path
  [⟨"total::IntoIterArray", Tys.nil⟩, ⟨"new", Tys.nil⟩]) (Exs.cons (Ex.method (Ex.field (Ex.path [⟨"self", Tys.nil⟩])
  "map") "into_iter" Tys.nil (Exs.nil)) (Exs.nil)))⟩

/-- Item 7 of `map/total/array_map.rs`. -/
def totalArrayMapItem7 : Item :=
  Item.impl ⟨[("K", false), ("V", false), ("S", true)], some (Ty.path ["IntoIterator"] Tys.nil), Ty.path
  ["OrdinalTotalArrayMap"] (Tys.cons (Ty.path ["K"] Tys.nil) (Tys.cons (Ty.path ["V"] Tys.nil) (Tys.cons (Ty.path
  ["S"] Tys.nil) Tys.nil))), [], [totalArrayMapFn7_0]⟩

/-- `into_iter` of item 8 of `map/total/array_map.rs`. -/
def totalArrayMapFn8_0 : FnDef :=
  ⟨"into_iter", SelfKind.value, [], Ty.path ["Self", "IntoIter"] Tys.nil, Blk.tail (Ex.method (Ex.path [⟨"self",
  Tys.nil⟩]) "iter" Tys.nil (Exs.nil))⟩

/-- Item 8 of `map/total/array_map.rs`. -/
def totalArrayMapItem8 : Item :=
  Item.impl ⟨[("K", false), ("V", false), ("S", true)], some (Ty.path ["IntoIterator"] Tys.nil), Ty.ref false
  (Ty.path ["OrdinalTotalArrayMap"] (Tys.cons (Ty.path ["K"] Tys.nil) (Tys.cons (Ty.path ["V"] Tys.nil) (Tys.cons
  (Ty.path ["S"] Tys.nil) Tys.nil)))), [], [totalArrayMapFn8_0]⟩

/-- The items of `map/total/array_map.rs`. -/
def totalArrayMapTree : List Item :=
  [totalArrayMapItem0, totalArrayMapItem1, totalArrayMapItem2, totalArrayMapItem3, totalArrayMapItem4, totalArrayMapItem5, totalArrayMapItem6, totalArrayMapItem7, totalArrayMapItem8]

/-- Item 0 of `map/iter.rs`. -/
def mapIterItem0 : Item :=
  Item.struct "Iter" [("iter", Ty.path ["total::Iter"] (Tys.cons (Ty.path ["K"] Tys.nil) (Tys.cons (Ty.path
  ["Option"] (Tys.cons (Ty.path ["V"] Tys.nil) Tys.nil)) Tys.nil)))]

/-- `new` of item 1 of `map/iter.rs`. -/
def mapIterFn1_0 : FnDef :=
  ⟨"new", SelfKind.none, [(Pat.path ["iter"], Ty.path ["total::Iter"] (Tys.cons (Ty.path ["K"] Tys.nil) (Tys.cons
  (Ty.path ["Option"] (Tys.cons (Ty.path ["V"] Tys.nil) Tys.nil)) Tys.nil)))], Ty.path ["Self"] Tys.nil, Blk.tail
  (Ex.record [⟨"Iter", Tys.nil⟩] (Fls.cons "iter" (Ex.path [⟨"iter", Tys.nil⟩]) (Fls.nil)))⟩

/-- Item 1 of `map/iter.rs`. -/
def mapIterItem1 : Item :=
  Item.impl ⟨[("K", false), ("V", false)], none, Ty.path ["Iter"] (Tys.cons (Ty.path ["K"] Tys.nil) (Tys.cons
  (Ty.path ["V"] Tys.nil) Tys.nil)), [], [mapIterFn1_0]⟩

/-- `next` of item 2 of `map/iter.rs`. -/
def mapIterFn2_0 : FnDef :=
  ⟨"next", SelfKind.refMut, [], Ty.path ["Option"] (Tys.cons (Ty.path ["Self", "Item"] Tys.nil) Tys.nil), Blk.tail
  (Ex.loopE (Blk.letS (Pat.path ["next"]) (Ex.try (Ex.method (Ex.field (Ex.path [⟨"self", Tys.nil⟩]) "iter") "next"
  Tys.nil (Exs.nil))) (Blk.tail (Ex.ifLet (Pat.tuple (Pats.cons (Pat.path ["k"]) (Pats.cons (Pat.ctor ["Some"]
  (Pats.cons (Pat.path ["v"]) (Pats.nil))) (Pats.nil)))) (Ex.path [⟨"next", Tys.nil⟩]) (Blk.semi (Ex.ret (Ex.call
  (Ex.path [⟨"Some", Tys.nil⟩]) (Exs.cons (Ex.tuple (Exs.cons (Ex.path [⟨"k", Tys.nil⟩]) (Exs.cons (Ex.path [⟨"v",
  Tys.nil⟩]) (Exs.nil)))) (Exs.nil)))) (Blk.nil)) (Ex.tuple (Exs.nil))))))⟩

/-- `size_hint` of item 2 of `map/iter.rs`. -/
def mapIterFn2_1 : FnDef :=
  ⟨"size_hint", SelfKind.ref, [], Ty.tuple (Tys.cons (Ty.path ["usize"] Tys.nil) (Tys.cons (Ty.path ["Option"]
  (Tys.cons (Ty.path ["usize"] Tys.nil) Tys.nil)) Tys.nil)), Blk.tail (Ex.tuple (Exs.cons (Ex.num 0 "") (Exs.cons
  (Ex.call (Ex.path [⟨"Some", Tys.nil⟩]) (Exs.cons (Ex.method (Ex.field (Ex.path [⟨"self", Tys.nil⟩]) "iter") "len"
  Tys.nil (Exs.nil)) (Exs.nil))) (Exs.nil))))⟩

/-- Item 2 of `map/iter.rs`. -/
def mapIterItem2 : Item :=
  Item.impl ⟨[("K", false), ("V", false)], some (Ty.path ["Iterator"] Tys.nil), Ty.path ["Iter"] (Tys.cons (Ty.path
  ["K"] Tys.nil) (Tys.cons (Ty.path ["V"] Tys.nil) Tys.nil)), [], [mapIterFn2_0, mapIterFn2_1]⟩

/-- `next_back` of item 3 of `map/iter.rs`. -/
def mapIterFn3_0 : FnDef :=
  ⟨"next_back", SelfKind.refMut, [], Ty.path ["Option"] (Tys.cons (Ty.path ["Self", "Item"] Tys.nil) Tys.nil),
  Blk.tail (Ex.loopE (Blk.letS (Pat.path ["next"]) (Ex.try (Ex.method (Ex.field (Ex.path [⟨"self", Tys.nil⟩]) "iter")
  "next_back" Tys.nil (Exs.nil))) (Blk.tail (Ex.ifLet (Pat.tuple (Pats.cons (Pat.path ["k"]) (Pats.cons (Pat.ctor
  ["Some"] (Pats.cons (Pat.path ["v"]) (Pats.nil))) (Pats.nil)))) (Ex.path [⟨"next", Tys.nil⟩]) (Blk.semi (Ex.ret
  (Ex.call (Ex.path [⟨"Some", Tys.nil⟩]) (Exs.cons (Ex.tuple (Exs.cons (Ex.path [⟨"k", Tys.nil⟩]) (Exs.cons (Ex.path
  [⟨"v", Tys.nil⟩]) (Exs.nil)))) (Exs.nil)))) (Blk.nil)) (Ex.tuple (Exs.nil))))))⟩

/-- Item 3 of `map/iter.rs`. -/
def mapIterItem3 : Item :=
  Item.impl ⟨[("K", false), ("V", false)], some (Ty.path ["DoubleEndedIterator"] Tys.nil), Ty.path ["Iter"] (Tys.cons
  (Ty.path ["K"] Tys.nil) (Tys.cons (Ty.path ["V"] Tys.nil) Tys.nil)), [], [mapIterFn3_0]⟩

/-- `clone` of item 4 of `map/iter.rs`. -/
def mapIterFn4_0 : FnDef :=
  ⟨"clone", SelfKind.ref, [], Ty.path ["Self"] Tys.nil, Blk.tail (Ex.record [⟨"Iter", Tys.nil⟩] (Fls.cons "iter"
  (Ex.method (Ex.field (Ex.path [⟨"self", Tys.nil⟩]) "iter") "clone" Tys.nil (Exs.nil)) (Fls.nil)))⟩

/-- Item 4 of `map/iter.rs`. -/
def mapIterItem4 : Item :=
  Item.impl ⟨[("K", false), ("V", false)], some (Ty.path ["Clone"] Tys.nil), Ty.path ["Iter"] (Tys.cons (Ty.path
  ["K"] Tys.nil) (Tys.cons (Ty.path ["V"] Tys.nil) Tys.nil)), [], [mapIterFn4_0]⟩

/-- `fmt` of item 5 of `map/iter.rs`. -/
def mapIterFn5_0 : FnDef :=
  ⟨"fmt", SelfKind.ref, [(Pat.path ["f"], Ty.ref true (Ty.path ["std", "fmt", "Formatter"] Tys.nil))], Ty.path
  ["std", "fmt", "Result"] Tys.nil, Blk.tail (Ex.method (Ex.method (Ex.method (Ex.path [⟨"f", Tys.nil⟩]) "debug_list"
  Tys.nil (Exs.nil)) "entries" Tys.nil (Exs.cons (Ex.method (Ex.path [⟨"self", Tys.nil⟩]) "clone" Tys.nil (Exs.nil))
  (Exs.nil))) "finish" Tys.nil (Exs.nil))⟩

/-- Item 5 of `map/iter.rs`. -/
def mapIterItem5 : Item :=
  Item.impl ⟨[("K", false), ("V", false)], some (Ty.path ["Debug"] Tys.nil), Ty.path ["Iter"] (Tys.cons (Ty.path
  ["K"] Tys.nil) (Tys.cons (Ty.path ["V"] Tys.nil) Tys.nil)), [], [mapIterFn5_0]⟩

/-- Item 6 of `map/iter.rs`. -/
def mapIterItem6 : Item :=
  Item.struct "IterMut" [("iter", Ty.path ["total::IterMut"] (Tys.cons (Ty.path ["K"] Tys.nil) (Tys.cons (Ty.path
  ["Option"] (Tys.cons (Ty.path ["V"] Tys.nil) Tys.nil)) Tys.nil)))]

/-- `new` of item 7 of `map/iter.rs`. -/
def mapIterFn7_0 : FnDef :=
  ⟨"new", SelfKind.none, [(Pat.path ["iter"], Ty.path ["total::IterMut"] (Tys.cons (Ty.path ["K"] Tys.nil) (Tys.cons
  (Ty.path ["Option"] (Tys.cons (Ty.path ["V"] Tys.nil) Tys.nil)) Tys.nil)))], Ty.path ["Self"] Tys.nil, Blk.tail
  (Ex.record [⟨"IterMut", Tys.nil⟩] (Fls.cons "iter" (Ex.path [⟨"iter", Tys.nil⟩]) (Fls.nil)))⟩

/-- `iter` of item 7 of `map/iter.rs`. -/
def mapIterFn7_1 : FnDef :=
  ⟨"iter", SelfKind.ref, [], Ty.path ["Iter"] (Tys.cons (Ty.path ["K"] Tys.nil) (Tys.cons (Ty.path ["V"] Tys.nil)
  Tys.nil)), Blk.tail (Ex.call (Ex.path [⟨"Iter", Tys.nil⟩, ⟨"new", Tys.nil⟩]) (Exs.cons (Ex.method (Ex.field
  (Ex.path [⟨"self", Tys.nil⟩]) "iter") "iter" Tys.nil (Exs.nil)) (Exs.nil)))⟩

/-- Item 7 of `map/iter.rs`. -/
def mapIterItem7 : Item :=
  Item.impl ⟨[("K", false), ("V", false)], none, Ty.path ["IterMut"] (Tys.cons (Ty.path ["K"] Tys.nil) (Tys.cons
  (Ty.path ["V"] Tys.nil) Tys.nil)), [], [mapIterFn7_0, mapIterFn7_1]⟩

/-- `next` of item 8 of `map/iter.rs`. -/
def mapIterFn8_0 : FnDef :=
  ⟨"next", SelfKind.refMut, [], Ty.path ["Option"] (Tys.cons (Ty.path ["Self", "Item"] Tys.nil) Tys.nil), Blk.tail
  (Ex.loopE (Blk.letS (Pat.path ["next"]) (Ex.try (Ex.method (Ex.field (Ex.path [⟨"self", Tys.nil⟩]) "iter") "next"
  Tys.nil (Exs.nil))) (Blk.tail (Ex.ifLet (Pat.tuple (Pats.cons (Pat.path ["k"]) (Pats.cons (Pat.ctor ["Some"]
  (Pats.cons (Pat.path ["v"]) (Pats.nil))) (Pats.nil)))) (Ex.path [⟨"next", Tys.nil⟩]) (Blk.semi (Ex.ret (Ex.call
  (Ex.path [⟨"Some", Tys.nil⟩]) (Exs.cons (Ex.tuple (Exs.cons (Ex.path [⟨"k", Tys.nil⟩]) (Exs.cons (Ex.path [⟨"v",
  Tys.nil⟩]) (Exs.nil)))) (Exs.nil)))) (Blk.nil)) (Ex.tuple (Exs.nil))))))⟩

/-- `size_hint` of item 8 of `map/iter.rs`. -/
def mapIterFn8_1 : FnDef :=
  ⟨"size_hint", SelfKind.ref, [], Ty.tuple (Tys.cons (Ty.path ["usize"] Tys.nil) (Tys.cons (Ty.path ["Option"]
  (Tys.cons (Ty.path ["usize"] Tys.nil) Tys.nil)) Tys.nil)), Blk.tail (Ex.tuple (Exs.cons (Ex.num 0 "") (Exs.cons
  (Ex.call (Ex.path [⟨"Some", Tys.nil⟩]) (Exs.cons (Ex.method (Ex.field (Ex.path [⟨"self", Tys.nil⟩]) "iter") "len"
  Tys.nil (Exs.nil)) (Exs.nil))) (Exs.nil))))⟩

/-- Item 8 of `map/iter.rs`. -/
def mapIterItem8 : Item :=
  Item.impl ⟨[("K", false), ("V", false)], some (Ty.path ["Iterator"] Tys.nil), Ty.path ["IterMut"] (Tys.cons
  (Ty.path ["K"] Tys.nil) (Tys.cons (Ty.path ["V"] Tys.nil) Tys.nil)), [], [mapIterFn8_0, mapIterFn8_1]⟩

/-- `next_back` of item 9 of `map/iter.rs`. -/
def mapIterFn9_0 : FnDef :=
  ⟨"next_back", SelfKind.refMut, [], Ty.path ["Option"] (Tys.cons (Ty.path ["Self", "Item"] Tys.nil) Tys.nil),
  Blk.tail (Ex.loopE (Blk.letS (Pat.path ["next"]) (Ex.try (Ex.method (Ex.field (Ex.path [⟨"self", Tys.nil⟩]) "iter")
  "next_back" Tys.nil (Exs.nil))) (Blk.tail (Ex.ifLet (Pat.tuple (Pats.cons (Pat.path ["k"]) (Pats.cons (Pat.ctor
  ["Some"] (Pats.cons (Pat.path ["v"]) (Pats.nil))) (Pats.nil)))) (Ex.path [⟨"next", Tys.nil⟩]) (Blk.semi (Ex.ret
  (Ex.call (Ex.path [⟨"Some", Tys.nil⟩]) (Exs.cons (Ex.tuple (Exs.cons (Ex.path [⟨"k", Tys.nil⟩]) (Exs.cons (Ex.path
  [⟨"v", Tys.nil⟩]) (Exs.nil)))) (Exs.nil)))) (Blk.nil)) (Ex.tuple (Exs.nil))))))⟩

/-- Item 9 of `map/iter.rs`. -/
def mapIterItem9 : Item :=
  Item.impl ⟨[("K", false), ("V", false)], some (Ty.path ["DoubleEndedIterator"] Tys.nil), Ty.path ["IterMut"]
  (Tys.cons (Ty.path ["K"] Tys.nil) (Tys.cons (Ty.path ["V"] Tys.nil) Tys.nil)), [], [mapIterFn9_0]⟩

/-- `fmt` of item 10 of `map/iter.rs`. -/
def mapIterFn10_0 : FnDef :=
  ⟨"fmt", SelfKind.ref, [(Pat.path ["f"], Ty.ref true (Ty.path ["Formatter"] Tys.nil))], Ty.path ["std", "fmt",
  "Result"] Tys.nil, Blk.tail (Ex.method (Ex.method (Ex.method (Ex.path [⟨"f", Tys.nil⟩]) "debug_list" Tys.nil
  (Exs.nil)) "entries" Tys.nil (Exs.cons (Ex.method (Ex.path [⟨"self", Tys.nil⟩]) "iter" Tys.nil (Exs.nil))
  (Exs.nil))) "finish" Tys.nil (Exs.nil))⟩

/-- Item 10 of `map/iter.rs`. -/
def mapIterItem10 : Item :=
  Item.impl ⟨[("K", false), ("V", false)], some (Ty.path ["Debug"] Tys.nil), Ty.path ["IterMut"] (Tys.cons (Ty.path
  ["K"] Tys.nil) (Tys.cons (Ty.path ["V"] Tys.nil) Tys.nil)), [], [mapIterFn10_0]⟩

/-- Item 11 of `map/iter.rs`. -/
def mapIterItem11 : Item :=
  Item.struct "Keys" [("iter", Ty.path ["Iter"] (Tys.cons (Ty.path ["K"] Tys.nil) (Tys.cons (Ty.path ["V"] Tys.nil)
  Tys.nil)))]

/-- `new` of item 12 of `map/iter.rs`. -/
def mapIterFn12_0 : FnDef :=
  ⟨"new", SelfKind.none, [(Pat.path ["iter"], Ty.path ["Iter"] (Tys.cons (Ty.path ["K"] Tys.nil) (Tys.cons (Ty.path
  ["V"] Tys.nil) Tys.nil)))], Ty.path ["Self"] Tys.nil, Blk.tail (Ex.record [⟨"Keys", Tys.nil⟩] (Fls.cons "iter"
  (Ex.path [⟨"iter", Tys.nil⟩]) (Fls.nil)))⟩

/-- Item 12 of `map/iter.rs`. -/
def mapIterItem12 : Item :=
  Item.impl ⟨[("K", false), ("V", false)], none, Ty.path ["Keys"] (Tys.cons (Ty.path ["K"] Tys.nil) (Tys.cons
  (Ty.path ["V"] Tys.nil) Tys.nil)), [], [mapIterFn12_0]⟩

/-- `next` of item 13 of `map/iter.rs`. -/
def mapIterFn13_0 : FnDef :=
  ⟨"next", SelfKind.refMut, [], Ty.path ["Option"] (Tys.cons (Ty.path ["Self", "Item"] Tys.nil) Tys.nil), Blk.tail
  (Ex.method (Ex.method (Ex.field (Ex.path [⟨"self", Tys.nil⟩]) "iter") "next" Tys.nil (Exs.nil)) "map" Tys.nil
  (Exs.cons (Ex.closure (Pats.cons (Pat.tuple (Pats.cons (Pat.path ["k"]) (Pats.cons (Pat.wild) (Pats.nil))))
  (Pats.nil)) (Ex.path [⟨"k", Tys.nil⟩])) (Exs.nil)))⟩

/-- `size_hint` of item 13 of `map/iter.rs`. -/
def mapIterFn13_1 : FnDef :=
  ⟨"size_hint", SelfKind.ref, [], Ty.tuple (Tys.cons (Ty.path ["usize"] Tys.nil) (Tys.cons (Ty.path ["Option"]
  (Tys.cons (Ty.path ["usize"] Tys.nil) Tys.nil)) Tys.nil)), Blk.tail (Ex.method (Ex.field (Ex.path [⟨"self",
  Tys.nil⟩]) "iter") "size_hint" Tys.nil (Exs.nil))⟩

/-- Item 13 of `map/iter.rs`. -/
def mapIterItem13 : Item :=
  Item.impl ⟨[("K", false), ("V", false)], some (Ty.path ["Iterator"] Tys.nil), Ty.path ["Keys"] (Tys.cons (Ty.path
  ["K"] Tys.nil) (Tys.cons (Ty.path ["V"] Tys.nil) Tys.nil)), [], [mapIterFn13_0, mapIterFn13_1]⟩

/-- `next_back` of item 14 of `map/iter.rs`. -/
def mapIterFn14_0 : FnDef :=
  ⟨"next_back", SelfKind.refMut, [], Ty.path ["Option"] (Tys.cons (Ty.path ["Self", "Item"] Tys.nil) Tys.nil),
  Blk.tail (Ex.method (Ex.method (Ex.field (Ex.path [⟨"self", Tys.nil⟩]) "iter") "next_back" Tys.nil (Exs.nil)) "map"
  Tys.nil (Exs.cons (Ex.closure (Pats.cons (Pat.tuple (Pats.cons (Pat.path ["k"]) (Pats.cons (Pat.wild) (Pats.nil))))
  (Pats.nil)) (Ex.path [⟨"k", Tys.nil⟩])) (Exs.nil)))⟩

/-- Item 14 of `map/iter.rs`. -/
def mapIterItem14 : Item :=
  Item.impl ⟨[("K", false), ("V", false)], some (Ty.path ["DoubleEndedIterator"] Tys.nil), Ty.path ["Keys"] (Tys.cons
  (Ty.path ["K"] Tys.nil) (Tys.cons (Ty.path ["V"] Tys.nil) Tys.nil)), [], [mapIterFn14_0]⟩

/-- `clone` of item 15 of `map/iter.rs`. -/
def mapIterFn15_0 : FnDef :=
  ⟨"clone", SelfKind.ref, [], Ty.path ["Self"] Tys.nil, Blk.tail (Ex.record [⟨"Keys", Tys.nil⟩] (Fls.cons "iter"
  (Ex.method (Ex.field (Ex.path [⟨"self", Tys.nil⟩]) "iter") "clone" Tys.nil (Exs.nil)) (Fls.nil)))⟩

/-- Item 15 of `map/iter.rs`. -/
def mapIterItem15 : Item :=
  Item.impl ⟨[("K", false), ("V", false)], some (Ty.path ["Clone"] Tys.nil), Ty.path ["Keys"] (Tys.cons (Ty.path
  ["K"] Tys.nil) (Tys.cons (Ty.path ["V"] Tys.nil) Tys.nil)), [], [mapIterFn15_0]⟩

/-- `fmt` of item 16 of `map/iter.rs`. -/
def mapIterFn16_0 : FnDef :=
  ⟨"fmt", SelfKind.ref, [(Pat.path ["f"], Ty.ref true (Ty.path ["Formatter"] Tys.nil))], Ty.path ["std", "fmt",
  "Result"] Tys.nil, Blk.tail (Ex.method (Ex.method (Ex.method (Ex.path [⟨"f", Tys.nil⟩]) "debug_list" Tys.nil
  (Exs.nil)) "entries" Tys.nil (Exs.cons (Ex.method (Ex.path [⟨"self", Tys.nil⟩]) "clone" Tys.nil (Exs.nil))
  (Exs.nil))) "finish" Tys.nil (Exs.nil))⟩

/-- Item 16 of `map/iter.rs`. -/
def mapIterItem16 : Item :=
  Item.impl ⟨[("K", false)], some (Ty.path ["Debug"] Tys.nil), Ty.path ["Keys"] (Tys.cons (Ty.path ["K"] Tys.nil)
  (Tys.cons (Ty.tuple Tys.nil) Tys.nil)), [], [mapIterFn16_0]⟩

/-- Item 17 of `map/iter.rs`. -/
def mapIterItem17 : Item :=
  Item.struct "Values" [("iter", Ty.path ["Iter"] (Tys.cons (Ty.path ["K"] Tys.nil) (Tys.cons (Ty.path ["V"] Tys.nil)
  Tys.nil)))]

/-- `new` of item 18 of `map/iter.rs`. -/
def mapIterFn18_0 : FnDef :=
  ⟨"new", SelfKind.none, [(Pat.path ["iter"], Ty.path ["Iter"] (Tys.cons (Ty.path ["K"] Tys.nil) (Tys.cons (Ty.path
  ["V"] Tys.nil) Tys.nil)))], Ty.path ["Self"] Tys.nil, Blk.tail (Ex.record [⟨"Values", Tys.nil⟩] (Fls.cons "iter"
  (Ex.path [⟨"iter", Tys.nil⟩]) (Fls.nil)))⟩

/-- Item 18 of `map/iter.rs`. -/
def mapIterItem18 : Item :=
  Item.impl ⟨[("K", false), ("V", false)], none, Ty.path ["Values"] (Tys.cons (Ty.path ["K"] Tys.nil) (Tys.cons
  (Ty.path ["V"] Tys.nil) Tys.nil)), [], [mapIterFn18_0]⟩

/-- `next` of item 19 of `map/iter.rs`. -/
def mapIterFn19_0 : FnDef :=
  ⟨"next", SelfKind.refMut, [], Ty.path ["Option"] (Tys.cons (Ty.path ["Self", "Item"] Tys.nil) Tys.nil), Blk.tail
  (Ex.method (Ex.method (Ex.field (Ex.path [⟨"self", Tys.nil⟩]) "iter") "next" Tys.nil (Exs.nil)) "map" Tys.nil
  (Exs.cons (Ex.closure (Pats.cons (Pat.tuple (Pats.cons (Pat.wild) (Pats.cons (Pat.path ["v"]) (Pats.nil))))
  (Pats.nil)) (Ex.path [⟨"v", Tys.nil⟩])) (Exs.nil)))⟩

/-- `size_hint` of item 19 of `map/iter.rs`. -/
def mapIterFn19_1 : FnDef :=
  ⟨"size_hint", SelfKind.ref, [], Ty.tuple (Tys.cons (Ty.path ["usize"] Tys.nil) (Tys.cons (Ty.path ["Option"]
  (Tys.cons (Ty.path ["usize"] Tys.nil) Tys.nil)) Tys.nil)), Blk.tail (Ex.method (Ex.field (Ex.path [⟨"self",
  Tys.nil⟩]) "iter") "size_hint" Tys.nil (Exs.nil))⟩

/-- Item 19 of `map/iter.rs`. -/
def mapIterItem19 : Item :=
  Item.impl ⟨[("K", false), ("V", false)], some (Ty.path ["Iterator"] Tys.nil), Ty.path ["Values"] (Tys.cons (Ty.path
  ["K"] Tys.nil) (Tys.cons (Ty.path ["V"] Tys.nil) Tys.nil)), [], [mapIterFn19_0, mapIterFn19_1]⟩

/-- `next_back` of item 20 of `map/iter.rs`. -/
def mapIterFn20_0 : FnDef :=
  ⟨"next_back", SelfKind.refMut, [], Ty.path ["Option"] (Tys.cons (Ty.path ["Self", "Item"] Tys.nil) Tys.nil),
  Blk.tail (Ex.method (Ex.method (Ex.field (Ex.path [⟨"self", Tys.nil⟩]) "iter") "next_back" Tys.nil (Exs.nil)) "map"
  Tys.nil (Exs.cons (Ex.closure (Pats.cons (Pat.tuple (Pats.cons (Pat.wild) (Pats.cons (Pat.path ["v"]) (Pats.nil))))
  (Pats.nil)) (Ex.path [⟨"v", Tys.nil⟩])) (Exs.nil)))⟩

/-- Item 20 of `map/iter.rs`. -/
def mapIterItem20 : Item :=
  Item.impl ⟨[("K", false), ("V", false)], some (Ty.path ["DoubleEndedIterator"] Tys.nil), Ty.path ["Values"]
  (Tys.cons (Ty.path ["K"] Tys.nil) (Tys.cons (Ty.path ["V"] Tys.nil) Tys.nil)), [], [mapIterFn20_0]⟩

/-- `clone` of item 21 of `map/iter.rs`. -/
def mapIterFn21_0 : FnDef :=
  ⟨"clone", SelfKind.ref, [], Ty.path ["Self"] Tys.nil, Blk.tail (Ex.record [⟨"Values", Tys.nil⟩] (Fls.cons "iter"
  (Ex.method (Ex.field (Ex.path [⟨"self", Tys.nil⟩]) "iter") "clone" Tys.nil (Exs.nil)) (Fls.nil)))⟩

/-- Item 21 of `map/iter.rs`. -/
def mapIterItem21 : Item :=
  Item.impl ⟨[("K", false), ("V", false)], some (Ty.path ["Clone"] Tys.nil), Ty.path ["Values"] (Tys.cons (Ty.path
  ["K"] Tys.nil) (Tys.cons (Ty.path ["V"] Tys.nil) Tys.nil)), [], [mapIterFn21_0]⟩

/-- `fmt` of item 22 of `map/iter.rs`. -/
def mapIterFn22_0 : FnDef :=
  ⟨"fmt", SelfKind.ref, [(Pat.path ["f"], Ty.ref true (Ty.path ["Formatter"] Tys.nil))], Ty.path ["std", "fmt",
  "Result"] Tys.nil, Blk.tail (Ex.method (Ex.method (Ex.method (Ex.path [⟨"f", Tys.nil⟩]) "debug_list" Tys.nil
  (Exs.nil)) "entries" Tys.nil (Exs.cons (Ex.method (Ex.path [⟨"self", Tys.nil⟩]) "clone" Tys.nil (Exs.nil))
  (Exs.nil))) "finish" Tys.nil (Exs.nil))⟩

/-- Item 22 of `map/iter.rs`. -/
def mapIterItem22 : Item :=
  Item.impl ⟨[("K", false), ("V", false)], some (Ty.path ["Debug"] Tys.nil), Ty.path ["Values"] (Tys.cons (Ty.path
  ["K"] Tys.nil) (Tys.cons (Ty.path ["V"] Tys.nil) Tys.nil)), [], [mapIterFn22_0]⟩

/-- Item 23 of `map/iter.rs`. -/
def mapIterItem23 : Item :=
  Item.struct "ValuesMut" [("iter", Ty.path ["IterMut"] (Tys.cons (Ty.path ["K"] Tys.nil) (Tys.cons (Ty.path ["V"]
  Tys.nil) Tys.nil)))]

/-- `new` of item 24 of `map/iter.rs`. -/
def mapIterFn24_0 : FnDef :=
  ⟨"new", SelfKind.none, [(Pat.path ["iter"], Ty.path ["IterMut"] (Tys.cons (Ty.path ["K"] Tys.nil) (Tys.cons
  (Ty.path ["V"] Tys.nil) Tys.nil)))], Ty.path ["Self"] Tys.nil, Blk.tail (Ex.record [⟨"ValuesMut", Tys.nil⟩]
  (Fls.cons "iter" (Ex.path [⟨"iter", Tys.nil⟩]) (Fls.nil)))⟩

/-- `iter` of item 24 of `map/iter.rs`. -/
def mapIterFn24_1 : FnDef :=
  ⟨"iter", SelfKind.ref, [], Ty.path ["Values"] (Tys.cons (Ty.path ["K"] Tys.nil) (Tys.cons (Ty.path ["V"] Tys.nil)
  Tys.nil)), Blk.tail (Ex.record [⟨"Values", Tys.nil⟩] (Fls.cons "iter" (Ex.method (Ex.field (Ex.path [⟨"self",
  Tys.nil⟩]) "iter") "iter" Tys.nil (Exs.nil)) (Fls.nil)))⟩

/-- Item 24 of `map/iter.rs`. -/
def mapIterItem24 : Item :=
  Item.impl ⟨[("K", false), ("V", false)], none, Ty.path ["ValuesMut"] (Tys.cons (Ty.path ["K"] Tys.nil) (Tys.cons
  (Ty.path ["V"] Tys.nil) Tys.nil)), [], [mapIterFn24_0, mapIterFn24_1]⟩

/-- `next` of item 25 of `map/iter.rs`. -/
def mapIterFn25_0 : FnDef :=
  ⟨"next", SelfKind.refMut, [], Ty.path ["Option"] (Tys.cons (Ty.path ["Self", "Item"] Tys.nil) Tys.nil), Blk.tail
  (Ex.method (Ex.method (Ex.field (Ex.path [⟨"self", Tys.nil⟩]) "iter") "next" Tys.nil (Exs.nil)) "map" Tys.nil
  (Exs.cons (Ex.closure (Pats.cons (Pat.tuple (Pats.cons (Pat.wild) (Pats.cons (Pat.path ["v"]) (Pats.nil))))
  (Pats.nil)) (Ex.path [⟨"v", Tys.nil⟩])) (Exs.nil)))⟩

/-- `size_hint` of item 25 of `map/iter.rs`. -/
def mapIterFn25_1 : FnDef :=
  ⟨"size_hint", SelfKind.ref, [], Ty.tuple (Tys.cons (Ty.path ["usize"] Tys.nil) (Tys.cons (Ty.path ["Option"]
  (Tys.cons (Ty.path ["usize"] Tys.nil) Tys.nil)) Tys.nil)), Blk.tail (Ex.method (Ex.field (Ex.path [⟨"self",
  Tys.nil⟩]) "iter") "size_hint" Tys.nil (Exs.nil))⟩

/-- Item 25 of `map/iter.rs`. -/
def mapIterItem25 : Item :=
  Item.impl ⟨[("K", false), ("V", false)], some (Ty.path ["Iterator"] Tys.nil), Ty.path ["ValuesMut"] (Tys.cons
  (Ty.path ["K"] Tys.nil) (Tys.cons (Ty.path ["V"] Tys.nil) Tys.nil)), [], [mapIterFn25_0, mapIterFn25_1]⟩

/-- `next_back` of item 26 of `map/iter.rs`. -/
def mapIterFn26_0 : FnDef :=
  ⟨"next_back", SelfKind.refMut, [], Ty.path ["Option"] (Tys.cons (Ty.path ["Self", "Item"] Tys.nil) Tys.nil),
  Blk.tail (Ex.method (Ex.method (Ex.field (Ex.path [⟨"self", Tys.nil⟩]) "iter") "next_back" Tys.nil (Exs.nil)) "map"
  Tys.nil (Exs.cons (Ex.closure (Pats.cons (Pat.tuple (Pats.cons (Pat.wild) (Pats.cons (Pat.path ["v"]) (Pats.nil))))
  (Pats.nil)) (Ex.path [⟨"v", Tys.nil⟩])) (Exs.nil)))⟩

/-- Item 26 of `map/iter.rs`. -/
def mapIterItem26 : Item :=
  Item.impl ⟨[("K", false), ("V", false)], some (Ty.path ["DoubleEndedIterator"] Tys.nil), Ty.path ["ValuesMut"]
  (Tys.cons (Ty.path ["K"] Tys.nil) (Tys.cons (Ty.path ["V"] Tys.nil) Tys.nil)), [], [mapIterFn26_0]⟩

/-- `fmt` of item 27 of `map/iter.rs`. -/
def mapIterFn27_0 : FnDef :=
  ⟨"fmt", SelfKind.ref, [(Pat.path ["f"], Ty.ref true (Ty.path ["Formatter"] Tys.nil))], Ty.path ["std", "fmt",
  "Result"] Tys.nil, Blk.tail (Ex.method (Ex.method (Ex.method (Ex.path [⟨"f", Tys.nil⟩]) "debug_list" Tys.nil
  (Exs.nil)) "entries" Tys.nil (Exs.cons (Ex.method (Ex.path [⟨"self", Tys.nil⟩]) "iter" Tys.nil (Exs.nil))
  (Exs.nil))) "finish" Tys.nil (Exs.nil))⟩

/-- Item 27 of `map/iter.rs`. -/
def mapIterItem27 : Item :=
  Item.impl ⟨[("K", false), ("V", false)], some (Ty.path ["Debug"] Tys.nil), Ty.path ["ValuesMut"] (Tys.cons (Ty.path
  ["K"] Tys.nil) (Tys.cons (Ty.path ["V"] Tys.nil) Tys.nil)), [], [mapIterFn27_0]⟩

/-- Item 28 of `map/iter.rs`. -/
def mapIterItem28 : Item :=
  Item.struct "Drain" [("iter", Ty.path ["total::IterMut"] (Tys.cons (Ty.path ["K"] Tys.nil) (Tys.cons (Ty.path
  ["Option"] (Tys.cons (Ty.path ["V"] Tys.nil) Tys.nil)) Tys.nil)))]

/-- `new` of item 29 of `map/iter.rs`. -/
def mapIterFn29_0 : FnDef :=
  ⟨"new", SelfKind.none, [(Pat.path ["iter"], Ty.path ["total::IterMut"] (Tys.cons (Ty.path ["K"] Tys.nil) (Tys.cons
  (Ty.path ["Option"] (Tys.cons (Ty.path ["V"] Tys.nil) Tys.nil)) Tys.nil)))], Ty.path ["Self"] Tys.nil, Blk.tail
  (Ex.record [⟨"Drain", Tys.nil⟩] (Fls.cons "iter" (Ex.path [⟨"iter", Tys.nil⟩]) (Fls.nil)))⟩

/-- Item 29 of `map/iter.rs`. -/
def mapIterItem29 : Item :=
  Item.impl ⟨[("K", false), ("V", false)], none, Ty.path ["Drain"] (Tys.cons (Ty.path ["K"] Tys.nil) (Tys.cons
  (Ty.path ["V"] Tys.nil) Tys.nil)), [], [mapIterFn29_0]⟩

/-- `drop` of item 30 of `map/iter.rs`. -/
def mapIterFn30_0 : FnDef :=
  ⟨"drop", SelfKind.refMut, [], Ty.tuple Tys.nil, Blk.tail (Ex.forE (Pat.wild) (Ex.path [⟨"self", Tys.nil⟩])
  (Blk.nil))⟩

/-- Item 30 of `map/iter.rs`. -/
def mapIterItem30 : Item :=
  Item.impl ⟨[("K", false), ("V", false)], some (Ty.path ["Drop"] Tys.nil), Ty.path ["Drain"] (Tys.cons (Ty.path
  ["K"] Tys.nil) (Tys.cons (Ty.path ["V"] Tys.nil) Tys.nil)), [], [mapIterFn30_0]⟩

/-- `next` of item 31 of `map/iter.rs`. -/
def mapIterFn31_0 : FnDef :=
  ⟨"next", SelfKind.refMut, [], Ty.path ["Option"] (Tys.cons (Ty.path ["Self", "Item"] Tys.nil) Tys.nil), Blk.tail
  (Ex.loopE (Blk.letS (Pat.tuple (Pats.cons (Pat.path ["k"]) (Pats.cons (Pat.path ["v"]) (Pats.nil)))) (Ex.try
  (Ex.method (Ex.field (Ex.path [⟨"self", Tys.nil⟩]) "iter") "next" Tys.nil (Exs.nil))) (Blk.tail (Ex.ifLet (Pat.ctor
  ["Some"] (Pats.cons (Pat.path ["v"]) (Pats.nil))) (Ex.call (Ex.path [⟨"mem", Tys.nil⟩, ⟨"take", Tys.nil⟩])
  (Exs.cons (Ex.path [⟨"v", Tys.nil⟩]) (Exs.nil))) (Blk.semi (Ex.ret (Ex.call (Ex.path [⟨"Some", Tys.nil⟩]) (Exs.cons
  (Ex.tuple (Exs.cons (Ex.path [⟨"k", Tys.nil⟩]) (Exs.cons (Ex.path [⟨"v", Tys.nil⟩]) (Exs.nil)))) (Exs.nil))))
  (Blk.nil)) (Ex.tuple (Exs.nil))))))⟩

/-- `size_hint` of item 31 of `map/iter.rs`. -/
def mapIterFn31_1 : FnDef :=
  ⟨"size_hint", SelfKind.ref, [], Ty.tuple (Tys.cons (Ty.path ["usize"] Tys.nil) (Tys.cons (Ty.path ["Option"]
  (Tys.cons (Ty.path ["usize"] Tys.nil) Tys.nil)) Tys.nil)), Blk.tail (Ex.tuple (Exs.cons (Ex.num 0 "") (Exs.cons
  (Ex.call (Ex.path [⟨"Some", Tys.nil⟩]) (Exs.cons (Ex.method (Ex.field (Ex.path [⟨"self", Tys.nil⟩]) "iter") "len"
  Tys.nil (Exs.nil)) (Exs.nil))) (Exs.nil))))⟩

/-- Item 31 of `map/iter.rs`. -/
def mapIterItem31 : Item :=
  Item.impl ⟨[("K", false), ("V", false)], some (Ty.path ["Iterator"] Tys.nil), Ty.path ["Drain"] (Tys.cons (Ty.path
  ["K"] Tys.nil) (Tys.cons (Ty.path ["V"] Tys.nil) Tys.nil)), [], [mapIterFn31_0, mapIterFn31_1]⟩

/-- `next_back` of item 32 of `map/iter.rs`. -/
def mapIterFn32_0 : FnDef :=
  ⟨"next_back", SelfKind.refMut, [], Ty.path ["Option"] (Tys.cons (Ty.path ["Self", "Item"] Tys.nil) Tys.nil),
  Blk.tail (Ex.loopE (Blk.letS (Pat.tuple (Pats.cons (Pat.path ["k"]) (Pats.cons (Pat.path ["v"]) (Pats.nil))))
  (Ex.try (Ex.method (Ex.field (Ex.path [⟨"self", Tys.nil⟩]) "iter") "next_back" Tys.nil (Exs.nil))) (Blk.tail
  (Ex.ifLet (Pat.ctor ["Some"] (Pats.cons (Pat.path ["v"]) (Pats.nil))) (Ex.call (Ex.path [⟨"mem", Tys.nil⟩, ⟨"take",
  Tys.nil⟩]) (Exs.cons (Ex.path [⟨"v", Tys.nil⟩]) (Exs.nil))) (Blk.semi (Ex.ret (Ex.call (Ex.path [⟨"Some",
  Tys.nil⟩]) (Exs.cons (Ex.tuple (Exs.cons (Ex.path [⟨"k", Tys.nil⟩]) (Exs.cons (Ex.path [⟨"v", Tys.nil⟩])
  (Exs.nil)))) (Exs.nil)))) (Blk.nil)) (Ex.tuple (Exs.nil))))))⟩

/-- Item 32 of `map/iter.rs`. -/
def mapIterItem32 : Item :=
  Item.impl ⟨[("K", false), ("V", false)], some (Ty.path ["DoubleEndedIterator"] Tys.nil), Ty.path ["Drain"]
  (Tys.cons (Ty.path ["K"] Tys.nil) (Tys.cons (Ty.path ["V"] Tys.nil) Tys.nil)), [], [mapIterFn32_0]⟩

/-- Item 33 of `map/iter.rs`. -/
def mapIterItem33 : Item :=
  Item.struct "IntoIterArray" [("iter", Ty.path ["total::IntoIterArray"] (Tys.cons (Ty.path ["K"] Tys.nil) (Tys.cons
  (Ty.path ["Option"] (Tys.cons (Ty.path ["V"] Tys.nil) Tys.nil)) (Tys.cons (Ty.path ["S"] Tys.nil) Tys.nil)))),
  ("_phantom", Ty.path ["PhantomData"] (Tys.cons (Ty.path ["K"] Tys.nil) Tys.nil))]

/-- `new` of item 34 of `map/iter.rs`. -/
def mapIterFn34_0 : FnDef :=
  ⟨"new", SelfKind.none, [(Pat.path ["iter"], Ty.path ["total::IntoIterArray"] (Tys.cons (Ty.path ["K"] Tys.nil)
  (Tys.cons (Ty.path ["Option"] (Tys.cons (Ty.path ["V"] Tys.nil) Tys.nil)) (Tys.cons (Ty.path ["S"] Tys.nil)
  Tys.nil))))], Ty.path ["Self"] Tys.nil, Blk.tail (Ex.record [⟨"IntoIterArray", Tys.nil⟩] (Fls.cons "iter" (Ex.path
  [⟨"iter", Tys.nil⟩]) (Fls.cons "_phantom" (Ex.path [⟨"PhantomData", Tys.nil⟩]) (Fls.nil))))⟩

/-- `iter` of item 34 of `map/iter.rs`. -/
def mapIterFn34_1 : FnDef :=
  ⟨"iter", SelfKind.ref, [], Ty.path ["Iter"] (Tys.cons (Ty.path ["K"] Tys.nil) (Tys.cons (Ty.path ["V"] Tys.nil)
  Tys.nil)), Blk.tail (Ex.call (Ex.path [⟨"Iter", Tys.nil⟩, ⟨"new", Tys.nil⟩]) (Exs.cons (Ex.method (Ex.field
  (Ex.path [⟨"self", Tys.nil⟩]) "iter") "iter" Tys.nil (Exs.nil)) (Exs.nil)))⟩

/-- Item 34 of `map/iter.rs`. -/
def mapIterItem34 : Item :=
  Item.impl ⟨[("K", false), ("V", false), ("S", true)], none, Ty.path ["IntoIterArray"] (Tys.cons (Ty.path ["K"]
  Tys.nil) (Tys.cons (Ty.path ["V"] Tys.nil) (Tys.cons (Ty.path ["S"] Tys.nil) Tys.nil))), [], [mapIterFn34_0,
  mapIterFn34_1]⟩

/-- `next` of item 35 of `map/iter.rs`. -/
def mapIterFn35_0 : FnDef :=
  ⟨"next", SelfKind.refMut, [], Ty.path ["Option"] (Tys.cons (Ty.path ["Self", "Item"] Tys.nil) Tys.nil), Blk.tail
  (Ex.loopE (Blk.letS (Pat.tuple (Pats.cons (Pat.path ["k"]) (Pats.cons (Pat.path ["v"]) (Pats.nil)))) (Ex.try
  (Ex.method (Ex.field (Ex.path [⟨"self", Tys.nil⟩]) "iter") "next" Tys.nil (Exs.nil))) (Blk.tail (Ex.ifLet (Pat.ctor
  ["Some"] (Pats.cons (Pat.path ["v"]) (Pats.nil))) (Ex.path [⟨"v", Tys.nil⟩]) (Blk.semi (Ex.ret (Ex.call (Ex.path
  [⟨"Some", Tys.nil⟩]) (Exs.cons (Ex.tuple (Exs.cons (Ex.path [⟨"k", Tys.nil⟩]) (Exs.cons (Ex.path [⟨"v", Tys.nil⟩])
  (Exs.nil)))) (Exs.nil)))) (Blk.nil)) (Ex.tuple (Exs.nil))))))⟩

/-- Item 35 of `map/iter.rs`. -/
def mapIterItem35 : Item :=
  Item.impl ⟨[("K", false), ("V", false), ("S", true)], some (Ty.path ["Iterator"] Tys.nil), Ty.path
  ["IntoIterArray"] (Tys.cons (Ty.path ["K"] Tys.nil) (Tys.cons (Ty.path ["V"] Tys.nil) (Tys.cons (Ty.path ["S"]
  Tys.nil) Tys.nil))), [], [mapIterFn35_0]⟩

/-- `next_back` of item 36 of `map/iter.rs`. -/
def mapIterFn36_0 : FnDef :=
  ⟨"next_back", SelfKind.refMut, [], Ty.path ["Option"] (Tys.cons (Ty.path ["Self", "Item"] Tys.nil) Tys.nil),
  Blk.tail (Ex.loopE (Blk.letS (Pat.tuple (Pats.cons (Pat.path ["k"]) (Pats.cons (Pat.path ["v"]) (Pats.nil))))
  (Ex.try (Ex.method (Ex.field (Ex.path [⟨"self", Tys.nil⟩]) "iter") "next_back" Tys.nil (Exs.nil))) (Blk.tail
  (Ex.ifLet (Pat.ctor ["Some"] (Pats.cons (Pat.path ["v"]) (Pats.nil))) (Ex.path [⟨"v", Tys.nil⟩]) (Blk.semi (Ex.ret
  (Ex.call (Ex.path [⟨"Some", Tys.nil⟩]) (Exs.cons (Ex.tuple (Exs.cons (Ex.path [⟨"k", Tys.nil⟩]) (Exs.cons (Ex.path
  [⟨"v", Tys.nil⟩]) (Exs.nil)))) (Exs.nil)))) (Blk.nil)) (Ex.tuple (Exs.nil))))))⟩

/-- Item 36 of `map/iter.rs`. -/
def mapIterItem36 : Item :=
  Item.impl ⟨[("K", false), ("V", false), ("S", true)], some (Ty.path ["DoubleEndedIterator"] Tys.nil), Ty.path
  ["IntoIterArray"] (Tys.cons (Ty.path ["K"] Tys.nil) (Tys.cons (Ty.path ["V"] Tys.nil) (Tys.cons (Ty.path ["S"]
  Tys.nil) Tys.nil))), [], [mapIterFn36_0]⟩

/-- `fmt` of item 37 of `map/iter.rs`. -/
def mapIterFn37_0 : FnDef :=
  ⟨"fmt", SelfKind.ref, [(Pat.path ["f"], Ty.ref true (Ty.path ["Formatter"] Tys.nil))], Ty.path ["std", "fmt",
  "Result"] Tys.nil, Blk.tail (Ex.method (Ex.method (Ex.method (Ex.path [⟨"f", Tys.nil⟩]) "debug_list" Tys.nil
  (Exs.nil)) "entries" Tys.nil (Exs.cons (Ex.method (Ex.path [⟨"self", Tys.nil⟩]) "iter" Tys.nil (Exs.nil))
  (Exs.nil))) "finish" Tys.nil (Exs.nil))⟩

/-- Item 37 of `map/iter.rs`. -/
def mapIterItem37 : Item :=
  Item.impl ⟨[("K", false), ("V", false), ("S", true)], some (Ty.path ["Debug"] Tys.nil), Ty.path ["IntoIterArray"]
  (Tys.cons (Ty.path ["K"] Tys.nil) (Tys.cons (Ty.path ["V"] Tys.nil) (Tys.cons (Ty.path ["S"] Tys.nil) Tys.nil))),
  [], [mapIterFn37_0]⟩

/-- `clone` of item 38 of `map/iter.rs`. -/
def mapIterFn38_0 : FnDef :=
  ⟨"clone", SelfKind.ref, [], Ty.path ["Self"] Tys.nil, Blk.tail (Ex.record [⟨"IntoIterArray", Tys.nil⟩] (Fls.cons
  "iter" (Ex.method (Ex.field (Ex.path [⟨"self", Tys.nil⟩]) "iter") "clone" Tys.nil (Exs.nil)) (Fls.cons "_phantom"
  (Ex.path [⟨"PhantomData", Tys.nil⟩]) (Fls.nil))))⟩

/-- Item 38 of `map/iter.rs`. -/
def mapIterItem38 : Item :=
  Item.impl ⟨[("K", false), ("V", false), ("S", true)], some (Ty.path ["Clone"] Tys.nil), Ty.path ["IntoIterArray"]
  (Tys.cons (Ty.path ["K"] Tys.nil) (Tys.cons (Ty.path ["V"] Tys.nil) (Tys.cons (Ty.path ["S"] Tys.nil) Tys.nil))),
  [], [mapIterFn38_0]⟩

/-- Item 39 of `map/iter.rs`. -/
def mapIterItem39 : Item :=
  Item.struct "IntoIter" [("iter", Ty.path ["total::IntoIter"] (Tys.cons (Ty.path ["K"] Tys.nil) (Tys.cons (Ty.path
  ["Option"] (Tys.cons (Ty.path ["V"] Tys.nil) Tys.nil)) Tys.nil)))]

/-- `new` of item 40 of `map/iter.rs`. -/
def mapIterFn40_0 : FnDef :=
  ⟨"new", SelfKind.none, [(Pat.path ["iter"], Ty.path ["total::IntoIter"] (Tys.cons (Ty.path ["K"] Tys.nil) (Tys.cons
  (Ty.path ["Option"] (Tys.cons (Ty.path ["V"] Tys.nil) Tys.nil)) Tys.nil)))], Ty.path ["Self"] Tys.nil, Blk.tail
  (Ex.record [⟨"IntoIter", Tys.nil⟩] (Fls.cons "iter" (Ex.path [⟨"iter", Tys.nil⟩]) (Fls.nil)))⟩

/-- `iter` of item 40 of `map/iter.rs`. -/
def mapIterFn40_1 : FnDef :=
  ⟨"iter", SelfKind.ref, [], Ty.path ["Iter"] (Tys.cons (Ty.path ["K"] Tys.nil) (Tys.cons (Ty.path ["V"] Tys.nil)
  Tys.nil)), Blk.tail (Ex.call (Ex.path [⟨"Iter", Tys.nil⟩, ⟨"new", Tys.nil⟩]) (Exs.cons (Ex.method (Ex.field
  (Ex.path [⟨"self", Tys.nil⟩]) "iter") "iter" Tys.nil (Exs.nil)) (Exs.nil)))⟩

/-- Item 40 of `map/iter.rs`. -/
def mapIterItem40 : Item :=
  Item.impl ⟨[("K", false), ("V", false)], none, Ty.path ["IntoIter"] (Tys.cons (Ty.path ["K"] Tys.nil) (Tys.cons
  (Ty.path ["V"] Tys.nil) Tys.nil)), [], [mapIterFn40_0, mapIterFn40_1]⟩

/-- `next` of item 41 of `map/iter.rs`. -/
def mapIterFn41_0 : FnDef :=
  ⟨"next", SelfKind.refMut, [], Ty.path ["Option"] (Tys.cons (Ty.path ["Self", "Item"] Tys.nil) Tys.nil), Blk.tail
  (Ex.loopE (Blk.letS (Pat.tuple (Pats.cons (Pat.path ["k"]) (Pats.cons (Pat.path ["v"]) (Pats.nil)))) (Ex.try
  (Ex.method (Ex.field (Ex.path [⟨"self", Tys.nil⟩]) "iter") "next" Tys.nil (Exs.nil))) (Blk.tail (Ex.ifLet (Pat.ctor
  ["Some"] (Pats.cons (Pat.path ["v"]) (Pats.nil))) (Ex.path [⟨"v", Tys.nil⟩]) (Blk.semi (Ex.ret (Ex.call (Ex.path
  [⟨"Some", Tys.nil⟩]) (Exs.cons (Ex.tuple (Exs.cons (Ex.path [⟨"k", Tys.nil⟩]) (Exs.cons (Ex.path [⟨"v", Tys.nil⟩])
  (Exs.nil)))) (Exs.nil)))) (Blk.nil)) (Ex.tuple (Exs.nil))))))⟩

/-- `size_hint` of item 41 of `map/iter.rs`. -/
def mapIterFn41_1 : FnDef :=
  ⟨"size_hint", SelfKind.ref, [], Ty.tuple (Tys.cons (Ty.path ["usize"] Tys.nil) (Tys.cons (Ty.path ["Option"]
  (Tys.cons (Ty.path ["usize"] Tys.nil) Tys.nil)) Tys.nil)), Blk.tail (Ex.tuple (Exs.cons (Ex.num 0 "") (Exs.cons
  (Ex.call (Ex.path [⟨"Some", Tys.nil⟩]) (Exs.cons (Ex.method (Ex.field (Ex.path [⟨"self", Tys.nil⟩]) "iter") "len"
  Tys.nil (Exs.nil)) (Exs.nil))) (Exs.nil))))⟩

/-- Item 41 of `map/iter.rs`. -/
def mapIterItem41 : Item :=
  Item.impl ⟨[("K", false), ("V", false)], some (Ty.path ["Iterator"] Tys.nil), Ty.path ["IntoIter"] (Tys.cons
  (Ty.path ["K"] Tys.nil) (Tys.cons (Ty.path ["V"] Tys.nil) Tys.nil)), [], [mapIterFn41_0, mapIterFn41_1]⟩

/-- `next_back` of item 42 of `map/iter.rs`. -/
def mapIterFn42_0 : FnDef :=
  ⟨"next_back", SelfKind.refMut, [], Ty.path ["Option"] (Tys.cons (Ty.path ["Self", "Item"] Tys.nil) Tys.nil),
  Blk.tail (Ex.loopE (Blk.letS (Pat.tuple (Pats.cons (Pat.path ["k"]) (Pats.cons (Pat.path ["v"]) (Pats.nil))))
  (Ex.try (Ex.method (Ex.field (Ex.path [⟨"self", Tys.nil⟩]) "iter") "next_back" Tys.nil (Exs.nil))) (Blk.tail
  (Ex.ifLet (Pat.ctor ["Some"] (Pats.cons (Pat.path ["v"]) (Pats.nil))) (Ex.path [⟨"v", Tys.nil⟩]) (Blk.semi (Ex.ret
  (Ex.call (Ex.path [⟨"Some", Tys.nil⟩]) (Exs.cons (Ex.tuple (Exs.cons (Ex.path [⟨"k", Tys.nil⟩]) (Exs.cons (Ex.path
  [⟨"v", Tys.nil⟩]) (Exs.nil)))) (Exs.nil)))) (Blk.nil)) (Ex.tuple (Exs.nil))))))⟩

/-- Item 42 of `map/iter.rs`. -/
def mapIterItem42 : Item :=
  Item.impl ⟨[("K", false), ("V", false)], some (Ty.path ["DoubleEndedIterator"] Tys.nil), Ty.path ["IntoIter"]
  (Tys.cons (Ty.path ["K"] Tys.nil) (Tys.cons (Ty.path ["V"] Tys.nil) Tys.nil)), [], [mapIterFn42_0]⟩

/-- `fmt` of item 43 of `map/iter.rs`. -/
def mapIterFn43_0 : FnDef :=
  ⟨"fmt", SelfKind.ref, [(Pat.path ["f"], Ty.ref true (Ty.path ["Formatter"] Tys.nil))], Ty.path ["std", "fmt",
  "Result"] Tys.nil, Blk.tail (Ex.method (Ex.method (Ex.method (Ex.path [⟨"f", Tys.nil⟩]) "debug_list" Tys.nil
  (Exs.nil)) "entries" Tys.nil (Exs.cons (Ex.method (Ex.path [⟨"self", Tys.nil⟩]) "iter" Tys.nil (Exs.nil))
  (Exs.nil))) "finish" Tys.nil (Exs.nil))⟩

/-- Item 43 of `map/iter.rs`. -/
def mapIterItem43 : Item :=
  Item.impl ⟨[("K", false), ("V", false)], some (Ty.path ["Debug"] Tys.nil), Ty.path ["IntoIter"] (Tys.cons (Ty.path
  ["K"] Tys.nil) (Tys.cons (Ty.path ["V"] Tys.nil) Tys.nil)), [], [mapIterFn43_0]⟩

/-- `clone` of item 44 of `map/iter.rs`. -/
def mapIterFn44_0 : FnDef :=
  ⟨"clone", SelfKind.ref, [], Ty.path ["Self"] Tys.nil, Blk.tail (Ex.record [⟨"IntoIter", Tys.nil⟩] (Fls.cons "iter"
  (Ex.method (Ex.field (Ex.path [⟨"self", Tys.nil⟩]) "iter") "clone" Tys.nil (Exs.nil)) (Fls.nil)))⟩

/-- Item 44 of `map/iter.rs`. -/
def mapIterItem44 : Item :=
  Item.impl ⟨[("K", false), ("V", false)], some (Ty.path ["Clone"] Tys.nil), Ty.path ["IntoIter"] (Tys.cons (Ty.path
  ["K"] Tys.nil) (Tys.cons (Ty.path ["V"] Tys.nil) Tys.nil)), [], [mapIterFn44_0]⟩

/-- The items of `map/iter.rs`. -/
def mapIterTree : List Item :=
  [mapIterItem0, mapIterItem1, mapIterItem2, mapIterItem3, mapIterItem4, mapIterItem5, mapIterItem6, mapIterItem7, mapIterItem8, mapIterItem9, mapIterItem10, mapIterItem11, mapIterItem12, mapIterItem13, mapIterItem14, mapIterItem15, mapIterItem16, mapIterItem17, mapIterItem18, mapIterItem19, mapIterItem20, mapIterItem21, mapIterItem22, mapIterItem23, mapIterItem24, mapIterItem25, mapIterItem26, mapIterItem27, mapIterItem28, mapIterItem29, mapIterItem30, mapIterItem31, mapIterItem32, mapIterItem33, mapIterItem34, mapIterItem35, mapIterItem36, mapIterItem37, mapIterItem38, mapIterItem39, mapIterItem40, mapIterItem41, mapIterItem42, mapIterItem43, mapIterItem44]

/-- Item 0 of `map/entry.rs`. -/
def mapEntryItem0 : Item :=
  Item.struct "OccupiedEntry" [("key", Ty.path ["K"] Tys.nil), ("entry", Ty.ref true (Ty.path ["Option"] (Tys.cons
  (Ty.path ["V"] Tys.nil) Tys.nil)))]

/-- Item 1 of `map/entry.rs`. -/
def mapEntryItem1 : Item :=
  Item.struct "VacantEntry" [("key", Ty.path ["K"] Tys.nil), ("entry", Ty.ref true (Ty.path ["Option"] (Tys.cons
  (Ty.path ["V"] Tys.nil) Tys.nil)))]

/-- Item 2 of `map/entry.rs`. -/
def mapEntryItem2 : Item :=
  Item.enum "Entry" [("Occupied", Tys.cons (Ty.path ["OccupiedEntry"] (Tys.cons (Ty.path ["K"] Tys.nil) (Tys.cons
  (Ty.path ["V"] Tys.nil) Tys.nil))) Tys.nil), ("Vacant", Tys.cons (Ty.path ["VacantEntry"] (Tys.cons (Ty.path ["K"]
  Tys.nil) (Tys.cons (Ty.path ["V"] Tys.nil) Tys.nil))) Tys.nil)]

/-- `key` of item 3 of `map/entry.rs`. -/
def mapEntryFn3_0 : FnDef :=
  ⟨"key", SelfKind.ref, [], Ty.ref false (Ty.path ["K"] Tys.nil), Blk.tail (Ex.ref false (Ex.field (Ex.path [⟨"self",
  Tys.nil⟩]) "key"))⟩

/-- `get` of item 3 of `map/entry.rs`. -/
def mapEntryFn3_1 : FnDef :=
  ⟨"get", SelfKind.ref, [], Ty.ref false (Ty.path ["V"] Tys.nil), Blk.tail (Ex.method (Ex.method (Ex.field (Ex.path
  [⟨"self", Tys.nil⟩]) "entry") "as_ref" Tys.nil (Exs.nil)) "unwrap" Tys.nil (Exs.nil))⟩

/-- `get_mut` of item 3 of `map/entry.rs`. -/
def mapEntryFn3_2 : FnDef :=
  ⟨"get_mut", SelfKind.refMut, [], Ty.ref true (Ty.path ["V"] Tys.nil), Blk.tail (Ex.method (Ex.method (Ex.field
  (Ex.path [⟨"self", Tys.nil⟩]) "entry") "as_mut" Tys.nil (Exs.nil)) "unwrap" Tys.nil (Exs.nil))⟩

/-- Item 3 of `map/entry.rs`. -/
def mapEntryItem3 : Item :=
  Item.impl ⟨[("K", false), ("V", false)], none, Ty.path ["OccupiedEntry"] (Tys.cons (Ty.path ["K"] Tys.nil)
  (Tys.cons (Ty.path ["V"] Tys.nil) Tys.nil)), [], [mapEntryFn3_0, mapEntryFn3_1, mapEntryFn3_2]⟩

/-- `key` of item 4 of `map/entry.rs`. -/
def mapEntryFn4_0 : FnDef :=
  ⟨"key", SelfKind.ref, [], Ty.ref false (Ty.path ["K"] Tys.nil), Blk.tail (Ex.ref false (Ex.field (Ex.path [⟨"self",
  Tys.nil⟩]) "key"))⟩

/-- `insert` of item 4 of `map/entry.rs`. -/
def mapEntryFn4_1 : FnDef :=
  ⟨"insert", SelfKind.value, [(Pat.path ["value"], Ty.path ["V"] Tys.nil)], Ty.tuple Tys.nil, Blk.semi (Ex.assign
  (Ex.un (UnOp.deref) (Ex.field (Ex.path [⟨"self", Tys.nil⟩]) "entry")) (Ex.call (Ex.path [⟨"Some", Tys.nil⟩])
  (Exs.cons (Ex.path [⟨"value", Tys.nil⟩]) (Exs.nil)))) (Blk.nil)⟩

/-- Item 4 of `map/entry.rs`. -/
def mapEntryItem4 : Item :=
  Item.impl ⟨[("K", false), ("V", false)], none, Ty.path ["VacantEntry"] (Tys.cons (Ty.path ["K"] Tys.nil) (Tys.cons
  (Ty.path ["V"] Tys.nil) Tys.nil)), [], [mapEntryFn4_0, mapEntryFn4_1]⟩

/-- `new` of item 5 of `map/entry.rs`. -/
def mapEntryFn5_0 : FnDef :=
  ⟨"new", SelfKind.none, [(Pat.path ["key"], Ty.path ["K"] Tys.nil), (Pat.path ["entry"], Ty.ref true (Ty.path
  ["Option"] (Tys.cons (Ty.path ["V"] Tys.nil) Tys.nil)))], Ty.path ["Self"] Tys.nil, Blk.tail (Ex.ifE (Ex.method
  (Ex.path [⟨"entry", Tys.nil⟩]) "is_some" Tys.nil (Exs.nil)) (Blk.tail (Ex.call (Ex.path [⟨"Entry", Tys.nil⟩,
  ⟨"Occupied", Tys.nil⟩]) (Exs.cons (Ex.record [⟨"OccupiedEntry", Tys.nil⟩] (Fls.cons "key" (Ex.path [⟨"key",
  Tys.nil⟩]) (Fls.cons "entry" (Ex.path [⟨"entry", Tys.nil⟩]) (Fls.nil)))) (Exs.nil)))) (Ex.block (Blk.tail (Ex.call
  (Ex.path [⟨"Entry", Tys.nil⟩, ⟨"Vacant", Tys.nil⟩]) (Exs.cons (Ex.record [⟨"VacantEntry", Tys.nil⟩] (Fls.cons "key"
  (Ex.path [⟨"key", Tys.nil⟩]) (Fls.cons "entry" (Ex.path [⟨"entry", Tys.nil⟩]) (Fls.nil)))) (Exs.nil))))))⟩

/-- `key` of item 5 of `map/entry.rs`. -/
def mapEntryFn5_1 : FnDef :=
  ⟨"key", SelfKind.ref, [], Ty.ref false (Ty.path ["K"] Tys.nil), Blk.tail (Ex.matchE (Ex.path [⟨"self", Tys.nil⟩])
  (Arms.cons (Pat.ctor ["Entry", "Occupied"] (Pats.cons (Pat.path ["entry"]) (Pats.nil))) (Ex.method (Ex.path
  [⟨"entry", Tys.nil⟩]) "key" Tys.nil (Exs.nil)) (Arms.cons (Pat.ctor ["Entry", "Vacant"] (Pats.cons (Pat.path
  ["entry"]) (Pats.nil))) (Ex.method (Ex.path [⟨"entry", Tys.nil⟩]) "key" Tys.nil (Exs.nil)) (Arms.nil))))⟩

/-- `or_insert` of item 5 of `map/entry.rs`. -/
def mapEntryFn5_2 : FnDef :=
  ⟨"or_insert", SelfKind.value, [(Pat.path ["value"], Ty.path ["V"] Tys.nil)], Ty.ref true (Ty.path ["V"] Tys.nil),
  Blk.tail (Ex.matchE (Ex.path [⟨"self", Tys.nil⟩]) (Arms.cons (Pat.ctor ["Entry", "Occupied"] (Pats.cons (Pat.path
  ["entry"]) (Pats.nil))) (Ex.method (Ex.method (Ex.field (Ex.path [⟨"entry", Tys.nil⟩]) "entry") "as_mut" Tys.nil
  (Exs.nil)) "unwrap" Tys.nil (Exs.nil)) (Arms.cons (Pat.ctor ["Entry", "Vacant"] (Pats.cons (Pat.path ["entry"])
  (Pats.nil))) (Ex.method (Ex.field (Ex.path [⟨"entry", Tys.nil⟩]) "entry") "insert" Tys.nil (Exs.cons (Ex.path
  [⟨"value", Tys.nil⟩]) (Exs.nil))) (Arms.nil))))⟩

/-- Item 5 of `map/entry.rs`. -/
def mapEntryItem5 : Item :=
  Item.impl ⟨[("K", false), ("V", false)], none, Ty.path ["Entry"] (Tys.cons (Ty.path ["K"] Tys.nil) (Tys.cons
  (Ty.path ["V"] Tys.nil) Tys.nil)), [], [mapEntryFn5_0, mapEntryFn5_1, mapEntryFn5_2]⟩

/-- The items of `map/entry.rs`. -/
def mapEntryTree : List Item :=
  [mapEntryItem0, mapEntryItem1, mapEntryItem2, mapEntryItem3, mapEntryItem4, mapEntryItem5]

/-- Item 0 of `map/map.rs`. -/
def mapItem0 : Item :=
  Item.struct "OrdinalMap" [("map", Ty.path ["Box"] (Tys.cons (Ty.slice (Ty.path ["Option"] (Tys.cons (Ty.path ["V"]
  Tys.nil) Tys.nil))) Tys.nil)), ("_phantom", Ty.path ["PhantomData"] (Tys.cons (Ty.path ["K"] Tys.nil) Tys.nil))]

/-- `new` of item 1 of `map/map.rs`. -/
def mapFn1_0 : FnDef :=
  ⟨"new", SelfKind.none, [], Ty.path ["Self"] Tys.nil, Blk.tail (Ex.record [⟨"OrdinalMap", Tys.nil⟩] (Fls.cons "map"
  (Ex.call (Ex.path [⟨"Box", Tys.nil⟩, ⟨"default", Tys.nil⟩]) (Exs.nil)) (Fls.cons "_phantom" (Ex.path
  [⟨"PhantomData", Tys.nil⟩]) (Fls.nil))))⟩

/-- `get` of item 1 of `map/map.rs`. -/
def mapFn1_1 : FnDef :=
  ⟨"get", SelfKind.ref, [(Pat.path ["key"], Ty.ref false (Ty.path ["K"] Tys.nil))], Ty.path ["Option"] (Tys.cons
  (Ty.ref false (Ty.path ["V"] Tys.nil)) Tys.nil), Blk.tail (Ex.method (Ex.try (Ex.method (Ex.field (Ex.path
  [⟨"self", Tys.nil⟩]) "map") "get" Tys.nil (Exs.cons (Ex.method (Ex.path [⟨"key", Tys.nil⟩]) "ordinal" Tys.nil
  (Exs.nil)) (Exs.nil)))) "as_ref" Tys.nil (Exs.nil))⟩

/-- `get_mut` of item 1 of `map/map.rs`. -/
def mapFn1_2 : FnDef :=
  ⟨"get_mut", SelfKind.refMut, [(Pat.path ["key"], Ty.ref false (Ty.path ["K"] Tys.nil))], Ty.path ["Option"]
  (Tys.cons (Ty.ref true (Ty.path ["V"] Tys.nil)) Tys.nil), Blk.tail (Ex.method (Ex.try (Ex.method (Ex.field (Ex.path
  [⟨"self", Tys.nil⟩]) "map") "get_mut" Tys.nil (Exs.cons (Ex.method (Ex.path [⟨"key", Tys.nil⟩]) "ordinal" Tys.nil
  (Exs.nil)) (Exs.nil)))) "as_mut" Tys.nil (Exs.nil))⟩

/-- `contains_key` of item 1 of `map/map.rs`. -/
def mapFn1_3 : FnDef :=
  ⟨"contains_key", SelfKind.ref, [(Pat.path ["key"], Ty.ref false (Ty.path ["K"] Tys.nil))], Ty.path ["bool"]
  Tys.nil, Blk.tail (Ex.method (Ex.method (Ex.field (Ex.path [⟨"self", Tys.nil⟩]) "map") "get" Tys.nil (Exs.cons
  (Ex.method (Ex.path [⟨"key", Tys.nil⟩]) "ordinal" Tys.nil (Exs.nil)) (Exs.nil))) "is_some" Tys.nil (Exs.nil))⟩

/-- `len` of item 1 of `map/map.rs`. -/
def mapFn1_4 : FnDef :=
  ⟨"len", SelfKind.ref, [], Ty.path ["usize"] Tys.nil, Blk.tail (Ex.method (Ex.method (Ex.path [⟨"self", Tys.nil⟩])
  "iter" Tys.nil (Exs.nil)) "count" Tys.nil (Exs.nil))⟩

/-- `is_empty` of item 1 of `map/map.rs`. -/
def mapFn1_5 : FnDef :=
  ⟨"is_empty", SelfKind.ref, [], Ty.path ["bool"] Tys.nil, Blk.tail (Ex.method (Ex.method (Ex.method (Ex.path
  [⟨"self", Tys.nil⟩]) "iter" Tys.nil (Exs.nil)) "next" Tys.nil (Exs.nil)) "is_none" Tys.nil (Exs.nil))⟩

/-- `init_full_map` of item 1 of `map/map.rs`. -/
def mapFn1_6 : FnDef :=
  ⟨"init_full_map", SelfKind.refMut, [], Ty.tuple Tys.nil, Blk.tail (Ex.ifE (Ex.method (Ex.field (Ex.path [⟨"self",
  Tys.nil⟩]) "map") "is_empty" Tys.nil (Exs.nil)) (Blk.letS (Pat.mutVar "map") (Ex.call (Ex.path [⟨"Vec", Tys.nil⟩,
  ⟨"with_capacity", Tys.nil⟩]) (Exs.cons (Ex.path [⟨"K", Tys.nil⟩, ⟨"ORDINAL_SIZE", Tys.nil⟩]) (Exs.nil))) (Blk.stmt
  (Ex.forE (Pat.wild) (Ex.range (Ex.num 0 "") (Ex.path [⟨"K", Tys.nil⟩, ⟨"ORDINAL_SIZE", Tys.nil⟩])) (Blk.semi
  (Ex.method (Ex.path [⟨"map", Tys.nil⟩]) "push" Tys.nil (Exs.cons (Ex.path [⟨"None", Tys.nil⟩]) (Exs.nil)))
  (Blk.nil))) (Blk.semi (Ex.assign (Ex.field (Ex.path [⟨"self", Tys.nil⟩]) "map") (Ex.method (Ex.path [⟨"map",
  Tys.nil⟩]) "into_boxed_slice" Tys.nil (Exs.nil))) (Blk.nil)))) (Ex.tuple (Exs.nil)))⟩

/-- `insert` of item 1 of `map/map.rs`. -/
def mapFn1_7 : FnDef :=
  ⟨"insert", SelfKind.refMut, [(Pat.path ["key"], Ty.path ["K"] Tys.nil), (Pat.path ["value"], Ty.path ["V"]
  Tys.nil)], Ty.path ["Option"] (Tys.cons (Ty.path ["V"] Tys.nil) Tys.nil), Blk.semi (Ex.method (Ex.path [⟨"self",
  Tys.nil⟩]) "init_full_map" Tys.nil (Exs.nil)) (Blk.tail (Ex.method (Ex.index (Ex.field (Ex.path [⟨"self",
  Tys.nil⟩]) "map") (Ex.method (Ex.path [⟨"key", Tys.nil⟩]) "ordinal" Tys.nil (Exs.nil))) "replace" Tys.nil (Exs.cons
  (Ex.path [⟨"value", Tys.nil⟩]) (Exs.nil))))⟩

/-- `entry` of item 1 of `map/map.rs`. -/
def mapFn1_8 : FnDef :=
  ⟨"entry", SelfKind.refMut, [(Pat.path ["key"], Ty.path ["K"] Tys.nil)], Ty.path ["Entry"] (Tys.cons (Ty.path ["K"]
  Tys.nil) (Tys.cons (Ty.path ["V"] Tys.nil) Tys.nil)), Blk.semi (Ex.method (Ex.path [⟨"self", Tys.nil⟩])
  "init_full_map" Tys.nil (Exs.nil)) (Blk.letS (Pat.path ["entry"]) (Ex.ref true (Ex.index (Ex.field (Ex.path
  [⟨"self", Tys.nil⟩]) "map") (Ex.method (Ex.path [⟨"key", Tys.nil⟩]) "ordinal" Tys.nil (Exs.nil)))) (Blk.tail
  (Ex.call (Ex.path [⟨"Entry", Tys.nil⟩, ⟨"new", Tys.nil⟩]) (Exs.cons (Ex.path [⟨"key", Tys.nil⟩]) (Exs.cons (Ex.path
  [⟨"entry", Tys.nil⟩]) (Exs.nil))))))⟩

/-- `remove` of item 1 of `map/map.rs`. -/
def mapFn1_9 : FnDef :=
  ⟨"remove", SelfKind.refMut, [(Pat.path ["key"], Ty.ref false (Ty.path ["K"] Tys.nil))], Ty.path ["Option"]
  (Tys.cons (Ty.path ["V"] Tys.nil) Tys.nil), Blk.tail (Ex.method (Ex.try (Ex.method (Ex.field (Ex.path [⟨"self",
  Tys.nil⟩]) "map") "get_mut" Tys.nil (Exs.cons (Ex.method (Ex.path [⟨"key", Tys.nil⟩]) "ordinal" Tys.nil (Exs.nil))
  (Exs.nil)))) "take" Tys.nil (Exs.nil))⟩

/-- `iter` of item 1 of `map/map.rs`. -/
def mapFn1_10 : FnDef :=
  ⟨"iter", SelfKind.ref, [], Ty.path ["Iter"] (Tys.cons (Ty.path ["K"] Tys.nil) (Tys.cons (Ty.path ["V"] Tys.nil)
  Tys.nil)), Blk.tail (Ex.call (Ex.path [⟨"Iter", Tys.nil⟩, ⟨"new", Tys.nil⟩]) (Exs.cons (Ex.call (Ex.path
  [⟨"total::Iter", Tys.nil⟩, ⟨"new", Tys.nil⟩]) (Exs.cons (Ex.method (Ex.field (Ex.path [⟨"self", Tys.nil⟩]) "map")
  "iter" Tys.nil (Exs.nil)) (Exs.cons (Ex.num 0 "") (Exs.nil)))) (Exs.nil)))⟩

/-- `iter_mut` of item 1 of `map/map.rs`. -/
def mapFn1_11 : FnDef :=
  ⟨"iter_mut", SelfKind.refMut, [], Ty.path ["IterMut"] (Tys.cons (Ty.path ["K"] Tys.nil) (Tys.cons (Ty.path ["V"]
  Tys.nil) Tys.nil)), Blk.tail (Ex.call (Ex.path [⟨"IterMut", Tys.nil⟩, ⟨"new", Tys.nil⟩]) (Exs.cons (Ex.call
  (Ex.path [⟨"total::IterMut", Tys.nil⟩, ⟨"new", Tys.nil⟩]) (Exs.cons (Ex.method (Ex.field (Ex.path [⟨"self",
  Tys.nil⟩]) "map") "iter_mut" Tys.nil (Exs.nil)) (Exs.nil))) (Exs.nil)))⟩

/-- `keys` of item 1 of `map/map.rs`. -/
def mapFn1_12 : FnDef :=
  ⟨"keys", SelfKind.ref, [], Ty.path ["Keys"] (Tys.cons (Ty.path ["K"] Tys.nil) (Tys.cons (Ty.path ["V"] Tys.nil)
  Tys.nil)), Blk.tail (Ex.call (Ex.path [⟨"Keys", Tys.nil⟩, ⟨"new", Tys.nil⟩]) (Exs.cons (Ex.method (Ex.path
  [⟨"self", Tys.nil⟩]) "iter" Tys.nil (Exs.nil)) (Exs.nil)))⟩

/-- `values` of item 1 of `map/map.rs`. -/
def mapFn1_13 : FnDef :=
  ⟨"values", SelfKind.ref, [], Ty.path ["Values"] (Tys.cons (Ty.path ["K"] Tys.nil) (Tys.cons (Ty.path ["V"] Tys.nil)
  Tys.nil)), Blk.tail (Ex.call (Ex.path [⟨"Values", Tys.nil⟩, ⟨"new", Tys.nil⟩]) (Exs.cons (Ex.method (Ex.path
  [⟨"self", Tys.nil⟩]) "iter" Tys.nil (Exs.nil)) (Exs.nil)))⟩

/-- `values_mut` of item 1 of `map/map.rs`. -/
def mapFn1_14 : FnDef :=
  ⟨"values_mut", SelfKind.refMut, [], Ty.path ["ValuesMut"] (Tys.cons (Ty.path ["K"] Tys.nil) (Tys.cons (Ty.path
  ["V"] Tys.nil) Tys.nil)), Blk.tail (Ex.call (Ex.path [⟨"ValuesMut", Tys.nil⟩, ⟨"new", Tys.nil⟩]) (Exs.cons
  (Ex.method (Ex.path [⟨"self", Tys.nil⟩]) "iter_mut" Tys.nil (Exs.nil)) (Exs.nil)))⟩

/-- `drain` of item 1 of `map/map.rs`. -/
def mapFn1_15 : FnDef :=
  ⟨"drain", SelfKind.refMut, [], Ty.path ["Drain"] (Tys.cons (Ty.path ["K"] Tys.nil) (Tys.cons (Ty.path ["V"]
  Tys.nil) Tys.nil)), Blk.tail (Ex.call (Ex.path [⟨"Drain", Tys.nil⟩, ⟨"new", Tys.nil⟩]) (Exs.cons (Ex.call (Ex.path
  [⟨"total::IterMut", Tys.nil⟩, ⟨"new", Tys.nil⟩]) (Exs.cons (Ex.method (Ex.field (Ex.path [⟨"self", Tys.nil⟩])
  "map") "iter_mut" Tys.nil (Exs.nil)) (Exs.nil))) (Exs.nil)))⟩

/-- `clear` of item 1 of `map/map.rs`. -/
def mapFn1_16 : FnDef :=
  ⟨"clear", SelfKind.refMut, [], Ty.tuple Tys.nil, Blk.semi (Ex.method (Ex.path [⟨"self", Tys.nil⟩]) "drain" Tys.nil
  (Exs.nil)) (Blk.nil)⟩

/-- Item 1 of `map/map.rs`. -/
def mapItem1 : Item :=
  Item.impl ⟨[("K", false), ("V", false)], none, Ty.path ["OrdinalMap"] (Tys.cons (Ty.path ["K"] Tys.nil) (Tys.cons
  (Ty.path ["V"] Tys.nil) Tys.nil)), [], [mapFn1_0, mapFn1_1, mapFn1_2, mapFn1_3, mapFn1_4, mapFn1_5, mapFn1_6,
  mapFn1_7, mapFn1_8, mapFn1_9, mapFn1_10, mapFn1_11, mapFn1_12, mapFn1_13, mapFn1_14, mapFn1_15, mapFn1_16]⟩

/-- `default` of item 2 of `map/map.rs`. -/
def mapFn2_0 : FnDef :=
  ⟨"default", SelfKind.none, [], Ty.path ["Self"] Tys.nil, Blk.tail (Ex.call (Ex.path [⟨"Self", Tys.nil⟩, ⟨"new",
  Tys.nil⟩]) (Exs.nil))⟩

/-- Item 2 of `map/map.rs`. -/
def mapItem2 : Item :=
  Item.impl ⟨[("K", false), ("V", false)], some (Ty.path ["Default"] Tys.nil), Ty.path ["OrdinalMap"] (Tys.cons
  (Ty.path ["K"] Tys.nil) (Tys.cons (Ty.path ["V"] Tys.nil) Tys.nil)), [], [mapFn2_0]⟩

/-- `from_iter` of item 3 of `map/map.rs`. -/
def mapFn3_0 : FnDef :=
  ⟨"from_iter", SelfKind.none, [(Pat.path ["iter"], Ty.path ["I"] Tys.nil)], Ty.path ["Self"] Tys.nil, Blk.letS
  (Pat.mutVar "map") (Ex.call (Ex.path [⟨"OrdinalMap", Tys.nil⟩, ⟨"new", Tys.nil⟩]) (Exs.nil)) (Blk.stmt (Ex.forE
  (Pat.tuple (Pats.cons (Pat.path ["k"]) (Pats.cons (Pat.path ["v"]) (Pats.nil)))) (Ex.path [⟨"iter", Tys.nil⟩])
  (Blk.semi (Ex.method (Ex.path [⟨"map", Tys.nil⟩]) "insert" Tys.nil (Exs.cons (Ex.path [⟨"k", Tys.nil⟩]) (Exs.cons
  (Ex.path [⟨"v", Tys.nil⟩]) (Exs.nil)))) (Blk.nil))) (Blk.tail (Ex.path [⟨"map", Tys.nil⟩])))⟩

/-- Item 3 of `map/map.rs`. -/
def mapItem3 : Item :=
  Item.impl ⟨[("K", false), ("V", false)], some (Ty.path ["FromIterator"] (Tys.cons (Ty.tuple (Tys.cons (Ty.path
  ["K"] Tys.nil) (Tys.cons (Ty.path ["V"] Tys.nil) Tys.nil))) Tys.nil)), Ty.path ["OrdinalMap"] (Tys.cons (Ty.path
  ["K"] Tys.nil) (Tys.cons (Ty.path ["V"] Tys.nil) Tys.nil)), [], [mapFn3_0]⟩

/-- `clone` of item 4 of `map/map.rs`. -/
def mapFn4_0 : FnDef :=
  ⟨"clone", SelfKind.ref, [], Ty.path ["Self"] Tys.nil, Blk.tail (Ex.record [⟨"OrdinalMap", Tys.nil⟩] (Fls.cons "map"
  (Ex.method (Ex.field (Ex.path [⟨"self", Tys.nil⟩]) "map") "clone" Tys.nil (Exs.nil)) (Fls.cons "_phantom" (Ex.path
  [⟨"PhantomData", Tys.nil⟩]) (Fls.nil))))⟩

/-- Item 4 of `map/map.rs`. -/
def mapItem4 : Item :=
  Item.impl ⟨[("K", false), ("V", false)], some (Ty.path ["Clone"] Tys.nil), Ty.path ["OrdinalMap"] (Tys.cons
  (Ty.path ["K"] Tys.nil) (Tys.cons (Ty.path ["V"] Tys.nil) Tys.nil)), [], [mapFn4_0]⟩

/-- `fmt` of item 5 of `map/map.rs`. -/
def mapFn5_0 : FnDef :=
  ⟨"fmt", SelfKind.ref, [(Pat.path ["f"], Ty.ref true (Ty.path ["fmt", "Formatter"] Tys.nil))], Ty.path ["fmt",
  "Result"] Tys.nil, Blk.tail (Ex.method (Ex.method (Ex.method (Ex.path [⟨"f", Tys.nil⟩]) "debug_map" Tys.nil
  (Exs.nil)) "entries" Tys.nil (Exs.cons (Ex.method (Ex.path [⟨"self", Tys.nil⟩]) "iter" Tys.nil (Exs.nil))
  (Exs.nil))) "finish" Tys.nil (Exs.nil))⟩

/-- Item 5 of `map/map.rs`. -/
def mapItem5 : Item :=
  Item.impl ⟨[("K", false), ("V", false)], some (Ty.path ["Debug"] Tys.nil), Ty.path ["OrdinalMap"] (Tys.cons
  (Ty.path ["K"] Tys.nil) (Tys.cons (Ty.path ["V"] Tys.nil) Tys.nil)), [], [mapFn5_0]⟩

/-- `into_iter` of item 6 of `map/map.rs`. -/
def mapFn6_0 : FnDef :=
  ⟨"into_iter", SelfKind.value, [], Ty.path ["Self", "IntoIter"] Tys.nil, Blk.tail (Ex.call (Ex.path [⟨"IntoIter",
  Tys.nil⟩, ⟨"new", Tys.nil⟩]) (Exs.cons (Ex.call (Ex.path [⟨"total::IntoIter", Tys.nil⟩, ⟨"new", Tys.nil⟩])
  (Exs.cons (Ex.method (Ex.method (Ex.field (Ex.path [⟨"self", Tys.nil⟩]) "map") "into_vec" Tys.nil (Exs.nil))
  "into_iter" Tys.nil (Exs.nil)) (Exs.nil))) (Exs.nil)))⟩

/-- Item 6 of `map/map.rs`. -/
def mapItem6 : Item :=
  Item.impl ⟨[("K", false), ("V", false)], some (Ty.path ["IntoIterator"] Tys.nil), Ty.path ["OrdinalMap"] (Tys.cons
  (Ty.path ["K"] Tys.nil) (Tys.cons (Ty.path ["V"] Tys.nil) Tys.nil)), [], [mapFn6_0]⟩

/-- `into_iter` of item 7 of `map/map.rs`. -/
def mapFn7_0 : FnDef :=
  ⟨"into_iter", SelfKind.value, [], Ty.path ["Self", "IntoIter"] Tys.nil, Blk.tail (Ex.method (Ex.path [⟨"self",
  Tys.nil⟩]) "iter" Tys.nil (Exs.nil))⟩

/-- Item 7 of `map/map.rs`. -/
def mapItem7 : Item :=
  Item.impl ⟨[("K", false), ("V", false)], some (Ty.path ["IntoIterator"] Tys.nil), Ty.ref false (Ty.path
  ["OrdinalMap"] (Tys.cons (Ty.path ["K"] Tys.nil) (Tys.cons (Ty.path ["V"] Tys.nil) Tys.nil))), [], [mapFn7_0]⟩

/-- The items of `map/map.rs`. -/
def mapTree : List Item :=
  [mapItem0, mapItem1, mapItem2, mapItem3, mapItem4, mapItem5, mapItem6, mapItem7]

/-- Item 0 of `map/array_map.rs`. -/
def mapArrayMapItem0 : Item :=
  Item.struct "OrdinalArrayMap" [("map", Ty.path ["OrdinalTotalArrayMap"] (Tys.cons (Ty.path ["K"] Tys.nil) (Tys.cons
  (Ty.path ["Option"] (Tys.cons (Ty.path ["V"] Tys.nil) Tys.nil)) (Tys.cons (Ty.path ["S"] Tys.nil) Tys.nil))))]

/-- `new` of item 1 of `map/array_map.rs`. -/
def mapArrayMapFn1_0 : FnDef :=
  ⟨"new", SelfKind.none, [], Ty.path ["Self"] Tys.nil, Blk.tail (Ex.record [⟨"OrdinalArrayMap", Tys.nil⟩] (Fls.cons
  "map" (Ex.call (Ex.path [⟨"OrdinalTotalArrayMap", Tys.nil⟩, ⟨"new", Tys.nil⟩]) (Exs.cons (Ex.closure (Pats.cons
  (Pat.wild) (Pats.nil)) (Ex.path [⟨"None", Tys.nil⟩])) (Exs.nil))) (Fls.nil)))⟩

/-- `len` of item 1 of `map/array_map.rs`. -/
def mapArrayMapFn1_1 : FnDef :=
  ⟨"len", SelfKind.ref, [], Ty.path ["usize"] Tys.nil, Blk.tail (Ex.method (Ex.method (Ex.path [⟨"self", Tys.nil⟩])
  "iter" Tys.nil (Exs.nil)) "count" Tys.nil (Exs.nil))⟩

/-- `is_empty` of item 1 of `map/array_map.rs`. -/
def mapArrayMapFn1_2 : FnDef :=
  ⟨"is_empty", SelfKind.ref, [], Ty.path ["bool"] Tys.nil, Blk.tail (Ex.method (Ex.method (Ex.method (Ex.path
  [⟨"self", Tys.nil⟩]) "iter" Tys.nil (Exs.nil)) "next" Tys.nil (Exs.nil)) "is_none" Tys.nil (Exs.nil))⟩

/-- `get` of item 1 of `map/array_map.rs`. -/
def mapArrayMapFn1_3 : FnDef :=
  ⟨"get", SelfKind.ref, [(Pat.path ["key"], Ty.ref false (Ty.path ["K"] Tys.nil))], Ty.path ["Option"] (Tys.cons
  (Ty.ref false (Ty.path ["V"] Tys.nil)) Tys.nil), Blk.tail (Ex.method (Ex.method (Ex.field (Ex.path [⟨"self",
  Tys.nil⟩]) "map") "get" Tys.nil (Exs.cons (Ex.path [⟨"key", Tys.nil⟩]) (Exs.nil))) "as_ref" Tys.nil (Exs.nil))⟩

/-- `get_mut` of item 1 of `map/array_map.rs`. -/
def mapArrayMapFn1_4 : FnDef :=
  ⟨"get_mut", SelfKind.refMut, [(Pat.path ["key"], Ty.ref false (Ty.path ["K"] Tys.nil))], Ty.path ["Option"]
  (Tys.cons (Ty.ref true (Ty.path ["V"] Tys.nil)) Tys.nil), Blk.tail (Ex.method (Ex.method (Ex.field (Ex.path
  [⟨"self", Tys.nil⟩]) "map") "get_mut" Tys.nil (Exs.cons (Ex.path [⟨"key", Tys.nil⟩]) (Exs.nil))) "as_mut" Tys.nil
  (Exs.nil))⟩

/-- `contains_key` of item 1 of `map/array_map.rs`. -/
def mapArrayMapFn1_5 : FnDef :=
  ⟨"contains_key", SelfKind.ref, [(Pat.path ["key"], Ty.ref false (Ty.path ["K"] Tys.nil))], Ty.path ["bool"]
  Tys.nil, Blk.tail (Ex.method (Ex.method (Ex.path [⟨"self", Tys.nil⟩]) "get" Tys.nil (Exs.cons (Ex.path [⟨"key",
  Tys.nil⟩]) (Exs.nil))) "is_some" Tys.nil (Exs.nil))⟩

/-- `insert` of item 1 of `map/array_map.rs`. -/
def mapArrayMapFn1_6 : FnDef :=
  ⟨"insert", SelfKind.refMut, [(Pat.path ["key"], Ty.path ["K"] Tys.nil), (Pat.path ["value"], Ty.path ["V"]
  Tys.nil)], Ty.path ["Option"] (Tys.cons (Ty.path ["V"] Tys.nil) Tys.nil), Blk.tail (Ex.method (Ex.method (Ex.field
  (Ex.path [⟨"self", Tys.nil⟩]) "map") "get_mut" Tys.nil (Exs.cons (Ex.ref false (Ex.path [⟨"key", Tys.nil⟩]))
  (Exs.nil))) "replace" Tys.nil (Exs.cons (Ex.path [⟨"value", Tys.nil⟩]) (Exs.nil)))⟩

/-- `entry` of item 1 of `map/array_map.rs`. -/
def mapArrayMapFn1_7 : FnDef :=
  ⟨"entry", SelfKind.refMut, [(Pat.path ["key"], Ty.path ["K"] Tys.nil)], Ty.path ["Entry"] (Tys.cons (Ty.path ["K"]
  Tys.nil) (Tys.cons (Ty.path ["V"] Tys.nil) Tys.nil)), Blk.letS (Pat.path ["entry"]) (Ex.ref true (Ex.index
  (Ex.field (Ex.path [⟨"self", Tys.nil⟩]) "map") (Ex.ref false (Ex.path [⟨"key", Tys.nil⟩])))) (Blk.tail (Ex.call
  (Ex.path [⟨"Entry", Tys.nil⟩, ⟨"new", Tys.nil⟩]) (Exs.cons (Ex.path [⟨"key", Tys.nil⟩]) (Exs.cons (Ex.path
  [⟨"entry", Tys.nil⟩]) (Exs.nil)))))⟩

/-- `remove` of item 1 of `map/array_map.rs`. -/
def mapArrayMapFn1_8 : FnDef :=
  ⟨"remove", SelfKind.refMut, [(Pat.path ["key"], Ty.ref false (Ty.path ["K"] Tys.nil))], Ty.path ["Option"]
  (Tys.cons (Ty.path ["V"] Tys.nil) Tys.nil), Blk.tail (Ex.method (Ex.method (Ex.field (Ex.path [⟨"self", Tys.nil⟩])
  "map") "get_mut" Tys.nil (Exs.cons (Ex.path [⟨"key", Tys.nil⟩]) (Exs.nil))) "take" Tys.nil (Exs.nil))⟩

/-- `iter` of item 1 of `map/array_map.rs`. -/
def mapArrayMapFn1_9 : FnDef :=
  ⟨"iter", SelfKind.ref, [], Ty.path ["Iter"] (Tys.cons (Ty.path ["K"] Tys.nil) (Tys.cons (Ty.path ["V"] Tys.nil)
  Tys.nil)), Blk.tail (Ex.call (Ex.path [⟨"Iter", Tys.nil⟩, ⟨"new", Tys.nil⟩]) (Exs.cons (Ex.method (Ex.field
  (Ex.path [⟨"self", Tys.nil⟩]) "map") "iter" Tys.nil (Exs.nil)) (Exs.nil)))⟩

/-- `iter_mut` of item 1 of `map/array_map.rs`. -/
def mapArrayMapFn1_10 : FnDef :=
  ⟨"iter_mut", SelfKind.refMut, [], Ty.path ["IterMut"] (Tys.cons (Ty.path ["K"] Tys.nil) (Tys.cons (Ty.path ["V"]
  Tys.nil) Tys.nil)), Blk.tail (Ex.call (Ex.path [⟨"IterMut", Tys.nil⟩, ⟨"new", Tys.nil⟩]) (Exs.cons (Ex.method
  (Ex.field (Ex.path [⟨"self", Tys.nil⟩]) "map") "iter_mut" Tys.nil (Exs.nil)) (Exs.nil)))⟩

/-- `keys` of item 1 of `map/array_map.rs`. -/
def mapArrayMapFn1_11 : FnDef :=
  ⟨"keys", SelfKind.ref, [], Ty.path ["Keys"] (Tys.cons (Ty.path ["K"] Tys.nil) (Tys.cons (Ty.path ["V"] Tys.nil)
  Tys.nil)), Blk.tail (Ex.call (Ex.path [⟨"Keys", Tys.nil⟩, ⟨"new", Tys.nil⟩]) (Exs.cons (Ex.method (Ex.path
  [⟨"self", Tys.nil⟩]) "iter" Tys.nil (Exs.nil)) (Exs.nil)))⟩

/-- `values` of item 1 of `map/array_map.rs`. -/
def mapArrayMapFn1_12 : FnDef :=
  ⟨"values", SelfKind.ref, [], Ty.path ["Values"] (Tys.cons (Ty.path ["K"] Tys.nil) (Tys.cons (Ty.path ["V"] Tys.nil)
  Tys.nil)), Blk.tail (Ex.call (Ex.path [⟨"Values", Tys.nil⟩, ⟨"new", Tys.nil⟩]) (Exs.cons (Ex.method (Ex.path
  [⟨"self", Tys.nil⟩]) "iter" Tys.nil (Exs.nil)) (Exs.nil)))⟩

/-- `values_mut` of item 1 of `map/array_map.rs`. -/
def mapArrayMapFn1_13 : FnDef :=
  ⟨"values_mut", SelfKind.refMut, [], Ty.path ["ValuesMut"] (Tys.cons (Ty.path ["K"] Tys.nil) (Tys.cons (Ty.path
  ["V"] Tys.nil) Tys.nil)), Blk.tail (Ex.call (Ex.path [⟨"ValuesMut", Tys.nil⟩, ⟨"new", Tys.nil⟩]) (Exs.cons
  (Ex.method (Ex.path [⟨"self", Tys.nil⟩]) "iter_mut" Tys.nil (Exs.nil)) (Exs.nil)))⟩

/-- `drain` of item 1 of `map/array_map.rs`. -/
def mapArrayMapFn1_14 : FnDef :=
  ⟨"drain", SelfKind.refMut, [], Ty.path ["Drain"] (Tys.cons (Ty.path ["K"] Tys.nil) (Tys.cons (Ty.path ["V"]
  Tys.nil) Tys.nil)), Blk.tail (Ex.call (Ex.path [⟨"Drain", Tys.nil⟩, ⟨"new", Tys.nil⟩]) (Exs.cons (Ex.method
  (Ex.field (Ex.path [⟨"self", Tys.nil⟩]) "map") "iter_mut" Tys.nil (Exs.nil)) (Exs.nil)))⟩

/-- `clear` of item 1 of `map/array_map.rs`. -/
def mapArrayMapFn1_15 : FnDef :=
  ⟨"clear", SelfKind.refMut, [], Ty.tuple Tys.nil, Blk.semi (Ex.method (Ex.path [⟨"self", Tys.nil⟩]) "drain" Tys.nil
  (Exs.nil)) (Blk.nil)⟩

/-- `retain` of item 1 of `map/array_map.rs`. -/
def mapArrayMapFn1_16 : FnDef :=
  ⟨"retain", SelfKind.refMut, [(Pat.mutVar "f", Ty.path ["F"] Tys.nil)], Ty.tuple Tys.nil, Blk.tail (Ex.forE
  (Pat.tuple (Pats.cons (Pat.path ["key"]) (Pats.cons (Pat.path ["value_opt"]) (Pats.nil)))) (Ex.method (Ex.field
  (Ex.path [⟨"self", Tys.nil⟩]) "map") "iter_mut" Tys.nil (Exs.nil)) (Blk.tail (Ex.ifLet (Pat.ctor ["Some"]
  (Pats.cons (Pat.path ["value"]) (Pats.nil))) (Ex.path [⟨"value_opt", Tys.nil⟩]) (Blk.tail (Ex.ifE (Ex.un (UnOp.not)
  (Ex.call (Ex.path [⟨"f", Tys.nil⟩]) (Exs.cons (Ex.path [⟨"key", Tys.nil⟩]) (Exs.cons (Ex.path [⟨"value", Tys.nil⟩])
  (Exs.nil))))) (Blk.semi (Ex.assign (Ex.un (UnOp.deref) (Ex.path [⟨"value_opt", Tys.nil⟩])) (Ex.path [⟨"None",
  Tys.nil⟩])) (Blk.nil)) (Ex.tuple (Exs.nil)))) (Ex.tuple (Exs.nil)))))⟩

/-- Item 1 of `map/array_map.rs`. -/
def mapArrayMapItem1 : Item :=
  Item.impl ⟨[("K", false), ("V", false), ("S", true)], none, Ty.path ["OrdinalArrayMap"] (Tys.cons (Ty.path ["K"]
  Tys.nil) (Tys.cons (Ty.path ["V"] Tys.nil) (Tys.cons (Ty.path ["S"] Tys.nil) Tys.nil))), [], [mapArrayMapFn1_0,
  mapArrayMapFn1_1, mapArrayMapFn1_2, mapArrayMapFn1_3, mapArrayMapFn1_4, mapArrayMapFn1_5, mapArrayMapFn1_6,
  mapArrayMapFn1_7, mapArrayMapFn1_8, mapArrayMapFn1_9, mapArrayMapFn1_10, mapArrayMapFn1_11, mapArrayMapFn1_12,
  mapArrayMapFn1_13, mapArrayMapFn1_14, mapArrayMapFn1_15, mapArrayMapFn1_16]⟩

/-- `default` of item 2 of `map/array_map.rs`. -/
def mapArrayMapFn2_0 : FnDef :=
  ⟨"default", SelfKind.none, [], Ty.path ["Self"] Tys.nil, Blk.tail (Ex.call (Ex.path [⟨"OrdinalArrayMap", Tys.nil⟩,
  ⟨"new", Tys.nil⟩]) (Exs.nil))⟩

/-- Item 2 of `map/array_map.rs`. -/
def mapArrayMapItem2 : Item :=
  Item.impl ⟨[("K", false), ("V", false), ("S", true)], some (Ty.path ["Default"] Tys.nil), Ty.path
  ["OrdinalArrayMap"] (Tys.cons (Ty.path ["K"] Tys.nil) (Tys.cons (Ty.path ["V"] Tys.nil) (Tys.cons (Ty.path ["S"]
  Tys.nil) Tys.nil))), [], [mapArrayMapFn2_0]⟩

/-- `from_iter` of item 3 of `map/array_map.rs`. -/
def mapArrayMapFn3_0 : FnDef :=
  ⟨"from_iter", SelfKind.none, [(Pat.path ["iter"], Ty.path ["I"] Tys.nil)], Ty.path ["Self"] Tys.nil, Blk.letS
  (Pat.mutVar "map") (Ex.call (Ex.path [⟨"OrdinalArrayMap", Tys.nil⟩, ⟨"new", Tys.nil⟩]) (Exs.nil)) (Blk.stmt
  (Ex.forE (Pat.tuple (Pats.cons (Pat.path ["key"]) (Pats.cons (Pat.path ["value"]) (Pats.nil)))) (Ex.path [⟨"iter",
  Tys.nil⟩]) (Blk.semi (Ex.method (Ex.path [⟨"map", Tys.nil⟩]) "insert" Tys.nil (Exs.cons (Ex.path [⟨"key",
  Tys.nil⟩]) (Exs.cons (Ex.path [⟨"value", Tys.nil⟩]) (Exs.nil)))) (Blk.nil))) (Blk.tail (Ex.path [⟨"map",
  Tys.nil⟩])))⟩

/-- Item 3 of `map/array_map.rs`. -/
def mapArrayMapItem3 : Item :=
  Item.impl ⟨[("K", false), ("V", false), ("S", true)], some (Ty.path ["FromIterator"] (Tys.cons (Ty.tuple (Tys.cons
  (Ty.path ["K"] Tys.nil) (Tys.cons (Ty.path ["V"] Tys.nil) Tys.nil))) Tys.nil)), Ty.path ["OrdinalArrayMap"]
  (Tys.cons (Ty.path ["K"] Tys.nil) (Tys.cons (Ty.path ["V"] Tys.nil) (Tys.cons (Ty.path ["S"] Tys.nil) Tys.nil))),
  [], [mapArrayMapFn3_0]⟩

/-- `clone` of item 4 of `map/array_map.rs`. -/
def mapArrayMapFn4_0 : FnDef :=
  ⟨"clone", SelfKind.ref, [], Ty.path ["Self"] Tys.nil, Blk.tail (Ex.record [⟨"OrdinalArrayMap", Tys.nil⟩] (Fls.cons
  "map" (Ex.method (Ex.field (Ex.path [⟨"self", Tys.nil⟩]) "map") "clone" Tys.nil (Exs.nil)) (Fls.nil)))⟩

/-- Item 4 of `map/array_map.rs`. -/
def mapArrayMapItem4 : Item :=
  Item.impl ⟨[("K", false), ("V", false), ("S", true)], some (Ty.path ["Clone"] Tys.nil), Ty.path ["OrdinalArrayMap"]
  (Tys.cons (Ty.path ["K"] Tys.nil) (Tys.cons (Ty.path ["V"] Tys.nil) (Tys.cons (Ty.path ["S"] Tys.nil) Tys.nil))),
  [], [mapArrayMapFn4_0]⟩

/-- `fmt` of item 5 of `map/array_map.rs`. -/
def mapArrayMapFn5_0 : FnDef :=
  ⟨"fmt", SelfKind.ref, [(Pat.path ["f"], Ty.ref true (Ty.path ["fmt", "Formatter"] Tys.nil))], Ty.path ["fmt",
  "Result"] Tys.nil, Blk.tail (Ex.method (Ex.method (Ex.method (Ex.path [⟨"f", Tys.nil⟩]) "debug_map" Tys.nil
  (Exs.nil)) "entries" Tys.nil (Exs.cons (Ex.method (Ex.path [⟨"self", Tys.nil⟩]) "iter" Tys.nil (Exs.nil))
  (Exs.nil))) "finish" Tys.nil (Exs.nil))⟩

/-- Item 5 of `map/array_map.rs`. -/
def mapArrayMapItem5 : Item :=
  Item.impl ⟨[("K", false), ("V", false), ("S", true)], some (Ty.path ["Debug"] Tys.nil), Ty.path ["OrdinalArrayMap"]
  (Tys.cons (Ty.path ["K"] Tys.nil) (Tys.cons (Ty.path ["V"] Tys.nil) (Tys.cons (Ty.path ["S"] Tys.nil) Tys.nil))),
  [], [mapArrayMapFn5_0]⟩

/-- `into_iter` of item 6 of `map/array_map.rs`. -/
def mapArrayMapFn6_0 : FnDef :=
  ⟨"into_iter", SelfKind.value, [], Ty.path ["Self", "IntoIter"] Tys.nil, Blk.tail (Ex.call (Ex.path
  [⟨"IntoIterArray", Tys.nil⟩, ⟨"new", Tys.nil⟩]) (Exs.cons (Ex.method (Ex.field (Ex.path [⟨"self", Tys.nil⟩]) "map")
  "into_iter" Tys.nil (Exs.nil)) (Exs.nil)))⟩

/-- Item 6 of `map/array_map.rs`. -/
def mapArrayMapItem6 : Item :=
  Item.impl ⟨[("K", false), ("V", false), ("S", true)], some (Ty.path ["IntoIterator"] Tys.nil), Ty.path
  ["OrdinalArrayMap"] (Tys.cons (Ty.path ["K"] Tys.nil) (Tys.cons (Ty.path ["V"] Tys.nil) (Tys.cons (Ty.path ["S"]
  Tys.nil) Tys.nil))), [], [mapArrayMapFn6_0]⟩

/-- `into_iter` of item 7 of `map/array_map.rs`. -/
def mapArrayMapFn7_0 : FnDef :=
  ⟨"into_iter", SelfKind.value, [], Ty.path ["Self", "IntoIter"] Tys.nil, Blk.tail (Ex.method (Ex.path [⟨"self",
  Tys.nil⟩]) "iter" Tys.nil (Exs.nil))⟩

/-- Item 7 of `map/array_map.rs`. -/
def mapArrayMapItem7 : Item :=
  Item.impl ⟨[("K", false), ("V", false), ("S", true)], some (Ty.path ["IntoIterator"] Tys.nil), Ty.ref false
  (Ty.path ["OrdinalArrayMap"] (Tys.cons (Ty.path ["K"] Tys.nil) (Tys.cons (Ty.path ["V"] Tys.nil) (Tys.cons (Ty.path
  ["S"] Tys.nil) Tys.nil)))), [], [mapArrayMapFn7_0]⟩

/-- The items of `map/array_map.rs`. -/
def mapArrayMapTree : List Item :=
  [mapArrayMapItem0, mapArrayMapItem1, mapArrayMapItem2, mapArrayMapItem3, mapArrayMapItem4, mapArrayMapItem5, mapArrayMapItem6, mapArrayMapItem7]

/-- `array_from_iter` of item 0 of `array_from_iter.rs`. -/
def arrayFromIterFn0_0 : FnDef :=
  ⟨"array_from_iter", SelfKind.none, [(Pat.path ["iter"], Ty.path ["I"] Tys.nil)], Ty.arr (Ty.path ["T"] Tys.nil)
  "S", Blk.letS (Pat.mutVar "builder") (Ex.call (Ex.path [⟨"ArrayBuilder", Tys.nil⟩, ⟨"new", Tys.nil⟩]) (Exs.nil))
  (Blk.stmt (Ex.forE (Pat.path ["item"]) (Ex.path [⟨"iter", Tys.nil⟩]) (Blk.semi (Ex.method (Ex.path [⟨"builder",
  Tys.nil⟩]) "push" Tys.nil (Exs.cons (Ex.path [⟨"item", Tys.nil⟩]) (Exs.nil))) (Blk.nil))) (Blk.tail (Ex.method
  (Ex.path [⟨"builder", Tys.nil⟩]) "finish" Tys.nil (Exs.nil))))⟩

/-- Item 0 of `array_from_iter.rs`. -/
def arrayFromIterItem0 : Item :=
  Item.fn [("T", false), ("I", false), ("S", true)] arrayFromIterFn0_0

/-- The items of `array_from_iter.rs`. -/
def arrayFromIterTree : List Item :=
  [arrayFromIterItem0]

/-- `array_as_mut` of item 0 of `array_as_mut.rs`. -/
def arrayAsMutFn0_0 : FnDef :=
  ⟨"array_as_mut", SelfKind.none, [(Pat.path ["array"], Ty.ref true (Ty.arr (Ty.path ["T"] Tys.nil) "S"))], Ty.arr
  (Ty.ref true (Ty.path ["T"] Tys.nil)) "S", Blk.letT (Pat.mutVar "array") (Ty.ref true (Ty.slice (Ty.path ["T"]
  Tys.nil))) (Ex.path [⟨"array", Tys.nil⟩]) (Blk.letS (Pat.mutVar "result") (Ex.call (Ex.path [⟨"ArrayBuilder",
  Tys.nil⟩, ⟨"new", Tys.nil⟩]) (Exs.nil)) (Blk.stmt (Ex.whileLet (Pat.ctor ["Some"] (Pats.cons (Pat.tuple (Pats.cons
  (Pat.path ["first"]) (Pats.cons (Pat.path ["rest"]) (Pats.nil)))) (Pats.nil))) (Ex.method (Ex.path [⟨"array",
  Tys.nil⟩]) "split_first_mut" Tys.nil (Exs.nil)) (Blk.semi (Ex.method (Ex.path [⟨"result", Tys.nil⟩]) "push" Tys.nil
  (Exs.cons (Ex.path [⟨"first", Tys.nil⟩]) (Exs.nil))) (Blk.semi (Ex.assign (Ex.path [⟨"array", Tys.nil⟩]) (Ex.path
  [⟨"rest", Tys.nil⟩])) (Blk.nil)))) (Blk.tail (Ex.method (Ex.path [⟨"result", Tys.nil⟩]) "finish" Tys.nil
  (Exs.nil)))))⟩

/-- Item 0 of `array_as_mut.rs`. -/
def arrayAsMutItem0 : Item :=
  Item.fn [("T", false), ("S", true)] arrayAsMutFn0_0

/-- The items of `array_as_mut.rs`. -/
def arrayAsMutTree : List Item :=
  [arrayAsMutItem0]

end OrdinalMap.Text
