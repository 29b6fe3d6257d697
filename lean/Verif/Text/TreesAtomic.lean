import Verif.Text.Parse
/-!
# Syntax trees

The trees of the texts in `Verif.Text.FilesAtomic`, written by `tools/text.py`.  `Verif.Text.ParsedAtomic` proves that they are right.
-/

namespace OrdinalMap.Text

/-- Item 0 of `atomic.rs`. -/
def atomicItem0 : Item :=
  Item.struct "AtomicOrdinal" [("atomic", Ty.path ["AtomicUsize"] Tys.nil), ("_marker", Ty.path ["PhantomData"]
  (Tys.cons (Ty.path ["T"] Tys.nil) Tys.nil))]

/-- `fmt` of item 1 of `atomic.rs`. -/
def atomicFn1_0 : FnDef :=
  ⟨"fmt", SelfKind.ref, [(Pat.path ["f"], Ty.ref true (Ty.path ["Formatter"] Tys.nil))], Ty.path ["fmt", "Result"]
  Tys.nil, Blk.letS (Pat.path ["v"]) (Ex.method (Ex.path [⟨"self", Tys.nil⟩]) "load" Tys.nil (Exs.cons (Ex.path
  [⟨"Ordering", Tys.nil⟩, ⟨"Relaxed", Tys.nil⟩]) (Exs.nil))) (Blk.tail (Ex.call (Ex.path [⟨"Debug", Tys.nil⟩, ⟨"fmt",
  Tys.nil⟩]) (Exs.cons (Ex.ref false (Ex.path [⟨"v", Tys.nil⟩])) (Exs.cons (Ex.path [⟨"f", Tys.nil⟩]) (Exs.nil)))))⟩

/-- Item 1 of `atomic.rs`. -/
def atomicItem1 : Item :=
  Item.impl ⟨[("T", false)], some (Ty.path ["Debug"] Tys.nil), Ty.path ["AtomicOrdinal"] (Tys.cons (Ty.path ["T"]
  Tys.nil) Tys.nil), [], [atomicFn1_0]⟩

/-- `new` of item 2 of `atomic.rs`. -/
def atomicFn2_0 : FnDef :=
  ⟨"new", SelfKind.none, [(Pat.path ["value"], Ty.path ["T"] Tys.nil)], Ty.path ["Self"] Tys.nil, Blk.tail (Ex.record
  [⟨"Self", Tys.nil⟩] (Fls.cons "atomic" (Ex.call (Ex.path [⟨"AtomicUsize", Tys.nil⟩, ⟨"new", Tys.nil⟩]) (Exs.cons
  (Ex.method (Ex.path [⟨"value", Tys.nil⟩]) "ordinal" Tys.nil (Exs.nil)) (Exs.nil))) (Fls.cons "_marker" (Ex.path
  [⟨"PhantomData", Tys.nil⟩]) (Fls.nil))))⟩

/-- `load` of item 2 of `atomic.rs`. -/
def atomicFn2_1 : FnDef :=
  ⟨"load", SelfKind.ref, [(Pat.path ["ordering"], Ty.path ["Ordering"] Tys.nil)], Ty.path ["T"] Tys.nil, Blk.tail
  (Ex.method (Ex.call (Ex.path [⟨"T", Tys.nil⟩, ⟨"from_ordinal", Tys.nil⟩]) (Exs.cons (Ex.method (Ex.field (Ex.path
  [⟨"self", Tys.nil⟩]) "atomic") "load" Tys.nil (Exs.cons (Ex.path [⟨"ordering", Tys.nil⟩]) (Exs.nil))) (Exs.nil)))
  "unwrap" Tys.nil (Exs.nil))⟩

/-- `store` of item 2 of `atomic.rs`. -/
def atomicFn2_2 : FnDef :=
  ⟨"store", SelfKind.ref, [(Pat.path ["value"], Ty.path ["T"] Tys.nil), (Pat.path ["ordering"], Ty.path ["Ordering"]
  Tys.nil)], Ty.tuple Tys.nil, Blk.semi (Ex.method (Ex.field (Ex.path [⟨"self", Tys.nil⟩]) "atomic") "store" Tys.nil
  (Exs.cons (Ex.method (Ex.path [⟨"value", Tys.nil⟩]) "ordinal" Tys.nil (Exs.nil)) (Exs.cons (Ex.path [⟨"ordering",
  Tys.nil⟩]) (Exs.nil)))) (Blk.nil)⟩

/-- `compare_exchange` of item 2 of `atomic.rs`. -/
def atomicFn2_3 : FnDef :=
  ⟨"compare_exchange", SelfKind.ref, [(Pat.path ["old"], Ty.path ["T"] Tys.nil), (Pat.path ["new"], Ty.path ["T"]
  Tys.nil), (Pat.path ["success"], Ty.path ["Ordering"] Tys.nil), (Pat.path ["failure"], Ty.path ["Ordering"]
  Tys.nil)], Ty.path ["Result"] (Tys.cons (Ty.path ["T"] Tys.nil) (Tys.cons (Ty.path ["T"] Tys.nil) Tys.nil)),
  Blk.letS (Pat.path ["old_ord"]) (Ex.method (Ex.path [⟨"old", Tys.nil⟩]) "ordinal" Tys.nil (Exs.nil)) (Blk.letS
  (Pat.path ["new_ord"]) (Ex.method (Ex.path [⟨"new", Tys.nil⟩]) "ordinal" Tys.nil (Exs.nil)) (Blk.letS (Pat.path
  ["res"]) (Ex.method (Ex.field (Ex.path [⟨"self", Tys.nil⟩]) "atomic") "compare_exchange" Tys.nil (Exs.cons (Ex.path
  [⟨"old_ord", Tys.nil⟩]) (Exs.cons (Ex.path [⟨"new_ord", Tys.nil⟩]) (Exs.cons (Ex.path [⟨"success", Tys.nil⟩])
  (Exs.cons (Ex.path [⟨"failure", Tys.nil⟩]) (Exs.nil)))))) (Blk.tail (Ex.matchE (Ex.path [⟨"res", Tys.nil⟩])
  (Arms.cons (Pat.ctor ["Ok"] (Pats.cons (Pat.path ["v"]) (Pats.nil))) (Ex.call (Ex.path [⟨"Ok", Tys.nil⟩]) (Exs.cons
  (Ex.method (Ex.call (Ex.path [⟨"T", Tys.nil⟩, ⟨"from_ordinal", Tys.nil⟩]) (Exs.cons (Ex.path [⟨"v", Tys.nil⟩])
  (Exs.nil))) "unwrap" Tys.nil (Exs.nil)) (Exs.nil))) (Arms.cons (Pat.ctor ["Err"] (Pats.cons (Pat.path ["v"])
  (Pats.nil))) (Ex.call (Ex.path [⟨"Err", Tys.nil⟩]) (Exs.cons (Ex.method (Ex.call (Ex.path [⟨"T", Tys.nil⟩,
  ⟨"from_ordinal", Tys.nil⟩]) (Exs.cons (Ex.path [⟨"v", Tys.nil⟩]) (Exs.nil))) "unwrap" Tys.nil (Exs.nil))
  (Exs.nil))) (Arms.nil)))))))⟩

/-- Item 2 of `atomic.rs`. -/
def atomicItem2 : Item :=
  Item.impl ⟨[("T", false)], none, Ty.path ["AtomicOrdinal"] (Tys.cons (Ty.path ["T"] Tys.nil) Tys.nil), [],
  [atomicFn2_0, atomicFn2_1, atomicFn2_2, atomicFn2_3]⟩

/-- The items of `atomic.rs`. -/
def atomicTree : List Item :=
  [atomicItem0, atomicItem1, atomicItem2]

end OrdinalMap.Text
