import Verif.Spec
/-!
# Model of `values.rs`
-/

namespace OrdinalMap

/-! ## `std::ops::Range<usize>` (std) -/

/-- `Range<usize>`. -/
structure Range where
  start : Nat
  stop : Nat
  deriving DecidableEq, Repr

/-- `Range::next`. -/
def Range.next (r : Range) : Option Nat × Range :=
  if r.start < r.stop then (some r.start, ⟨r.start + 1, r.stop⟩) else (none, r)

/-- `Range::next_back`. -/
def Range.nextBack (r : Range) : Option Nat × Range :=
  if r.start < r.stop then (some (r.stop - 1), ⟨r.start, r.stop - 1⟩) else (none, r)

/-- `Range::<usize>::len`, also `size_hint` (both components) and `count`. -/
def Range.len (r : Range) : Nat := if r.start < r.stop then r.stop - r.start else 0

/-! ## `OrdinalValues<T>` (values.rs:20-23) -/

/-- `struct OrdinalValues<T>` (values.rs:20-23): just the range. -/
abbrev OrdinalValues := Range

namespace OrdinalValues
variable {α : Type}

/-- `OrdinalValues::new` (values.rs:28-33), which is `Ordinal::all_values` (traits.rs:100-102). -/
def new (I : OrdinalImpl α) : R OrdinalValues := do .ok ⟨0, ← I.size⟩

/-- `Iterator::next` (values.rs:40-43). -/
def next (I : OrdinalImpl α) (s : OrdinalValues) : R (Option α × OrdinalValues) :=
  match Range.next s with
  | (none, r) => .ok (none, r)
  | (some i, r) => do
    let a ← unwrap (← I.fromOrdinal i)
    .ok (some a, r)

/-- `DoubleEndedIterator::next_back` (values.rs:76-79). -/
def nextBack (I : OrdinalImpl α) (s : OrdinalValues) : R (Option α × OrdinalValues) :=
  match Range.nextBack s with
  | (none, r) => .ok (none, r)
  | (some i, r) => do
    let a ← unwrap (← I.fromOrdinal i)
    .ok (some a, r)

/-- The iterator. -/
def iter (I : OrdinalImpl α) : DEIter OrdinalValues α := ⟨next I, nextBack I⟩

/-- `Iterator::size_hint` (values.rs:46-48). -/
def sizeHint (s : OrdinalValues) : Nat × Option Nat := (Range.len s, some (Range.len s))

/-- `Iterator::count` (values.rs:51-56). -/
def count (s : OrdinalValues) : Nat := Range.len s

/-- `Iterator::last` (values.rs:59-64): `next_back`, even if nothing else was consumed. -/
def last (I : OrdinalImpl α) (s : OrdinalValues) : R (Option α) := do
  let (o, _) ← nextBack I s
  .ok o

/-- `ExactSizeIterator::len` (values.rs:69-71). -/
def len (s : OrdinalValues) : Nat := Range.len s

/-- `Clone` (values.rs:82-90). -/
def clone (s : OrdinalValues) : OrdinalValues := s

/-- `Debug` with `{:?}` (values.rs:92-107); `show_` renders a value. -/
def debug (I : OrdinalImpl α) (show_ : α → String) (s : OrdinalValues) : R String := do
  let it := clone s
  match ← next I it with
  | (none, _) => .ok "[]"
  | (some first, it) =>
    if s.stop = (← I.size) then .ok ("[" ++ show_ first ++ "..]")
    else
      match ← nextBack I it with
      | (none, _) => .ok ("[" ++ show_ first ++ "]")
      | (some last, _) => .ok ("[" ++ show_ first ++ "..=" ++ show_ last ++ "]")

end OrdinalValues
end OrdinalMap
