import Verif.Rust
/-!
# Model of `array_builder.rs`, `array_from_iter.rs`, `array_as_mut.rs`

Memory is explicit: a `MaybeUninit<T>` cell is `none` (uninitialised) or `some v`.  Reading or
dropping an uninitialised cell is `Fault.ub`.  Values that are dropped are logged, so leaks and
double drops are visible.
-/

namespace OrdinalMap

/-- `struct ArrayBuilder<T, const S: usize>` (array_builder.rs:9-12).  `S` is `cells.length`. -/
structure ArrayBuilder (T : Type) where
  /-- `array: [MaybeUninit<T>; S]` -/
  cells : List (Option T)
  /-- `filled: usize` -/
  filled : Nat
  deriving DecidableEq, Repr

namespace ArrayBuilder
variable {T : Type}

/-- `ArrayBuilder::new` (array_builder.rs:25-30). -/
def new (T : Type) (S : Nat) : ArrayBuilder T := ⟨List.replicate S none, 0⟩

/-- `ArrayBuilder::push` (array_builder.rs:32-42): `assert!(self.filled < S)`, raw-pointer write of
the value at index `filled` (which does not drop what was there), `filled += 1`. -/
def push (b : ArrayBuilder T) (value : T) : R (ArrayBuilder T) := do
  assert (b.filled < b.cells.length)
  .ok { cells := b.cells.set b.filled (some value), filled := b.filled + 1 }

/-- `self.array[i].assume_init_drop()` (array_builder.rs:17-19): bounds-checked index, then drop of
a cell that must be initialised.  Returns the dropped value. -/
def dropCell (b : ArrayBuilder T) (i : Nat) : R T :=
  match b.cells[i]? with
  | none => .error .panic
  | some none => .error .ub
  | some (some v) => .ok v

/-- `impl Drop for ArrayBuilder` (array_builder.rs:14-22): drops cells `0..filled`.  Returns the
values dropped, in order. -/
def drop (b : ArrayBuilder T) : R (List T) := (List.range b.filled).mapM b.dropCell

/-- `impl Drop for ArrayBuilder` (array_builder.rs:14-22) for values whose own destructor may panic:
`bad i v` says whether dropping `v` panics at cell `i`.  The panic ends the loop; the field `array` is
dropped next, which does nothing to `MaybeUninit` cells.  Returns how the destructor ended and the values
whose destructor was started. -/
def dropLoopP (bad : Nat → T → Bool) (b : ArrayBuilder T) : List Nat → R (Option Unit × List T)
  | [] => .ok (some (), [])
  | i :: is => do
    let v ← b.dropCell i
    if bad i v then .ok (none, [v])
    else do
      let (r, d) ← dropLoopP bad b is
      .ok (r, v :: d)

/-- The whole destructor. -/
def dropP (bad : Nat → T → Bool) (b : ArrayBuilder T) : R (Option Unit × List T) :=
  b.dropLoopP bad (List.range b.filled)

/-- What `try_finish` produces: `Ok(array)` or `Err(ArrayNotFilled)`, and the values dropped. -/
structure Finished (T : Type) where
  result : Option (List T)
  dropped : List T
  deriving DecidableEq, Repr

/-- `transmute_copy::<[MaybeUninit<T>; S], [T; S]>` (array_builder.rs:51): every cell must be
initialised. -/
def transmute : List (Option T) → R (List T)
  | [] => .ok []
  | none :: _ => .error .ub
  | some v :: cs => do .ok (v :: (← transmute cs))

/-- `ArrayBuilder::try_finish` (array_builder.rs:44-54).  When not full: `&mut self.array[filled..S]`
(panics if `filled > S`), `drop_in_place` of a slice of `MaybeUninit` (no effect), `Err`, and `self`
is dropped on return.  When full: the array is moved out and `self` forgotten. -/
def tryFinish (b : ArrayBuilder T) : R (Finished T) :=
  if b.filled ≠ b.cells.length then do
    assert (b.filled ≤ b.cells.length)
    let dropped ← b.drop
    .ok ⟨none, dropped⟩
  else do
    let a ← transmute b.cells
    .ok ⟨some a, []⟩

/-- `ArrayBuilder::finish` (array_builder.rs:56-58): `try_finish().unwrap()`. -/
def finish (b : ArrayBuilder T) : R (List T) := do
  let f ← b.tryFinish
  unwrap f.result

end ArrayBuilder

/-- How an iterator passed to `array_from_iter` ends after the items it produced. -/
inductive IterEnd where
  /-- returns `None` -/
  | exhausted
  /-- `next()` panics -/
  | panics
  deriving DecidableEq, Repr

/-- Outcome of a function that owns values: how it ended and which values it dropped. -/
structure Outcome (T α : Type) where
  /-- `some a`: returned `a`; `none`: unwound with a panic. -/
  returned : Option α
  /-- Values dropped while running or unwinding, in order. -/
  dropped : List T
  deriving DecidableEq, Repr

/-- Unwinding out of a scope that owns builder `b` after the values `already` were dropped
(array_builder.rs:14-22 runs). -/
def unwindBuilder {T α : Type} (b : ArrayBuilder T) (already : List T) : R (Outcome T α) := do
  let d ← b.drop
  .ok ⟨none, already ++ d⟩

/-- The `for item in iter` loop and `builder.finish()` of `array_from_iter`
(array_from_iter.rs:8-11).  `items` are the items the iterator produces before it ends (an infinite
iterator is covered by any prefix of more than `S` items, because `push` panics there).
A panic in `push` unwinds: `value` is dropped, then the builder.  `finish` on a builder that is not
full has already dropped the builder inside `try_finish` and then `unwrap` panics. -/
def fromIterLoop {T : Type} : ArrayBuilder T → List T → IterEnd → R (Outcome T (List T))
  | b, [], .exhausted => do
    let f ← b.tryFinish
    .ok ⟨f.result, f.dropped⟩
  | b, [], .panics => unwindBuilder b []
  | b, v :: vs, e =>
    match b.push v with
    | .ok b' => fromIterLoop b' vs e
    | .error .panic => unwindBuilder b [v]
    | .error f => .error f

/-- `array_from_iter::<T, I, S>` (array_from_iter.rs:3-12) with its drop accounting. -/
def arrayFromIterOutcome {T : Type} (S : Nat) (items : List T) (e : IterEnd) :
    R (Outcome T (List T)) :=
  fromIterLoop (ArrayBuilder.new T S) items e

/-- `array_from_iter::<T, I, S>` (array_from_iter.rs:3-12), result only. -/
def arrayFromIter {T : Type} (S : Nat) (items : List T) : R (List T) := do
  let o ← arrayFromIterOutcome S items .exhausted
  unwrap o.returned

/-- The `while let Some((first, rest)) = array.split_first_mut()` loop of `array_as_mut`
(array_as_mut.rs:7-10).  References are slot indices; the slice `array` is `lo..hi`.
`fuel` bounds the loop. -/
def arrayAsMutLoop : (fuel : Nat) → (lo hi : Nat) → ArrayBuilder Nat → R (ArrayBuilder Nat)
  | 0, _, _, _ => .error .diverge
  | fuel + 1, lo, hi, b =>
    if lo < hi then do
      let b' ← b.push lo
      arrayAsMutLoop fuel (lo + 1) hi b'
    else .ok b

/-- `array_as_mut` (array_as_mut.rs:3-12) on an array of `S` elements: the array of references
(slot indices) it returns. -/
def arrayAsMut (S : Nat) : R (List Nat) := do
  let b ← arrayAsMutLoop (S + 1) 0 S (ArrayBuilder.new Nat S)
  b.finish

end OrdinalMap
