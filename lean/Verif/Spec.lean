import Verif.Rust
/-!
# Specifications

The vocabulary in which the properties are stated.  Everything here is
independent of how the crate implements things.
-/

namespace OrdinalMap

/-- An implementation of `trait Ordinal` (ordinal/traits.rs:59-104).  The provided method
`all_values` is modelled in `Model/Values.lean`.  `size` is `R` because evaluating the
associated const can be a compile error; `ordinal` and `fromOrdinal` may panic. -/
structure OrdinalImpl (α : Type) where
  /-- `const ORDINAL_SIZE: usize` (traits.rs:63) -/
  size : R Nat
  /-- `fn ordinal(&self) -> usize` (traits.rs:76) -/
  ordinal : α → R Nat
  /-- `fn from_ordinal(ordinal: usize) -> Option<Self>` (traits.rs:87) -/
  fromOrdinal : Nat → R (Option α)

/-- The contract documented on `trait Ordinal` (traits.rs:1-6): the type has exactly `n =
ORDINAL_SIZE ≤ usize::MAX` values, `ordinal` and `from_ordinal` are mutually inverse between the
values and `0..n`, and neither panics there. -/
structure Lawful {α : Type} (c : Cfg) (I : OrdinalImpl α) (n : Nat) : Prop where
  size : I.size = .ok n
  fits : n < c.M
  ordinal : ∀ a, ∃ i, i < n ∧ I.ordinal a = .ok i ∧ I.fromOrdinal i = .ok (some a)
  fromOrdinal : ∀ i, i < n → ∃ a, I.fromOrdinal i = .ok (some a) ∧ I.ordinal a = .ok i

/-- `from_ordinal` answers `None`, without panicking, on every `usize` outside `0..n`. -/
def Strict {α : Type} (c : Cfg) (I : OrdinalImpl α) (n : Nat) : Prop :=
  ∀ i, n ≤ i → i < c.M → I.fromOrdinal i = .ok none

/-- `a < b` iff `a.ordinal() < b.ordinal()` (traits.rs:16-19). -/
def OrdCompat {α : Type} (lt : α → α → Prop) (I : OrdinalImpl α) : Prop :=
  ∀ a b, ∃ i j, I.ordinal a = .ok i ∧ I.ordinal b = .ok j ∧ (lt a b ↔ i < j)

/-- All values of a type in increasing ordinal order: the values `from_ordinal(0)`,
`from_ordinal(1)`, …, `from_ordinal(n-1)`. -/
def values {α : Type} (I : OrdinalImpl α) (n : Nat) : List α :=
  (List.range n).filterMap fun i =>
    match I.fromOrdinal i with
    | .ok (some a) => some a
    | _ => none

/-! ## The `Ord` instances of the standard library, as strict orders -/

/-- `Option<A>`: `None < Some(_)`. -/
def optionLt {α : Type} (lt : α → α → Prop) : Option α → Option α → Prop
  | none, some _ => True
  | some a, some b => lt a b
  | _, none => False

/-- `Result<A, B>` (`Ok < Err`) and `Either<A, B>` (`Left < Right`). -/
def sumLt {α β : Type} (ltA : α → α → Prop) (ltB : β → β → Prop) : α ⊕ β → α ⊕ β → Prop
  | .inl a, .inl a' => ltA a a'
  | .inl _, .inr _ => True
  | .inr _, .inl _ => False
  | .inr b, .inr b' => ltB b b'

/-- `[T; N]`: lexicographic. -/
def arrayLt {α : Type} {N : Nat} (lt : α → α → Prop)
    (a b : { l : List α // l.length = N }) : Prop := List.Lex lt a.1 b.1

/-! ## Double-ended queues: the specification of double-ended iterators -/

/-- A call on a double-ended iterator. -/
inductive Dir where
  /-- `next()` -/
  | front
  /-- `next_back()` -/
  | back
  deriving DecidableEq, Repr

/-- One `next`/`next_back` on an ideal iterator that still has `l` to yield. -/
def Deque.step {ι : Type} (l : List ι) : Dir → Option ι × List ι
  | .front => (l.head?, l.tail)
  | .back => (l.getLast?, l.dropLast)

/-- A sequence of calls on an ideal iterator: the results, and what is left. -/
def Deque.run {ι : Type} : List ι → List Dir → List (Option ι) × List ι
  | l, [] => ([], l)
  | l, d :: ds =>
    let (o, l') := Deque.step l d
    let (os, l'') := Deque.run l' ds
    (o :: os, l'')

/-- A Rust `DoubleEndedIterator`: how its state answers `next` and `next_back`. -/
structure DEIter (σ ι : Type) where
  next : σ → R (Option ι × σ)
  nextBack : σ → R (Option ι × σ)

/-- One call. -/
def DEIter.step {σ ι : Type} (it : DEIter σ ι) (s : σ) : Dir → R (Option ι × σ)
  | .front => it.next s
  | .back => it.nextBack s

/-- A sequence of calls: the results and the final state, or the first fault. -/
def DEIter.run {σ ι : Type} (it : DEIter σ ι) : σ → List Dir → R (List (Option ι) × σ)
  | s, [] => .ok ([], s)
  | s, d :: ds => do
    let (o, s') ← it.step s d
    let (os, s'') ← it.run s' ds
    .ok (o :: os, s'')

/-- The iterator state `s` behaves, under every sequence of `next`/`next_back` calls, exactly
like a deque holding `l` (in particular it never faults), and after any such sequence `obs`
holds between what is left to yield and the state reached. -/
def BehavesLike {σ ι : Type} (it : DEIter σ ι) (s : σ) (l : List ι)
    (obs : List ι → σ → Prop := fun _ _ => True) : Prop :=
  ∀ ds : List Dir, ∃ s', it.run s ds = .ok ((Deque.run l ds).1, s') ∧ obs (Deque.run l ds).2 s'

/-! ## Sets -/

/-- A set type: how its state answers `contains` and `insert`. -/
structure SetApi (σ τ : Type) where
  contains : σ → τ → R Bool
  insert : σ → τ → R (Bool × σ)

/-- An operation of a history. -/
inductive SetOp (τ : Type) where
  | insert (x : τ)
  | contains (x : τ)

/-- Run a history; the results, and the final state, or the first fault. -/
def SetApi.run {σ τ : Type} (api : SetApi σ τ) : σ → List (SetOp τ) → R (List Bool × σ)
  | s, [] => .ok ([], s)
  | s, .insert x :: ops => do
    let (b, s') ← api.insert s x
    let (bs, s'') ← api.run s' ops
    .ok (b :: bs, s'')
  | s, .contains x :: ops => do
    let b ← api.contains s x
    let (bs, s'') ← api.run s ops
    .ok (b :: bs, s'')

/-- The mathematical set: `insert` answers whether the element is new. -/
def SetSpec.run {τ : Type} [DecidableEq τ] : (τ → Bool) → List (SetOp τ) → List Bool × (τ → Bool)
  | m, [] => ([], m)
  | m, .insert x :: ops =>
    let (bs, m') := SetSpec.run (fun y => if y = x then true else m y) ops
    ((!m x) :: bs, m')
  | m, .contains x :: ops =>
    let (bs, m') := SetSpec.run m ops
    (m x :: bs, m')

/-- The set state `s` answers every history as the mathematical set `m` does (in particular no
operation faults), and `obs` holds between the mathematical set and the state after it. -/
def SetBehavesLike {σ τ : Type} [DecidableEq τ] (api : SetApi σ τ) (s : σ) (m : τ → Bool)
    (obs : (τ → Bool) → σ → Prop := fun _ _ => True) : Prop :=
  ∀ ops : List (SetOp τ), ∃ s', api.run s ops = .ok ((SetSpec.run m ops).1, s') ∧
    obs (SetSpec.run m ops).2 s'

/-- The elements of a mathematical set in increasing ordinal order. -/
def elements {τ : Type} (I : OrdinalImpl τ) (n : Nat) (m : τ → Bool) : List τ := (values I n).filter m

end OrdinalMap
