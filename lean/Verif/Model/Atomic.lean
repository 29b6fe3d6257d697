import Verif.SpecAtomic
/-!
# Model of `atomic.rs`

Each method of `AtomicOrdinal` makes exactly one call to its `AtomicUsize`.  It is modelled by what it
does before that call (`call`) and after it (`ret`).  The `AtomicUsize` itself is modelled twice:
by its sequential behaviour, for interleavings of threads (`Machine`), and by reads-from relations,
for weak memory (`CellGraph` of `SpecAtomic.lean` with values in `usize`).
-/

namespace OrdinalMap

variable {τ T : Type}

/-! ## `AtomicUsize` -/

/-- A call to an `AtomicUsize`. -/
abbrev Prim := AtomicOp Nat

/-- What it returns. -/
abbrev RawRes := AtomicOut Nat

/-- `AtomicUsize::{load, store, compare_exchange}` on a cell: `load` panics on `Release` and `AcqRel`,
`store` on `Acquire` and `AcqRel`, `compare_exchange` on a failure ordering `Release` or `AcqRel`. -/
def Prim.exec (cell : Nat) (p : Prim) : R (RawRes × Nat) :=
  match p with
  | .load o =>
    match o with
    | .release => .error .panic
    | .acqRel => .error .panic
    | _ => .ok (.val cell, cell)
  | .store x o =>
    match o with
    | .acquire => .error .panic
    | .acqRel => .error .panic
    | _ => .ok (.unit, x)
  | .cas old new _ f =>
    match f with
    | .release => .error .panic
    | .acqRel => .error .panic
    | _ => if cell = old then .ok (.ok cell, new) else .ok (.err cell, cell)

/-! ## `AtomicOrdinal` -/

namespace AtomicOrdinal

/-- `AtomicOrdinal::new` (atomic.rs:50-55): the contents of the cell. -/
def new (I : OrdinalImpl τ) (value : τ) : R Nat := I.ordinal value

/-- The methods up to the call of the `AtomicUsize`: `load` (atomic.rs:59), `store`
(atomic.rs:64), `compare_exchange` (atomic.rs:75-79). -/
def call (I : OrdinalImpl τ) : AtomicOp τ → R Prim
  | .load order => .ok (.load order)
  | .store value order => do .ok (.store (← I.ordinal value) order)
  | .cas old new success failure => do
    let oldOrd ← I.ordinal old
    let newOrd ← I.ordinal new
    .ok (.cas oldOrd newOrd success failure)

/-- The methods after it: `load` (atomic.rs:59), `store` (atomic.rs:64), `compare_exchange`
(atomic.rs:80-83). -/
def ret (I : OrdinalImpl τ) : RawRes → R (AtomicOut τ)
  | .unit => .ok .unit
  | .val v => do .ok (.val (← unwrap (← I.fromOrdinal v)))
  | .ok v => do .ok (.ok (← unwrap (← I.fromOrdinal v)))
  | .err v => do .ok (.err (← unwrap (← I.fromOrdinal v)))

/-- A whole method call without interference: the outcome and the cell left behind. -/
def step (I : OrdinalImpl τ) (cell : Nat) (op : AtomicOp τ) : R (AtomicOut τ) × Nat :=
  match call I op with
  | .error e => (.error e, cell)
  | .ok p =>
    match Prim.exec cell p with
    | .error e => (.error e, cell)
    | .ok (raw, cell') => (ret I raw, cell')

/-- `Debug` (atomic.rs:40-45); `show_` is `T`'s `Debug`. -/
def debug (I : OrdinalImpl τ) (show_ : τ → String) (cell : Nat) : R String :=
  match step I cell (.load .relaxed) with
  | (.ok (.val v), _) => .ok (show_ v)
  | (.ok _, _) => .error .ub
  | (.error e, _) => .error e

end AtomicOrdinal

/-! ## Interleavings -/

/-- What a thread is doing with the cell. -/
inductive Phase (τ : Type) where
  /-- between calls -/
  | idle
  /-- has called `op` -/
  | called (op : AtomicOp τ)
  /-- has computed the ordinals and is about to access the `AtomicUsize` -/
  | ready (op : AtomicOp τ) (p : Prim)
  /-- has the answer of the `AtomicUsize` -/
  | answered (op : AtomicOp τ) (raw : R RawRes)

/-- A thread: what its finished calls returned, and what it is doing now. -/
structure ThreadState (τ : Type) where
  results : List (R (AtomicOut τ))
  phase : Phase τ

/-- The shared cell and the threads. -/
structure Machine (T τ : Type) where
  cell : Nat
  threads : T → ThreadState τ

/-- The start: the cell was filled by `AtomicOrdinal::new`. -/
def Machine.init (cell : Nat) : Machine T τ := ⟨cell, fun _ => ⟨[], .idle⟩⟩

/-- Thread `t` makes one step.  Its program `prog` chooses the next call depending on the results of
the earlier ones; it may go on after a panic (`catch_unwind`). -/
def Machine.step [DecidableEq T] (I : OrdinalImpl τ) (prog : T → List (R (AtomicOut τ)) → Option (AtomicOp τ))
    (s : Machine T τ) (t : T) : List (AtomicEv T τ) × Machine T τ :=
  match s.threads t with
  | ⟨rs, .idle⟩ =>
    match prog t rs with
    | none => ([], s)
    | some op => ([.inv t op], ⟨s.cell, setAt s.threads t ⟨rs, .called op⟩⟩)
  | ⟨rs, .called op⟩ =>
    match AtomicOrdinal.call I op with
    | .error e => ([.res t op (.error e)], ⟨s.cell, setAt s.threads t ⟨rs ++ [.error e], .idle⟩⟩)
    | .ok p => ([], ⟨s.cell, setAt s.threads t ⟨rs, .ready op p⟩⟩)
  | ⟨rs, .ready op p⟩ =>
    match Prim.exec s.cell p with
    | .error e => ([], ⟨s.cell, setAt s.threads t ⟨rs, .answered op (.error e)⟩⟩)
    | .ok (raw, cell) => ([], ⟨cell, setAt s.threads t ⟨rs, .answered op (.ok raw)⟩⟩)
  | ⟨rs, .answered op raw⟩ =>
    let out : R (AtomicOut τ) := do AtomicOrdinal.ret I (← raw)
    ([.res t op out], ⟨s.cell, setAt s.threads t ⟨rs ++ [out], .idle⟩⟩)

/-- A whole schedule: the visible events and the final state. -/
def Machine.run [DecidableEq T] (I : OrdinalImpl τ) (prog : T → List (R (AtomicOut τ)) → Option (AtomicOp τ)) :
    Machine T τ → List T → List (AtomicEv T τ) × Machine T τ
  | s, [] => ([], s)
  | s, t :: ts =>
    let (es, s') := s.step I prog t
    let (es', s'') := Machine.run I prog s' ts
    (es ++ es', s'')

end OrdinalMap
