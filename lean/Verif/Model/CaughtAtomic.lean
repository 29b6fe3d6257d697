import Verif.Model.EffectDebug
/-!
# Threads on an `AtomicOrdinal` whose type panics

As `Machine` in Model/Atomic.lean, with `ordinal` and `from_ordinal` that have state and panic, and with a step for
each of their calls.  A panic ends the call; the thread catches it and goes on.

Nothing is assumed of how the threads share the state of the user code: the schedule says for each step in which state
it is then.
-/

namespace OrdinalMap

variable {σ τ T : Type}

/-- What a thread is doing with the cell. -/
inductive UPhase (τ : Type) where
  /-- between calls -/
  | idle
  /-- has called `op` -/
  | called (op : AtomicOp τ)
  /-- is in `compare_exchange` and has the ordinal of `old` -/
  | half (op : AtomicOp τ) (new : τ) (oldOrd : Nat) (success failure : MemOrder)
  /-- is about to access the `AtomicUsize` -/
  | ready (op : AtomicOp τ) (p : Prim)
  /-- has the answer of the `AtomicUsize` -/
  | answered (op : AtomicOp τ) (raw : R RawRes)

/-- A thread: what its finished calls returned, and what it is doing now. -/
structure UThread (τ : Type) where
  results : List (R (AtomicOut τ))
  phase : UPhase τ

/-- The shared cell and the threads. -/
structure UMachine (T τ : Type) where
  cell : Nat
  threads : T → UThread τ

/-- The start: the cell was filled by `AtomicOrdinal::new`. -/
def UMachine.init (cell : Nat) : UMachine T τ := ⟨cell, fun _ => ⟨[], .idle⟩⟩

/-- Thread `t` makes one step, the user code being in state `u`: `load` (atomic.rs:58-60), `store` (atomic.rs:63-65),
`compare_exchange` (atomic.rs:68-84). -/
def UMachine.step [DecidableEq T] (J : SImpl σ τ) (prog : T → List (R (AtomicOut τ)) → Option (AtomicOp τ))
    (s : UMachine T τ) (t : T) (u : σ) : List (AtomicEv T τ) × UMachine T τ :=
  match s.threads t with
  | ⟨rs, .idle⟩ =>
    match prog t rs with
    | none => ([], s)
    | some op => ([.inv t op], ⟨s.cell, setAt s.threads t ⟨rs, .called op⟩⟩)
  | ⟨rs, .called op⟩ =>
    match op with
    | .load order => ([], ⟨s.cell, setAt s.threads t ⟨rs, .ready op (.load order)⟩⟩)
    | .store value order =>
      match (J.ordinal value u).1 with
      | .error e => ([.res t op (.error e)], ⟨s.cell, setAt s.threads t ⟨rs ++ [.error e], .idle⟩⟩)
      | .ok i => ([], ⟨s.cell, setAt s.threads t ⟨rs, .ready op (.store i order)⟩⟩)
    | .cas old new success failure =>
      match (J.ordinal old u).1 with
      | .error e => ([.res t op (.error e)], ⟨s.cell, setAt s.threads t ⟨rs ++ [.error e], .idle⟩⟩)
      | .ok i => ([], ⟨s.cell, setAt s.threads t ⟨rs, .half op new i success failure⟩⟩)
  | ⟨rs, .half op new oldOrd success failure⟩ =>
    match (J.ordinal new u).1 with
    | .error e => ([.res t op (.error e)], ⟨s.cell, setAt s.threads t ⟨rs ++ [.error e], .idle⟩⟩)
    | .ok j => ([], ⟨s.cell, setAt s.threads t ⟨rs, .ready op (.cas oldOrd j success failure)⟩⟩)
  | ⟨rs, .ready op p⟩ =>
    match Prim.exec s.cell p with
    | .error e => ([], ⟨s.cell, setAt s.threads t ⟨rs, .answered op (.error e)⟩⟩)
    | .ok (raw, cell) => ([], ⟨cell, setAt s.threads t ⟨rs, .answered op (.ok raw)⟩⟩)
  | ⟨rs, .answered op raw⟩ =>
    let out : R (AtomicOut τ) :=
      match raw with
      | .error e => .error e
      | .ok raw => (Eff.atomicRet J raw u).1
    ([.res t op out], ⟨s.cell, setAt s.threads t ⟨rs ++ [out], .idle⟩⟩)

/-- A whole schedule: the visible events and the final state. -/
def UMachine.run [DecidableEq T] (J : SImpl σ τ) (prog : T → List (R (AtomicOut τ)) → Option (AtomicOp τ)) :
    UMachine T τ → List (T × σ) → List (AtomicEv T τ) × UMachine T τ
  | s, [] => ([], s)
  | s, (t, u) :: ts =>
    let (es, s') := s.step J prog t u
    let (es', s'') := UMachine.run J prog s' ts
    (es ++ es', s'')

end OrdinalMap
