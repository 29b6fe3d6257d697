import Verif.Spec
/-!
# Specification of an atomic cell

`R` outcomes are used so that panics are part of the specification.
-/

namespace OrdinalMap

/-- `std::sync::atomic::Ordering`. -/
inductive MemOrder where
  | relaxed
  | acquire
  | release
  | acqRel
  | seqCst
  deriving DecidableEq, Repr

/-- An operation on an atomic cell holding a `τ`. -/
inductive AtomicOp (τ : Type) where
  /-- `load(order)` -/
  | load (order : MemOrder)
  /-- `store(value, order)` -/
  | store (value : τ) (order : MemOrder)
  /-- `compare_exchange(old, new, success, failure)` -/
  | cas (old new : τ) (success failure : MemOrder)

/-- What an operation returns. -/
inductive AtomicOut (τ : Type) where
  | unit
  | val (v : τ)
  /-- `Ok(v)` -/
  | ok (v : τ)
  /-- `Err(v)` -/
  | err (v : τ)
  deriving DecidableEq

/-- The orderings that the documentation of `std::sync::atomic` allows. -/
def AtomicOp.valid {τ : Type} : AtomicOp τ → Bool
  | .load o => o ≠ .release ∧ o ≠ .acqRel
  | .store _ o => o ≠ .acquire ∧ o ≠ .acqRel
  | .cas _ _ _ f => f ≠ .release ∧ f ≠ .acqRel

/-- The atomic cell: what an operation returns and leaves behind, when it takes effect on `v`. -/
def AtomicSpec.step {τ : Type} [DecidableEq τ] (v : τ) (op : AtomicOp τ) : R (AtomicOut τ) × τ :=
  if op.valid then
    match op with
    | .load _ => (.ok (.val v), v)
    | .store w _ => (.ok .unit, w)
    | .cas old new _ _ => if v = old then (.ok (.ok v), new) else (.ok (.err v), v)
  else (.error .panic, v)

/-! ## Linearizability -/

/-- An event of a concurrent history: thread `t` calls an operation, the operation takes effect, the
call returns (or panics). -/
inductive AtomicEv (T τ : Type) where
  | inv (t : T) (op : AtomicOp τ)
  | lin (t : T) (op : AtomicOp τ)
  | res (t : T) (op : AtomicOp τ) (out : R (AtomicOut τ))

/-- What a thread is doing. -/
inductive LinState (τ : Type) where
  | idle
  /-- called, has not taken effect -/
  | pending (op : AtomicOp τ)
  /-- has taken effect with this outcome, has not returned -/
  | done (op : AtomicOp τ) (out : R (AtomicOut τ))

/-- A change of one thread's state. -/
def setAt {T α : Type} [DecidableEq T] (f : T → α) (t : T) (a : α) : T → α := fun t' => if t' = t then a else f t'

/-- The sequences of events that are allowed from a cell holding `v` with the threads in states `st`:
each operation takes effect on the cell at one moment between its call and its return, and returns
what the cell said at that moment. -/
inductive Legal {T τ : Type} [DecidableEq T] [DecidableEq τ] : τ → (T → LinState τ) → List (AtomicEv T τ) → Prop
  | nil (v : τ) (st : T → LinState τ) : Legal v st []
  | inv {v : τ} {st : T → LinState τ} {es : List (AtomicEv T τ)} (t : T) (op : AtomicOp τ)
      (h : st t = .idle) (hes : Legal v (setAt st t (.pending op)) es) : Legal v st (.inv t op :: es)
  | lin {v : τ} {st : T → LinState τ} {es : List (AtomicEv T τ)} (t : T) (op : AtomicOp τ)
      (h : st t = .pending op)
      (hes : Legal (AtomicSpec.step v op).2 (setAt st t (.done op (AtomicSpec.step v op).1)) es) :
      Legal v st (.lin t op :: es)
  | res {v : τ} {st : T → LinState τ} {es : List (AtomicEv T τ)} (t : T) (op : AtomicOp τ)
      (out : R (AtomicOut τ)) (h : st t = .done op out) (hes : Legal v (setAt st t .idle) es) :
      Legal v st (.res t op out :: es)

/-- The events a client sees. -/
def AtomicEv.visible {T τ : Type} : AtomicEv T τ → Bool
  | .lin _ _ => false
  | _ => true

/-- A history of calls and returns is linearizable if one can choose for each call a moment at which
it takes effect. -/
def Linearizable {T τ : Type} [DecidableEq T] [DecidableEq τ] (v : τ) (h : List (AtomicEv T τ)) : Prop :=
  ∃ es, Legal v (fun _ => .idle) es ∧ es.filter AtomicEv.visible = h

/-! ## Weak memory -/

/-- The accesses to one atomic cell with values in `ν` in one execution: `ι` names them, `rf` says from
which write each of them reads (`none` is the initial value).  A memory model restricts which `rf`
(together with other relations that do not mention values) are possible; here any is allowed, so
whatever is said of all graphs holds for every memory ordering. -/
structure CellGraph (ν ι : Type) where
  init : ν
  op : ι → AtomicOp ν
  rf : ι → Option ι
  /-- the value read (meaningless for a store) -/
  read : ι → ν

namespace CellGraph
variable {ν ι : Type} [DecidableEq ν]

/-- The value written by an access, if it writes: a store, or a `compare_exchange` whose comparison
succeeds. -/
def written (g : CellGraph ν ι) (i : ι) : Option ν :=
  match g.op i with
  | .load _ => none
  | .store x _ => some x
  | .cas old new _ _ => if g.read i = old then some new else none

/-- Access `i` reads the value of a write. -/
def Reads (g : CellGraph ν ι) (i : ι) : Prop :=
  match g.rf i with
  | none => g.read i = g.init
  | some j => g.written j = some (g.read i)

/-- Each access that reads gets its value from the write it reads from. -/
def Consistent (g : CellGraph ν ι) : Prop :=
  ∀ i, match g.op i with
    | .store _ _ => True
    | _ => g.Reads i

/-- What access `i` returns. -/
def out (g : CellGraph ν ι) (i : ι) : AtomicOut ν :=
  match g.op i with
  | .load _ => .val (g.read i)
  | .store _ _ => .unit
  | .cas old _ _ _ => if g.read i = old then .ok (g.read i) else .err (g.read i)

end CellGraph

end OrdinalMap
