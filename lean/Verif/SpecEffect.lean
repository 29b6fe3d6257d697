import Verif.Model.Effect
import Verif.SpecSound
/-!
# Calls of user code

An implementation of `Ordinal` with state can record how it is called.  The crate calls it through
`ordinal` and `from_ordinal` only, so the record shows everything the crate does with user code.
-/

namespace OrdinalMap

variable {σ α K : Type}

/-- A call of user code. -/
inductive Call (K : Type) where
  /-- `k.ordinal()` -/
  | ordinal (k : K)
  /-- `K::from_ordinal(i)` -/
  | from (i : Nat)
  deriving DecidableEq

/-- The same implementation, recording its calls. -/
def SImpl.logged (J : SImpl σ K) : SImpl (σ × List (Call K)) K where
  size := J.size
  ordinal k := fun st => ((J.ordinal k st.1).1, (J.ordinal k st.1).2, st.2 ++ [.ordinal k])
  fromOrdinal i := fun st => ((J.fromOrdinal i st.1).1, (J.fromOrdinal i st.1).2, st.2 ++ [.from i])

/-- Code that does not call the implementation leaves the record alone. -/
def M.quiet (x : M σ α) : M (σ × List (Call K)) α := fun st => ((x st.1).1, (x st.1).2, st.2)

/-- User code written in safe Rust with state: each call returns or panics, in whatever state it finds the
world.  `ORDINAL_SIZE` is a `usize`.  Nothing else is assumed. -/
structure SoundSImpl (c : Cfg) (J : SImpl σ K) : Prop where
  size : Sound J.size
  size_lt : ∀ n, J.size = .ok n → n < c.M
  ordinal : ∀ k st, Sound (J.ordinal k st).1
  fromOrdinal : ∀ i st, Sound (J.fromOrdinal i st).1

/-- Calls of `from_ordinal` only, on numbers below `n`, none twice. -/
def Walk (n : Nat) (l : List (Call K)) : Prop :=
  ∃ is : List Nat, l = is.map .from ∧ is.Nodup ∧ ∀ i ∈ is, i < n

/-- Calls of `from_ordinal` on `0`, `1`, …, `n - 1` in this order. -/
def upTo (n : Nat) : List (Call K) := (List.range n).map .from

/-- How many slots there are up to the first value, this one included. -/
def slotsToFirst {V : Type} : List (Option V) → Nat
  | [] => 0
  | some _ :: _ => 1
  | none :: m => slotsToFirst m + 1

/-- The argument of a call of `from_ordinal`. -/
def Call.index? : Call K → Option Nat
  | .from i => some i
  | .ordinal _ => none

/-- Calls of `from_ordinal` on numbers below `n`, none twice, and at most two calls of `ordinal` for each. -/
def SetWalk (n : Nat) (l : List (Call K)) : Prop :=
  (l.filterMap Call.index?).Nodup ∧ (∀ i ∈ l.filterMap Call.index?, i < n) ∧
    l.length ≤ 3 * (l.filterMap Call.index?).length

/-- Calls of `from_ordinal` on bits of a word, none twice. -/
def BitWalk (w : BitVec 64) (l : List (Call K)) : Prop :=
  ∃ is : List Nat, l = is.map .from ∧ is.Nodup ∧ ∀ i ∈ is, w.getLsbD i = true

/-- For each value in turn, from `lo` to `hi` calls of `ordinal` on it. -/
def EachOf (lo hi : Nat) : List K → List (Call K) → Prop
  | [], l => l = []
  | x :: xs, l => ∃ j l', lo ≤ j ∧ j ≤ hi ∧ l = List.replicate j (.ordinal x) ++ l' ∧ EachOf lo hi xs l'

end OrdinalMap
