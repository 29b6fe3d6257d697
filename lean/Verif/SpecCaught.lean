import Verif.SpecMap
import Verif.Model.Caught
/-!
# Specification of histories with caught panics
-/

namespace OrdinalMap

variable {σ K V μ ω ο : Type}

/-- `J` computes what `I` does, but each call may panic instead, whenever it likes. -/
structure Honest (J : SImpl σ K) (I : OrdinalImpl K) : Prop where
  size : J.size = I.size
  ordinal : ∀ k st, (J.ordinal k st).1 = I.ordinal k ∨ (J.ordinal k st).1 = .error .panic
  fromOrdinal : ∀ i st, (J.fromOrdinal i st).1 = I.fromOrdinal i ∨ (J.fromOrdinal i st).1 = .error .panic

/-- `m'` is what a history with caught panics may leave of `m`, with these results.  `spec` is what an operation
does if it returns, `after` what a panic may leave, `fatal` which operations can abort the process; nothing is left
then (`none`). -/
inductive CaughtLike (spec : μ → ω → ο × μ) (after : μ → ω → μ → Prop) (fatal : ω → Prop) :
    μ → List ω → List (Ended ο) → Option μ → Prop
  | nil (m : μ) : CaughtLike spec after fatal m [] [] (some m)
  | returned {m : μ} {op : ω} {ops : List ω} {es : List (Ended ο)} {r : Option μ} :
      CaughtLike spec after fatal (spec m op).2 ops es r →
      CaughtLike spec after fatal m (op :: ops) (.returned (spec m op).1 :: es) r
  | panicked {m m' : μ} {op : ω} {ops : List ω} {es : List (Ended ο)} {r : Option μ} : after m op m' →
      CaughtLike spec after fatal m' ops es r → CaughtLike spec after fatal m (op :: ops) (.panicked :: es) r
  | aborted {m : μ} {op : ω} {ops : List ω} : fatal op → CaughtLike spec after fatal m (op :: ops) [.aborted] none

/-- Every history on `x`, from every state of the user code, gives what `CaughtLike` allows from `m` (in particular
nothing but panics goes wrong), and `obs` holds for what is left. -/
def RunsCaught {s : Type} (step : ω → Upd σ s (Ended ο)) (spec : μ → ω → ο × μ) (after : μ → ω → μ → Prop)
    (fatal : ω → Prop) (x : s) (m : μ) (obs : μ → s → Prop) : Prop :=
  ∀ ops st, ∃ es st' q r, Caught.run step ops (st, x) = (.ok es, (st', q)) ∧ CaughtLike spec after fatal m ops es r ∧
    ∀ m', r = some m' → obs m' q

/-- `x` on the collection `p` returns exactly when `y` does, with the same result, and then leaves the same collection
and state of the user code. -/
def AgreesWith {s : Type} (p : s) (x : Upd σ s (Ended ο)) (y : M σ (ο × s)) : Prop := ∀ st,
  match y st with
  | (.ok (o, q), st') => x (st, p) = (.ok (.returned o), (st', q))
  | (.error _, _) => ∀ o p', x (st, p) ≠ (.ok (.returned o), p')

/-- What a caught panic leaves of a sparse map.
* of `iter_mut()` and `values_mut()`: what the steps before the panic wrote;
* of `clear()`: the keys from some key on;
* of `drain()`: if a call panicked, at most one key; if the drop panicked, what the calls left, from some key on;
* of everything else: the map as it was. -/
def MapSpec.after [DecidableEq K] (I : OrdinalImpl K) (n : Nat) (m : K → Option V) (op : MapOp K V)
    (m' : K → Option V) : Prop :=
  match op with
  | .iterMut steps | .valuesMut steps => ∃ done, done <+: steps ∧
    m' = (runSpec MutSpec.step ⟨presentKeys I n m, [], m⟩ done).2.map
  | .clear => ∃ j, m' = fun k => if k ∈ (values I n).take j then none else m k
  | .drain ds leak => (∃ k₀, m' = fun k => if k = k₀ then m k else none) ∨
    (leak = false ∧ ∃ j, m' = fun k => if k ∈ (values I n).take j then none else
      ((Deque.run (pairs I n m) ds).2.find? fun p => p.1 = k).map (·.2))
  | _ => m' = m

/-- Only a `Drain` runs user code while unwinding. -/
def MapSpec.fatal : MapOp K V → Prop
  | .drain _ _ => True
  | _ => False

/-- What a caught panic leaves of a total map: of `iter_mut()`, what the steps before the panic wrote; of
everything else the map as it was. -/
def TotalSpec.after [DecidableEq K] (I : OrdinalImpl K) (n : Nat) (m : K → V) (op : TotalOp K V) (m' : K → V) :
    Prop :=
  match op with
  | .iterMut steps => ∃ done, done <+: steps ∧ m' = (TotalSpec.mutRun I n m done).2
  | _ => m' = m

end OrdinalMap
