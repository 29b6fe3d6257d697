import Verif.SpecCaught
import Verif.Model.CaughtRetain
/-!
# Specification of `retain` when user code panics
-/

namespace OrdinalMap

variable {σ α K V ω ο μ : Type}

/-- User code that returns or panics. -/
def OnlyPanics (x : M σ α) : Prop := ∀ st e, (x st).1 = .error e → e = .panic

/-- `retain` on the keys `ks`, the first of them having ordinal `i`, with the user code in state `st` and contents `m`
of the map: how it may end, the state then, and the contents then. -/
inductive Retains [DecidableEq K] (J : SImpl σ K) (f : K → Upd σ V Bool) (dtor : V → M σ Unit) :
    List K → Nat → σ → (K → Option V) → Ended Unit → σ → (K → Option V) → Prop
  /-- all keys are decided -/
  | done {i : Nat} {st : σ} {m : K → Option V} : Retains J f dtor [] i st m (.returned ()) st m
  /-- `from_ordinal` panics: this key and the later ones are as they were -/
  | keyPanics {k : K} {ks : List K} {i : Nat} {st st' : σ} {m : K → Option V} :
      J.fromOrdinal i st = (.error .panic, st') → Retains J f dtor (k :: ks) i st m .panicked st' m
  /-- no value: the closure is not called -/
  | absent {k : K} {ks : List K} {i : Nat} {st st' st'' : σ} {m m' : K → Option V} {e : Ended Unit} :
      J.fromOrdinal i st = (.ok (some k), st') → m k = none → Retains J f dtor ks (i + 1) st' m e st'' m' →
      Retains J f dtor (k :: ks) i st m e st'' m'
  /-- the closure panics: the key keeps the value that the closure left -/
  | closurePanics {k : K} {ks : List K} {i : Nat} {st st' st'' : σ} {m : K → Option V} {v w : V} :
      J.fromOrdinal i st = (.ok (some k), st') → m k = some v → f k (st', v) = (.error .panic, (st'', w)) →
      Retains J f dtor (k :: ks) i st m .panicked st'' (upd m k (some w))
  /-- the closure returns `true`: the key keeps the value that the closure left -/
  | kept {k : K} {ks : List K} {i : Nat} {st st' st'' st₂ : σ} {m m' : K → Option V} {v w : V} {e : Ended Unit} :
      J.fromOrdinal i st = (.ok (some k), st') → m k = some v → f k (st', v) = (.ok true, (st'', w)) →
      Retains J f dtor ks (i + 1) st'' (upd m k (some w)) e st₂ m' → Retains J f dtor (k :: ks) i st m e st₂ m'
  /-- the closure returns `false`, and the destructor of the value that it left panics: the key is gone -/
  | dropPanics {k : K} {ks : List K} {i : Nat} {st st' st'' st₂ : σ} {m : K → Option V} {v w : V} :
      J.fromOrdinal i st = (.ok (some k), st') → m k = some v → f k (st', v) = (.ok false, (st'', w)) →
      dtor w st'' = (.error .panic, st₂) → Retains J f dtor (k :: ks) i st m .panicked st₂ (upd m k none)
  /-- the closure returns `false`: the value that it left is dropped, the key is gone -/
  | dropped {k : K} {ks : List K} {i : Nat} {st st' st'' st₂ st₃ : σ} {m m' : K → Option V} {v w : V} {e : Ended Unit} :
      J.fromOrdinal i st = (.ok (some k), st') → m k = some v → f k (st', v) = (.ok false, (st'', w)) →
      dtor w st'' = (.ok (), st₂) → Retains J f dtor ks (i + 1) st₂ (upd m k none) e st₃ m' →
      Retains J f dtor (k :: ks) i st m e st₃ m'

/-- `m'` is what a history may leave of `m`, with these results, where `R m op e m'` says how `op` may end on `m` and
what is left then.  `none`: an operation that `fatal` allows has aborted the process. -/
inductive EndsLike (R : μ → ω → Ended ο → μ → Prop) (fatal : ω → Prop) :
    μ → List ω → List (Ended ο) → Option μ → Prop
  | nil (m : μ) : EndsLike R fatal m [] [] (some m)
  | cons {m m' : μ} {op : ω} {ops : List ω} {e : Ended ο} {es : List (Ended ο)} {r : Option μ} : R m op e m' →
      EndsLike R fatal m' ops es r → EndsLike R fatal m (op :: ops) (e :: es) r
  | aborted {m : μ} {op : ω} {ops : List ω} : fatal op → EndsLike R fatal m (op :: ops) [.aborted] none

namespace ArrSpec
open Caught

/-- How an operation on an `OrdinalArrayMap` may end. -/
def ends [DecidableEq K] (J : SImpl σ K) (I : OrdinalImpl K) (n : Nat) (m : K → Option V) (op : ArrOp σ K V)
    (e : Ended (MapOut K V)) (m' : K → Option V) : Prop :=
  match op, e with
  | .op op, .returned o => (o, m') = MapSpec.step I n m op
  | .op op, .panicked => MapSpec.after I n m op m'
  | .retain f dtor, .returned o => o = .unit ∧ ∃ st st', Retains J f dtor (values I n) 0 st m (.returned ()) st' m'
  | .retain f dtor, .panicked => ∃ st st', Retains J f dtor (values I n) 0 st m .panicked st' m'
  | _, .aborted => False

/-- Only `drain` can abort. -/
def fatal : ArrOp σ K V → Prop
  | .op op => MapSpec.fatal op
  | .retain _ _ => False

/-- The closures and destructors return or panic. -/
def safe : ArrOp σ K V → Prop
  | .op _ => True
  | .retain f dtor => (∀ k, OnlyPanics (f k)) ∧ ∀ v, OnlyPanics (dtor v)

end ArrSpec

end OrdinalMap
