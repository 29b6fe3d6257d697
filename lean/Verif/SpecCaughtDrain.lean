import Verif.SpecCaughtIter
/-!
# Specification of `drain()` whose panics are caught call by call
-/

namespace OrdinalMap.Draining

variable {K V : Type}

/-- A `Drain` at work: what the map holds, and for each key still to come the key whose value will come with it. -/
abbrev State (K V : Type) := (K → Option V) × List (K × K)

/-- The items still to come; `none` where the map has no value. -/
def items (s : State K V) : List (K × Option V) := s.2.map fun q => (q.1, s.1 q.2)

/-- A call: keys without a value are passed over, the first value is taken out of the map. -/
def step [DecidableEq K] (s : State K V) (d : Dir) : Option (K × V) × State K V :=
  match Deque.step (Sparse.skip s.2 (Sparse.absent (items s) d) d) d with
  | (none, qs) => (none, s.1, qs)
  | (some (k, owner), qs) => ((s.1 owner).map fun v => (k, v), upd s.1 owner none, qs)

/-- A caught panic takes nothing out of the map.  A pair is lost, or, if the call was `next`, a value but no key. -/
def after (s : State K V) (d : Dir) (s' : State K V) : Prop :=
  s'.1 = s.1 ∧ ∃ j, j ≤ Sparse.absent (items s) d ∧ Pairing.after (Sparse.skip s.2 j d) d s'.2

/-- The map without these keys. -/
def without [DecidableEq K] (m : K → Option V) (ks : List K) : K → Option V := fun k => if k ∈ ks then none else m k

/-- The map after the end of the `Drain`: leaked, dropped, or dropped with a caught panic, which leaves the keys from
some key on. -/
def final [DecidableEq K] (s : State K V) : (leak : Bool) → Ended Unit → (K → Option V) → Prop
  | true, .returned (), m => m = s.1
  | false, .returned (), m => m = without s.1 (s.2.map (·.2))
  | false, .panicked, m => ∃ j, m = without s.1 ((s.2.map (·.2)).take j)
  | _, _, _ => False

/-- The values in the map. -/
def held (I : OrdinalImpl K) (n : Nat) (m : K → Option V) : List V := (values I n).filterMap m

end OrdinalMap.Draining
