import Verif.Model.ArrayBuilder
import Verif.SpecMap
/-!
# Specification of ownership and of unwinding

User code returns or panics; the values it hands to the crate must be handed back or dropped, once.
-/

namespace OrdinalMap

variable {K V W E ρ : Type}

/-- User code: returns or panics. -/
def Returns {α : Type} (r : R α) : Prop := r = .error .panic ∨ ∃ a, r = .ok a

/-- A type's `Ordinal` impl whose size evaluates and whose `from_ordinal` returns or panics, nothing
else assumed. -/
structure UserImpl (I : OrdinalImpl K) : Prop where
  size : ∃ n, I.size = .ok n
  fromOrdinal : ∀ i, Returns (I.fromOrdinal i)

/-- The values an initialiser returns when it is called on the keys in order until it fails. -/
def initLog (init : K → ρ → R (Except E V × ρ)) : List K → ρ → List V
  | [], _ => []
  | k :: ks, r =>
    match init k r with
    | .ok (.ok v, r') => v :: initLog init ks r'
    | _ => []

/-- The values a `try_new` hands to its caller. -/
def Outcome.handed (o : Outcome V (Except E (List V) × ρ)) : List V :=
  match o.returned with
  | some (.ok l, _) => l
  | _ => []

/-- What a client sees of a function with an outcome: the result, or a panic. -/
def Outcome.result {α : Type} (o : Outcome V α) : R α :=
  match o.returned with
  | some a => .ok a
  | none => .error .panic

/-- `retain` with a closure that may panic: visit the keys in order; call the closure on the value of
each present key; it leaves a value, and either decides to keep it or not, or panics, which ends the
visit.  The result says whether no call panicked. -/
def retainUSpec [DecidableEq K] (f : K → V → ρ → Option Bool × V × ρ) :
    List K → (K → Option V) → ρ → Bool × (K → Option V) × ρ
  | [], m, r => (true, m, r)
  | k :: ks, m, r =>
    match m k with
    | none => retainUSpec f ks m r
    | some v =>
      match f k v r with
      | (none, v', r') => (false, upd m k (some v'), r')
      | (some keep, v', r') => retainUSpec f ks (upd m k (if keep then some v' else none)) r'

/-- `retain` with a closure that may panic and a destructor that may panic: as `retainUSpec`; a value
that is not kept is gone, and its destructor runs; if that panics the visit ends. -/
def retainDSpec [DecidableEq K] (f : K → V → ρ → Option Bool × V × ρ) (dtor : V → ρ → Bool × ρ) :
    List K → (K → Option V) → ρ → Bool × (K → Option V) × ρ
  | [], m, r => (true, m, r)
  | k :: ks, m, r =>
    match m k with
    | none => retainDSpec f dtor ks m r
    | some v =>
      match f k v r with
      | (none, v', r') => (false, upd m k (some v'), r')
      | (some true, v', r') => retainDSpec f dtor ks (upd m k (some v')) r'
      | (some false, v', r') =>
        match dtor v' r' with
        | (true, r'') => (false, upd m k none, r'')
        | (false, r'') => retainDSpec f dtor ks (upd m k none) r''

/-- Destructors run on the items in order until one panics: did none panic, the items whose destructor
ran, the items left, and the state. -/
def dropSpec {α : Type} (dtor : α → ρ → Bool × ρ) : List α → ρ → Bool × List α × List α × ρ
  | [], r => (true, [], [], r)
  | p :: ps, r =>
    match dtor p r with
    | (true, r') => (false, [p], ps, r')
    | (false, r') =>
      match dropSpec dtor ps r' with
      | (b, d, l, r'') => (b, p :: d, l, r'')

/-- The values replaced while the pairs are inserted in order into an empty map: for each pair, the
value the pairs before it left for its key. -/
def replaced [DecidableEq K] (ps : List (K × V)) : List V :=
  (List.range ps.length).filterMap fun i => ps[i]?.bind fun p => lastValue (ps.take i) p.1

end OrdinalMap
