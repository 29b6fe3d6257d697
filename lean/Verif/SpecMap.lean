import Verif.Spec
/-!
# Specifications of maps

A sparse map is a partial function `K → Option V`, a total map a function `K → V`.
-/

namespace OrdinalMap

/-! ## Histories -/

/-- Run a history of operations; the outputs and the final state, or the first fault. -/
def runOps {σ ω ο : Type} (step : σ → ω → R (ο × σ)) : σ → List ω → R (List ο × σ)
  | s, [] => .ok ([], s)
  | s, op :: ops => do
    let (o, s') ← step s op
    let (os, s'') ← runOps step s' ops
    .ok (o :: os, s'')

/-- The same for a specification, which never faults. -/
def runSpec {μ ω ο : Type} (spec : μ → ω → ο × μ) : μ → List ω → List ο × μ
  | m, [] => ([], m)
  | m, op :: ops =>
    let (o, m') := spec m op
    let (os, m'') := runSpec spec m' ops
    (o :: os, m'')

/-- The state `s` answers every history as the specification does from `m` (in particular without
faults), and `obs` holds between specification and state after every history. -/
def RunsLike {σ μ ω ο : Type} (step : σ → ω → R (ο × σ)) (spec : μ → ω → ο × μ) (s : σ) (m : μ)
    (obs : μ → σ → Prop := fun _ _ => True) : Prop :=
  ∀ ops : List ω, ∃ s', runOps step s ops = .ok ((runSpec spec m ops).1, s') ∧
    obs (runSpec spec m ops).2 s'

/-! ## Sparse maps -/

variable {K V : Type}

/-- `m` with `k` set to `o`. -/
def upd [DecidableEq K] (m : K → Option V) (k : K) (o : Option V) : K → Option V :=
  fun k' => if k' = k then o else m k'

/-- The present pairs in increasing ordinal order. -/
def pairs (I : OrdinalImpl K) (n : Nat) (m : K → Option V) : List (K × V) :=
  (values I n).filterMap fun k => (m k).map fun v => (k, v)

/-- The present keys in increasing ordinal order. -/
def presentKeys (I : OrdinalImpl K) (n : Nat) (m : K → Option V) : List K :=
  (values I n).filter fun k => (m k).isSome

/-- What a client may do with a mutable iterator: call `next`, call `next_back`, or write a value
through the `j`-th reference it was handed. -/
inductive MutStep (V : Type) where
  | front
  | back
  | write (j : Nat) (v : V)

/-- A mutable iterator that still has the keys `rest` to yield and has handed out references to the
values of the keys `handed`. -/
structure MutSpec (K V : Type) where
  rest : List K
  handed : List K
  map : K → Option V

/-- One step.  `next`/`next_back` yield a key and (a reference to) its current value. -/
def MutSpec.step [DecidableEq K] (s : MutSpec K V) : MutStep V → Option (K × V) × MutSpec K V
  | .front => match s.rest with
    | [] => (none, s)
    | k :: ks => ((s.map k).map fun v => (k, v), ⟨ks, s.handed ++ [k], s.map⟩)
  | .back => match s.rest.getLast? with
    | none => (none, s)
    | some k => ((s.map k).map fun v => (k, v), ⟨s.rest.dropLast, s.handed ++ [k], s.map⟩)
  | .write j v => match s.handed[j]? with
    | none => (none, s)
    | some k => (none, { s with map := upd s.map k (some v) })

/-- An operation on a sparse map. -/
inductive MapOp (K V : Type) where
  /-- `map.get(&k)` -/
  | get (k : K)
  /-- `if let Some(r) = map.get_mut(&k)`: read `*r`, then `*r = w` -/
  | getMut (k : K) (w : V)
  /-- `map.insert(k, v)` -/
  | insert (k : K) (v : V)
  /-- `map.remove(&k)` -/
  | remove (k : K)
  /-- `let r = map.entry(k).or_insert(v)`: read `*r`, then `*r = w` -/
  | orInsert (k : K) (v w : V)
  /-- `match map.entry(k)`: `Vacant(e) => e.insert(v)`; `Occupied(e)`: read `e.get()`,
  then `*e.get_mut() = w` -/
  | entry (k : K) (v w : V)
  /-- `map.len()` -/
  | len
  /-- `map.is_empty()` -/
  | isEmpty
  /-- `map.iter()`, then the calls -/
  | iter (ds : List Dir)
  /-- `map.keys()`, then the calls -/
  | keys (ds : List Dir)
  /-- `map.values()`, then the calls -/
  | values (ds : List Dir)
  /-- `map.iter_mut()`, then the steps -/
  | iterMut (steps : List (MutStep V))
  /-- `map.values_mut()`, then the steps -/
  | valuesMut (steps : List (MutStep V))
  /-- `map.drain()`, then the calls, then drop it, or leak it with `mem::forget` -/
  | drain (ds : List Dir) (leak : Bool)
  /-- `map.clear()` -/
  | clear

/-- What an operation returns. -/
inductive MapOut (K V : Type) where
  | unit
  | opt (o : Option V)
  /-- the key reported by an entry, and the value if it was occupied -/
  | entry (k : K) (o : Option V)
  | nat (n : Nat)
  | bool (b : Bool)
  | items (l : List (Option (K × V)))
  | keys (l : List (Option K))
  | vals (l : List (Option V))

/-- The specification of each operation. -/
def MapSpec.step [DecidableEq K] (I : OrdinalImpl K) (n : Nat) (m : K → Option V) :
    MapOp K V → MapOut K V × (K → Option V)
  | .get k => (.opt (m k), m)
  | .getMut k w => (.opt (m k), if (m k).isSome then upd m k (some w) else m)
  | .insert k v => (.opt (m k), upd m k (some v))
  | .remove k => (.opt (m k), upd m k none)
  | .orInsert k v w => (.opt (some ((m k).getD v)), upd m k (some w))
  | .entry k v w => (.entry k (m k), upd m k (some (if (m k).isSome then w else v)))
  | .len => (.nat (pairs I n m).length, m)
  | .isEmpty => (.bool (pairs I n m).isEmpty, m)
  | .iter ds => (.items (Deque.run (pairs I n m) ds).1, m)
  | .keys ds => (.keys (Deque.run ((pairs I n m).map (·.1)) ds).1, m)
  | .values ds => (.vals (Deque.run ((pairs I n m).map (·.2)) ds).1, m)
  | .iterMut steps =>
    let (os, s) := runSpec MutSpec.step ⟨presentKeys I n m, [], m⟩ steps
    (.items os, s.map)
  | .valuesMut steps =>
    let (os, s) := runSpec MutSpec.step ⟨presentKeys I n m, [], m⟩ steps
    (.vals (os.map (Option.map (·.2))), s.map)
  | .drain ds leak =>
    let (os, rest) := Deque.run (pairs I n m) ds
    (.items os, if leak then fun k => (rest.find? fun p => p.1 = k).map (·.2) else fun _ => none)
  | .clear => (.unit, fun _ => none)

/-- `insert` and `entry`, the operations documented to need storage. -/
def MapOp.allocates : MapOp K V → Bool
  | .insert _ _ => true
  | .orInsert _ _ _ => true
  | .entry _ _ _ => true
  | _ => false

/-- The value of the last pair with key `k`. -/
def lastValue [DecidableEq K] (ps : List (K × V)) (k : K) : Option V :=
  (ps.reverse.find? fun p => p.1 = k).map (·.2)

/-- `retain`: visit the keys in the given order; for each present key call `f` with the value, keep
the changed value if `f` says so and remove the key otherwise.  `f` has state `ρ` and may panic. -/
def retainSpec {ρ : Type} [DecidableEq K] (f : K → V → ρ → R (Bool × V × ρ)) :
    List K → (K → Option V) → ρ → R ((K → Option V) × ρ)
  | [], m, r => .ok (m, r)
  | k :: ks, m, r =>
    match m k with
    | none => retainSpec f ks m r
    | some v => do
      let (keep, v', r') ← f k v r
      retainSpec f ks (upd m k (if keep then some v' else none)) r'

/-! ## Total maps -/

/-- `m` with `k` set to `v`. -/
def updT [DecidableEq K] (m : K → V) (k : K) (v : V) : K → V := fun k' => if k' = k then v else m k'

/-- All pairs in increasing ordinal order. -/
def pairsT (I : OrdinalImpl K) (n : Nat) (m : K → V) : List (K × V) :=
  (values I n).map fun k => (k, m k)

/-- An operation on a total map. -/
inductive TotalOp (K V : Type) where
  /-- `map.get(&k)` -/
  | get (k : K)
  /-- `map[&k]` -/
  | index (k : K)
  /-- read `*map.get_mut(&k)`, then write `w` through it -/
  | getMut (k : K) (w : V)
  /-- read `map[&k]`, then `map[&k] = w` -/
  | indexMut (k : K) (w : V)
  /-- `map.insert(k, v)` -/
  | insert (k : K) (v : V)
  /-- `map.len()` -/
  | len
  /-- `map.is_empty()` -/
  | isEmpty
  /-- `map.iter()` or `(&map).into_iter()`, then the calls -/
  | iter (ds : List Dir)
  /-- `map.keys()`, then the calls -/
  | keys (ds : List Dir)
  /-- `map.values()`, then the calls -/
  | values (ds : List Dir)
  /-- `map.iter_mut()`, then the steps -/
  | iterMut (steps : List (MutStep V))
  /-- `map.values_mut()`, then the steps -/
  | valuesMut (steps : List (MutStep V))

/-- The mutable iterator of a total map: as for sparse maps with every key present. -/
def TotalSpec.mutRun [DecidableEq K] (I : OrdinalImpl K) (n : Nat) (m : K → V) (steps : List (MutStep V)) :
    List (Option (K × V)) × (K → V) :=
  let (os, s) := runSpec MutSpec.step ⟨OrdinalMap.values I n, [], fun k => some (m k)⟩ steps
  (os, fun k => (s.map k).getD (m k))

/-- The specification of each operation. -/
def TotalSpec.step [DecidableEq K] (I : OrdinalImpl K) (n : Nat) (m : K → V) :
    TotalOp K V → MapOut K V × (K → V)
  | .get k => (.opt (some (m k)), m)
  | .index k => (.opt (some (m k)), m)
  | .getMut k w => (.opt (some (m k)), updT m k w)
  | .indexMut k w => (.opt (some (m k)), updT m k w)
  | .insert k v => (.opt (some (m k)), updT m k v)
  | .len => (.nat n, m)
  | .isEmpty => (.bool (n == 0), m)
  | .iter ds => (.items (Deque.run (pairsT I n m) ds).1, m)
  | .keys ds => (.keys (Deque.run (OrdinalMap.values I n) ds).1, m)
  | .values ds => (.vals (Deque.run ((OrdinalMap.values I n).map m) ds).1, m)
  | .iterMut steps =>
    let (os, m') := TotalSpec.mutRun I n m steps
    (.items os, m')
  | .valuesMut steps =>
    let (os, m') := TotalSpec.mutRun I n m steps
    (.vals (os.map (Option.map (·.2))), m')

/-- An operation on an `OrdinalTotalArrayMap<K, V, n>`: those of `TotalOp`, and its array views. -/
inductive ArrayOp (K V : Type) (n : Nat) where
  | total (op : TotalOp K V)
  /-- `map.values_array()[i]` -/
  | readAt (i : Fin n)
  /-- read `map.values_array_mut()[i]`, then write `v` to it -/
  | writeAt (i : Fin n) (v : V)
  /-- `mem::replace(map.values_array_mut(), vs)` -/
  | assign (vs : List V) (h : vs.length = n)
  /-- `map = from_array(map.into_values())` after the array was permuted: the array read at `p` -/
  | permute (p : Fin n → Fin n)
  /-- `let r = map.as_mut()`, then `*r[&k] = v` for each pair in turn -/
  | asMut (ws : List (K × V))
  /-- `map.as_ref()` read at `k` -/
  | asRef (k : K)

/-- The `i`-th of the keys that `from_ordinal` gives. -/
def keyAt (I : OrdinalImpl K) (n : Nat) (i : Fin n) : Option K := (OrdinalMap.values I n)[i.1]?

/-- The function whose value at the `i`-th key is `vs[i]`, and `m` elsewhere. -/
def ofArray [DecidableEq K] (I : OrdinalImpl K) (n : Nat) (vs : List V) (m : K → V) : K → V := fun k =>
  (((OrdinalMap.values I n).zip vs).find? fun p => p.1 = k).elim (m k) (·.2)

/-- The specification of each operation. -/
def ArraySpec.step [DecidableEq K] (I : OrdinalImpl K) (n : Nat) (m : K → V) :
    ArrayOp K V n → MapOut K V × (K → V)
  | .total op => TotalSpec.step I n m op
  | .readAt i => (.opt ((keyAt I n i).map m), m)
  | .writeAt i v => (.opt ((keyAt I n i).map m), (keyAt I n i).elim m fun k => updT m k v)
  | .assign vs _ => (.vals ((OrdinalMap.values I n).map fun k => some (m k)), ofArray I n vs m)
  | .permute p => (.unit, ofArray I n ((List.finRange n).filterMap fun i => (keyAt I n (p i)).map m) m)
  | .asMut ws => (.unit, fun k => (lastValue ws k).getD (m k))
  | .asRef k => (.opt (some (m k)), m)

/-- A fallible stateful initialiser called on each key in order until the first error: the values, or
the error, and the state of the closure. -/
def initAll {ρ E : Type} (init : K → ρ → R (Except E V × ρ)) : List K → ρ → R (Except E (List V) × ρ)
  | [], r => .ok (.ok [], r)
  | k :: ks, r => do
    match ← init k r with
    | (.error e, r) => .ok (.error e, r)
    | (.ok v, r) => do
      match ← initAll init ks r with
      | (.error e, r) => .ok (.error e, r)
      | (.ok vs, r) => .ok (.ok (v :: vs), r)

/-- An infallible stateful initialiser called on each key in order. -/
def initEach {ρ : Type} (init : K → ρ → R (V × ρ)) : List K → ρ → R (List V × ρ)
  | [], r => .ok ([], r)
  | k :: ks, r => do
    let (v, r) ← init k r
    let (vs, r) ← initEach init ks r
    .ok (v :: vs, r)

/-- An infallible stateful function called on each pair in order. -/
def mapAll {ρ W : Type} (f : K → V → ρ → R (W × ρ)) : List (K × V) → ρ → R (List W × ρ)
  | [], r => .ok ([], r)
  | (k, v) :: ps, r => do
    let (w, r) ← f k v r
    let (ws, r) ← mapAll f ps r
    .ok (w :: ws, r)

/-- The key that the operation is given. -/
def MapOp.key? : MapOp K V → Option K
  | .get k | .getMut k _ | .insert k _ | .remove k | .orInsert k _ _ | .entry k _ _ => some k
  | _ => none

/-- The key that the operation is given. -/
def TotalOp.key? : TotalOp K V → Option K
  | .get k | .index k | .getMut k _ | .indexMut k _ | .insert k _ => some k
  | _ => none

end OrdinalMap
