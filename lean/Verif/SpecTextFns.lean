import Verif.SpecTextTotal
/-!
# Functions that take closures, run from the text: the client

As in `SpecTextTotal.lean`: the state of a closure, of type `P 2`, is in variable 0.  Values of type `P 4` are what `map` makes.
-/

namespace OrdinalMap.Text

variable {P : Nat → Type}

/-- `FnMut(K, V) -> W` -/
def mapFn (f : P 0 → P 1 → P 2 → R (P 4 × P 2)) : UserFns P
  | 0, [.usr 0 k, .usr 1 v], .usr 2 r :: h => do
    let (w, r) ← f k v r
    .ok (.usr 4 w, .usr 2 r :: h)
  | _, _, _ => stuck

/-- `FnMut(V) -> W` -/
def mapValuesFn (f : P 1 → P 2 → R (P 4 × P 2)) : UserFns P
  | 0, [.usr 1 v], .usr 2 r :: h => do
    let (w, r) ← f v r
    .ok (.usr 4 w, .usr 2 r :: h)
  | _, _, _ => stuck

/-- `FnMut(K, &mut V) -> bool`: it reads the value through the reference, and writes what it makes of it. -/
def retainFn (f : P 0 → P 1 → P 2 → R (Bool × P 1 × P 2)) : UserFns P
  | 0, [.usr 0 k, ref], .usr 2 r :: h => do
    let (b, v, r) ← f k (← asValue (← deref (.usr 2 r :: h) ref)) r
    .ok (.bool b, ← assign (.usr 2 r :: h) (.usr 1 v) ref)
  | _, _, _ => stuck

/-- The total map `z` of type `t` holds the value `m k` at every key `k`; `ks` are the keys in ordinal order. -/
def HoldsAt (call : Machine P) (t : RT) (ks : List (P 0)) (z : Val P) (m : P 0 → Val P) : Prop :=
  (∀ k, call t "get" [.ref z, .ref (.usr 0 k)] [] = .ok (.ref (m k), [])) ∧
  call t "into_values" [z] [] = .ok (.arr (ks.map m), [])

/-- `*place(k) = w` for each of the pairs, in order. -/
def writeAll (place : P 0 → Val P) : List (P 0 × Val P) → Heap P → R (Heap P)
  | [], h => .ok h
  | (k, w) :: ws, h => do writeAll place ws (← assign h w (place k))

/-- The function `m` after these updates. -/
def updateAll {K V : Type} [DecidableEq K] : List (K × V) → (K → V) → K → V
  | [], m => m
  | (k, w) :: ws, m => updateAll ws fun k' => if k' = k then w else m k'

/-- An operation on a sparse map, or `retain` with the closure `f` in state `r`. -/
inductive RetainOp (K V ρ : Type) where
  | op (o : MapOp K V)
  | retain (f : K → V → ρ → R (Bool × V × ρ)) (r : ρ)

/-- What the client is told: the answer, or the state of the closure after `retain`. -/
inductive RetainOut (K V ρ : Type) where
  | out (o : MapOut K V)
  | state (r : ρ)

/-- One operation, by the text. -/
def textRetainStep (call : UserFns P → Machine P) (t : RT) (v : Val P) :
    RetainOp (P 0) (P 1) (P 2) → R (RetainOut (P 0) (P 1) (P 2) × Val P)
  | .op o => do
    let (o, v) ← textMapStep (call noFns) t v o
    .ok (.out o, v)
  | .retain f r => do
    match ← call (retainFn f) t "retain" [.mref 1 [], .ufn 0] [.usr 2 r, v] with
    | (.con "()" [], [.usr 2 r, v]) => .ok (.state r, v)
    | _ => stuck

/-- One operation, on a partial function.  The closure may panic. -/
def retainOpSpec {K V ρ : Type} [DecidableEq K] (I : OrdinalImpl K) (n : Nat) (m : K → Option V) :
    RetainOp K V ρ → R (RetainOut K V ρ × (K → Option V))
  | .op o => .ok (.out (MapSpec.step I n m o).1, (MapSpec.step I n m o).2)
  | .retain f r => do
    let (m, r) ← retainSpec f (values I n) m r
    .ok (.state r, m)

end OrdinalMap.Text
