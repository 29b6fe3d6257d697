import Verif.Model.Caught
import Verif.SpecEffect
/-!
# Who owns the values

A value that the caller hands to a map is afterwards in the map, has been handed back, or has been destroyed.
-/

namespace OrdinalMap.Ledger

variable {K V : Type}

/-- The values that a client writes through the references of a mutable iterator. -/
def written : List (MutStep V) → List V
  | [] => []
  | .write _ v :: steps => v :: written steps
  | _ :: steps => written steps

/-- The values that the caller of an operation gives away. -/
def given : MapOp K V → List V
  | .getMut _ w => [w]
  | .insert _ v => [v]
  | .orInsert _ v w => [v, w]
  | .entry _ v w => [v, w]
  | .iterMut steps => written steps
  | .valuesMut steps => written steps
  | _ => []

/-- The values that the caller gets (not those it only sees through a reference). -/
def back : MapOp K V → Ended (MapOut K V) → List V
  | .insert _ _, .returned (.opt o) => o.toList
  | .remove _, .returned (.opt o) => o.toList
  | .drain _ _, .returned (.items l) => (l.filterMap id).map (·.2)
  | _, _ => []

/-- Operations that destroy values: assignments of the caller (or a `w` that is not needed), `clear`, and the end of a
`Drain`. -/
def destroys : MapOp K V → Bool
  | .getMut _ _ | .orInsert _ _ _ | .entry _ _ _ | .iterMut _ | .valuesMut _ | .clear => true
  | .drain _ leak => !leak
  | _ => false

/-- Operations that may have destroyed values of the map, or replaced them, when user code panics. -/
def partway : MapOp K V → Bool
  | .iterMut _ | .valuesMut _ | .clear | .drain _ _ => true
  | _ => false

/-- The same for total maps. -/
def givenT : TotalOp K V → List V
  | .getMut _ w => [w]
  | .indexMut _ w => [w]
  | .insert _ v => [v]
  | .iterMut steps => written steps
  | .valuesMut steps => written steps
  | _ => []

/-- The same for total maps. -/
def backT : TotalOp K V → Ended (MapOut K V) → List V
  | .insert _ _, .returned (.opt o) => o.toList
  | _, _ => []

/-- The same for total maps. -/
def destroysT : TotalOp K V → Bool
  | .getMut _ _ | .indexMut _ _ | .iterMut _ | .valuesMut _ => true
  | _ => false

/-- The same for total maps. -/
def partwayT : TotalOp K V → Bool
  | .iterMut _ | .valuesMut _ => true
  | _ => false

/-- The books of one operation: the values in the map before, the values given, the values got back and the values in the
map afterwards; `destroyed` is the rest. -/
structure Balanced {ο : Type} (before given back after : List V) (destroys partway : Bool) (e : Ended ο)
    (destroyed : List V) : Prop where
  /-- every value exactly once -/
  all : (after ++ back ++ destroyed).Perm (before ++ given)
  /-- returns: destroys nothing unless it is its job -/
  returned : (∃ o, e = .returned o) → destroys = false → destroyed = []
  /-- panics: the values in the map are those before -/
  panicked : e = .panicked → partway = false → after.Perm before

/-- The values in a sparse map. -/
def held (m : List (Option V)) : List V := m.filterMap id

/-- What the operations of a history, which ended as in the second list, have handed back. -/
def backs {ω ο : Type} (back : ω → Ended ο → List V) : List ω → List (Ended ο) → List V
  | op :: ops, e :: es => back op e ++ backs back ops es
  | _, _ => []

/-- The books of histories: with panics of user code, each caught, at any calls. -/
structure Books {σ s ω ο : Type} (step : ω → Upd σ s (Ended ο)) (vals : s → List V) (given : ω → List V)
    (back : ω → Ended ο → List V) (destroys partway : ω → Bool) (m : s) : Prop where
  /-- no undefined behaviour, no endless loop -/
  sound : ∀ ops st, Sound (Caught.run step ops (st, m)).1
  /-- one operation more -/
  next : ∀ ops st es st' m', Caught.run step ops (st, m) = (.ok es, (st', m')) → ∀ op e st'' m'',
    step op (st', m') = (.ok e, (st'', m'')) →
    ∃ destroyed, Balanced (vals m') (given op) (back op e) (vals m'') (destroys op) (partway op) e destroyed
  /-- the whole history -/
  all : ∀ ops st es st' m', Caught.run step ops (st, m) = (.ok es, (st', m')) → es.length ≤ ops.length ∧
    ∃ destroyed, (vals m' ++ backs back ops es ++ destroyed).Perm (vals m ++ (ops.take es.length).flatMap given) ∧
      ((∀ e ∈ es, ∃ o, e = .returned o) → (∀ op ∈ ops, destroys op = false) → destroyed = [])

end OrdinalMap.Ledger
