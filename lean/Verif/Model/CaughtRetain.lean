import Verif.Model.Caught
/-!
# `retain` when the key type, the closure or the destructor of the values panics, and the panic is caught
-/

namespace OrdinalMap.Caught
open Upd

variable {σ K V : Type}

/-- `f(key, value)` with `value: &mut V` into slot `slot`, which holds `v`: what the closure writes stays also when it
panics. -/
def withValue (slot : Nat) (v : V) (f : Upd σ V Bool) : Upd σ (MapIterMut V) Bool :=
  zoom (fun _ => v) (fun (it : TotalIterMut (Option V)) v => ⟨it.mem.set slot (some v), it.it⟩) f

/-- The loop of `retain` (array_map.rs:149-155).  The assignment `*value_opt = None` drops the old value, and stores
`None` also when the destructor unwinds; the destructor cannot see the map. -/
def retainLoop (c : Cfg) (J : SImpl σ K) (f : K → Upd σ V Bool) (dtor : V → M σ Unit) :
    Nat → Upd σ (MapIterMut V) Unit
  | 0 => .of (.error .diverge)
  | fuel + 1 => do
    match ← mutNext c J with
    | none => .of (.ok ())
    | some (key, slot) => do
      let it ← read
      match it.mem[slot]? with
      | none => .of (.error .ub)
      | some none => retainLoop c J f dtor fuel
      | some (some value) => do
        let keep ← withValue slot value (f key)
        if keep then retainLoop c J f dtor fuel
        else do
          let ⟨mem, e⟩ ← read
          match mem[slot]? with
          | some (some value) => do
            write ⟨mem.set slot none, e⟩
            user (dtor value)
            retainLoop c J f dtor fuel
          | _ => .of (.error .ub)

/-- `OrdinalArrayMap::retain` (array_map.rs:145-156). -/
def retain (c : Cfg) (J : SImpl σ K) (f : K → Upd σ V Bool) (dtor : V → M σ Unit) : Upd σ (OrdinalArrayMap V) Unit :=
  zoom TotalIterMut.new (fun _ it => it.mem) (do
    let it ← read
    retainLoop c J f dtor (TotalIterMut.len it + 1))

/-- An operation on an `OrdinalArrayMap`: one of those of `MapOp`, or `retain` with a closure, on values with a
destructor. -/
inductive ArrOp (σ K V : Type) where
  | op (op : MapOp K V)
  | retain (f : K → Upd σ V Bool) (dtor : V → M σ Unit)

/-- Such an operation, its panic being caught. -/
def arrStep (c : Cfg) (J : SImpl σ K) : ArrOp σ K V → Upd σ (OrdinalArrayMap V) (Ended (MapOut K V))
  | .op op => amapStep c J op
  | .retain f dtor => catchUnwind (do
    retain c J f dtor
    .of (.ok .unit))

end OrdinalMap.Caught
