import Verif.SpecMap
/-!
# Specification of `Clone`

A *world* is a number of objects of the same type, numbered in order of creation.  A client may use
any of them, or clone any of them, in any order.  In the specification an operation on one object
changes that object and no other, and a clone is a further object holding the (cloned) contents the
original has at that moment.
-/

namespace OrdinalMap

/-- What a client may do in a world. -/
inductive WorldOp (ω : Type) where
  /-- an operation on the `i`-th object -/
  | on (i : Nat) (op : ω)
  /-- `clone()` of the `i`-th object -/
  | clone (i : Nat)

/-- One step of the specification; operations on objects that do not exist do nothing. -/
def WorldSpec.step {μ ω ο : Type} (spec : μ → ω → ο × μ) (cl : μ → μ) (w : List μ) : WorldOp ω → Option ο × List μ
  | .on i op =>
    match w[i]? with
    | some m => (some (spec m op).1, w.set i (spec m op).2)
    | none => (none, w)
  | .clone i =>
    match w[i]? with
    | some m => (none, w ++ [cl m])
    | none => (none, w)

/-- One step of the program; operations on objects that do not exist do nothing. -/
def World.step {σ ω ο : Type} (step : σ → ω → R (ο × σ)) (cl : σ → σ) (w : List σ) : WorldOp ω → R (Option ο × List σ)
  | .on i op =>
    match w[i]? with
    | some s => do
      let (o, s') ← step s op
      .ok (some o, w.set i s')
    | none => .ok (none, w)
  | .clone i =>
    match w[i]? with
    | some s => .ok (none, w ++ [cl s])
    | none => .ok (none, w)

/-- Operations on other objects, and clones, do not change the `i`-th object. -/
theorem WorldSpec.step_other {μ ω ο : Type} (spec : μ → ω → ο × μ) (cl : μ → μ) (w : List μ) (i : Nat) (hi : i < w.length)
    (op : WorldOp ω) (h : ∀ o, op ≠ .on i o) : (WorldSpec.step spec cl w op).2[i]? = w[i]? := by
  cases op with
  | on j o =>
    have hj : j ≠ i := fun e => h o (by rw [e])
    simp only [WorldSpec.step]
    split <;> simp [hj]
  | clone j =>
    simp only [WorldSpec.step]
    split <;> simp [List.getElem?_append, hi]

/-- One set operation. -/
def SetApi.step {σ τ : Type} (api : SetApi σ τ) (s : σ) : SetOp τ → R (Bool × σ)
  | .insert x => api.insert s x
  | .contains x => do .ok (← api.contains s x, s)

/-- One operation on a mathematical set. -/
def SetSpec.step {τ : Type} [DecidableEq τ] (m : τ → Bool) : SetOp τ → Bool × (τ → Bool)
  | .insert x => (!m x, fun y => if y = x then true else m y)
  | .contains x => (m x, m)

example : (runSpec (WorldSpec.step (SetSpec.step (τ := Bool)) id) [fun _ => false]
      [.clone 0, .on 1 (.insert true), .on 0 (.contains true), .on 1 (.contains true)]).1 =
    [none, some true, some false, some true] := by decide

end OrdinalMap
