import Verif.SpecMap
/-!
# Cloning values with code of the user

`V::clone` may have state and may panic.
-/

namespace OrdinalMap

variable {V β ρ : Type}

/-- Clone the values in order, up to the first panic: whether there was none, the clones made, the state. -/
def cloneRun (cl : V → ρ → Option V × ρ) : List V → ρ → Bool × List V × ρ
  | [], r => (true, [], r)
  | v :: vs, r =>
    match cl v r with
    | (none, r) => (false, [], r)
    | (some w, r) =>
      let t := cloneRun cl vs r
      (t.1, w :: t.2.1, t.2.2)

/-- How a `clone` of a collection ends: with the copy, or (`none`) with a panic; the values dropped on the way; the state
of the user's code. -/
structure Cloned (V β ρ : Type) where
  returned : Option β
  dropped : List V
  state : ρ

/-- Cloning a collection with these values: `V::clone` is called once on each, in order, up to the first panic.  Without
panic the copy is `good` for the clones, and nothing is dropped; with one, the clones made are dropped, each once. -/
def ClonesLike (cl : V → ρ → Option V × ρ) (vals : List V) (clone : ρ → Cloned V β ρ) (good : List V → β → Prop) : Prop :=
  ∀ r, (clone r).state = (cloneRun cl vals r).2.2 ∧
    ((cloneRun cl vals r).1 = true →
      (clone r).dropped = [] ∧ ∃ b, (clone r).returned = some b ∧ good (cloneRun cl vals r).2.1 b) ∧
    ((cloneRun cl vals r).1 = false →
      (clone r).returned = none ∧ (clone r).dropped = (cloneRun cl vals r).2.1)

/-- For examples: numbers the clones, and panics at the third. -/
def numberedClone (v : Nat) (i : Nat) : Option Nat × Nat := if i = 2 then (none, i) else (some (10 * v + i), i + 1)

example : cloneRun numberedClone [7, 8] 0 = (true, [70, 81], 2) := by decide
example : cloneRun numberedClone [7, 8, 9, 9] 0 = (false, [70, 81], 2) := by decide

end OrdinalMap
