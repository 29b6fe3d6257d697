import Verif.SpecEffect
/-! # Calls made by `Debug` -/

namespace OrdinalMap

variable {K : Type}

/-- Calls of `from_ordinal` on `a`, `a + 1`, …, `a + n - 1` in this order. -/
def fromTo (a n : Nat) : List (Call K) := (List.range' a n).map .from

/-- No call, or one or two calls of `ordinal` on one value. -/
def Asks (l : List (Call K)) : Prop := l = [] ∨ ∃ x, l = [.ordinal x] ∨ l = [.ordinal x, .ordinal x]

/-- Calls of `from_ordinal` on `a`, …, `a + n - 1` in this order, and after each at most two calls of `ordinal`, on the
same value. -/
def SetUpTo (a : Nat) : Nat → List (Call K) → Prop
  | 0, l => l = []
  | n + 1, l => ∃ l₁ l₂, l = l₁ ++ .from (a + n) :: l₂ ∧ SetUpTo a n l₁ ∧ Asks l₂

end OrdinalMap
