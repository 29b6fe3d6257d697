import Verif.Spec
/-!
# Soundness

`trait Ordinal` is a safe trait: an implementation may be wrong in any way.  Safe code may panic (or
fail to compile) with such an implementation, but it must not have undefined behaviour, and the loops
of the crate should end.
-/

namespace OrdinalMap

/-- The outcome is a value, a panic or a compile error: not undefined behaviour, not an endless loop. -/
def Sound {α : Type} (r : R α) : Prop := r ≠ .error .ub ∧ r ≠ .error .diverge

/-- An `Ordinal` implementation written in safe Rust whose functions return or panic.  Nothing relates
its functions to each other. -/
structure SoundImpl {α : Type} (I : OrdinalImpl α) : Prop where
  size : Sound I.size
  ordinal : ∀ a, Sound (I.ordinal a)
  fromOrdinal : ∀ i, Sound (I.fromOrdinal i)

/-- A wrong implementation: claims five values, puts everything at ordinal 7, and answers
`from_ordinal` with `true` below 3, with `None` at 3, and panics above. -/
def bogusImpl : OrdinalImpl Bool where
  size := .ok 5
  ordinal _ := .ok 7
  fromOrdinal i := if i < 3 then .ok (some true) else if i = 3 then .ok none else .error .panic

end OrdinalMap
