import Verif.SpecEffect
import Verif.Model.EffectDerive
/-!
# Calls made by derived impls

The field types of a struct or enum record their calls in one list, so that the order of calls to different
field types is visible too.
-/

namespace OrdinalMap.Derive
open OrdinalMap

variable {ι σ : Type}

/-- A call to one of the field types. -/
abbrev FCall (Ty : Types ι) := (t : ι) × Call (Ty.T t)

/-- The same field impls, recording their calls in one list. -/
def loggedAll {Ty : Types ι} (J : SImpls σ Ty) : SImpls (σ × List (FCall Ty)) Ty := fun t =>
  { size := (J t).size
    ordinal := fun k st => (((J t).ordinal k st.1).1, ((J t).ordinal k st.1).2, st.2 ++ [⟨t, .ordinal k⟩])
    fromOrdinal := fun i st => (((J t).fromOrdinal i st.1).1, ((J t).fromOrdinal i st.1).2, st.2 ++ [⟨t, .from i⟩]) }

/-- `ordinal` of each value, in the order of the list. -/
def ordinalCalls {Ty : Types ι} (l : List Ty.Val) : List (FCall Ty) := l.map fun v => ⟨v.1, .ordinal v.2⟩

/-- `from_ordinal` of each type with the digits of `i`, least significant digit first; a type with `n` values is a
digit in base `n`. -/
def digitCalls (Ty : Types ι) (sz : ι → Nat) : List ι → Nat → List (FCall Ty)
  | [], _ => []
  | t :: ts, i => ⟨t, .from (i % sz t)⟩ :: digitCalls Ty sz ts (i / sz t)

/-- How many values a list of fields has. -/
def fieldsSize (sz : ι → Nat) (ts : List ι) : Nat := (ts.map sz).foldr (· * ·) 1

/-- The variant number `i` falls into, if the variants are laid out one after another, and the position in it. -/
def variantAt (sz : ι → Nat) : List (Fields ι) → Nat → Option (Fields ι × Nat)
  | [], _ => none
  | v :: vs, i =>
    if i < fieldsSize sz (fieldTypes v) then some (v, i) else variantAt sz vs (i - fieldsSize sz (fieldTypes v))

/-- The calls of a run that starts with an empty record. -/
def fieldCalls {α : Type} {Ty : Types ι} (x : M (σ × List (FCall Ty)) α) (st : σ) : List (FCall Ty) := (x (st, [])).2.2

end OrdinalMap.Derive
