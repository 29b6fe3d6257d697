import Verif.Model.Derive
/-!
# Specification for `#[derive(Ordinal)]`: sizes, orders, reserved field names
-/

namespace OrdinalMap.Props
open OrdinalMap OrdinalMap.Derive

/-- The number of values of a struct with fields of types `tys`: the product. -/
def structCount {ι : Type} (sz : ι → Nat) : List ι → Nat
  | [] => 1
  | t :: ts => sz t * structCount sz ts

/-- The number of values of an enum: the sum over its variants. -/
def enumCount {ι : Type} (sz : ι → Nat) : List (Fields ι) → Nat
  | [] => 0
  | v :: vs => structCount sz (fieldTypes v) + enumCount sz vs

/-- Lexicographic order on field lists in declaration order: what `#[derive(PartialOrd)]` compares. -/
inductive FieldsLt {ι : Type} {Ty : Types ι} (lt : ∀ t, Ty.T t → Ty.T t → Prop) :
    List Ty.Val → List Ty.Val → Prop
  | head {t : ι} {a b : Ty.T t} (h : lt t a b) (vs ws : List Ty.Val) :
      FieldsLt lt (⟨t, a⟩ :: vs) (⟨t, b⟩ :: ws)
  | tail (v : Ty.Val) {vs ws : List Ty.Val} (h : FieldsLt lt vs ws) : FieldsLt lt (v :: vs) (v :: ws)

/-- Derived order on enums: variant position first, then fields. -/
def EnumLt {ι : Type} {Ty : Types ι} (lt : ∀ t, Ty.T t → Ty.T t → Prop)
    (x y : Nat × List Ty.Val) : Prop :=
  x.1 < y.1 ∨ x.1 = y.1 ∧ FieldsLt lt x.2 y.2

/-- Some named field is called `name`. -/
def HasField {ι : Type} (name : String) : Fields ι → Prop
  | .named ns => ∃ f ∈ ns, f.1 = name
  | _ => False

/-- The field names the macro cannot cope with: `rem` is its own variable, the others are
constructors of the prelude, which a pattern cannot rebind. -/
def reservedNames : List String := ["rem", "None", "Some", "Ok", "Err"]

/-- Some named field has a reserved name. -/
def HasReserved {ι : Type} (fs : Fields ι) : Prop :=
  ∃ s ∈ reservedNames, HasField s fs

end OrdinalMap.Props
