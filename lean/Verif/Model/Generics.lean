import Verif.SpecDerive
import Verif.Model.Ordinal
/-!
# Generic items

`derive_ordinal` copies the generics of the item to the impl header unchanged
(`split_for_impl`, ordinal.rs:39, 44-47): it adds no `T: Ordinal` bound.  rustc checks the body once,
for all instantiations, with the declared bounds as the only knowledge about the parameters.
-/

namespace OrdinalMap.Derive.Generics
open OrdinalMap OrdinalMap.Derive
open OrdinalMap.Props (FieldsLt EnumLt)

/-- An array length: a number or a `const` parameter. -/
inductive Len where
  | lit (n : Nat)
  | const (q : Nat)

/-- Types that can be written for a field.  `κ` are types without parameters, with or without an
`Ordinal` impl; `γ` are generic types. -/
inductive GTy (κ γ : Type) where
  | closed (k : κ)
  | param (p : Nat)
  | box (a : GTy κ γ)
  | option (a : GTy κ γ)
  | array (N : Len) (a : GTy κ γ)
  | result (a b : GTy κ γ)
  | either (a b : GTy κ γ)
  /-- `(A, B, …)` -/
  | tuple (n : Nat) (a : Fin n → GTy κ γ)
  /-- `G<A, B, …, M, N, …>` -/
  | app (g : γ) (a : Nat → GTy κ γ) (N : Nat → Len)

/-- A type without parameters, the order `Ord` gives it, and its `Ordinal` impl if it has one. -/
structure CT where
  T : Type
  lt : T → T → Prop
  impl : Option (OrdinalImpl T)

/-- What the type parameters and `const` parameters of an item are instantiated with. -/
structure Inst where
  types : Nat → CT
  consts : Nat → Nat

/-- A generic type: the parameters bounded by `Ordinal` in its impl, and its instantiations. -/
structure Generic where
  bounds : List Nat
  apply : Inst → CT

variable {κ γ : Type} (c : Cfg) (env : κ → CT) (gen : γ → Generic)

/-- The length in an instantiation. -/
def Len.subst (θ : Nat → Nat) : Len → Nat
  | .lit n => n
  | .const q => θ q

/-- The component types of a tuple. -/
def tupleTypes {n : Nat} (a : Fin n → CT) : Types (Fin n) where
  T t := (a t).T
  impl t := (a t).impl.getD (rejected _)

/-- The type a written type stands for when the parameters are instantiated.  The orders are those
of the standard library.  The impls for compound types need those of the components (std.rs:5, 24, boxed.rs:3, either.rs:7, array.rs:4;
tuples, up to 16: derive ordinal.rs:515-541). -/
def GTy.subst (ρ : Inst) : GTy κ γ → CT
  | .closed k => env k
  | .param p => ρ.types p
  | .box a => ⟨Boxed (a.subst ρ).T, fun x y => (a.subst ρ).lt x.unbox y.unbox, (a.subst ρ).impl.map boxImpl⟩
  | .option a => ⟨Option (a.subst ρ).T, optionLt (a.subst ρ).lt, (a.subst ρ).impl.map (optionImpl c)⟩
  | .array N a => ⟨Arr (a.subst ρ).T (N.subst ρ.consts), arrayLt (a.subst ρ).lt,
      (a.subst ρ).impl.map (arrayImpl c (N.subst ρ.consts))⟩
  | .result a b => ⟨(a.subst ρ).T ⊕ (b.subst ρ).T, sumLt (a.subst ρ).lt (b.subst ρ).lt,
      (a.subst ρ).impl.bind fun A => (b.subst ρ).impl.map fun B => resultImpl c A B⟩
  | .either a b => ⟨(a.subst ρ).T ⊕ (b.subst ρ).T, sumLt (a.subst ρ).lt (b.subst ρ).lt,
      (a.subst ρ).impl.bind fun A => (b.subst ρ).impl.map fun B => eitherImpl c A B⟩
  | .tuple n a => ⟨FieldVals (tupleTypes fun t => (a t).subst ρ) (List.finRange n),
      fun x y => FieldsLt (fun t => ((a t).subst ρ).lt) x.1 y.1,
      if n ≤ 16 ∧ ∀ t, ((a t).subst ρ).impl.isSome then
        some (tupleImpl c (tupleTypes fun t => (a t).subst ρ) (List.finRange n))
      else none⟩
  | .app g a N => (gen g).apply ⟨fun p => (a p).subst ρ, fun q => (N q).subst ρ.consts⟩

/-- rustc's question `T: Ordinal`, given the parameters declared with that bound. -/
def GTy.implements (bounds : List Nat) : GTy κ γ → Bool
  | .closed k => (env k).impl.isSome
  | .param p => bounds.contains p
  | .box a => a.implements bounds
  | .option a => a.implements bounds
  | .array _ a => a.implements bounds
  | .result a b => a.implements bounds && b.implements bounds
  | .either a b => a.implements bounds && b.implements bounds
  | .tuple n a => n ≤ 16 && (List.finRange n).all fun t => (a t).implements bounds
  | .app g a _ => (gen g).bounds.all fun p => (a p).implements bounds

variable {ι : Type}

/-- Are the paths `<T as ordinal_map::Ordinal>` of the generated code accepted?  They name each field
type of the item (ordinal.rs:99-103, 278).  `ty` is the written type of each name in `ι`. -/
def accepted (bounds : List Nat) (ty : ι → GTy κ γ) (fs : List (Fields ι)) : Bool :=
  fs.all fun f => (fieldTypes f).all fun t => (ty t).implements env gen bounds

/-- The field types of one instantiation.  Without impl the program was rejected. -/
def instTypes (ρ : Inst) (ty : ι → GTy κ γ) : Types ι where
  T t := ((ty t).subst c env gen ρ).T
  impl t := ((ty t).subst c env gen ρ).impl.getD (rejected _)

/-- Their orders. -/
def instLt (ρ : Inst) (ty : ι → GTy κ γ) (t : ι) :
    (instTypes c env gen ρ ty).T t → (instTypes c env gen ρ ty).T t → Prop :=
  ((ty t).subst c env gen ρ).lt

variable [DecidableEq ι]

/-- A generic struct with `#[derive(Ordinal)]`, and the derived order, as a generic type other items can mention. -/
def derivedStruct (bounds : List Nat) (ty : ι → GTy κ γ) (fs : Fields ι) : Generic where
  bounds := bounds
  apply ρ := ⟨FieldVals (instTypes c env gen ρ ty) (fieldTypes fs),
    fun x y => FieldsLt (instLt c env gen ρ ty) x.1 y.1,
    if ∀ p ∈ bounds, (ρ.types p).impl.isSome then some (structImpl c (instTypes c env gen ρ ty) fs) else none⟩

/-- A generic enum with `#[derive(Ordinal)]`. -/
def derivedEnum (bounds : List Nat) (ty : ι → GTy κ γ) (vs : List (Fields ι)) : Generic where
  bounds := bounds
  apply ρ := ⟨EnumVal (instTypes c env gen ρ ty) vs,
    fun x y => EnumLt (instLt c env gen ρ ty) x.1 y.1,
    if ∀ p ∈ bounds, (ρ.types p).impl.isSome then some (enumImpl c (instTypes c env gen ρ ty) vs) else none⟩

end OrdinalMap.Derive.Generics
