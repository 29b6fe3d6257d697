import Verif.Model.Derive
import Verif.Model.Ordinal
/-!
# Which programs compile

rustc evaluates the constants that a function mentions when it compiles the function, whether or not a run reaches
them, and it compiles every function that a compiled function mentions; a constant is evaluated only after the
constants its body mentions.  The other model files raise `compileError` when a run reaches a constant that cannot
be evaluated.  Here the mentions are followed instead: `Accepts` says of an `impl Ordinal` which programs the
compiler accepts.
-/

namespace OrdinalMap

/-- Of an `impl Ordinal`: is a program accepted that uses the constant, or that calls the function? -/
structure Accepts where
  /-- uses `ORDINAL_SIZE` -/
  size : Prop
  /-- calls `ordinal` -/
  ordinal : Prop
  /-- calls `from_ordinal` -/
  fromOrdinal : Prop
  /-- Not a question to the compiler: is the evaluation of `ORDINAL_SIZE` sure to reach every constant mentioned?  Only
  the loop of `[T; 0]` (array.rs:8-11) does not. -/
  reached : Prop

namespace Accepts

variable {α β : Type}

/-- The impls that mention no constant of another impl: `bool`, `char`, `Ordering`, `Infallible`, the integers of 8
and 16 bits (primitive.rs:3-73, char.rs:5-24, ordering.rs:5-24, std.rs:43-53), and the non-zero types of up to 32 bits
and of the size of a pointer (non_zero.rs:14-164). -/
def always : Accepts := ⟨True, True, True, True⟩

/-- `u32` (primitive.rs:75-89): `ordinal` mentions `Self::ORDINAL_SIZE`, `from_ordinal` does not. -/
def u32 (I : OrdinalImpl α) : Accepts := ⟨∃ n, I.size = .ok n, ∃ n, I.size = .ok n, True, True⟩

/-- `i32` (primitive.rs:91-105), `NonZeroU64` and `NonZeroI64` (non_zero.rs:167-197): both functions mention
`Self::ORDINAL_SIZE`. -/
def forced (I : OrdinalImpl α) : Accepts := ⟨∃ n, I.size = .ok n, ∃ n, I.size = .ok n, ∃ n, I.size = .ok n, True⟩

/-- `Box<T>` (boxed.rs:3-13). -/
def box (a : Accepts) : Accepts := ⟨a.size, a.ordinal, a.fromOrdinal, a.reached⟩

/-- `Option<A>` (std.rs:5-22), `I` being its impl. -/
def option (I : OrdinalImpl α) (a : Accepts) : Accepts :=
  ⟨(∃ n, I.size = .ok n) ∧ a.size, a.ordinal, a.fromOrdinal, a.reached⟩

/-- `Result<A, B>` (std.rs:24-41) and `Either<A, B>` (either.rs:7-24): the functions mention `A::ORDINAL_SIZE`. -/
def result (I : OrdinalImpl α) (a b : Accepts) : Accepts :=
  ⟨(∃ n, I.size = .ok n) ∧ a.size ∧ b.size, a.size ∧ a.ordinal ∧ b.ordinal, a.size ∧ a.fromOrdinal ∧ b.fromOrdinal,
   a.reached ∧ b.reached⟩

/-- `[T; N]` (array.rs:4-42): everything mentions `T::ORDINAL_SIZE`, also if `N` is 0. -/
def array (N : Nat) (I : OrdinalImpl α) (a : Accepts) : Accepts :=
  ⟨(∃ n, I.size = .ok n) ∧ a.size, a.size ∧ a.ordinal, a.size ∧ a.fromOrdinal, N ≠ 0 ∧ a.reached⟩

/-- Tuples and derived types (ordinal.rs:44-78): the constant mentions the constants of all fields (ordinal.rs:205-257),
the functions mention `Self::ORDINAL_SIZE` (ordinal.rs:63-78), and of all fields the constant and the function of the
same name (ordinal.rs:260-330, 391-472). -/
def fields {ι : Type} (I : OrdinalImpl α) (tys : List ι) (a : ι → Accepts) : Accepts :=
  ⟨(∃ n, I.size = .ok n) ∧ ∀ t ∈ tys, (a t).size,
   ((∃ n, I.size = .ok n) ∧ ∀ t ∈ tys, (a t).size) ∧ ∀ t ∈ tys, (a t).ordinal,
   ((∃ n, I.size = .ok n) ∧ ∀ t ∈ tys, (a t).size) ∧ ∀ t ∈ tys, (a t).fromOrdinal,
   ∀ t ∈ tys, (a t).reached⟩

end Accepts
end OrdinalMap
