import Verif.Text.Run
import Verif.Text.Files
/-!
# Specification: running the source text of an impl of `Ordinal`

What it means that a text, when parsed and run, defines a lawful impl, or the impl of the model.
-/

namespace OrdinalMap.Text

/-- The program in a list of texts. -/
def program : List String → Option Prog
  | [] => some []
  | s :: ss => match parse s, program ss with
    | some a, some b => some (a ++ b)
    | _, _ => none

/-- The files with the hand-written impls of `Ordinal` (ordinal/impls, without `tuple.rs`, which uses the derive macro). -/
def sources : List String := [primitiveRs, nonZeroRs, charRs, orderingRs, stdRs, eitherRs, boxedRs, arrayRs]

/-- The source texts make up a program, and it has property `Q`. -/
def Sources (Q : Prog → Prop) : Prop := ∃ prog, program sources = some prog ∧ Q prog

/-- The meaning of the type parameters: `A`, `T` are the first one and `B` is the second.  `N` is the length of arrays. -/
def tyParams (N : Nat) : TyEnv := [("A", .par 0), ("T", .par 0), ("B", .par 1), ("N", .num N)]

/-- `P 0` and `P 1` for two types. -/
def two (α β : Type) : Nat → Type
  | 0 => α
  | _ => β

/-- Impls for two type parameters. -/
def twoImpls {α β : Type} (A : OrdinalImpl α) (B : OrdinalImpl β) : (p : Nat) → OrdinalImpl (two α β p)
  | 0 => A
  | _ + 1 => B

/-! ## Values of the model at run time -/

/-- `core::cmp::Ordering` at run time -/
def ordVal {P : Nat → Type} : Ordering → Val P
  | .lt => .con "Less" []
  | .eq => .con "Equal" []
  | .gt => .con "Greater" []

/-- `Option<T>` -/
def optVal {P : Nat → Type} : Option (P 0) → Val P
  | none => .con "None" []
  | some a => .con "Some" [.usr 0 a]

/-- `Result<A, B>` -/
def resVal {P : Nat → Type} : P 0 ⊕ P 1 → Val P
  | .inl a => .con "Ok" [.usr 0 a]
  | .inr b => .con "Err" [.usr 1 b]

/-- `Either<A, B>` -/
def eithVal {P : Nat → Type} : P 0 ⊕ P 1 → Val P
  | .inl a => .con "Left" [.usr 0 a]
  | .inr b => .con "Right" [.usr 1 b]

/-- `Box<T>` -/
def boxVal {P : Nat → Type} (b : Boxed (P 0)) : Val P := .con "Box" [.usr 0 b.unbox]

/-- `[T; N]` -/
def arrVal {P : Nat → Type} {N : Nat} (a : Arr (P 0) N) : Val P := .arr (a.1.map (.usr 0 ·))

variable {P : Nat → Type} (c : Cfg) (J : (p : Nat) → OrdinalImpl (P p)) (N : Nat) (prog : Prog)

/-- `<t as Ordinal>::ORDINAL_SIZE` by the text.  Calls nest to depth 4 at most. -/
def runSize (t : RT) : R (Val P) := (outside c J (tyParams N) prog 4).const t "ORDINAL_SIZE"

/-- `v.ordinal()` by the text, for `v` of type `t`. -/
def runOrdinal (t : RT) (v : Val P) : R (Val P) :=
  Prod.fst <$> (outside c J (tyParams N) prog 4).call t "ordinal" [.ref v] []

/-- `t::from_ordinal(i)` by the text. -/
def runFromOrdinal (t : RT) (i : Nat) : R (Val P) :=
  Prod.fst <$> (outside c J (tyParams N) prog 4).call t "from_ordinal" [.uint .size i] []

/-- The text numbers the values `enc a` by `0..n`, and `from_ordinal` inverts `ordinal`. -/
structure TextLawful {α : Type} (t : RT) (enc : α → Val P) (n : Nat) : Prop where
  /-- different values are different at run time -/
  inj : ∀ a b, enc a = enc b → a = b
  size : runSize c J N prog t = .ok (.uint .size n)
  fits : n < c.M
  ordinal : ∀ a, ∃ i, i < n ∧ runOrdinal c J N prog t (enc a) = .ok (.uint .size i) ∧
    runFromOrdinal c J N prog t i = .ok (.con "Some" [enc a])
  fromOrdinal : ∀ i, i < n → ∃ a, runFromOrdinal c J N prog t i = .ok (.con "Some" [enc a]) ∧
    runOrdinal c J N prog t (enc a) = .ok (.uint .size i)

/-- `from_ordinal` answers `None` outside `0..n`. -/
def TextStrict (t : RT) (n : Nat) : Prop :=
  ∀ i, n ≤ i → i < c.M → runFromOrdinal c J N prog t i = .ok (.con "None" [])

/-- The text computes what `I` computes, including panics and compile errors. -/
structure TextAgrees {α : Type} (t : RT) (enc : α → Val P) (I : OrdinalImpl α) : Prop where
  inj : ∀ a b, enc a = enc b → a = b
  size : runSize c J N prog t = (.uint .size ·) <$> I.size
  ordinal : ∀ a, runOrdinal c J N prog t (enc a) = (.uint .size ·) <$> I.ordinal a
  fromOrdinal : ∀ i, i < c.M → runFromOrdinal c J N prog t i = (fun o => match o with
    | some a => .con "Some" [enc a]
    | none => .con "None" []) <$> I.fromOrdinal i

end OrdinalMap.Text
