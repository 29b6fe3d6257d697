import Verif.Model.Compile
/-!
# Types that mention themselves

The types of the other model files are built bottom up, so none can contain itself.  Here types are defined by name,
the way a program defines them, and a definition may mention any name: `enum L { Nil, Cons(Box<L>) }`.  `mentions`
says which types the impl of a type refers to.

rustc evaluates a constant after the constants its body mentions.  If that never comes to an end, because a constant
mentions itself (error E0391, a query cycle) or because the chain of instantiations grows for ever (recursion limit), the
program is rejected: `Val` is the least solution of the defining equations.  Functions may mention each other in
circles; a function is accepted if all constants mentioned by the functions it leads to have a value.
-/

namespace OrdinalMap.Recursive
open OrdinalMap OrdinalMap.Derive

/-- The types without parameters that implement `Ordinal` in the crate (impls/: primitive.rs, non_zero.rs, char.rs, ordering.rs,
std.rs:43-53). -/
inductive Leaf where
  | bool | ordering | infallible | char | u8 | i8 | u16 | i16 | u32 | i32
  | nzU8 | nzI8 | nzU16 | nzI16 | nzU32 | nzI32 | nzU64 | nzI64 | nzUsize | nzIsize
  deriving DecidableEq, Repr

/-- A type as written in a program.  `D` are the names of the types with `#[derive(Ordinal)]`; for a generic type there is
one name for each instantiation. -/
inductive DTy (D : Type) where
  | leaf (l : Leaf)
  | box (a : DTy D)
  | option (a : DTy D)
  | result (a b : DTy D)
  | either (a b : DTy D)
  | array (N : Nat) (a : DTy D)
  | tuple (as : List (DTy D))
  | named (d : D)

mutual
/-- Are two written types the same? -/
def DTy.same {D : Type} [DecidableEq D] : (a b : DTy D) → Decidable (a = b)
  | .leaf x, t => match t with
    | .leaf y => match decEq x y with
      | isTrue h => isTrue (by rw [h])
      | isFalse h => isFalse (by intro e; cases e; exact h rfl)
    | .box _ | .option _ | .result _ _ | .either _ _ | .array _ _ | .tuple _ | .named _ => isFalse (by intro e; cases e)
  | .box x, t => match t with
    | .box y => match DTy.same x y with
      | isTrue h => isTrue (by rw [h])
      | isFalse h => isFalse (by intro e; cases e; exact h rfl)
    | .leaf _ | .option _ | .result _ _ | .either _ _ | .array _ _ | .tuple _ | .named _ => isFalse (by intro e; cases e)
  | .option x, t => match t with
    | .option y => match DTy.same x y with
      | isTrue h => isTrue (by rw [h])
      | isFalse h => isFalse (by intro e; cases e; exact h rfl)
    | .leaf _ | .box _ | .result _ _ | .either _ _ | .array _ _ | .tuple _ | .named _ => isFalse (by intro e; cases e)
  | .result x x', t => match t with
    | .result y y' => match DTy.same x y, DTy.same x' y' with
      | isTrue h, isTrue h' => isTrue (by rw [h, h'])
      | isFalse h, _ => isFalse (by intro e; cases e; exact h rfl)
      | _, isFalse h => isFalse (by intro e; cases e; exact h rfl)
    | .leaf _ | .box _ | .option _ | .either _ _ | .array _ _ | .tuple _ | .named _ => isFalse (by intro e; cases e)
  | .either x x', t => match t with
    | .either y y' => match DTy.same x y, DTy.same x' y' with
      | isTrue h, isTrue h' => isTrue (by rw [h, h'])
      | isFalse h, _ => isFalse (by intro e; cases e; exact h rfl)
      | _, isFalse h => isFalse (by intro e; cases e; exact h rfl)
    | .leaf _ | .box _ | .option _ | .result _ _ | .array _ _ | .tuple _ | .named _ => isFalse (by intro e; cases e)
  | .array N x, t => match t with
    | .array M y => match decEq N M, DTy.same x y with
      | isTrue h, isTrue h' => isTrue (by rw [h, h'])
      | isFalse h, _ => isFalse (by intro e; cases e; exact h rfl)
      | _, isFalse h => isFalse (by intro e; cases e; exact h rfl)
    | .leaf _ | .box _ | .option _ | .result _ _ | .either _ _ | .tuple _ | .named _ => isFalse (by intro e; cases e)
  | .tuple x, t => match t with
    | .tuple y => match DTy.sames x y with
      | isTrue h => isTrue (by rw [h])
      | isFalse h => isFalse (by intro e; cases e; exact h rfl)
    | .leaf _ | .box _ | .option _ | .result _ _ | .either _ _ | .array _ _ | .named _ => isFalse (by intro e; cases e)
  | .named x, t => match t with
    | .named y => match decEq x y with
      | isTrue h => isTrue (by rw [h])
      | isFalse h => isFalse (by intro e; cases e; exact h rfl)
    | .leaf _ | .box _ | .option _ | .result _ _ | .either _ _ | .array _ _ | .tuple _ => isFalse (by intro e; cases e)
/-- And two lists of them? -/
def DTy.sames {D : Type} [DecidableEq D] : (a b : List (DTy D)) → Decidable (a = b)
  | [], [] => isTrue rfl
  | x :: xs, y :: ys => match DTy.same x y, DTy.sames xs ys with
    | isTrue h, isTrue h' => isTrue (by rw [h, h'])
    | isFalse h, _ => isFalse (by intro e; cases e; exact h rfl)
    | _, isFalse h => isFalse (by intro e; cases e; exact h rfl)
  | [], _ :: _ => isFalse (by intro e; cases e)
  | _ :: _, [] => isFalse (by intro e; cases e)
end

instance {D : Type} [DecidableEq D] : DecidableEq (DTy D) := DTy.same

/-- The item with `#[derive(Ordinal)]`. -/
inductive Item (D : Type) where
  | struct (fs : Fields (DTy D))
  | enum (vs : List (Fields (DTy D)))

variable {D : Type}

/-- The types of the fields. -/
def Item.types : Item D → List (DTy D)
  | .struct fs => fieldTypes fs
  | .enum vs => vs.flatMap fieldTypes

/-- The field names are distinct (E0124), see `Fields.WF`. -/
def Item.WF : Item D → Prop
  | .struct fs => fs.WF
  | .enum vs => ∀ v ∈ vs, v.WF

variable (defs : D → Item D)

/-- The types whose `ORDINAL_SIZE` the body of `ORDINAL_SIZE` mentions; the functions `ordinal` and `from_ordinal` mention
the functions of the same name of the same types (std.rs:5-41, boxed.rs:3-13, either.rs:7-24, array.rs:4-42, derive
ordinal.rs:205-330, 391-472). -/
def mentions : DTy D → List (DTy D)
  | .leaf _ => []
  | .box a => [a]
  | .option a => [a]
  | .result a b => [a, b]
  | .either a b => [a, b]
  | .array _ a => [a]
  | .tuple as => as
  | .named d => (defs d).types

variable (c : Cfg)

/-- The values of a leaf. -/
def Leaf.T : Leaf → Type
  | .bool => Bool
  | .ordering => Ordering
  | .infallible => Empty
  | .char => RChar
  | .u8 => U 8
  | .i8 => S 8
  | .u16 => U 16
  | .i16 => S 16
  | .u32 => U 32
  | .i32 => S 32
  | .nzU8 => NZU 8
  | .nzI8 => NZS 8
  | .nzU16 => NZU 16
  | .nzI16 => NZS 16
  | .nzU32 => NZU 32
  | .nzI32 => NZS 32
  | .nzU64 => NZU 64
  | .nzI64 => NZS 64
  | .nzUsize => NZU c.bits
  | .nzIsize => NZS c.bits

/-- The impl of a leaf. -/
def Leaf.impl : (l : Leaf) → OrdinalImpl (l.T c)
  | .bool => boolImpl
  | .ordering => orderingImpl
  | .infallible => infallibleImpl
  | .char => charImpl c
  | .u8 => u8Impl c
  | .i8 => i8Impl c
  | .u16 => u16Impl c
  | .i16 => i16Impl c
  | .u32 => u32Impl c
  | .i32 => i32Impl c
  | .nzU8 => nzU8Impl c
  | .nzI8 => nzI8Impl c
  | .nzU16 => nzU16Impl c
  | .nzI16 => nzI16Impl c
  | .nzU32 => nzU32Impl c
  | .nzI32 => nzI32Impl c
  | .nzU64 => nzU64Impl c
  | .nzI64 => nzI64Impl c
  | .nzUsize => nzUsizeImpl c
  | .nzIsize => nzIsizeImpl c

variable [DecidableEq D]

/-- An impl of which only the value of `ORDINAL_SIZE` is known. -/
def sizeOnly (n : Nat) : OrdinalImpl Empty := ⟨.ok n, nofun, fun _ => .ok none⟩

/-- Types of which only the values of `ORDINAL_SIZE` are known. -/
def sized (sz : DTy D → Nat) : Types (DTy D) := ⟨fun _ => Empty, fun t => sizeOnly (sz t)⟩

/-- The value of `ORDINAL_SIZE`, given the values `sz` of the constants it mentions: the expressions of the crate's impls
and of the generated code. -/
def formula (sz : DTy D → Nat) : DTy D → R Nat
  | .leaf l => (l.impl c).size
  | .box a => (boxImpl (sizeOnly (sz a))).size
  | .option a => (optionImpl c (sizeOnly (sz a))).size
  | .result a b => (resultImpl c (sizeOnly (sz a)) (sizeOnly (sz b))).size
  | .either a b => (eitherImpl c (sizeOnly (sz a)) (sizeOnly (sz b))).size
  | .array N a => (arrayImpl c N (sizeOnly (sz a))).size
  | .tuple as => (tupleImpl c (sized sz) as).size
  | .named d => match defs d with
    | .struct fs => (structImpl c (sized sz) fs).size
    | .enum vs => (enumImpl c (sized sz) vs).size

/-- `ORDINAL_SIZE` of the type is accepted and has this value.  See the head of the file. -/
inductive Val : DTy D → Nat → Prop
  | eval {t : DTy D} {n : Nat} (sz : DTy D → Nat) (hm : ∀ u ∈ mentions defs t, Val u (sz u))
      (h : formula defs c sz t = .ok n) : Val t n

/-- The two functions. -/
inductive Fn where
  | ordinal
  | fromOrdinal

/-- The types whose `ORDINAL_SIZE` the function mentions: `u32`, `i32`, `NonZeroU64` and `NonZeroI64` that of `Self`
(primitive.rs:75-105, non_zero.rs:167-197; `from_ordinal` of `u32` does not), `Result` and `Either` that of the first
component (std.rs:24-41, either.rs:7-24), arrays that of the component (array.rs:4-42), tuples and derived types that of
`Self` (ordinal.rs:63-78) and of all fields (ordinal.rs:205-330). -/
def constants (f : Fn) : DTy D → List (DTy D)
  | .leaf .u32 => match f with
    | .ordinal => [.leaf .u32]
    | .fromOrdinal => []
  | .leaf .i32 => [.leaf .i32]
  | .leaf .nzU64 => [.leaf .nzU64]
  | .leaf .nzI64 => [.leaf .nzI64]
  | .leaf _ => []
  | .box _ => []
  | .option _ => []
  | .result a _ => [a]
  | .either a _ => [a]
  | .array _ a => [a]
  | .tuple as => .tuple as :: as
  | .named d => .named d :: (defs d).types

/-- The second type is found by following mentions from the first. -/
inductive Leads : DTy D → DTy D → Prop
  | refl (t : DTy D) : Leads t t
  | step {t u v : DTy D} (h : u ∈ mentions defs t) (r : Leads u v) : Leads t v

/-- A call of the function is accepted. -/
def Callable (f : Fn) (t : DTy D) : Prop :=
  ∀ u, Leads defs t u → ∀ k ∈ constants defs f u, ∃ n, Val defs c k n

end OrdinalMap.Recursive
