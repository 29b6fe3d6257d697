import Verif.Spec
import Verif.Model.ArrayBuilder
/-!
# Model of the hand-written `Ordinal` impls (`ordinal/impls/*.rs`)

Each `impl Ordinal for X` becomes an `OrdinalImpl`.  Constants are evaluated with const
arithmetic (overflow = compile error), function bodies with run-time arithmetic.
-/

namespace OrdinalMap

/-! ## primitive.rs -/

/-- `impl Ordinal for bool` (primitive.rs:3-17). -/
def boolImpl : OrdinalImpl Bool where
  size := .ok 2
  ordinal b := .ok b.toNat
  fromOrdinal i := .ok (match i with
    | 0 => some false
    | 1 => some true
    | _ => none)

/-- `impl Ordinal for u8` (primitive.rs:19-31). -/
def u8Impl (c : Cfg) : OrdinalImpl (U 8) where
  size := addC c (asUsize c (2 ^ 8 - 1)) 1
  ordinal x := .ok (asUsize c x.1)
  fromOrdinal i := .ok (tryFromU 8 i)

/-- `impl Ordinal for i8` (primitive.rs:33-45).  The size is computed in `i16`. -/
def i8Impl (c : Cfg) : OrdinalImpl (S 8) where
  size := do
    let d ← constS 16 (127 - (-128))
    let e ← constS 16 (d + 1)
    .ok (asUsizeS c e)
  ordinal x := .ok (asUsize c (absDiff x.1 (-128)))
  fromOrdinal i := .ok (do
    let u ← tryFromU 8 i
    checkedAddUnsigned 8 (-128) u.1)

/-- `impl Ordinal for u16` (primitive.rs:47-59). -/
def u16Impl (c : Cfg) : OrdinalImpl (U 16) where
  size := addC c (asUsize c (2 ^ 16 - 1)) 1
  ordinal x := .ok (asUsize c x.1)
  fromOrdinal i := .ok (tryFromU 16 i)

/-- `impl Ordinal for i16` (primitive.rs:61-73).  The size is computed in `isize`. -/
def i16Impl (c : Cfg) : OrdinalImpl (S 16) where
  size := do
    let d ← constS c.bits (32767 - (-32768))
    let e ← constS c.bits (d + 1)
    .ok (asUsizeS c e)
  ordinal x := .ok (asUsize c (absDiff x.1 (-32768)))
  fromOrdinal i := .ok (do
    let u ← tryFromU 16 i
    checkedAddUnsigned 16 (-32768) u.1)

/-- `u32::ORDINAL_SIZE` (primitive.rs:77). -/
def u32Size (c : Cfg) : R Nat := addC c (asUsize c (2 ^ 32 - 1)) 1

/-- `impl Ordinal for u32` (primitive.rs:75-89).  `ordinal` forces the const, `from_ordinal` does
not. -/
def u32Impl (c : Cfg) : OrdinalImpl (U 32) where
  size := u32Size c
  ordinal x := do
    let _ ← u32Size c
    .ok (asUsize c x.1)
  fromOrdinal i := .ok (tryFromU 32 i)

/-- `impl Ordinal for i32` (primitive.rs:91-105). -/
def i32Impl (c : Cfg) : OrdinalImpl (S 32) where
  size := u32Size c
  ordinal x := do
    let _ ← u32Size c
    .ok (asUsize c (absDiff x.1 (-2147483648)))
  fromOrdinal i := do
    let _ ← u32Size c
    .ok (do
      let u ← tryFromU 32 i
      checkedAddUnsigned 32 (-2147483648) u.1)

/-! ## non_zero.rs -/

/-- `impl Ordinal for NonZeroU8` (non_zero.rs:14-26). -/
def nzU8Impl (c : Cfg) : OrdinalImpl (NZU 8) where
  size := .ok (asUsize c (2 ^ 8 - 1))
  ordinal x := subU c (asUsize c x.1) 1
  fromOrdinal i := .ok (do
    let j ← checkedAdd c i 1
    let u ← tryFromU 8 j
    nzuNew u)

/-- `impl Ordinal for NonZeroI8` (non_zero.rs:28-51). -/
def nzI8Impl (c : Cfg) : OrdinalImpl (NZS 8) where
  size := (nzU8Impl c).size
  ordinal x :=
    if x.1 > 0 then addU c 127 (asUsizeS c x.1)
    else .ok (asUsize c (absDiff x.1 (-128)))
  fromOrdinal i := do
    match checkedSub i (← addU c (asUsizeS c 127) 1) with
    | none => do
      let u ← unwrap (tryFromU 8 i)
      let s ← unwrap (checkedAddUnsigned 8 (-128) u.1)
      .ok (nzsNew s)
    | some rem => do
      let r ← addU c rem 1
      .ok (do
        let s ← tryFromS 8 r
        nzsNew s)

/-- `impl Ordinal for NonZeroU16` (non_zero.rs:53-65). -/
def nzU16Impl (c : Cfg) : OrdinalImpl (NZU 16) where
  size := .ok (asUsize c (2 ^ 16 - 1))
  ordinal x := subU c (asUsize c x.1) 1
  fromOrdinal i := .ok (do
    let j ← checkedAdd c i 1
    let u ← tryFromU 16 j
    nzuNew u)

/-- `impl Ordinal for NonZeroI16` (non_zero.rs:67-90). -/
def nzI16Impl (c : Cfg) : OrdinalImpl (NZS 16) where
  size := (nzU16Impl c).size
  ordinal x :=
    if x.1 > 0 then addU c 32767 (asUsizeS c x.1)
    else .ok (asUsize c (absDiff x.1 (-32768)))
  fromOrdinal i := do
    match checkedSub i (← addU c (asUsizeS c 32767) 1) with
    | none => do
      let u ← unwrap (tryFromU 16 i)
      let s ← unwrap (checkedAddUnsigned 16 (-32768) u.1)
      .ok (nzsNew s)
    | some rem => do
      let r ← addU c rem 1
      .ok (do
        let s ← tryFromS 16 r
        nzsNew s)

/-- `impl Ordinal for NonZeroU32` (non_zero.rs:92-104). -/
def nzU32Impl (c : Cfg) : OrdinalImpl (NZU 32) where
  size := .ok (asUsize c (2 ^ 32 - 1))
  ordinal x := subU c (asUsize c x.1) 1
  fromOrdinal i := .ok (do
    let j ← checkedAdd c i 1
    let u ← tryFromU 32 j
    nzuNew u)

/-- `impl Ordinal for NonZeroI32` (non_zero.rs:106-129). -/
def nzI32Impl (c : Cfg) : OrdinalImpl (NZS 32) where
  size := (nzU32Impl c).size
  ordinal x :=
    if x.1 > 0 then addU c 2147483647 (asUsizeS c x.1)
    else .ok (asUsize c (absDiff x.1 (-2147483648)))
  fromOrdinal i := do
    match checkedSub i (← addU c (asUsizeS c 2147483647) 1) with
    | none => do
      let u ← unwrap (tryFromU 32 i)
      let s ← unwrap (checkedAddUnsigned 32 (-2147483648) u.1)
      .ok (nzsNew s)
    | some rem => do
      let r ← addU c rem 1
      .ok (do
        let s ← tryFromS 32 r
        nzsNew s)

/-- `usize::MAX`. -/
def usizeMax (c : Cfg) : Nat := c.M - 1

/-- `isize::MIN`. -/
def isizeMin (c : Cfg) : Int := -(2 ^ (c.bits - 1))

/-- `isize::MAX`. -/
def isizeMax (c : Cfg) : Int := 2 ^ (c.bits - 1) - 1

/-- `impl Ordinal for NonZeroUsize` (non_zero.rs:131-143). -/
def nzUsizeImpl (c : Cfg) : OrdinalImpl (NZU c.bits) where
  size := .ok (usizeMax c)
  ordinal x := subU c x.1 1
  fromOrdinal i := .ok (do
    let j ← checkedAdd c i 1
    let u ← tryFromU c.bits j
    nzuNew u)

/-- `impl Ordinal for NonZeroIsize` (non_zero.rs:145-164). -/
def nzIsizeImpl (c : Cfg) : OrdinalImpl (NZS c.bits) where
  size := (nzUsizeImpl c).size
  ordinal x :=
    if x.1 > 0 then addU c (usizeMax c / 2) (asUsizeS c x.1)
    else .ok (absDiff x.1 (isizeMin c))
  fromOrdinal i := do
    match checkedSub i (← addU c (asUsizeS c (isizeMax c)) 1) with
    | none => do
      let s ← unwrap (checkedAddUnsigned c.bits (isizeMin c) i)
      .ok (nzsNew s)
    | some rem => do
      let r ← addU c rem 1
      .ok (do
        let s ← tryFromS c.bits r
        nzsNew s)

/-- `NonZeroU64::ORDINAL_SIZE` (non_zero.rs:168-172): `usize::MAX` on 64-bit targets, a
compile-time panic otherwise. -/
def nzU64Size (c : Cfg) : R Nat :=
  if 2 ^ 64 - 1 = usizeMax c then .ok (usizeMax c) else .error .compileError

/-- `impl Ordinal for NonZeroU64` (non_zero.rs:166-183): forwards to `NonZeroUsize`.
`NonZeroUsize::new(self.get() as usize).unwrap()`. -/
def nzU64Impl (c : Cfg) : OrdinalImpl (NZU 64) where
  size := nzU64Size c
  ordinal x := do
    let _ ← nzU64Size c
    let u ← unwrap (do
      let u ← tryFromU c.bits (asUsize c x.1)
      nzuNew u)
    (nzUsizeImpl c).ordinal u
  fromOrdinal i := do
    let _ ← nzU64Size c
    match ← (nzUsizeImpl c).fromOrdinal i with
    | none => .ok none
    | some u => do
      let v ← unwrap (do
        let v ← tryFromU 64 u.1
        nzuNew v)
      .ok (some v)

/-- `x as isize` from `i64` / `x as i64` from `isize`, restricted to the only case in which the code
is compiled (64-bit targets), where it is the identity: `n`-bit two's complement truncation. -/
def asSigned (n : Nat) (x : Int) : Int := (x + 2 ^ (n - 1)) % 2 ^ n - 2 ^ (n - 1)

/-- `NonZeroIN::new(x)` from a raw integer known to be in range. -/
def nzsOfInt (n : Nat) (x : Int) : Option (NZS n) :=
  if h : (-(2 ^ (n - 1)) ≤ x ∧ x < 2 ^ (n - 1)) ∧ x ≠ 0 then some ⟨x, h⟩ else none

/-- `impl Ordinal for NonZeroI64` (non_zero.rs:185-197): forwards to `NonZeroIsize`. -/
def nzI64Impl (c : Cfg) : OrdinalImpl (NZS 64) where
  size := nzU64Size c
  ordinal x := do
    let _ ← nzU64Size c
    let s ← unwrap (nzsOfInt c.bits (asSigned c.bits x.1))
    (nzIsizeImpl c).ordinal s
  fromOrdinal i := do
    let _ ← nzU64Size c
    match ← (nzIsizeImpl c).fromOrdinal i with
    | none => .ok none
    | some s => do
      let v ← unwrap (nzsOfInt 64 (asSigned 64 s.1))
      .ok (some v)

/-! ## char.rs -/

/-- A Rust `char`: a Unicode scalar value (`0..=0x10FFFF` without surrogates). -/
abbrev RChar := { x : Nat // x ≤ 0x10FFFF ∧ ¬ (0xD800 ≤ x ∧ x ≤ 0xDFFF) }

/-- `char::from_u32` (std). -/
def charFromU32 (x : Nat) : Option RChar :=
  if h : x ≤ 0x10FFFF ∧ ¬ (0xD800 ≤ x ∧ x ≤ 0xDFFF) then some ⟨x, h⟩ else none

/-- `u32::checked_add` (std). -/
def checkedAddU32 (a b : Nat) : Option Nat := if a + b < 2 ^ 32 then some (a + b) else none

/-- `const SURROGATE_START: u32` (char.rs:3). -/
def surrogateStart : Nat := 0xd800

/-- `impl Ordinal for char` (char.rs:5-24). -/
def charImpl (c : Cfg) : OrdinalImpl RChar where
  size := do
    let a ← addC c (asUsize c 0x10FFFF) 1
    subC a 0x800
  ordinal x :=
    if x.1 < surrogateStart then .ok (asUsize c x.1)
    else subU c (asUsize c x.1) 0x800
  fromOrdinal i :=
    if i < asUsize c surrogateStart then .ok (charFromU32 (asU32 i))
    else .ok (do
      let j ← checkedAddU32 (asU32 i) 0x800
      charFromU32 j)

/-! ## ordering.rs -/

/-- `impl Ordinal for Ordering` (ordering.rs:5-24).  Lean's `Ordering` is `lt | eq | gt`. -/
def orderingImpl : OrdinalImpl Ordering where
  size := .ok 3
  ordinal o := .ok (match o with
    | .lt => 0
    | .eq => 1
    | .gt => 2)
  fromOrdinal i := .ok (match i with
    | 0 => some .lt
    | 1 => some .eq
    | 2 => some .gt
    | _ => none)

/-! ## std.rs -/

/-- `impl Ordinal for Option<A>` (std.rs:5-22). -/
def optionImpl {α : Type} (c : Cfg) (A : OrdinalImpl α) : OrdinalImpl (Option α) where
  size := do addC c (← A.size) 1
  ordinal o := match o with
    | none => .ok 0
    | some a => do addU c (← A.ordinal a) 1
  fromOrdinal i :=
    if i = 0 then .ok (some none)
    else do
      let j ← subU c i 1
      let a ← A.fromOrdinal j
      .ok (a.map some)

/-- `impl Ordinal for Result<A, B>` (std.rs:24-41).  `Sum.inl` is `Ok`, `Sum.inr` is `Err`. -/
def resultImpl {α β : Type} (c : Cfg) (A : OrdinalImpl α) (B : OrdinalImpl β) :
    OrdinalImpl (α ⊕ β) where
  size := do addC c (← A.size) (← B.size)
  ordinal r := match r with
    | .inl a => A.ordinal a
    | .inr b => do addU c (← A.size) (← B.ordinal b)
  fromOrdinal i := do
    if i < (← A.size) then
      let a ← unwrap (← A.fromOrdinal i)
      .ok (some (.inl a))
    else
      let b ← B.fromOrdinal (← subU c i (← A.size))
      .ok (b.map .inr)

/-- `impl Ordinal for Infallible` (std.rs:43-53). -/
def infallibleImpl : OrdinalImpl Empty where
  size := .ok 0
  ordinal x := nomatch x
  fromOrdinal _ := .ok none

/-! ## either.rs -/

/-- `impl Ordinal for Either<A, B>` (either.rs:7-24).  `Sum.inl` is `Left`, `Sum.inr` is `Right`. -/
def eitherImpl {α β : Type} (c : Cfg) (A : OrdinalImpl α) (B : OrdinalImpl β) :
    OrdinalImpl (α ⊕ β) where
  size := (resultImpl c A B).size
  ordinal r := match r with
    | .inl a => A.ordinal a
    | .inr b => do addU c (← A.size) (← B.ordinal b)
  fromOrdinal i := do
    if i < (← A.size) then
      let a ← unwrap (← A.fromOrdinal i)
      .ok (some (.inl a))
    else
      let b ← B.fromOrdinal (← subU c i (← A.size))
      .ok (b.map .inr)

/-! ## boxed.rs -/

/-- `Box<T>`. -/
structure Boxed (α : Type) where
  unbox : α
  deriving DecidableEq, Repr

/-- `impl Ordinal for Box<T>` (boxed.rs:3-13). -/
def boxImpl {α : Type} (A : OrdinalImpl α) : OrdinalImpl (Boxed α) where
  size := A.size
  ordinal b := A.ordinal b.unbox
  fromOrdinal i := do
    match ← A.fromOrdinal i with
    | none => .ok none
    | some a => .ok (some ⟨a⟩)

/-! ## array.rs -/

/-- `[T; N]`. -/
abbrev Arr (α : Type) (N : Nat) := { l : List α // l.length = N }

/-- The `while i < N` loop of `<[T; N]>::ORDINAL_SIZE` (array.rs:5-13): `k` iterations left.
`checked_mul(..).unwrap()` inside a const is a compile error on overflow. -/
def arraySizeLoop {α : Type} (c : Cfg) (A : OrdinalImpl α) : (k s : Nat) → R Nat
  | 0, s => .ok s
  | k + 1, s => do
    match checkedMul c s (← A.size) with
    | none => .error .compileError
    | some s' => arraySizeLoop c A k s'

/-- The `for v in self` loop of `<[T; N]>::ordinal` (array.rs:17-20). -/
def arrayOrdinalLoop {α : Type} (c : Cfg) (A : OrdinalImpl α) : List α → Nat → R Nat
  | [], r => .ok r
  | v :: vs, r => do
    let r ← unwrap (checkedMul c r (← A.size))
    let r ← addU c r (← A.ordinal v)
    arrayOrdinalLoop c A vs r

/-- The `for _ in 0..N` loop of `<[T; N]>::from_ordinal` (array.rs:27-33): `k` iterations left.
`none` is the early `return None`. -/
def arrayFromLoop {α : Type} (A : OrdinalImpl α) :
    (k n : Nat) → ArrayBuilder α → R (Option (Nat × ArrayBuilder α))
  | 0, n, b => .ok (some (n, b))
  | k + 1, n, b => do
    match checkedRem n (← A.size) with
    | none => .ok none
    | some i => do
      let a ← unwrap (← A.fromOrdinal i)
      let b ← b.push a
      let n ← divU n (← A.size)
      arrayFromLoop A k n b

/-- `impl Ordinal for [T; N]` (array.rs:4-42).  The array the builder returns always has length
`N`; the model re-checks it to build the length-indexed value, and the check failing would be a
`ub` fault (shown unreachable by the theorems). -/
def arrayImpl {α : Type} (c : Cfg) (N : Nat) (A : OrdinalImpl α) : OrdinalImpl (Arr α N) where
  size := arraySizeLoop c A N 1
  ordinal a := arrayOrdinalLoop c A a.1 0
  fromOrdinal i := do
    match ← arrayFromLoop A N i (ArrayBuilder.new α N) with
    | none => .ok none
    | some (n, b) =>
      if n ≠ 0 then .ok none
      else do
        let a ← b.finish
        let a := a.reverse
        if h : a.length = N then .ok (some ⟨a, h⟩) else .error .ub

/-- `<[T; N]>::from_ordinal` once more (array.rs:24-41), now with ownership: the first component is
the log of all values created by `T::from_ordinal`, the second is how the function ended
(`returned = none`: unwound by a panic in `T::from_ordinal`, `unwrap` or `push`) and what was dropped.
Every `return None` and every unwinding drops the builder (array_builder.rs:14-22).
`k` iterations left. -/
def arrayFromLoopO {α : Type} (A : OrdinalImpl α) :
    (k n : Nat) → ArrayBuilder α → List α → R (List α × Outcome α (Option (List α)))
  | 0, n, b, log =>
    if n ≠ 0 then do
      let d ← b.drop
      .ok (log, ⟨some none, d⟩)
    else do
      let f ← b.tryFinish
      .ok (log, ⟨f.result.map fun a => some a.reverse, f.dropped⟩)
  | k + 1, n, b, log => do
    match checkedRem n (← A.size) with
    | none => do
      let d ← b.drop
      .ok (log, ⟨some none, d⟩)
    | some i =>
      match A.fromOrdinal i with
      | .error .panic | .ok none => do
        let o ← unwindBuilder b []
        .ok (log, o)
      | .error f => .error f
      | .ok (some a) =>
        match b.push a with
        | .ok b' => do
          let n ← divU n (← A.size)
          arrayFromLoopO A k n b' (log ++ [a])
        | .error .panic => do
          let o ← unwindBuilder b [a]
          .ok (log ++ [a], o)
        | .error f => .error f

/-- `<[T; N]>::from_ordinal` with ownership (array.rs:24-41). -/
def arrayFromOrdinalOutcome {α : Type} (N : Nat) (A : OrdinalImpl α) (i : Nat) :
    R (List α × Outcome α (Option (List α))) :=
  arrayFromLoopO A N i (ArrayBuilder.new α N) []

end OrdinalMap
