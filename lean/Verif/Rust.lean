/-!
# The slice of Rust semantics used by the model

This file is part of the trusted base: it fixes how Rust effects and machine
integers are represented.  Nothing in here models `/repo` code; it models the
language and the `std` functions the code calls.
-/

namespace OrdinalMap

/-- The ways a Rust program (or its compilation) can fail to produce a value. -/
inductive Fault where
  /-- A panic at run time (unwrap on `None`, failed assert, checked overflow, index out of bounds). -/
  | panic
  /-- The program is rejected at compile time (const-evaluation failure, scope/type error). -/
  | compileError
  /-- A Rust `loop` ran out of the fuel the model gives it (i.e. would not terminate). -/
  | diverge
  /-- Undefined behaviour of `unsafe` code (reading or dropping uninitialised memory). -/
  | ub
  deriving DecidableEq, Repr

/-- Result of running a piece of Rust. -/
abbrev R (α : Type) := Except Fault α

instance {α : Type} [DecidableEq α] : DecidableEq (R α) := fun a b =>
  match a, b with
  | .ok x, .ok y => if h : x = y then isTrue (h ▸ rfl) else isFalse (by simp [h])
  | .error x, .error y => if h : x = y then isTrue (h ▸ rfl) else isFalse (by simp [h])
  | .ok _, .error _ => isFalse (by simp)
  | .error _, .ok _ => isFalse (by simp)

/-- Target and build profile. -/
structure Cfg where
  /-- `usize::BITS`. -/
  bits : Nat
  /-- Supported targets. -/
  bits_ok : bits = 32 ∨ bits = 64
  /-- `-C overflow-checks`: on in debug builds, off in release builds. -/
  overflowChecks : Bool
  /-- `-C debug-assertions`: on in debug builds, off in release builds. -/
  debugAssertions : Bool

/-- `usize::MAX + 1`. -/
def Cfg.M (c : Cfg) : Nat := 2 ^ c.bits

/-- A 64-bit debug build. -/
def debug64 : Cfg := ⟨64, .inr rfl, true, true⟩
/-- A 64-bit release build. -/
def release64 : Cfg := ⟨64, .inr rfl, false, false⟩
/-- A 32-bit debug build. -/
def debug32 : Cfg := ⟨32, .inl rfl, true, true⟩
/-- A 32-bit release build. -/
def release32 : Cfg := ⟨32, .inl rfl, false, false⟩

/-! ## Option / panics -/

/-- `Option::unwrap`. -/
def unwrap {α : Type} : Option α → R α
  | some a => .ok a
  | none => .error .panic

/-- `assert!(b)`. -/
def assert (b : Bool) : R Unit := if b then .ok () else .error .panic

/-- `debug_assert!(b)`: checked only in builds with debug assertions. -/
def debugAssert (c : Cfg) (b : Bool) : R Unit :=
  if c.debugAssertions && !b then .error .panic else .ok ()

/-- `const { assert!(b) }`: a failure is a compile-time error. -/
def constAssert (b : Bool) : R Unit := if b then .ok () else .error .compileError

/-! ## usize arithmetic at run time

Operands are assumed to be below `c.M`; overflow panics when overflow checks are
on and wraps otherwise. -/

/-- `a + b` on `usize`. -/
def addU (c : Cfg) (a b : Nat) : R Nat :=
  if a + b < c.M then .ok (a + b)
  else if c.overflowChecks then .error .panic else .ok ((a + b) % c.M)

/-- `a - b` on `usize`. -/
def subU (c : Cfg) (a b : Nat) : R Nat :=
  if b ≤ a then .ok (a - b)
  else if c.overflowChecks then .error .panic else .ok ((a + c.M - b) % c.M)

/-- `a * b` on `usize`. -/
def mulU (c : Cfg) (a b : Nat) : R Nat :=
  if a * b < c.M then .ok (a * b)
  else if c.overflowChecks then .error .panic else .ok ((a * b) % c.M)

/-- `a / b` on `usize`: division by zero always panics. -/
def divU (a b : Nat) : R Nat := if b = 0 then .error .panic else .ok (a / b)

/-- `a % b` on `usize`: remainder by zero always panics. -/
def remU (a b : Nat) : R Nat := if b = 0 then .error .panic else .ok (a % b)

/-! ## usize arithmetic in constants: overflow is always a compile error -/

/-- `a + b` in a `const`. -/
def addC (c : Cfg) (a b : Nat) : R Nat :=
  if a + b < c.M then .ok (a + b) else .error .compileError

/-- `a - b` in a `const`. -/
def subC (a b : Nat) : R Nat :=
  if b ≤ a then .ok (a - b) else .error .compileError

/-- `a * b` in a `const`. -/
def mulC (c : Cfg) (a b : Nat) : R Nat :=
  if a * b < c.M then .ok (a * b) else .error .compileError

/-- `a % b` in a `const`. -/
def remC (a b : Nat) : R Nat :=
  if b = 0 then .error .compileError else .ok (a % b)

/-! ## checked arithmetic -/

/-- `usize::checked_add`. -/
def checkedAdd (c : Cfg) (a b : Nat) : Option Nat := if a + b < c.M then some (a + b) else none
/-- `usize::checked_sub` (also `u32::checked_sub`). -/
def checkedSub (a b : Nat) : Option Nat := if b ≤ a then some (a - b) else none
/-- `usize::checked_mul`. -/
def checkedMul (c : Cfg) (a b : Nat) : Option Nat := if a * b < c.M then some (a * b) else none
/-- `usize::checked_rem`. -/
def checkedRem (a b : Nat) : Option Nat := if b = 0 then none else some (a % b)

/-! ## Fixed width integers -/

/-- Unsigned `n`-bit integers (`u8`, `u16`, ...). -/
abbrev U (n : Nat) := { x : Nat // x < 2 ^ n }

/-- Signed `n`-bit two's complement integers (`i8`, `i16`, ...). -/
abbrev S (n : Nat) := { x : Int // -(2 ^ (n - 1)) ≤ x ∧ x < 2 ^ (n - 1) }

/-- `NonZeroU8` etc. -/
abbrev NZU (n : Nat) := { x : Nat // x < 2 ^ n ∧ x ≠ 0 }

/-- `NonZeroI8` etc. -/
abbrev NZS (n : Nat) := { x : Int // (-(2 ^ (n - 1)) ≤ x ∧ x < 2 ^ (n - 1)) ∧ x ≠ 0 }

/-- `x as usize` for an unsigned `x`: truncation. -/
def asUsize (c : Cfg) (x : Nat) : Nat := x % c.M

/-- `x as usize` for a signed `x`: sign extension then truncation. -/
def asUsizeS (c : Cfg) (x : Int) : Nat := (x % (c.M : Int)).toNat

/-- `x as u32` for an unsigned `x`: truncation. -/
def asU32 (x : Nat) : Nat := x % 2 ^ 32

/-- `uN::try_from(x).ok()` for a `usize` `x`. -/
def tryFromU (n : Nat) (x : Nat) : Option (U n) := if h : x < 2 ^ n then some ⟨x, h⟩ else none

/-- `iN::try_from(x).ok()` for a `usize` `x`. -/
def tryFromS (n : Nat) (x : Nat) : Option (S n) :=
  if h : -(2 ^ (n - 1)) ≤ (x : Int) ∧ (x : Int) < 2 ^ (n - 1) then some ⟨x, h⟩ else none

/-- `iN::abs_diff`: exact absolute difference, as an unsigned number. -/
def absDiff (a b : Int) : Nat := (a - b).natAbs

/-- `iN::checked_add_unsigned`. -/
def checkedAddUnsigned (n : Nat) (a : Int) (b : Nat) : Option (S n) :=
  if h : -(2 ^ (n - 1)) ≤ a + b ∧ a + b < 2 ^ (n - 1) then some ⟨a + b, h⟩ else none

/-- `NonZeroUN::new(x)` / `NonZeroUN::try_from(x).ok()`. -/
def nzuNew {n : Nat} (x : U n) : Option (NZU n) := if h : x.1 ≠ 0 then some ⟨x.1, x.2, h⟩ else none

/-- `NonZeroIN::new(x)`. -/
def nzsNew {n : Nat} (x : S n) : Option (NZS n) := if h : x.1 ≠ 0 then some ⟨x.1, x.2, h⟩ else none

/-- A signed constant expression of width `w`: overflow is a compile error. -/
def constS (w : Nat) (x : Int) : R Int :=
  if -(2 ^ (w - 1)) ≤ x ∧ x < 2 ^ (w - 1) then .ok x else .error .compileError

/-! ## `u64` words -/

/-- `x << s` on `u64`: a shift by 64 or more panics when overflow checks are on, and otherwise uses
the low 6 bits of the shift amount. -/
def shl64 (c : Cfg) (x : BitVec 64) (s : Nat) : R (BitVec 64) :=
  if s < 64 then .ok (x <<< s)
  else if c.overflowChecks then .error .panic else .ok (x <<< (s % 64))

/-- `a - b` on `u64`. -/
def sub64 (c : Cfg) (a b : BitVec 64) : R (BitVec 64) :=
  if b.toNat ≤ a.toNat then .ok (a - b)
  else if c.overflowChecks then .error .panic else .ok (a - b)

/-- `u64::trailing_zeros`: the position of the lowest set bit, 64 if there is none. -/
def trailingZeros (w : BitVec 64) : Nat := ((List.range 64).find? fun i => w.getLsbD i).getD 64

/-- `u64::leading_zeros`: the number of clear bits above the highest set bit, 64 if there is none. -/
def leadingZeros (w : BitVec 64) : Nat :=
  match (List.range 64).reverse.find? fun i => w.getLsbD i with
  | none => 64
  | some i => 63 - i

/-- `u64::count_ones`. -/
def countOnes (w : BitVec 64) : Nat := (List.range 64).countP fun i => w.getLsbD i

/-- `usize::div_ceil` by a non-zero constant. -/
def divCeil (a b : Nat) : Nat := a / b + (if a % b > 0 then 1 else 0)

/-- `v[i] = x` on a slice; out of bounds panics. -/
def setIdx {α : Type} (l : List α) (i : Nat) (x : α) : R (List α) :=
  if i < l.length then .ok (l.set i x) else .error .panic

/-- `v[i]` on a slice; out of bounds panics. -/
def getIdx {α : Type} (l : List α) (i : Nat) : R α :=
  match l[i]? with
  | some x => .ok x
  | none => .error .panic

/-! ## Simplification lemmas for `R` -/

variable {α β : Type}

@[simp] theorem ok_bind (a : α) (f : α → R β) : (Except.ok a >>= f) = f a := rfl
@[simp] theorem error_bind (e : Fault) (f : α → R β) : ((Except.error e : R α) >>= f) = .error e := rfl
@[simp] theorem pure_eq_ok (a : α) : (pure a : R α) = .ok a := rfl
@[simp] theorem ok_map (a : α) (f : α → β) : (f <$> (Except.ok a : R α)) = .ok (f a) := rfl
@[simp] theorem error_map (e : Fault) (f : α → β) : (f <$> (Except.error e : R α)) = .error e := rfl
@[simp] theorem unwrap_some (a : α) : unwrap (some a) = .ok a := rfl
@[simp] theorem unwrap_none : unwrap (none : Option α) = .error .panic := rfl

theorem addU_ok {c : Cfg} {a b : Nat} (h : a + b < c.M) : addU c a b = .ok (a + b) := by simp [addU, h]
theorem mulU_ok {c : Cfg} {a b : Nat} (h : a * b < c.M) : mulU c a b = .ok (a * b) := by simp [mulU, h]
theorem subU_ok {c : Cfg} {a b : Nat} (h : b ≤ a) : subU c a b = .ok (a - b) := by simp [subU, h]
theorem divU_ok {a b : Nat} (h : b ≠ 0) : divU a b = .ok (a / b) := by simp [divU, h]
theorem remU_ok {a b : Nat} (h : b ≠ 0) : remU a b = .ok (a % b) := by simp [remU, h]
theorem addC_ok {c : Cfg} {a b : Nat} (h : a + b < c.M) : addC c a b = .ok (a + b) := by simp [addC, h]
theorem mulC_ok {c : Cfg} {a b : Nat} (h : a * b < c.M) : mulC c a b = .ok (a * b) := by simp [mulC, h]

theorem Cfg.M_cases (c : Cfg) : (c.bits = 32 ∧ c.M = 4294967296) ∨
    (c.bits = 64 ∧ c.M = 18446744073709551616) := by
  rcases c.bits_ok with h | h
  · exact .inl ⟨h, by simp [Cfg.M, h]⟩
  · exact .inr ⟨h, by simp [Cfg.M, h]⟩

theorem Cfg.M_ge (c : Cfg) : 4294967296 ≤ c.M := by
  rcases c.M_cases with ⟨_, h⟩ | ⟨_, h⟩ <;> omega

theorem Cfg.M_pos (c : Cfg) : 0 < c.M := by have := c.M_ge; omega

end OrdinalMap
