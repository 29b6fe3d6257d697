import Verif.Model.Effect
import Verif.Model.Ordinal
/-!
# The impls for compound types, and `from_iter` of the sets, over impls with state

The same code as in Model/Ordinal.lean and Model/Set.lean.  Operands are evaluated from left to right.
-/

namespace OrdinalMap

variable {σ α β K V : Type}

/-- `impl Ordinal for Option<A>` (std.rs:5-22). -/
def SImpl.option (c : Cfg) (A : SImpl σ α) : SImpl σ (Option α) where
  size := do addC c (← A.size) 1
  ordinal o := match o with
    | none => .of (.ok 0)
    | some a => do
      let i ← A.ordinal a
      .of (addU c i 1)
  fromOrdinal i :=
    if i = 0 then .of (.ok (some none))
    else do
      let j ← M.of (subU c i 1)
      let a ← A.fromOrdinal j
      .of (.ok (a.map some))

/-- `impl Ordinal for Result<A, B>` (std.rs:24-41) and, with the same code, `impl Ordinal for Either<A, B>`
(either.rs:7-24). -/
def SImpl.sum (c : Cfg) (A : SImpl σ α) (B : SImpl σ β) : SImpl σ (α ⊕ β) where
  size := do addC c (← A.size) (← B.size)
  ordinal r := match r with
    | .inl a => A.ordinal a
    | .inr b => do
      let s ← M.of A.size
      let j ← B.ordinal b
      .of (addU c s j)
  fromOrdinal i := do
    let s ← M.of A.size
    if i < s then do
      let a ← M.of (unwrap (← A.fromOrdinal i))
      .of (.ok (some (.inl a)))
    else do
      let j ← M.of (subU c i s)
      let b ← B.fromOrdinal j
      .of (.ok (b.map .inr))

/-- `impl Ordinal for Box<T>` (boxed.rs:3-13). -/
def SImpl.box (A : SImpl σ α) : SImpl σ (Boxed α) where
  size := A.size
  ordinal b := A.ordinal b.unbox
  fromOrdinal i := do
    match ← A.fromOrdinal i with
    | none => .of (.ok none)
    | some a => .of (.ok (some ⟨a⟩))

namespace Eff

/-- The loop of `<[T; N]>::ORDINAL_SIZE` (array.rs:5-13): `k` iterations left. -/
def arraySizeLoop (c : Cfg) (J : SImpl σ K) : (k s : Nat) → R Nat
  | 0, s => .ok s
  | k + 1, s => do
    match checkedMul c s (← J.size) with
    | none => .error .compileError
    | some s' => arraySizeLoop c J k s'

end Eff

/-- `impl Ordinal for [T; N]` (array.rs:4-42).  As in `arrayImpl`, a wrong length of the array that the builder
returns would be undefined behaviour. -/
def SImpl.array (c : Cfg) (N : Nat) (A : SImpl σ α) : SImpl σ (Arr α N) where
  size := Eff.arraySizeLoop c A N 1
  ordinal a := Eff.arrayOrdinalLoop c A a.1 0
  fromOrdinal i := do
    match ← Eff.arrayFrom A N i with
    | none => .of (.ok none)
    | some a => if h : a.length = N then .of (.ok (some ⟨a, h⟩)) else .of (.error .ub)

namespace Eff

/-- The loop of `OrdinalSet::from_iter` (set.rs:98-100). -/
def osetExtend (c : Cfg) (J : SImpl σ K) : OrdinalSet → List K → M σ OrdinalSet
  | t, [] => .of (.ok t)
  | t, x :: xs => do
    let (_, t) ← osetInsert c J t x
    osetExtend c J t xs

/-- `OrdinalSet::from_iter` (set.rs:96-102, 36-45). -/
def osetFromIter (c : Cfg) (J : SImpl σ K) (xs : List K) : M σ OrdinalSet := do
  let t ← M.of (do if (← J.size) ≤ 64 then .ok (.small 0) else .ok (.large []))
  osetExtend c J t xs

/-- The loop of `OrdinalArraySet::from_iter` (array.rs:89-91). -/
def asetExtend (c : Cfg) (J : SImpl σ K) (S : Nat) : OrdinalArraySet → List K → M σ OrdinalArraySet
  | t, [] => .of (.ok t)
  | t, x :: xs => do
    let (_, t) ← asetInsert c J S t x
    asetExtend c J S t xs

/-- `OrdinalTotalMap::new` (total/map.rs:39-44). -/
def newMap (c : Cfg) (J : SImpl σ K) (sz : Nat) (init : K → M σ V) : M σ (List V) := do
  match ← tryNew (E := Empty) c J sz (fun k => do
      let v ← init k
      .of (.ok (.ok v))) with
  | .ok map => .of (.ok map)
  | .error e => nomatch e

end Eff
end OrdinalMap
