import Verif.Text.Parse
import Verif.Model.Ordinal
/-!
# Running Rust syntax trees

An evaluator for the trees of `Verif.Text.Syntax`.  This file is part of the trusted base: it is what the syntax and the `std`
functions mean.  It knows nothing about the crate, except that it supplies `ArrayBuilder` as a bounded list.

* Local variables live at addresses of a heap; a block frees what it allocates.  `&mut` references are addresses with a path
  into the value stored there.  Shared references hold the value they refer to (nothing can change it while they live).
* An iterator of `std` holds the items left.  A `for` loop over an iterator of the program calls its `next` until that is `None`.
* A closure captures the addresses of variables.  Functions that the caller supplies can read and write the memory, and panic.
* A temporary is dropped at the end of a statement if its type has a `drop` in the program; other destructors are not run.
* Integer literals without a type take the type of the other operand, or of the function or constant they are the result of.
* Type inference is not modelled.  A type parameter has one meaning in the whole program.
* Whatever is not supported is an error (`compileError`).
-/

namespace OrdinalMap.Text

/-- Widths of integers. -/
inductive W where
  | w8 | w16 | w32 | w64 | size
  deriving DecidableEq, Repr

/-- Number of bits. -/
def W.bits (c : Cfg) : W → Nat
  | .w8 => 8
  | .w16 => 16
  | .w32 => 32
  | .w64 => 64
  | .size => c.bits

/-- Types at run time: `par p` is the `p`th type parameter. -/
inductive RT where
  | par (p : Nat)
  | uint (w : W)
  | sint (w : W)
  | nzu (w : W)
  | nzs (w : W)
  | con (x : String)
  | arr
  | num (n : Nat)
  /-- a tuple: the widths of those components that are unsigned integers -/
  | tuple (ws : List (Option W))
  deriving DecidableEq, Repr

/-- The meaning of type parameters and of `Self`. -/
abbrev TyEnv := List (String × RT)

/-- Local variables: their addresses. -/
abbrev Env := List (String × Nat)

/-- A step from a value to a part of it. -/
inductive Proj where
  | field (x : String)
  | idx (i : Nat)
  /-- the value as a slice of length 1 -/
  | single
  deriving DecidableEq, Repr

/-- Values.  `P p` is the type of values of the `p`th type parameter. -/
inductive Val (P : Nat → Type) where
  | uint (w : W) (n : Nat)
  | sint (w : W) (n : Int)
  /-- integer literal without a type -/
  | lit (n : Nat)
  | bool (b : Bool)
  | chr (n : Nat)
  | nzu (w : W) (n : Nat)
  | nzs (w : W) (n : Int)
  | str (s : String)
  /-- enum variants, `Box`, and tuples (named `()`) -/
  | con (x : String) (vs : List (Val P))
  | obj (x : String) (fs : List (String × Val P))
  | arr (vs : List (Val P))
  | range (a b : Nat)
  /-- `ArrayBuilder` of the given capacity -/
  | bld (cap : Nat) (vs : List (Val P))
  | usr (p : Nat) (v : P p)
  | ref (v : Val P)
  | mref (a : Nat) (ps : List Proj)
  /-- a constructor as a function -/
  | fn (x : String)
  /-- an iterator of `std` over a slice, an array or a `Vec`: the items left -/
  | it (vs : List (Val P))
  /-- a closure, with what its names mean; variables are captured by their addresses -/
  | clo (te : TyEnv) (env : Env) (ps : Pats) (e : Ex)
  /-- a function that the caller supplies -/
  | ufn (k : Nat)

variable {P : Nat → Type}

namespace Val
/-- `()` -/
def unit : Val P := .con "()" []
/-- `None` -/
def none : Val P := .con "None" []
/-- `Some(v)` -/
def some (v : Val P) : Val P := .con "Some" [v]
/-- An `Option`. -/
def opt : Option (Val P) → Val P
  | .none => none
  | .some v => some v
end Val

/-- Constants are evaluated by the compiler: panics and overflow are errors there. -/
inductive Mode where
  | const | run
  deriving DecidableEq, Repr

/-- Not supported or ill-typed. -/
def stuck {α : Type} : R α := .error .compileError

/-- A panic. -/
def fail {α : Type} (md : Mode) : R α :=
  match md with
  | .const => .error .compileError
  | .run => .error .panic

/-- An arithmetic overflow: `r` is the wrapped result. -/
def overflow {α : Type} (c : Cfg) (md : Mode) (r : α) : R α :=
  match md with
  | .const => .error .compileError
  | .run => if c.overflowChecks then .error .panic else .ok r

/-- Unwrap. -/
def orFail {α : Type} (md : Mode) : Option α → R α
  | some a => .ok a
  | none => fail md

/-! ## Integers -/

/-- Unsigned arithmetic. -/
def uintOp (c : Cfg) (md : Mode) (w : W) (o : BinOp) (a b : Nat) : R (Val P) :=
  let m := 2 ^ w.bits c
  match o with
  | .add => (.uint w ·) <$> if a + b < m then .ok (a + b) else overflow c md ((a + b) % m)
  | .sub => (.uint w ·) <$> if b ≤ a then .ok (a - b) else overflow c md ((a + m - b) % m)
  | .mul => (.uint w ·) <$> if a * b < m then .ok (a * b) else overflow c md ((a * b) % m)
  | .div => if b = 0 then fail md else .ok (.uint w (a / b))
  | .rem => if b = 0 then fail md else .ok (.uint w (a % b))
  | .and => .ok (.uint w (a &&& b))
  | .or => .ok (.uint w (a ||| b))
  | .xor => .ok (.uint w (a ^^^ b))
  | .eq => .ok (.bool (a == b))
  | .ne => .ok (.bool (a != b))
  | .lt => .ok (.bool (decide (a < b)))
  | .gt => .ok (.bool (decide (b < a)))
  | .le => .ok (.bool (decide (a ≤ b)))
  | .ge => .ok (.bool (decide (b ≤ a)))
  | _ => stuck

/-- `n`-bit two's complement. -/
def wrapS (n : Nat) (x : Int) : Int := (x + 2 ^ (n - 1)) % 2 ^ n - 2 ^ (n - 1)

/-- Is `x` an `n`-bit signed integer? -/
def fitsS (n : Nat) (x : Int) : Bool := decide (-(2 ^ (n - 1)) ≤ x ∧ x < 2 ^ (n - 1))

/-- Signed arithmetic. -/
def sintOp (c : Cfg) (md : Mode) (w : W) (o : BinOp) (a b : Int) : R (Val P) :=
  let arith (x : Int) : R (Val P) :=
    (.sint w ·) <$> if fitsS (w.bits c) x then .ok x else overflow c md (wrapS (w.bits c) x)
  match o with
  | .add => arith (a + b)
  | .sub => arith (a - b)
  | .mul => arith (a * b)
  | .eq => .ok (.bool (decide (a = b)))
  | .ne => .ok (.bool (decide (a ≠ b)))
  | .lt => .ok (.bool (decide (a < b)))
  | .gt => .ok (.bool (decide (b < a)))
  | .le => .ok (.bool (decide (a ≤ b)))
  | .ge => .ok (.bool (decide (b ≤ a)))
  | _ => stuck

/-- Two literals; the result stays a literal. -/
def litOp (o : BinOp) (a b : Nat) : R (Val P) :=
  match o with
  | .add => .ok (.lit (a + b))
  | .mul => .ok (.lit (a * b))
  | .eq => .ok (.bool (a == b))
  | .lt => .ok (.bool (decide (a < b)))
  | _ => stuck

/-- `a << s`: too large a shift overflows. -/
def shlOp (c : Cfg) (md : Mode) (w : W) (a s : Nat) : R (Val P) :=
  let n := w.bits c
  (.uint w ·) <$> if s < n then .ok (a * 2 ^ s % 2 ^ n) else overflow c md (a * 2 ^ (s % n) % 2 ^ n)

/-- Operators work through shared references. -/
def strip : Val P → Val P
  | .ref v => v
  | v => v

/-- `a o b`.  A literal that is shifted is a `u64`. -/
def binop (c : Cfg) (md : Mode) (o : BinOp) (v w : Val P) : R (Val P) :=
  match o with
  | .shl => match strip v, strip w with
    | .lit a, .uint _ s => shlOp c md .w64 a s
    | .uint k a, .uint _ s => shlOp c md k a s
    | _, _ => stuck
  | o => match strip v, strip w with
    | .uint k a, .uint k' b => if k = k' then uintOp c md k o a b else stuck
    | .uint k a, .lit b => uintOp c md k o a b
    | .lit a, .uint k b => uintOp c md k o a b
    | .sint k a, .sint k' b => if k = k' then sintOp c md k o a b else stuck
    | .sint k a, .lit b => sintOp c md k o a b
    | .lit a, .sint k b => sintOp c md k o a b
    | .lit a, .lit b => litOp o a b
    | _, _ => stuck

/-- `v as t`. -/
def cast (c : Cfg) (v : Val P) (t : RT) : R (Val P) :=
  match v, t with
  | .uint _ n, .uint w => .ok (.uint w (n % 2 ^ w.bits c))
  | .uint _ n, .sint w => .ok (.sint w (wrapS (w.bits c) n))
  | .sint _ n, .uint w => .ok (.uint w (n % ((2 ^ w.bits c : Nat) : Int)).toNat)
  | .sint _ n, .sint w => .ok (.sint w (wrapS (w.bits c) n))
  | .bool b, .uint w => .ok (.uint w b.toNat)
  | .chr n, .uint w => .ok (.uint w (n % 2 ^ w.bits c))
  | _, _ => stuck

/-- Give literals in a tuple their types. -/
def coerceTuple : List (Option W) → List (Val P) → List (Val P)
  | some w :: ws, .lit n :: vs => .uint w n :: coerceTuple ws vs
  | _ :: ws, v :: vs => v :: coerceTuple ws vs
  | _, vs => vs

/-- Give a literal its type. -/
def coerce (t : Option RT) (v : Val P) : Val P :=
  match t, v with
  | some (.uint w), .lit n => .uint w n
  | some (.sint w), .lit n => .sint w n
  | some (.tuple ws), .con x vs => .con x (coerceTuple ws vs)
  | _, v => v

/-! ## Associated constants and functions of `std` types -/

/-- `T::X` -/
def stdConst (c : Cfg) (t : RT) (x : String) : Option (Val P) :=
  match t with
  | .uint w => if x = "MAX" then some (.uint w (2 ^ w.bits c - 1))
    else if x = "MIN" then some (.uint w 0)
    else if x = "BITS" then some (.uint .w32 (w.bits c)) else none
  | .sint w => if x = "MAX" then some (.sint w (2 ^ (w.bits c - 1) - 1))
    else if x = "MIN" then some (.sint w (-(2 ^ (w.bits c - 1)))) else none
  | .con t => if t = "char" ∧ x = "MAX" then some (.chr 0x10FFFF) else none
  | _ => none

/-- `Ok(v)`, or an error that carries nothing. -/
def okOr (o : Option (Val P)) : Val P :=
  match o with
  | some v => .con "Ok" [v]
  | none => .con "Err" [.con "TryFromIntError" []]

/-- Is `x` a `char`? -/
def isChar (x : Nat) : Bool := decide (x ≤ 0x10FFFF ∧ ¬ (0xD800 ≤ x ∧ x ≤ 0xDFFF))

/-- `T::f(args)` -/
def stdFn (c : Cfg) (t : RT) (f : String) (args : List (Val P)) : Option (R (Val P)) :=
  match t, args with
  | .uint w, [.uint _ n] =>
    if f = "try_from" then some (.ok (okOr (if n < 2 ^ w.bits c then some (.uint w n) else none))) else none
  | .sint w, [.uint _ n] =>
    if f = "try_from" then some (.ok (okOr (if fitsS (w.bits c) n then some (.sint w n) else none))) else none
  | .nzu w, [.uint w' n] =>
    if w ≠ w' then none
    else if f = "new" then some (.ok (.opt (if n ≠ 0 then some (.nzu w n) else none)))
    else if f = "try_from" then some (.ok (okOr (if n ≠ 0 then some (.nzu w n) else none))) else none
  | .nzs w, [.sint w' n] =>
    if w ≠ w' then none
    else if f = "new" then some (.ok (.opt (if n ≠ 0 then some (.nzs w n) else none))) else none
  | .con t, [.uint .w32 n] =>
    if t = "char" ∧ f = "from_u32" then some (.ok (.opt (if isChar n then some (.chr n) else none)))
    else if t = "Box" ∧ f = "new" then some (.ok (.con "Box" [.uint .w32 n])) else none
  | .con t, [v] => if t = "Box" ∧ f = "new" then some (.ok (.con "Box" [v]))
    else if t = "slice" ∧ f = "from_ref" then match v with
      | .ref v => some (.ok (.ref (.arr [v])))
      | _ => none
    else if t = "slice" ∧ f = "from_mut" then match v with
      | .mref a ps => some (.ok (.mref a (ps ++ [.single])))
      | _ => none
    else if t = "Vec" ∧ f = "with_capacity" then some (.ok (.arr []))
    else none
  | .con t, [] => if t = "Vec" ∧ f = "new" then some (.ok (.arr []))
    else if t = "Box" ∧ f = "default" then some (.ok (.arr [])) else none
  | _, _ => none

/-- Bit `i` of `n`, for `i` in `0..k`. -/
def bitsOf (k n : Nat) : List Bool := (List.range k).map n.testBit

/-- The derived `clone` of an enum with these contents: integers and boxed slices of integers. -/
def plain : List (Val P) → Bool
  | [] => true
  | .uint _ _ :: vs => plain vs
  | .arr us :: vs => us.all (fun | .uint _ _ => true | _ => false) && plain vs
  | _ => false

/-- Shared references, which can be copied. -/
def refs : List (Val P) → Bool
  | [] => true
  | .ref _ :: vs => refs vs
  | _ => false

/-- `v.f(args)` for methods that do not change `v`; `v` is not a reference. -/
def stdMethod (c : Cfg) (md : Mode) (v : Val P) (f : String) (args : List (Val P)) : Option (R (Val P)) :=
  match v, args with
  | .uint w a, [.uint w' b] =>
    if w ≠ w' then none
    else if f = "checked_add" then some (.ok (.opt (if a + b < 2 ^ w.bits c then some (.uint w (a + b)) else none)))
    else if f = "checked_sub" then some (.ok (.opt (if b ≤ a then some (.uint w (a - b)) else none)))
    else if f = "checked_mul" then some (.ok (.opt (if a * b < 2 ^ w.bits c then some (.uint w (a * b)) else none)))
    else if f = "checked_rem" then some (.ok (.opt (if b = 0 then none else some (.uint w (a % b)))))
    else if f = "div_ceil" then some (if b = 0 then fail md else .ok (.uint w (a / b + if a % b > 0 then 1 else 0))) else none
  | .uint w a, [] =>
    if f = "count_ones" then some (.ok (.uint .w32 ((bitsOf (w.bits c) a).count true)))
    else if f = "trailing_zeros" then some (.ok (.uint .w32 ((bitsOf (w.bits c) a).takeWhile (· == false)).length))
    else if f = "leading_zeros" then some (.ok (.uint .w32 ((bitsOf (w.bits c) a).reverse.takeWhile (· == false)).length))
    else none
  | .uint w a, [.lit b] =>
    if f = "checked_add" then some (.ok (.opt (if a + b < 2 ^ w.bits c then some (.uint w (a + b)) else none)))
    else none
  | .sint w a, [.sint w' b] =>
    if w = w' ∧ f = "abs_diff" then some (.ok (.uint w (a - b).natAbs)) else none
  | .sint w a, [.uint w' b] =>
    if w = w' ∧ f = "checked_add_unsigned" then
      some (.ok (.opt (if fitsS (w.bits c) (a + b) then some (.sint w (a + b)) else none)))
    else none
  | .nzu w n, [] => if f = "get" then some (.ok (.uint w n)) else none
  | .nzs w n, [] => if f = "get" then some (.ok (.sint w n)) else none
  | .con x vs, [] =>
    if f = "ok" then match x, vs with
      | "Ok", [v] => some (.ok (.some v))
      | "Err", [_] => some (.ok .none)
      | _, _ => none
    else if f = "unwrap" then match x, vs with
      | "Some", [v] => some (.ok v)
      | "Ok", [v] => some (.ok v)
      | "None", [] => some (fail md)
      | "Err", [_] => some (fail md)
      | _, _ => none
    else if f = "clone" then if plain vs then some (.ok (.con x vs)) else none
    else if f = "is_some" then match x, vs with
      | "Some", [_] => some (.ok (.bool true))
      | "None", [] => some (.ok (.bool false))
      | _, _ => none
    else if f = "is_none" then match x, vs with
      | "Some", [_] => some (.ok (.bool false))
      | "None", [] => some (.ok (.bool true))
      | _, _ => none
    else if f = "as_ref" then match x, vs with
      | "Some", [v] => some (.ok (.some (.ref v)))
      | "None", [] => some (.ok .none)
      | _, _ => none
    else none
  | .con x vs, [.fn g] =>
    if f = "map" then match x, vs with
      | "Some", [v] => some (.ok (.some (.con g [v])))
      | "None", [] => some (.ok .none)
      | _, _ => none
    else none
  | .arr vs, [] =>
    if f = "len" then some (.ok (.uint .size vs.length))
    else if f = "is_empty" then some (.ok (.bool vs.isEmpty))
    else if f = "into_boxed_slice" then some (.ok (.arr vs))
    else if f = "into_vec" then some (.ok (.arr vs))
    else if f = "iter" then some (.ok (.it (vs.map .ref)))
    else if f = "into_iter" then some (.ok (.it vs)) else none
  | .arr vs, [.uint .size i] => if f = "get" then some (.ok (.opt (vs[i]?.map .ref))) else none
  | .range a b, [] =>
    if f = "len" then some (.ok (.uint .size (b - a)))
    else if f = "count" then some (.ok (.uint .size (b - a)))
    else if f = "size_hint" then some (.ok (.con "()" [.uint .size (b - a), .some (.uint .size (b - a))]))
    else if f = "clone" then some (.ok (.range a b)) else none
  | .it vs, [] =>
    if f = "len" then some (.ok (.uint .size vs.length))
    else if f = "count" then some (.ok (.uint .size vs.length))
    else if f = "size_hint" then some (.ok (.con "()" [.uint .size vs.length, .some (.uint .size vs.length)]))
    else if f = "clone" then if refs vs then some (.ok (.it vs)) else none
    else none
  | .it vs, [.arr ws] => if f = "zip" then some (.ok (.it (List.zipWith (fun v w => .con "()" [v, w]) vs ws))) else none
  | .bld n vs, [] =>
    if f = "finish" then some (if vs.length = n then .ok (.arr vs) else fail md) else none
  | _, _ => none

/-- `v.f(args)` for methods that change `v`: the result and the new `v`. -/
def stdMut (md : Mode) (v : Val P) (f : String) (args : List (Val P)) : Option (R (Val P × Val P)) :=
  match v, args with
  | .bld n vs, [x] =>
    if f = "push" then some (if vs.length < n then .ok (.unit, .bld n (vs ++ [x])) else fail md) else none
  | .arr vs, [] => if f = "reverse" then some (.ok (.unit, .arr vs.reverse)) else none
  | .arr vs, [x] => if f = "push" then some (.ok (.unit, .arr (vs ++ [x]))) else none
  | .con x vs, [] =>
    if f = "take" then match x, vs with
      | "Some", [v] => some (.ok (.some v, .none))
      | "None", [] => some (.ok (.none, .none))
      | _, _ => none
    else none
  | .con x vs, [w] =>
    if f = "replace" then match x, vs with
      | "Some", [v] => some (.ok (.some v, .some w))
      | "None", [] => some (.ok (.none, .some w))
      | _, _ => none
    else none
  | .it vs, [] =>
    if f = "next" then some (.ok (.opt vs.head?, .it vs.tail))
    else if f = "next_back" then some (.ok (.opt vs.getLast?, .it vs.dropLast))
    else none
  | .range a b, [] =>
    if f = "next" then some (.ok (if a < b then (.some (.uint .size a), .range (a + 1) b) else (.none, .range a b)))
    else if f = "next_back" then
      some (.ok (if a < b then (.some (.uint .size (b - 1)), .range a (b - 1)) else (.none, .range a b)))
    else none
  | _, _ => none

/-! ## Memory -/

/-- The memory: values by address. -/
abbrev Heap (P : Nat → Type) := List (Val P)

/-- The address of a variable. -/
def Env.find (x : String) : Env → Option Nat
  | [] => none
  | (y, a) :: e => if x = y then some a else Env.find x e

/-- A field. -/
def findField (x : String) : List (String × Val P) → Option (Val P)
  | [] => none
  | (y, v) :: fs => if x = y then some v else findField x fs

/-- Replace a field. -/
def setField (x : String) (w : Val P) : List (String × Val P) → List (String × Val P)
  | [] => []
  | (y, v) :: fs => if x = y then (y, w) :: fs else (y, v) :: setField x w fs

/-- A part of a value; an index out of bounds panics. -/
def part (md : Mode) (v : Val P) (p : Proj) : R (Val P) :=
  match v, p with
  | .obj _ fs, .field x => match findField x fs with
    | some v => .ok v
    | none => stuck
  | .con _ vs, .idx i => match vs[i]? with
    | some v => .ok v
    | none => stuck
  | .arr vs, .idx i => match vs[i]? with
    | some v => .ok v
    | none => fail md
  | v, .single => .ok (.arr [v])
  | _, _ => stuck

/-- Replace a part of a value. -/
def setPart (v : Val P) (p : Proj) (w : Val P) : R (Val P) :=
  match v, p with
  | .obj x fs, .field y => .ok (.obj x (setField y w fs))
  | .con x vs, .idx i => .ok (.con x (vs.set i w))
  | .arr vs, .idx i => .ok (.arr (vs.set i w))
  | _, .single => match w with
    | .arr [w] => .ok w
    | _ => stuck
  | _, _ => stuck

/-- Follow a path. -/
def getPath (md : Mode) : Val P → List Proj → R (Val P)
  | v, [] => .ok v
  | v, p :: ps => do getPath md (← part md v p) ps

/-- Write at a path. -/
def setPath (md : Mode) (w : Val P) : Val P → List Proj → R (Val P)
  | _, [] => .ok w
  | v, p :: ps => do setPart v p (← setPath md w (← part md v p) ps)

/-- What an expression denotes: a place, or a value that is not in memory. -/
inductive Loc (P : Nat → Type) where
  | heap (a : Nat) (ps : List Proj)
  | val (v : Val P)

/-- Read. -/
def Loc.get (md : Mode) (h : Heap P) : Loc P → R (Val P)
  | .heap a ps => match h[a]? with
    | some v => getPath md v ps
    | none => stuck
  | .val v => .ok v

/-- Write. -/
def Loc.set (md : Mode) (h : Heap P) (w : Val P) : Loc P → R (Heap P)
  | .heap a ps => match h[a]? with
    | some v => do .ok (h.set a (← setPath md w v ps))
    | none => stuck
  | .val _ => stuck

/-- A part of a value that is not a place; the ends of a `Range` are read only there. -/
def valPart (md : Mode) (v : Val P) (p : Proj) : R (Val P) :=
  match v, p with
  | .range a b, .field x => if x = "start" then .ok (.uint .size a) else if x = "end" then .ok (.uint .size b) else stuck
  | _, _ => part md v p

/-- Go to a part. -/
def Loc.proj (md : Mode) (p : Proj) : Loc P → R (Loc P)
  | .heap a ps => .ok (.heap a (ps ++ [p]))
  | .val v => do .ok (.val (← valPart md v p))

/-- `*l` for a reference or box `v` at `l`; other values stay. -/
def Loc.derefOf (l : Loc P) (v : Val P) : R (Loc P) :=
  match v with
  | .ref v => .ok (.val v)
  | .mref a ps => .ok (.heap a ps)
  | .con "Box" [v] => match l with
    | .heap a ps => .ok (.heap a (ps ++ [.idx 0]))
    | .val _ => .ok (.val v)
  | _ => stuck

/-- Follow references (not boxes), as field access and method calls do.  `v` is the value at `l`. -/
def Loc.follow (md : Mode) (h : Heap P) : Nat → Loc P → Val P → R (Loc P × Val P)
  | 0, _, _ => stuck
  | n + 1, l, v => match v with
    | .ref v => Loc.follow md h n (.val v) v
    | .mref a ps => match Loc.get md h (.heap a ps) with
      | .ok v => Loc.follow md h n (.heap a ps) v
      | .error f => .error f
    | v => .ok (l, v)

/-- Follow references from `l`. -/
def Loc.auto (md : Mode) (h : Heap P) (l : Loc P) : R (Loc P × Val P) :=
  match l.get md h with
  | .ok v => Loc.follow md h 8 l v
  | .error f => .error f

/-- How the evaluation of an expression ends. -/
inductive Ctl (P : Nat → Type) where
  | loc (l : Loc P)
  | ret (v : Val P)
  | brk
  | cont

/-- The result of evaluating an expression. -/
abbrev Res (P : Nat → Type) := R (Ctl P × Heap P)

/-- A value as a result. -/
def Res.val (v : Val P) (h : Heap P) : Res P := .ok (.loc (.val v), h)

/-- Go on with the place. -/
def Res.onLoc (r : Res P) (k : Loc P → Heap P → Res P) : Res P :=
  match r with
  | .ok (.loc l, h) => k l h
  | r => r

/-- Go on with the value. -/
def Res.onVal (md : Mode) (r : Res P) (k : Val P → Heap P → Res P) : Res P :=
  match r with
  | .ok (.loc l, h) => match l.get md h with
    | .ok v => k v h
    | .error f => .error f
  | r => r

/-- The result of a computation on values. -/
def lift {α : Type} (r : R α) (k : α → Res P) : Res P :=
  match r with
  | .ok a => k a
  | .error f => .error f

/-- Free what was allocated since the heap had `n` cells; the result is moved out. -/
def Res.scope (md : Mode) (n : Nat) (r : Res P) : Res P :=
  match r with
  | .ok (.loc l, h) => match l.get md h with
    | .ok v => .ok (.loc (.val v), h.take n)
    | .error f => .error f
  | .ok (k, h) => .ok (k, h.take n)
  | .error f => .error f

/-! ## Patterns -/

/-- How a pattern variable binds: by value, or by reference if a reference was matched through. -/
inductive Bind where
  | move | ref

/-- What the variables of a pattern are bound to, if it matches the value at `l`. -/
abbrev Binds (P : Nat → Type) := R (Option (List (String × Val P)))

/-- What a variable is bound to: the value, or a reference to it. -/
def bindTo (b : Bind) (l : Loc P) (v : Val P) : Val P :=
  match b with
  | .move => v
  | .ref => match l with
    | .heap a ps => .mref a ps
    | .val v => .ref v

/-- Is this path a constructor without arguments rather than a variable?  Those start with a capital letter. -/
def isCtor (x : String) : Bool := match x.toList with
  | c :: _ => inRange 65 90 c
  | [] => false

/-- The last name of a path. -/
def lastName : List String → String
  | [] => ""
  | [x] => x
  | _ :: p => lastName p

mutual
/-- Match a value against a pattern.  References are matched through. -/
def matchPat (md : Mode) (h : Heap P) : Pat → Bind → Loc P → Binds P
  | .wild, _, _ => .ok (some [])
  | .num n, _, l => do
    match (← Loc.auto md h l).2 with
    | .uint _ k => .ok (if k = n then some [] else none)
    | _ => stuck
  | .bool t, _, l => do
    match (← Loc.auto md h l).2 with
    | .bool k => .ok (if k = t then some [] else none)
    | _ => stuck
  | .mutVar x, b, l => do .ok (some [(x, bindTo b l (← l.get md h))])
  | .path p, b, l =>
    let x := lastName p
    if isCtor x then do
      match (← Loc.auto md h l).2 with
      | .con y [] => .ok (if x = y then some [] else none)
      | .con y _ => if x = y then stuck else .ok none
      | _ => stuck
    else do .ok (some [(x, bindTo b l (← l.get md h))])
  | .ctor p ps, b, l => do
    let v ← l.get md h
    let (m, w) ← Loc.auto md h l
    let b := match v with
      | .ref _ => .ref
      | .mref _ _ => .ref
      | _ => b
    match w with
    | .con y vs =>
      if lastName p = y then matchPats md h ps b m 0 vs.length else .ok none
    | _ => stuck
  | .tuple ps, b, l => do
    let v ← l.get md h
    let (m, w) ← Loc.auto md h l
    let b := match v with
      | .ref _ => .ref
      | .mref _ _ => .ref
      | _ => b
    match w with
    | .con y vs => if y = "()" then matchPats md h ps b m 0 vs.length else stuck
    | _ => stuck
  | .ref p, b, l => do matchPat md h p b (← l.derefOf (← l.get md h))
/-- Match the parts `i ..< n` of the value at `l`. -/
def matchPats (md : Mode) (h : Heap P) : Pats → Bind → Loc P → Nat → Nat → Binds P
  | .nil, _, _, i, n => if i = n then .ok (some []) else stuck
  | .cons p ps, b, l, i, n => do
    match ← matchPat md h p b (← l.proj md (.idx i)) with
    | none => .ok none
    | some xs => match ← matchPats md h ps b l (i + 1) n with
      | none => .ok none
      | some ys => .ok (some (xs ++ ys))
end

/-- Allocate variables. -/
def alloc : List (String × Val P) → Env → Heap P → Env × Heap P
  | [], e, h => (e, h)
  | (x, v) :: xs, e, h => alloc xs ((x, h.length) :: e) (h ++ [v])

/-! ## Loops -/

/-- `while`: `body` returns `none` when the condition fails.  The count bounds the number of iterations. -/
def whileLoop (body : Heap P → R (Option (Ctl P) × Heap P)) : Nat → Heap P → Res P
  | 0, _ => .error .diverge
  | n + 1, h => match body h with
    | .error f => .error f
    | .ok (none, h) => Res.val .unit h
    | .ok (some (.loc _), h) => whileLoop body n h
    | .ok (some .cont, h) => whileLoop body n h
    | .ok (some .brk, h) => Res.val .unit h
    | .ok (some (.ret v), h) => .ok (.ret v, h)

/-- `for` over a list of values. -/
def forLoop (body : Val P → Heap P → Res P) : List (Val P) → Heap P → Res P
  | [], h => Res.val .unit h
  | v :: vs, h => match body v h with
    | .error f => .error f
    | .ok (.loc _, h) => forLoop body vs h
    | .ok (.cont, h) => forLoop body vs h
    | .ok (.brk, h) => Res.val .unit h
    | .ok (.ret v, h) => .ok (.ret v, h)

/-- Call `next` until it returns `None`, and count.  The first number bounds the number of calls. -/
def countLoop (next : Heap P → R (Val P × Heap P)) : Nat → Nat → Heap P → R (Nat × Heap P)
  | 0, _, _ => .error .diverge
  | n + 1, k, h => match next h with
    | .ok (.con "None" [], h) => .ok (k, h)
    | .ok (.con "Some" [_], h) => countLoop next n (k + 1) h
    | .ok _ => .error .compileError
    | .error f => .error f

/-- `for` over an iterator. -/
def iterLoop (next : Heap P → R (Val P × Heap P)) (body : Val P → Heap P → Res P) : Nat → Heap P → Res P
  | 0, _ => .error .diverge
  | n + 1, h => match next h with
    | .ok (.con "None" [], h) => Res.val .unit h
    | .ok (.con "Some" [v], h) => match body v h with
      | .error f => .error f
      | .ok (.loc _, h) => iterLoop next body n h
      | .ok (.cont, h) => iterLoop next body n h
      | .ok (.brk, h) => Res.val .unit h
      | .ok (.ret v, h) => .ok (.ret v, h)
    | .ok _ => .error .compileError
    | .error f => .error f

/-- What `for` iterates over. -/
def iterate : Val P → R (List (Val P))
  | .range a b => .ok ((List.range' a (b - a)).map (.uint .size ·))
  | .ref (.arr vs) => .ok (vs.map .ref)
  | .arr vs => .ok vs
  | .it vs => .ok vs
  | _ => stuck

/-! ## Types -/

/-- Integer types by name. -/
def intTy (x : String) : Option RT :=
  if x = "usize" then some (.uint .size) else if x = "u8" then some (.uint .w8) else if x = "u16" then some (.uint .w16)
  else if x = "u32" then some (.uint .w32) else if x = "u64" then some (.uint .w64)
  else if x = "isize" then some (.sint .size) else if x = "i8" then some (.sint .w8) else if x = "i16" then some (.sint .w16)
  else if x = "i32" then some (.sint .w32) else if x = "i64" then some (.sint .w64)
  else if x = "NonZeroUsize" then some (.nzu .size) else if x = "NonZeroU8" then some (.nzu .w8)
  else if x = "NonZeroU16" then some (.nzu .w16) else if x = "NonZeroU32" then some (.nzu .w32)
  else if x = "NonZeroU64" then some (.nzu .w64)
  else if x = "NonZeroIsize" then some (.nzs .size) else if x = "NonZeroI8" then some (.nzs .w8)
  else if x = "NonZeroI16" then some (.nzs .w16) else if x = "NonZeroI32" then some (.nzs .w32)
  else if x = "NonZeroI64" then some (.nzs .w64)
  else none

/-- The meaning of a name. -/
def TyEnv.find (x : String) : TyEnv → Option RT
  | [] => none
  | (y, t) :: e => if x = y then some t else TyEnv.find x e

/-- The type a name stands for. -/
def nameTy (te : TyEnv) (x : String) : RT :=
  match te.find x with
  | some t => t
  | none => match intTy x with
    | some t => t
    | none => .con x

/-- The widths of the components of a tuple. -/
def tupleTys (te : TyEnv) : Tys → List (Option W)
  | .nil => []
  | .cons (.path p _) ts => (match nameTy te (lastName p) with
    | .uint w => some w
    | _ => none) :: tupleTys te ts
  | .cons _ ts => none :: tupleTys te ts

/-- The type at run time. -/
def rty (te : TyEnv) : Ty → Option RT
  | .tuple ts => some (.tuple (tupleTys te ts))
  | .path p _ => some (nameTy te (lastName p))
  | .arr _ _ => some .arr
  | .ref _ t => rty te t
  | _ => none

/-- The type of a value. -/
def typeOf : Val P → Option RT
  | .uint w _ => some (.uint w)
  | .sint w _ => some (.sint w)
  | .nzu w _ => some (.nzu w)
  | .nzs w _ => some (.nzs w)
  | .bool _ => some (.con "bool")
  | .chr _ => some (.con "char")
  | .arr _ => some .arr
  | .obj x _ => some (.con x)
  | .usr p _ => some (.par p)
  | .it _ => some (.con "std::Iter")
  | _ => none

/-! ## Expressions -/

/-- What an expression can refer to outside itself. -/
structure Outside (P : Nat → Type) where
  /-- `T::X` -/
  const : RT → String → R (Val P)
  /-- `X` -/
  glob : String → R (Val P)
  /-- `T::f(args)` -/
  call : RT → String → List (Val P) → Heap P → R (Val P × Heap P)
  /-- how `v.f()` takes `self`, for `v` of type `T` -/
  self : RT → String → Option SelfKind
  /-- `f(args)` -/
  free : String → List (Val P) → Heap P → R (Val P × Heap P)
  /-- `f(args)` for a closure `f` -/
  apply : Val P → List (Val P) → Heap P → R (Val P × Heap P)
  /-- the types of the fields of a struct -/
  struct : String → Option (List (String × Ty))
  /-- the types in a variant of an enum -/
  variant : String → String → Option Tys

/-- Give literals the types of the fields they are stored in. -/
def coerceFields (te : TyEnv) (fs : Option (List (String × Ty))) (vs : List (String × Val P)) : List (String × Val P) :=
  vs.map fun (x, v) => (x, match fs with
    | some fs => match fs.lookup x with
      | some t => coerce (rty te t) v
      | none => v
    | none => v)

/-- Give literals the types of the parameters they are passed for. -/
def coerceArgs (te : TyEnv) : Tys → List (Val P) → List (Val P)
  | .cons t ts, v :: vs => coerce (rty te t) v :: coerceArgs te ts vs
  | _, vs => vs

/-- Constructors that are functions. -/
def isFnCtor (x : String) : Bool := x == "Some" || x == "Ok" || x == "Err" || x == "Left" || x == "Right"

/-- `x` as an expression. -/
def nameVal (te : TyEnv) (o : Outside P) (env : Env) (x : String) (h : Heap P) : Res P :=
  match env.find x with
  | some a => .ok (.loc (.heap a []), h)
  | none => match te.find x with
    | some (.num n) => .ok (.loc (.val (.uint .size n)), h)
    | _ => if isFnCtor x then Res.val (.fn x) h
      else if x = "None" then Res.val .none h
      else if x = "PhantomData" then Res.val (.con x []) h
      else lift (o.glob x) fun v => Res.val v h

/-- `t::x` as an expression. -/
def pathVal (c : Cfg) (te : TyEnv) (o : Outside P) (t x : String) (h : Heap P) : Res P :=
  match stdConst c (nameTy te t) x with
  | some v => Res.val v h
  | none =>
    if isFnCtor x then Res.val (.fn x) h
    else if t = "Ordering" then Res.val (.con x []) h
    else lift (o.const (nameTy te t) x) fun v => Res.val v h

/-- `mem::take` of an `Option`, `mem::replace` -/
def memFn (f : String) (args : List (Val P)) (h : Heap P) : Res P :=
  match args with
  | [.mref a ps] => if f = "take" then lift (Loc.get .run h (.heap a ps)) fun v => match v with
      | .con x vs => if x = "Some" ∨ x = "None" then
          lift (Loc.set .run h .none (.heap a ps)) fun h => Res.val (.con x vs) h else .error .compileError
      | _ => .error .compileError
    else .error .compileError
  | [.mref a ps, w] => if f = "replace" then lift (Loc.get .run h (.heap a ps)) fun v =>
      lift (Loc.set .run h w (.heap a ps)) fun h => Res.val v h
    else .error .compileError
  | _ => .error .compileError

/-- A call `t::f(args)`. -/
def callTy (c : Cfg) (te : TyEnv) (o : Outside P) (t f : String) (args : List (Val P)) (h : Heap P) : Res P :=
  if isFnCtor f then Res.val (.con f args) h
  else if isCtor f then match o.variant t f with
    | some ts => Res.val (.con f (coerceArgs te ts args)) h
    | none => .error .compileError
  else if t = "ArrayBuilder" ∧ f = "new" then match te.find "N" with
    | some (.num n) => Res.val (.bld n []) h
    | _ => .error .compileError
  else if t = "mem" ∧ (f = "take" ∨ f = "replace") then memFn f args h
  else match stdFn c (nameTy te t) f args with
    | some r => lift r fun v => Res.val v h
    | none => lift (o.call (nameTy te t) f args h) fun (v, h) => Res.val v h

/-- A call of a path: a variable that holds a closure, or a function. -/
def callPath (c : Cfg) (te : TyEnv) (o : Outside P) (env : Env) (p : List Seg) (args : List (Val P)) (h : Heap P) : Res P :=
  match p with
  | [⟨x, _⟩] => match env.find x with
    | some a => lift (Loc.get .run h (.heap a [])) fun g => lift (o.apply g args h) fun (v, h) => Res.val v h
    | none => if isFnCtor x then Res.val (.con x args) h else lift (o.free x args h) fun (v, h) => Res.val v h
  | [⟨t, _⟩, ⟨f, _⟩] => callTy c te o t f args h
  | [⟨m, _⟩, ⟨t, _⟩, ⟨f, _⟩] => if m = "crate" then callTy c te o t f args h else .error .compileError
  | _ => .error .compileError

/-- What is in the slice of an item of a slice iterator: the item, or what it refers to. -/
def itemAt (md : Mode) (h : Heap P) : Val P → R (Val P)
  | .mref a ps => Loc.get md h (.heap a ps)
  | v => .ok v

/-- `split_first_mut` of a slice with these references to its elements.  The rest of the slice is the references to its elements. -/
def splitFirst : List (Val P) → Val P
  | [] => .none
  | r :: rs => .some (.con "()" [r, .it rs])

/-- `l.f(args)` for methods of `Option` and of slices that return references into `l`, and `as_slice` of iterators; `v` is the value at `l` -/
def stdPlace (md : Mode) (l : Loc P) (v : Val P) (f : String) (args : List (Val P)) (h : Heap P) : Option (R (Val P × Heap P)) :=
  match l, v, args with
  | .heap a ps, .con x vs, [] =>
    if f = "as_mut" then match x, vs with
      | "Some", [_] => some (.ok (.some (.mref a (ps ++ [.idx 0])), h))
      | "None", [] => some (.ok (.none, h))
      | _, _ => none
    else none
  | .heap a ps, .con x _, [w] =>
    if f = "insert" ∧ (x = "Some" ∨ x = "None") then
      some ((fun h => (.mref a (ps ++ [.idx 0]), h)) <$> Loc.set md h (.some w) (.heap a ps))
    else none
  | .heap a ps, .arr vs, [] =>
    if f = "iter_mut" then some (.ok (.it ((List.range vs.length).map fun i => .mref a (ps ++ [.idx i])), h))
    else if f = "split_first_mut" then some (.ok (splitFirst ((List.range vs.length).map fun i => .mref a (ps ++ [.idx i])), h))
    else none
  | .heap a ps, .arr vs, [.uint .size i] =>
    if f = "get_mut" then some (.ok (if i < vs.length then .some (.mref a (ps ++ [.idx i])) else .none, h)) else none
  | _, .it vs, [] => if f = "as_slice" then some ((fun vs => (.ref (.arr vs), h)) <$> vs.mapM (itemAt md h))
    else if f = "split_first_mut" then some (.ok (splitFirst vs, h)) else none
  | _, _, _ => none

/-- `v.map(g)` for an `Option` and a closure; for an iterator, the adaptor. -/
def mapMethod (o : Outside P) (v : Val P) (f : String) (args : List (Val P)) (h : Heap P) : Option (R (Val P × Heap P)) :=
  match args with
  | [.clo te env ps e] =>
    if f = "map" then match v with
      | .con "Some" [w] => some ((fun r => (.some r.1, r.2)) <$> o.apply (.clo te env ps e) [w] h)
      | .con "None" [] => some (.ok (.none, h))
      | .obj x fs => match o.self (.con x) "map" with
        | none => some (.ok (.con "Map" [.obj x fs, .clo te env ps e], h))
        | some _ => none
      | _ => none
    else none
  | _ => none

/-- A method call; the receiver is at `l`. -/
def callMethod (c : Cfg) (md : Mode) (o : Outside P) (l : Loc P) (f : String) (args : List (Val P)) (h : Heap P) : Res P :=
  lift (Loc.auto md h l) fun (l, v) =>
    match stdMethod c md v f args with
    | some r => lift r fun v => Res.val v h
    | none => match stdMut md v f args with
      | some r => lift r fun (x, v) => lift (l.set md h v) fun h => Res.val x h
      | none => match stdPlace md l v f args h with
      | some r => lift r fun (x, h) => Res.val x h
      | none => match mapMethod o v f args h with
      | some r => lift r fun (x, h) => Res.val x h
      | none => match typeOf v with
        | none => .error .compileError
        | some t => match o.self t f, l with
          | some .value, _ => lift (o.call t f (v :: args) h) fun (v, h) => Res.val v h
          | some .ref, _ => lift (o.call t f (.ref v :: args) h) fun (v, h) => Res.val v h
          | some .refMut, .heap a ps => lift (o.call t f (.mref a ps :: args) h) fun (v, h) => Res.val v h
          | some .refMut, .val v =>
            lift (o.call t f (.mref h.length [] :: args) (h ++ [v])) fun (v, h') => Res.val v (h'.take h.length)
          | none, _ => if f = "count" then
              lift (countLoop (o.call t "next" [.mref h.length []]) (c.M + 1) 0 (h ++ [v])) fun (k, h') =>
                Res.val (.uint .size k) (h'.take h.length)
            else .error .compileError
          | _, _ => .error .compileError

/-- `e?` -/
def tryVal (v : Val P) (h : Heap P) : Res P :=
  match v with
  | .con "Some" [v] => Res.val v h
  | .con "Ok" [v] => Res.val v h
  | .con "None" [] => .ok (.ret .none, h)
  | .con "Err" [v] => .ok (.ret (.con "Err" [v]), h)
  | _ => .error .compileError

/-- `-v`, `!v` -/
def unop (c : Cfg) (o : UnOp) (v : Val P) : R (Val P) :=
  match o, v with
  | .not, .bool b => .ok (.bool !b)
  | .not, .uint w n => .ok (.uint w (2 ^ w.bits c - 1 - n))
  | _, _ => stuck

/-- `a..b` -/
def rangeVal (a b : Val P) : R (Val P) :=
  match a, b with
  | .uint .size a, .uint .size b => .ok (.range a b)
  | .lit a, .uint .size b => .ok (.range a b)
  | _, _ => stuck

/-- The result of a macro: `assert!` and `debug_assert!` with an optional message, `vec!` of an array. -/
def macVal (md : Mode) (x : String) (vs : List (Val P)) (h : Heap P) : Res P :=
  match vs with
  | .bool b :: _ =>
    if x = "assert" ∨ x = "debug_assert" then if b then Res.val .unit h else fail md else .error .compileError
  | [v] => if x = "vec" then Res.val v h else .error .compileError
  | _ => .error .compileError

/-- The result of a macro; `write!` is outside. -/
def macCall (o : Outside P) (md : Mode) (x : String) (vs : List (Val P)) (h : Heap P) : Res P :=
  if x = "write" then lift (o.free "write!" vs h) fun (v, h) => Res.val v h else macVal md x vs h

/-- `[v; n]`; a literal is a `u64`. -/
def repeatVal (v n : Val P) : R (Val P) :=
  match n with
  | .uint .size n => .ok (.arr (List.replicate n (coerce (some (.uint .w64)) v)))
  | _ => stuck

/-- A reference to a place. -/
def refTo (isMut : Bool) (md : Mode) (l : Loc P) (h : Heap P) : Res P :=
  match isMut, l with
  | true, .heap a ps => lift (Loc.get md h (.heap a ps)) fun _ => Res.val (.mref a ps) h
  | true, .val _ => .error .compileError
  | false, l => lift (l.get md h) fun v => Res.val (.ref v) h

/-- `l[i]`; `v` is the value at `l`.  For a struct this is `index_mut` if `l` is a place, and `index` otherwise. -/
def indexAt (o : Outside P) (md : Mode) (l : Loc P) (v i : Val P) (h : Heap P) : Res P :=
  match v with
  | .obj x _ => match l with
    | .heap a ps => lift (o.call (.con x) "index_mut" [.mref a ps, i] h) fun (r, h) =>
      lift (Loc.derefOf (.val r) r) fun l => .ok (.loc l, h)
    | .val v => lift (o.call (.con x) "index" [.ref v, i] h) fun (r, h) =>
      lift (Loc.derefOf (.val r) r) fun l => .ok (.loc l, h)
  | _ => match i with
    | .uint .size n => lift (l.proj md (.idx n)) fun l => .ok (.loc l, h)
    | _ => .error .compileError

/-- The end of a statement drops a value that is not in memory. -/
def dropTemp (o : Outside P) (l : Loc P) (h : Heap P) : R (Heap P) :=
  match l with
  | .val (.obj x fs) => match o.self (.con x) "drop" with
    | some _ => (fun r => r.2.take h.length) <$> o.call (.con x) "drop" [.mref h.length []] (h ++ [.obj x fs])
    | none => .ok h
  | _ => .ok h

/-- `for` over a value: an iterator of the program, such an iterator with `map`, a reference to one, or one of `std`. -/
def forAny (c : Cfg) (o : Outside P) (md : Mode) (body : Val P → Heap P → Res P) (v : Val P) (h : Heap P) : Res P :=
  match v with
  | .obj x fs => (iterLoop (o.call (.con x) "next" [.mref h.length []]) body (c.M + 1) (h ++ [.obj x fs])).scope md h.length
  | .con "Map" [.obj x fs, g] => (iterLoop (fun h' => do
      match ← o.call (.con x) "next" [.mref h.length []] h' with
      | (.con "Some" [w], h') => do
        let (r, h') ← o.apply g [w] h'
        .ok (.some r, h')
      | r => .ok r) body (c.M + 1) (h ++ [.obj x fs])).scope md h.length
  | .mref a ps => lift (Loc.get md h (.heap a ps)) fun
    | .obj x _ => iterLoop (o.call (.con x) "next" [.mref a ps]) body (c.M + 1) h
    | _ => .error .compileError
  | v => lift (iterate v) fun vs => forLoop body vs h

mutual
/-- An expression. -/
def eval (c : Cfg) (te : TyEnv) (o : Outside P) : Ex → Mode → Env → Heap P → Res P
  | .num n s, _, _, h => if s = "" then Res.val (.lit n) h else Res.val (coerce (intTy s) (.lit n)) h
  | .str s, _, _, h => Res.val (.str s) h
  | .bool b, _, _, h => Res.val (.bool b) h
  | .path p, _, env, h => match p with
    | [⟨x, _⟩] => nameVal te o env x h
    | [⟨t, _⟩, ⟨x, _⟩] => pathVal c te o t x h
    | _ => .error .compileError
  | .un .deref e, md, env, h =>
    (eval c te o e md env h).onLoc fun l h => lift (l.get md h) fun v => lift (l.derefOf v) fun l => .ok (.loc l, h)
  | .un u e, md, env, h => (eval c te o e md env h).onVal md fun v h => lift (unop c u v) fun v => Res.val v h
  | .ref m e, md, env, h => (eval c te o e md env h).onLoc fun l h => refTo m md l h
  | .bin .land a b, md, env, h => (eval c te o a md env h).onVal md fun v h => match v with
    | .bool true => eval c te o b md env h
    | .bool false => Res.val (.bool false) h
    | _ => .error .compileError
  | .bin .lor a b, md, env, h => (eval c te o a md env h).onVal md fun v h => match v with
    | .bool false => eval c te o b md env h
    | .bool true => Res.val (.bool true) h
    | _ => .error .compileError
  | .bin p a b, md, env, h => (eval c te o a md env h).onVal md fun v h => (eval c te o b md env h).onVal md fun w h =>
    lift (binop c md p v w) fun r => Res.val r h
  | .assign a b, md, env, h => (eval c te o b md env h).onVal md fun v h => (eval c te o a md env h).onLoc fun l h =>
    lift (l.set md h v) fun h => Res.val .unit h
  | .assignOp p a b, md, env, h => (eval c te o b md env h).onVal md fun w h => (eval c te o a md env h).onLoc fun l h =>
    lift (l.get md h) fun v => lift (binop c md p v w) fun r => lift (l.set md h r) fun h => Res.val .unit h
  | .cast e t, md, env, h => (eval c te o e md env h).onVal md fun v h => match rty te t with
    | some t => lift (cast c v t) fun v => Res.val v h
    | none => .error .compileError
  | .call (.path p) args, md, env, h => evalArgs c te o args md env h fun vs h => callPath c te o env p vs h
  | .method e f _ args, md, env, h => (eval c te o e md env h).onLoc fun l h =>
    evalArgs c te o args md env h fun vs h => callMethod c md o l f vs h
  | .field e x, md, env, h => (eval c te o e md env h).onLoc fun l h =>
    lift (Loc.auto md h l) fun (l, _) => lift (l.proj md (.field x)) fun l => .ok (.loc l, h)
  | .index e i, md, env, h => (eval c te o e md env h).onLoc fun l h => (eval c te o i md env h).onVal md fun i h =>
    lift (Loc.auto md h l) fun (l, v) => indexAt o md l v i h
  | .try e, md, env, h => (eval c te o e md env h).onVal md tryVal
  | .tuple es, md, env, h => evalArgs c te o es md env h fun vs h => Res.val (.con "()" vs) h
  | .record [⟨x, _⟩] fs, md, env, h => evalFields c te o fs md env h fun vs h =>
    let x := match te.find x with | some (.con y) => y | _ => x
    Res.val (.obj x (coerceFields te (o.struct x) vs)) h
  | .block b, md, env, h => (evalBlk c te o b md env h).scope md h.length
  | .unsafeBlock b, md, env, h => (evalBlk c te o b md env h).scope md h.length
  | .constBlock b, _, _, h => (evalBlk c te o b .const [] h).scope .const h.length
  | .ifE e b f, md, env, h => (eval c te o e md env h).onVal md fun v h => match v with
    | .bool true => (evalBlk c te o b md env h).scope md h.length
    | .bool false => eval c te o f md env h
    | _ => .error .compileError
  | .ifLet p e b f, md, env, h => (eval c te o e md env h).onLoc fun l h' =>
    lift (matchPat md h' p .move l) fun
      | some xs => (evalBlk c te o b md (alloc xs env h').1 (alloc xs env h').2).scope md h'.length
      | none => eval c te o f md env h'
  | .matchE e arms, md, env, h => (eval c te o e md env h).onLoc fun l h => evalArms c te o arms md env h l
  | .whileE e b, md, env, h => whileLoop (fun h => match (eval c te o e md env h).onVal md fun v h => Res.val v h with
    | .ok (.loc (.val (.bool true)), h) => match (evalBlk c te o b md env h).scope md h.length with
      | .ok (k, h) => .ok (some k, h)
      | .error f => .error f
    | .ok (.loc (.val (.bool false)), h) => .ok (none, h)
    | .ok (.loc _, _) => .error .compileError
    | .ok (k, h) => .ok (some k, h)
    | .error f => .error f) (c.M + 1) h
  | .whileLet p e b, md, env, h => whileLoop (fun h => match eval c te o e md env h with
    | .ok (.loc l, h) => match matchPat md h p .move l with
      | .ok (some xs) => match (evalBlk c te o b md (alloc xs env h).1 (alloc xs env h).2).scope md h.length with
        | .ok (k, h) => .ok (some k, h)
        | .error f => .error f
      | .ok none => .ok (none, h)
      | .error f => .error f
    | .ok (k, h) => .ok (some k, h)
    | .error f => .error f) (c.M + 1) h
  | .loopE b, md, env, h => whileLoop (fun h => match (evalBlk c te o b md env h).scope md h.length with
      | .ok (k, h) => .ok (some k, h)
      | .error f => .error f) (c.M + 1) h
  | .forE p e b, md, env, h => (eval c te o e md env h).onVal md fun v h =>
    forAny c o md (fun v h => lift (matchPat md h p .move (.val v)) fun
      | some xs => (evalBlk c te o b md (alloc xs env h).1 (alloc xs env h).2).scope md h.length
      | none => .error .compileError) v h
  | .ret0, _, _, h => .ok (.ret .unit, h)
  | .ret e, md, env, h => (eval c te o e md env h).onVal md fun v h => .ok (.ret v, h)
  | .break, _, _, h => .ok (.brk, h)
  | .continue, _, _, h => .ok (.cont, h)
  | .mac x es, md, env, h => if x = "panic" ∨ x = "unreachable" then fail md
    else if x = "debug_assert" ∧ c.debugAssertions = false then Res.val .unit h
    else evalArgs c te o es md env h fun vs h => macCall o md x vs h
  | .repeat e n, md, env, h => (eval c te o e md env h).onVal md fun v h => (eval c te o n md env h).onVal md fun n h =>
    lift (repeatVal v n) fun v => Res.val v h
  | .range a b, md, env, h => (eval c te o a md env h).onVal md fun v h => (eval c te o b md env h).onVal md fun w h =>
    lift (rangeVal v w) fun r => Res.val r h
  | .closure ps e, _, env, h => Res.val (.clo te env ps e) h
  | _, _, _, _ => .error .compileError
/-- Arguments, from left to right. -/
def evalArgs (c : Cfg) (te : TyEnv) (o : Outside P) :
    Exs → Mode → Env → Heap P → (List (Val P) → Heap P → Res P) → Res P
  | .nil, _, _, h, k => k [] h
  | .cons e es, md, env, h, k =>
    (eval c te o e md env h).onVal md fun v h => evalArgs c te o es md env h fun vs h => k (v :: vs) h
/-- Fields of a struct literal. -/
def evalFields (c : Cfg) (te : TyEnv) (o : Outside P) :
    Fls → Mode → Env → Heap P → (List (String × Val P) → Heap P → Res P) → Res P
  | .nil, _, _, h, k => k [] h
  | .cons x e fs, md, env, h, k =>
    (eval c te o e md env h).onVal md fun v h => evalFields c te o fs md env h fun vs h => k ((x, v) :: vs) h
/-- The first arm that matches. -/
def evalArms (c : Cfg) (te : TyEnv) (o : Outside P) : Arms → Mode → Env → Heap P → Loc P → Res P
  | .nil, _, _, _, _ => .error .compileError
  | .cons p e arms, md, env, h, l => lift (matchPat md h p .move l) fun
    | some xs => (eval c te o e md (alloc xs env h).1 (alloc xs env h).2).scope md h.length
    | none => evalArms c te o arms md env h l
/-- The statements of a block. -/
def evalBlk (c : Cfg) (te : TyEnv) (o : Outside P) : Blk → Mode → Env → Heap P → Res P
  | .nil, _, _, h => Res.val .unit h
  | .tail e, md, env, h => eval c te o e md env h
  | .letS p e b, md, env, h => (eval c te o e md env h).onVal md fun v h => lift (matchPat md h p .move (.val v)) fun
    | some xs => evalBlk c te o b md (alloc xs env h).1 (alloc xs env h).2
    | none => .error .compileError
  | .letT p t e b, md, env, h => (eval c te o e md env h).onVal md fun v h =>
    lift (matchPat md h p .move (.val (coerce (rty te t) v))) fun
      | some xs => evalBlk c te o b md (alloc xs env h).1 (alloc xs env h).2
      | none => .error .compileError
  | .letElse p e els b, md, env, h => (eval c te o e md env h).onVal md fun v h => lift (matchPat md h p .move (.val v)) fun
    | some xs => evalBlk c te o b md (alloc xs env h).1 (alloc xs env h).2
    | none => match evalBlk c te o els md env h with
      | .ok (.loc _, _) => .error .compileError
      | r => r
  | .semi e b, md, env, h => (eval c te o e md env h).onLoc fun l h => lift (dropTemp o l h) fun h => evalBlk c te o b md env h
  | .stmt e b, md, env, h => (eval c te o e md env h).onLoc fun _ h => evalBlk c te o b md env h
end

/-! ## Programs -/

/-- A program. -/
abbrev Prog := List Item

/-- Does an `impl` block define items of type `t`? -/
def implFor (t : RT) (d : ImplDef) : Bool := decide (rty [] d.ty = some t)

/-- A constant of an `impl` block. -/
def findConst (x : String) : List (String × Ty × Ex) → Option (Ty × Ex)
  | [] => none
  | (y, t, e) :: cs => if x = y then some (t, e) else findConst x cs

/-- A function of an `impl` block. -/
def findFn (x : String) : List FnDef → Option FnDef
  | [] => none
  | f :: fs => if x = f.name then some f else findFn x fs

/-- A constant `t::x`. -/
def Prog.const (t : RT) (x : String) : Prog → Option (Ty × Ex)
  | [] => none
  | .impl d :: is => if implFor t d then match findConst x d.consts with
      | some r => some r
      | none => Prog.const t x is
    else Prog.const t x is
  | _ :: is => Prog.const t x is

/-- A function `t::f`. -/
def Prog.fn (t : RT) (x : String) : Prog → Option FnDef
  | [] => none
  | .impl d :: is => if implFor t d then match findFn x d.fns with
      | some r => some r
      | none => Prog.fn t x is
    else Prog.fn t x is
  | _ :: is => Prog.fn t x is

/-- A constant outside `impl` blocks. -/
def Prog.glob (x : String) : Prog → Option (Ty × Ex)
  | [] => none
  | .const y t e :: is => if x = y then some (t, e) else Prog.glob x is
  | _ :: is => Prog.glob x is

/-- A function outside `impl` blocks. -/
def Prog.free (x : String) : Prog → Option FnDef
  | [] => none
  | .fn _ d :: is => if x = d.name then some d else Prog.free x is
  | _ :: is => Prog.free x is

/-- The fields of a struct. -/
def Prog.struct (x : String) : Prog → Option (List (String × Ty))
  | [] => none
  | .struct y fs :: is => if x = y then some fs else Prog.struct x is
  | _ :: is => Prog.struct x is

/-- A variant of an enum. -/
def Prog.variant (t x : String) : Prog → Option Tys
  | [] => none
  | .enum y vs :: is => if t = y then vs.lookup x else Prog.variant t x is
  | _ :: is => Prog.variant t x is

/-- A function that the trait `Ordinal` defines. -/
def Prog.dflt (x : String) : Prog → Option FnDef
  | [] => none
  | .trait y fs :: is => if y = "Ordinal" then findFn x fs else Prog.dflt x is
  | _ :: is => Prog.dflt x is

/-- The value of a result at the end of a function body. -/
def Res.out (md : Mode) (n : Nat) (t : Option RT) (r : Res P) : R (Val P × Heap P) :=
  match r with
  | .ok (.loc l, h) => match l.get md h with
    | .ok v => .ok (coerce t v, h.take n)
    | .error f => .error f
  | .ok (.ret v, h) => .ok (coerce t v, h.take n)
  | .ok _ => .error .compileError
  | .error f => .error f

/-- A `&mut` argument for a `&` parameter is borrowed again, as shared. -/
def share (h : Heap P) (t : Ty) (v : Val P) : R (Val P) :=
  match t, v with
  | .ref false _, .mref a ps => .ref <$> Loc.get .run h (.heap a ps)
  | _, v => .ok v

/-- Parameters bound to arguments. -/
def bindParams (h : Heap P) : List (Pat × Ty) → List (Val P) → R (List (String × Val P))
  | [], [] => .ok []
  | (p, t) :: ps, v :: vs => do
    match ← matchPat .run h p .move (.val (← share h t v)) with
    | some xs => .ok (xs ++ (← bindParams h ps vs))
    | none => stuck
  | _, _ => stuck

/-- All parameters. -/
def bindAll (h : Heap P) (d : FnDef) (args : List (Val P)) : R (List (String × Val P)) :=
  match d.self, args with
  | .none, vs => bindParams h d.params vs
  | _, v :: vs => do .ok (("self", v) :: (← bindParams h d.params vs))
  | _, [] => stuck

/-- Parameters of a closure bound to arguments. -/
def bindPats (h : Heap P) : Pats → List (Val P) → R (List (String × Val P))
  | .nil, [] => .ok []
  | .cons p ps, v :: vs => do
    match ← matchPat .run h p .move (.val v) with
    | some xs => .ok (xs ++ (← bindPats h ps vs))
    | none => stuck
  | _, _ => stuck

/-- The functions that the caller supplies: they can read and write the memory, and panic. -/
abbrev UserFns (P : Nat → Type) := Nat → List (Val P) → Heap P → R (Val P × Heap P)

/-- No functions. -/
def noFns : UserFns P := fun _ _ _ => stuck

/-- The impl of `Ordinal` for a type parameter: `T::ORDINAL_SIZE`. -/
def parConst (J : (p : Nat) → OrdinalImpl (P p)) (p : Nat) (x : String) : R (Val P) :=
  if x = "ORDINAL_SIZE" then (.uint .size ·) <$> (J p).size else stuck

/-- The impl of `Ordinal` for a type parameter: `v.ordinal()`, `T::from_ordinal(i)`. -/
def parCall (J : (p : Nat) → OrdinalImpl (P p)) (p : Nat) (f : String) (args : List (Val P)) : R (Val P) :=
  match args with
  | [.uint .size i] =>
    if f = "from_ordinal" then (fun o => .opt (o.map (.usr p ·))) <$> (J p).fromOrdinal i else stuck
  | [.ref (.usr q v)] =>
    if f = "ordinal" then
      if h : q = p then (.uint .size ·) <$> (J p).ordinal (h ▸ v) else stuck
    else stuck
  | _ => stuck

/-- What the program supplies, for a bounded depth of calls.  `J` is the impl of `Ordinal` for each type parameter, `te`
the meaning of the names of type parameters, and `U` the functions that the caller supplies (`V::default` is number 1). -/
def outside (c : Cfg) (J : (p : Nat) → OrdinalImpl (P p)) (te : TyEnv) (prog : Prog) (n : Nat)
    (U : UserFns P := noFns) : Outside P :=
  match n with
  | 0 => ⟨fun _ _ => .error .diverge, fun _ => .error .diverge, fun _ _ _ _ => .error .diverge, fun _ _ => none,
      fun _ _ _ => .error .diverge, fun _ _ _ => .error .diverge, fun _ => none, fun _ _ => none⟩
  | n + 1 => {
      const := fun t x => match t with
        | .par p => parConst J p x
        | t => match prog.const t x with
          | none => stuck
          | some (ty, e) =>
            Prod.fst <$> (eval c (("Self", t) :: te) (outside c J te prog n U) e .const [] []).out .const 0
              (rty (("Self", t) :: te) ty)
      glob := fun x => match prog.glob x with
        | none => stuck
        | some (ty, e) => Prod.fst <$> (eval c te (outside c J te prog n U) e .const [] []).out .const 0 (rty te ty)
      call := fun t f args h => match t with
        | .par p => if f = "ordinal" ∨ f = "from_ordinal" then (·, h) <$> parCall J p f args else match prog.dflt f with
          | none => if p = 1 ∧ f = "default" then U 1 args h else stuck
          | some d => do
            let xs ← bindAll h d args
            (evalBlk c (("Self", .par p) :: te) (outside c J te prog n U) d.body .run (alloc xs [] h).1 (alloc xs [] h).2).out
              .run h.length (rty (("Self", .par p) :: te) d.ret)
        | t => match prog.fn t f with
          | none => stuck
          | some d => do
            let xs ← bindAll h d args
            (evalBlk c (("Self", t) :: te) (outside c J te prog n U) d.body .run (alloc xs [] h).1 (alloc xs [] h).2).out .run
              h.length (rty (("Self", t) :: te) d.ret)
      self := fun t f => match t with
        | .par _ => some .ref
        | t => (prog.fn t f).map FnDef.self
      free := fun f args h => match prog.free f with
        | none => stuck
        | some d => do
          let xs ← bindAll h d args
          (evalBlk c te (outside c J te prog n U) d.body .run (alloc xs [] h).1 (alloc xs [] h).2).out .run
            h.length (rty te d.ret)
      apply := fun f args h => match f with
        | .clo te' env ps e => do
          let xs ← bindPats h ps args
          (eval c te' (outside c J te prog n U) e .run (alloc xs env h).1 (alloc xs env h).2).out .run h.length none
        | .ufn k => U k args h
        | _ => stuck
      struct := fun x => prog.struct x
      variant := fun t x => prog.variant t x }

end OrdinalMap.Text
