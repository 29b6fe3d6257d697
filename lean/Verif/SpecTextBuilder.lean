import Verif.Text.FilesBuilder
import Verif.Text.Run
/-!
# Specification: running the source text of `array_builder.rs`

The text is unsafe code: it runs on uninitialized memory, with raw pointers.  This file says what the functions of `std` that it calls do to that
memory, and what is undefined behaviour.  It also runs destructors: a function that takes `self` drops it at its end, unless it has moved it.

* Variable 0 is the state `P 2` of the world.  `T` is `P 0`; its destructor changes the world, and may panic.
* Variable 1 is `true` if the `self` of the innermost function that takes `self` by value has been moved.
-/

namespace OrdinalMap.Text

variable {P : Nat → Type}

/-! ## Uninitialized memory -/

/-- `MaybeUninit<T>`, uninitialized -/
def uninitVal : Val P := .obj "MaybeUninit" []

/-- `MaybeUninit<T>`, initialized -/
def initVal (v : Val P) : Val P := .obj "MaybeUninit" [("value", v)]

/-- `[MaybeUninit<T>; S]` -/
def cellsVal (cells : List (Val P)) : Val P := .obj "[MaybeUninit<T>; S]" [("cells", .arr cells)]

/-- A pointer to element `i` of the array at an address. -/
def ptrVal (a : Nat) (ps : List Proj) (i : Nat) : Val P := .obj "Ptr" [("array", .mref a ps), ("index", .uint .size i)]

/-- The elements of the array at an address. -/
def cellsAt (h : Heap P) (a : Nat) (ps : List Proj) : R (List (Val P)) := do
  match ← Loc.get .run h (.heap a ps) with
  | .obj _ [(_, .arr cells)] => .ok cells
  | _ => stuck

/-- `assume_init` for each element.  That is undefined behaviour if one is uninitialized. -/
def assumeInit : List (Val P) → R (List (Val P))
  | [] => .ok []
  | .obj _ [(_, v)] :: cells => do .ok (v :: (← assumeInit cells))
  | _ => .error .ub

/-- Has `self` been moved? -/
def moved : Heap P → R Bool
  | _ :: .bool b :: _ => .ok b
  | _ => stuck

/-- `self` has been moved, or has not. -/
def setMoved (b : Bool) : Heap P → R (Heap P)
  | w :: .bool _ :: h => .ok (w :: .bool b :: h)
  | _ => stuck

/-- Run the destructor of `T`. -/
def dropWith (D : P 0 → P 2 → R (P 2)) (v : Val P) : Heap P → R (Heap P)
  | .usr 2 r :: h => match v with
    | .usr 0 v => do .ok (.usr 2 (← D v r) :: h)
    | _ => stuck
  | _ => stuck

/-- `array::from_fn(g)`: the elements from `i` on, of which there are `n`. -/
def fromFn (apply : Val P → List (Val P) → Heap P → R (Val P × Heap P)) (g : Val P) : Nat → Nat → Heap P → R (List (Val P) × Heap P)
  | 0, _, h => .ok ([], h)
  | n + 1, i, h => do
    let (v, h) ← apply g [.uint .size i] h
    let (vs, h) ← fromFn apply g n (i + 1) h
    .ok (v :: vs, h)

/-- `t::f(args)` for functions and methods of `std`.  Undefined behaviour is an error. -/
def rawCall (S : Nat) (D : P 0 → P 2 → R (P 2)) (apply : Val P → List (Val P) → Heap P → R (Val P × Heap P)) (t f : String)
    (args : List (Val P)) (h : Heap P) : R (Val P × Heap P) :=
  if t = "array" ∧ f = "from_fn" then match args with
    | [g] => do
      let (vs, h) ← fromFn apply g S 0 h
      .ok (cellsVal vs, h)
    | _ => stuck
  else if t = "MaybeUninit" ∧ f = "uninit" then match args with
    | [] => .ok (uninitVal, h)
    | _ => stuck
  else if t = "MaybeUninit" ∧ f = "assume_init_drop" then match args with
    | [.mref a ps] => do
      match ← assumeInit [← Loc.get .run h (.heap a ps)] with
      | [v] => do
        let h ← Loc.set .run h uninitVal (.heap a ps)
        .ok (.unit, ← dropWith D v h)
      | _ => stuck
    | _ => stuck
  else if t = "[MaybeUninit<T>; S]" ∧ f = "as_mut_ptr" then match args with
    | [.mref a ps] => .ok (ptrVal a ps 0, h)
    | _ => stuck
  else if t = "[MaybeUninit<T>; S]" ∧ f = "index_mut" then match args with
    | [.mref a ps, .uint .size i] => do
      if i < (← cellsAt h a ps).length then .ok (.mref a (ps ++ [.field "cells", .idx i]), h) else .error .panic
    | [.mref a ps, .range i j] => do
      if i ≤ j ∧ j ≤ (← cellsAt h a ps).length then .ok (.mref a (ps ++ [.field "cells"]), h) else .error .panic
    | _ => stuck
  else if t = "Ptr" ∧ f = "cast" then match args with
    | [p] => .ok (p, h)
    | _ => stuck
  else if t = "Ptr" ∧ f = "add" then match args with
    | [.obj _ [(_, .mref a ps), (_, .uint .size i)], .uint .size n] => do
      if i + n ≤ (← cellsAt h a ps).length then .ok (ptrVal a ps (i + n), h) else .error .ub
    | _ => stuck
  else if t = "Ptr" ∧ f = "write" then match args with
    | [.obj _ [(_, .mref a ps), (_, .uint .size i)], v] => do
      if i < (← cellsAt h a ps).length then do
        .ok (.unit, ← Loc.set .run h (initVal v) (.heap a (ps ++ [.field "cells", .idx i])))
      else .error .ub
    | _ => stuck
  else if t = "ptr" ∧ f = "drop_in_place" then match args with
    -- `MaybeUninit` has no destructor
    | [.mref a ps] => do
      match ← Loc.get .run h (.heap a ps) with
      | .arr _ => .ok (.unit, h)
      | _ => stuck
    | _ => stuck
  else if t = "mem" ∧ f = "transmute_copy" then match args with
    | [.ref (.obj _ [(_, .arr cells)])] => do .ok (.arr (← assumeInit cells), h)
    | _ => stuck
  else if t = "mem" ∧ f = "forget" then match args with
    | [.obj x _] => if x = "ArrayBuilder" then do .ok (.unit, ← setMoved true h) else stuck
    | _ => stuck
  else stuck

/-- How methods of `std` take `self`. -/
def rawSelf (t f : String) : Option SelfKind :=
  if t = "[MaybeUninit<T>; S]" ∧ f = "as_mut_ptr" then some .refMut
  else if t = "MaybeUninit" ∧ f = "assume_init_drop" then some .refMut
  else if t = "Ptr" ∧ (f = "cast" ∨ f = "add" ∨ f = "write") then some .value
  else none

/-! ## The program -/

/-- The meaning of names. -/
def builderTys (S : Nat) : TyEnv := [("T", .par 0), ("S", .num S)]

/-- What is outside an expression: the program, for a bounded depth of calls, and `std`. -/
def outsideB (c : Cfg) (S : Nat) (D : P 0 → P 2 → R (P 2)) (prog : Prog) : Nat → Outside P
  | 0 => ⟨fun _ _ => .error .diverge, fun _ => .error .diverge, fun _ _ _ _ => .error .diverge, fun _ _ => none,
      fun _ _ _ => .error .diverge, fun _ _ _ => .error .diverge, fun _ => none, fun _ _ => none⟩
  | n + 1 => {
      const := fun _ _ => stuck
      glob := fun x => if x = "ArrayNotFilled" then .ok (.con x []) else stuck
      call := fun t f args h => match t with
        | .con x => match prog.fn (.con x) f with
          | none => rawCall S D (outsideB c S D prog n).apply x f args h
          | some d =>
            let te := ("Self", .con x) :: builderTys S
            let body (h : Heap P) (k : Nat) : R (Val P × Heap P) := do
              let xs ← bindAll h d args
              (evalBlk c te (outsideB c S D prog n) d.body .run (alloc xs [] h).1 (alloc xs [] h).2).out .run k (rty te d.ret)
            match d.self with
            | .value => do
              let (v, h') ← body (← setMoved false h) (h.length + 1)
              let h' ← if ← moved h' then .ok h' else Prod.snd <$> (outsideB c S D prog n).call t "drop" [.mref h.length []] h'
              .ok (v, (← setMoved true h').take h.length)
            | _ => body h h.length
        | _ => stuck
      self := fun t f => match t with
        | .con x => match prog.fn (.con x) f with
          | some d => some d.self
          | none => rawSelf x f
        | _ => none
      free := fun _ _ _ => stuck
      apply := fun f args h => match f with
        | .clo te env ps e => do
          let xs ← bindPats h ps args
          (eval c te (outsideB c S D prog n) e .run (alloc xs env h).1 (alloc xs env h).2).out .run h.length none
        | _ => stuck
      struct := fun x => prog.struct x
      variant := fun _ _ => none }

/-- A function of `ArrayBuilder<T, S>`; `self` is not its argument, or is moved. -/
def builderFn (c : Cfg) (S : Nat) (D : P 0 → P 2 → R (P 2)) (prog : Prog) (f : String) (args : List (Val P)) (r : P 2) : R (Val P × P 2) := do
  match ← (outsideB c S D prog 9).call (.con "ArrayBuilder") f args [.usr 2 r, .bool true] with
  | (v, [.usr 2 r, .bool true]) => .ok (v, r)
  | _ => stuck

/-- A function of `ArrayBuilder<T, S>` that takes `&mut self`.  It returns `()`; the result is the new `self`. -/
def builderMut (c : Cfg) (S : Nat) (D : P 0 → P 2 → R (P 2)) (prog : Prog) (f : String) (b : Val P) (args : List (Val P)) (r : P 2) :
    R (Val P × P 2) := do
  match ← (outsideB c S D prog 9).call (.con "ArrayBuilder") f (.mref 2 [] :: args) [.usr 2 r, .bool true, b] with
  | (.con "()" [], [.usr 2 r, .bool true, b]) => .ok (b, r)
  | _ => stuck

/-- `new`, and a `push` of each item. -/
def fill (c : Cfg) (S : Nat) (D : P 0 → P 2 → R (P 2)) (prog : Prog) (items : List (P 0)) (r : P 2) : R (Val P × P 2) := do
  items.foldlM (fun (b, r) v => builderMut c S D prog "push" b [.usr 0 v] r) (← builderFn c S D prog "new" [] r)

/-- Drop some values, in order. -/
def dropAll (D : P 0 → P 2 → R (P 2)) (items : List (P 0)) (r : P 2) : R (P 2) := items.foldlM (fun r v => D v r) r

/-- `[T; S]` -/
def itemsVal (items : List (P 0)) : Val P := .arr (items.map (.usr 0 ·))

/-- A builder `b` that holds `items`: what `drop`, `try_finish` and `finish` do. -/
structure Holds (c : Cfg) (S : Nat) (D : P 0 → P 2 → R (P 2)) (prog : Prog) (b : Val P) (items : List (P 0)) : Prop where
  /-- `drop` drops the items -/
  drop : ∀ r, Prod.snd <$> builderMut c S D prog "drop" b [] r = dropAll D items r
  /-- `try_finish` returns the items and drops none, or drops them all and fails -/
  tryFinish : ∀ r, builderFn c S D prog "try_finish" [b] r =
    if items.length = S then .ok (.con "Ok" [itemsVal items], r) else
      (fun r => (.con "Err" [.con "ArrayNotFilled" []], r)) <$> dropAll D items r
  /-- `finish` returns the items and drops none, or drops them all and panics -/
  finish : ∀ r, builderFn c S D prog "finish" [b] r =
    if items.length = S then .ok (itemsVal items, r) else do
      let _ ← dropAll D items r
      .error .panic

end OrdinalMap.Text
