import Verif.SpecTextAtomic
import Verif.Text.ParsedAtomic
import Verif.Text.SetValues
import Verif.Model.Atomic
/-!
# `atomic.rs`, run from its text
-/

namespace OrdinalMap.Text

variable {P : Nat → Type} {c : Cfg} {J : (p : Nat) → OrdinalImpl (P p)} {S : Shared P} {h : Heap P} {i : Nat}

/-- The meaning of names. -/
abbrev atomicTys : TyEnv := [("T", .par 0)]

@[text] theorem find_atomicTys (x : String) : TyEnv.find x atomicTys = if x = "T" then some (.par 0) else none := rfl

/-- What is outside, in the program. -/
abbrev outA (c : Cfg) (J : (p : Nat) → OrdinalImpl (P p)) (S : Shared P) (n : Nat) : Outside P := outsideS c J atomicTys atomicTree S n

/-- `AtomicOrdinal<T>` -/
def atomicVal (i : Nat) : Val P := .obj "AtomicOrdinal" [("atomic", cellVal i), ("_marker", .con "PhantomData" [])]

@[text] theorem struct_atomic (n : Nat) : (outA c J S (n + 1)).struct "AtomicOrdinal" =
    some [("atomic", .path ["AtomicUsize"] .nil), ("_marker", .path ["PhantomData"] (.cons (.path ["T"] .nil) .nil))] := rfl

theorem outA_cell (n : Nat) (f : String) (args : List (Val P)) :
    (outA c J S (n + 1)).call (.con "AtomicUsize") f args h = S.call f args h := rfl

theorem outA_debug (n : Nat) (f : String) (args : List (Val P)) :
    (outA c J S (n + 1)).call (.con "Debug") f args h = S.debug f args h := rfl

theorem outA_ordinal (n : Nat) (v : P 0) : (outA c J S (n + 1)).call (.par 0) "ordinal" [.ref (.usr 0 v)] h =
    (fun k => (.uint .size k, h)) <$> (J 0).ordinal v :=
  outside_par_ordinal (c := c) (U := noFns) (te := atomicTys) (prog := atomicTree) n 0 v h

theorem outA_from (n k : Nat) : (outA c J S (n + 1)).call (.par 0) "from_ordinal" [.uint .size k] h =
    (fun q => (.opt (q.map (.usr 0 ·)), h)) <$> (J 0).fromOrdinal k :=
  outside_par_from (c := c) (U := noFns) (te := atomicTys) (prog := atomicTree) n 0 k h

theorem outA_call {f : String} {d : FnDef} (n : Nat) (args : List (Val P)) (h : Heap P)
    (hp : Prog.fn (.con "AtomicOrdinal") f atomicTree = some d) : (outA c J S (n + 1)).call (.con "AtomicOrdinal") f args h = (do
      let xs ← bindAll h d args
      (evalBlk c (("Self", .con "AtomicOrdinal") :: atomicTys) (outA c J S n) d.body .run (alloc xs [] h).1 (alloc xs [] h).2).out .run
        h.length (rty (("Self", .con "AtomicOrdinal") :: atomicTys) d.ret)) := by
  simp only [outsideS, hp]
  rfl

@[text] theorem self_cell (n : Nat) (f : String) : (outA c J S (n + 1)).self (.con "AtomicUsize") f = some .ref := rfl
@[text] theorem self_par0 (n : Nat) (f : String) : (outA c J S (n + 1)).self (.par 0) f = some .ref := rfl
@[text] theorem self_load (n : Nat) : (outA c J S (n + 1)).self (.con "AtomicOrdinal") "load" = some .ref := rfl

theorem orderOf_orderVal (o : MemOrder) : orderOf (P := P) (.con (orderName o) []) = .ok o := by cases o <;> rfl

theorem atomic_new (n : Nat) (v : P 0) (r : P 2) : (outA c J S (n + 2)).call (.con "AtomicOrdinal") "new" [.usr 0 v] [.usr 2 r] = (do
    let x ← (J 0).ordinal v
    let (i, r) ← S.new x r
    .ok (atomicVal i, [.usr 2 r])) := by
  refine (outA_call (d := atomicFn2_0) (n + 1) _ _ rfl).trans ?_
  cases ho : (J 0).ordinal v with
  | error e => runs [atomicFn2_0, outA_ordinal, outA_cell, ho]
  | ok x =>
    cases hs : S.new x r with
    | error e => runs [atomicFn2_0, outA_ordinal, outA_cell, ho, Shared.call, hs]
    | ok q => runs [atomicFn2_0, outA_ordinal, outA_cell, ho, Shared.call, hs, atomicVal]

theorem atomic_load (n : Nat) (o : MemOrder) (r : P 2) :
    (outA c J S (n + 2)).call (.con "AtomicOrdinal") "load" [.ref (atomicVal i), orderVal o] [.usr 2 r] = (do
      let (x, r) ← S.load i o r
      let v ← unwrap (← (J 0).fromOrdinal x)
      .ok (.usr 0 v, [.usr 2 r])) := by
  refine (outA_call (d := atomicFn2_1) (n + 1) _ _ rfl).trans ?_
  cases hs : S.load i o r with
  | error e => runs [atomicFn2_1, outA_cell, Shared.call, atomicVal, cellVal, orderVal, orderOf_orderVal, hs]
  | ok q =>
    cases hf : (J 0).fromOrdinal q.1 with
    | error e => runs [atomicFn2_1, outA_cell, outA_from, Shared.call, atomicVal, cellVal, orderVal, orderOf_orderVal, hs, hf]
    | ok w => cases w <;> runs [atomicFn2_1, outA_cell, outA_from, Shared.call, atomicVal, cellVal, orderVal, orderOf_orderVal, hs, hf]

/-- With two more variables in memory. -/
theorem atomic_load2 (n : Nat) (y w : Val P) (o : MemOrder) (r : P 2) :
    (outA c J S (n + 2)).call (.con "AtomicOrdinal") "load" [.ref (atomicVal i), orderVal o] [.usr 2 r, y, w] = (do
      let (x, r) ← S.load i o r
      let v ← unwrap (← (J 0).fromOrdinal x)
      .ok (.usr 0 v, [.usr 2 r, y, w])) := by
  refine (outA_call (d := atomicFn2_1) (n + 1) _ _ rfl).trans ?_
  cases hs : S.load i o r with
  | error e => runs [atomicFn2_1, outA_cell, Shared.call, atomicVal, cellVal, orderVal, orderOf_orderVal, hs]
  | ok q =>
    cases hf : (J 0).fromOrdinal q.1 with
    | error e => runs [atomicFn2_1, outA_cell, outA_from, Shared.call, atomicVal, cellVal, orderVal, orderOf_orderVal, hs, hf]
    | ok w => cases w <;> runs [atomicFn2_1, outA_cell, outA_from, Shared.call, atomicVal, cellVal, orderVal, orderOf_orderVal, hs, hf]

theorem atomic_store (n : Nat) (v : P 0) (o : MemOrder) (r : P 2) :
    (outA c J S (n + 2)).call (.con "AtomicOrdinal") "store" [.ref (atomicVal i), .usr 0 v, orderVal o] [.usr 2 r] = (do
      let x ← (J 0).ordinal v
      let r ← S.store i x o r
      .ok (.unit, [.usr 2 r])) := by
  refine (outA_call (d := atomicFn2_2) (n + 1) _ _ rfl).trans ?_
  cases ho : (J 0).ordinal v with
  | error e => runs [atomicFn2_2, outA_ordinal, outA_cell, atomicVal, cellVal, orderVal, ho]
  | ok x =>
    cases hs : S.store i x o r <;>
      runs [atomicFn2_2, outA_ordinal, outA_cell, Shared.call, atomicVal, cellVal, orderVal, orderOf_orderVal, ho, hs]

theorem atomic_cas (n : Nat) (v w : P 0) (s f : MemOrder) (r : P 2) :
    (outA c J S (n + 2)).call (.con "AtomicOrdinal") "compare_exchange" [.ref (atomicVal i), .usr 0 v, .usr 0 w, orderVal s, orderVal f]
        [.usr 2 r] = (do
      let x ← (J 0).ordinal v
      let y ← (J 0).ordinal w
      let ((ok, z), r) ← S.cas i x y s f r
      let u ← unwrap (← (J 0).fromOrdinal z)
      .ok (.con (if ok then "Ok" else "Err") [.usr 0 u], [.usr 2 r])) := by
  refine (outA_call (d := atomicFn2_3) (n + 1) _ _ rfl).trans ?_
  cases hv : (J 0).ordinal v with
  | error e => runs [atomicFn2_3, get_cons, outA_ordinal, outA_cell, atomicVal, cellVal, orderVal, hv]
  | ok x =>
    cases hw : (J 0).ordinal w with
    | error e => runs [atomicFn2_3, get_cons, outA_ordinal, outA_cell, atomicVal, cellVal, orderVal, hv, hw]
    | ok y =>
      cases hs : S.cas i x y s f r with
      | error e => runs [atomicFn2_3, get_cons, outA_ordinal, outA_cell, Shared.call, atomicVal, cellVal, orderVal, orderOf_orderVal, hv, hw, hs]
      | ok q =>
        obtain ⟨⟨ok, z⟩, r'⟩ := q
        cases hf : (J 0).fromOrdinal z with
        | error e => cases ok <;> runs [atomicFn2_3, get_cons, outA_ordinal, outA_cell, outA_from, Shared.call, atomicVal, cellVal, orderVal, orderOf_orderVal, hv, hw, hs, hf]
        | ok u => cases u <;> cases ok <;>
            runs [atomicFn2_3, get_cons, outA_ordinal, outA_cell, outA_from, Shared.call, atomicVal, cellVal, orderVal, orderOf_orderVal, hv, hw, hs, hf]

theorem atomic_fmt (n : Nat) (w : Val P) (r : P 2) :
    (outA c J S (n + 3)).call (.con "AtomicOrdinal") "fmt" [.ref (atomicVal i), w] [.usr 2 r] = (do
      let (x, r) ← S.load i .relaxed r
      let v ← unwrap (← (J 0).fromOrdinal x)
      let (u, r) ← S.fmt v w r
      .ok (u, [.usr 2 r])) := by
  refine (outA_call (d := atomicFn1_0) (n + 2) _ _ rfl).trans ?_
  have hl := atomic_load2 (c := c) (J := J) (S := S) (i := i) n (.ref (atomicVal i)) w .relaxed r
  simp only [orderVal, orderName, atomicVal] at hl
  cases hs : S.load i .relaxed r with
  | error e => runs [atomicFn1_0, atomicVal, hl, hs]
  | ok q =>
    cases hf : (J 0).fromOrdinal q.1 with
    | error e => runs [atomicFn1_0, atomicVal, hl, hs, hf]
    | ok u => cases u with
      | none => runs [atomicFn1_0, atomicVal, hl, hs, hf]
      | some u => cases hd : S.fmt u w q.2 <;> runs [atomicFn1_0, atomicVal, hl, hs, hf, outA_debug, Shared.debug, hd]

end OrdinalMap.Text
