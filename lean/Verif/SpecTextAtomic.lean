import Verif.Text.FilesAtomic
import Verif.Text.Run
import Verif.SpecAtomic
/-!
# Specification: running the source text of `atomic.rs`

The text runs on any `AtomicUsize` and with any `Debug` of `T`: they are functions of the memory, supplied from outside.
-/

namespace OrdinalMap.Text

variable {P : Nat → Type}

/-- What the text of `atomic.rs` calls: `AtomicUsize`, of which there may be any number, each with a name, and `T`'s `Debug`.  They
read and change the state `P 2` of the world, and may panic.  Other threads may change it too while a call is in progress: then that is
part of these functions. -/
structure Shared (P : Nat → Type) where
  /-- `AtomicUsize::new(x)`: the name -/
  new : Nat → P 2 → R (Nat × P 2)
  /-- `load(order)` -/
  load : Nat → MemOrder → P 2 → R (Nat × P 2)
  /-- `store(x, order)` -/
  store : Nat → Nat → MemOrder → P 2 → R (P 2)
  /-- `compare_exchange(old, new, success, failure)`: `true` for `Ok` -/
  cas : Nat → Nat → Nat → MemOrder → MemOrder → P 2 → R ((Bool × Nat) × P 2)
  /-- `Debug::fmt(&v, f)` -/
  fmt : P 0 → Val P → P 2 → R (Val P × P 2)

/-- An access to the `AtomicUsize` named `i`. -/
def Shared.ask (S : Shared P) (i : Nat) : AtomicOp Nat → P 2 → R (AtomicOut Nat × P 2)
  | .load o, r => do
    let (x, r) ← S.load i o r
    .ok (.val x, r)
  | .store x o, r => do
    let r ← S.store i x o r
    .ok (.unit, r)
  | .cas a b s f, r => do
    let ((ok, x), r) ← S.cas i a b s f r
    .ok (if ok then .ok x else .err x, r)

/-- The names of orderings. -/
def orderName : MemOrder → String
  | .relaxed => "Relaxed"
  | .acquire => "Acquire"
  | .release => "Release"
  | .acqRel => "AcqRel"
  | .seqCst => "SeqCst"

/-- `Ordering` -/
def orderVal (o : MemOrder) : Val P := .con (orderName o) []

/-- The `Ordering` that a value is. -/
def orderOf : Val P → R MemOrder
  | .con x [] =>
    if x = "Relaxed" then .ok .relaxed else if x = "Acquire" then .ok .acquire else if x = "Release" then .ok .release
    else if x = "AcqRel" then .ok .acqRel else if x = "SeqCst" then .ok .seqCst else stuck
  | _ => stuck

/-- The `AtomicUsize` named `i`. -/
def cellVal (i : Nat) : Val P := .obj "AtomicUsize" [("name", .uint .size i)]

/-- `AtomicUsize::f(args)`.  The state of the world is in variable 0. -/
def Shared.call (S : Shared P) (f : String) (args : List (Val P)) : Heap P → R (Val P × Heap P)
  | .usr 2 r :: h => match args with
    | [.uint .size x] => if f = "new" then do
        let (i, r) ← S.new x r
        .ok (cellVal i, .usr 2 r :: h)
      else stuck
    | [.ref (.obj _ [(_, .uint .size i)]), o] => if f = "load" then do
        let (x, r) ← S.load i (← orderOf o) r
        .ok (.uint .size x, .usr 2 r :: h)
      else stuck
    | [.ref (.obj _ [(_, .uint .size i)]), .uint .size x, o] => if f = "store" then do
        let r ← S.store i x (← orderOf o) r
        .ok (.unit, .usr 2 r :: h)
      else stuck
    | [.ref (.obj _ [(_, .uint .size i)]), .uint .size a, .uint .size b, s, t] => if f = "compare_exchange" then do
        let ((ok, x), r) ← S.cas i a b (← orderOf s) (← orderOf t) r
        .ok (.con (if ok then "Ok" else "Err") [.uint .size x], .usr 2 r :: h)
      else stuck
    | _ => stuck
  | _ => stuck

/-- `Debug::f(args)` -/
def Shared.debug (S : Shared P) (f : String) (args : List (Val P)) : Heap P → R (Val P × Heap P)
  | .usr 2 r :: h => match args with
    | [.ref (.usr 0 v), w] => if f = "fmt" then do
        let (x, r) ← S.fmt v w r
        .ok (x, .usr 2 r :: h)
      else stuck
    | _ => stuck
  | _ => stuck

/-- `outside` with `AtomicUsize` and `Debug`. -/
def outsideS (c : Cfg) (J : (p : Nat) → OrdinalImpl (P p)) (te : TyEnv) (prog : Prog) (S : Shared P) : Nat → Outside P
  | 0 => outside c J te prog 0
  | n + 1 => { outside c J te prog (n + 1) with
      call := fun t f args h =>
        if t = .con "AtomicUsize" then S.call f args h
        else if t = .con "Debug" then S.debug f args h
        else match t with
        | .par p => (outside c J te prog (n + 1)).call (.par p) f args h
        | t => match prog.fn t f with
          | none => stuck
          | some d => do
            let xs ← bindAll h d args
            (evalBlk c (("Self", t) :: te) (outsideS c J te prog S n) d.body .run (alloc xs [] h).1 (alloc xs [] h).2).out .run
              h.length (rty (("Self", t) :: te) d.ret)
      self := fun t f => if t = .con "AtomicUsize" then some .ref else (outside c J te prog (n + 1)).self t f }

/-- A function of `AtomicOrdinal<T>`, where `T` is `P 0`, in the state `r` of the world. -/
def atomicCall (c : Cfg) (J : (p : Nat) → OrdinalImpl (P p)) (prog : Prog) (S : Shared P) (f : String) (args : List (Val P)) (r : P 2) :
    R (Val P × P 2) := do
  match ← (outsideS c J [("T", .par 0)] prog S 9).call (.con "AtomicOrdinal") f args [.usr 2 r] with
  | (v, [.usr 2 r]) => .ok (v, r)
  | _ => stuck

/-- An operation on the `AtomicOrdinal` `a`. -/
def atomicOp (call : String → List (Val P) → P 2 → R (Val P × P 2)) (a : Val P) : AtomicOp (P 0) → P 2 → R (AtomicOut (P 0) × P 2)
  | .load o, r => do
    match ← call "load" [.ref a, orderVal o] r with
    | (.usr 0 v, r) => .ok (.val v, r)
    | _ => stuck
  | .store v o, r => do
    match ← call "store" [.ref a, .usr 0 v, orderVal o] r with
    | (.con "()" [], r) => .ok (.unit, r)
    | _ => stuck
  | .cas v w s f, r => do
    match ← call "compare_exchange" [.ref a, .usr 0 v, .usr 0 w, orderVal s, orderVal f] r with
    | (.con "Ok" [.usr 0 v], r) => .ok (.ok v, r)
    | (.con "Err" [.usr 0 v], r) => .ok (.err v, r)
    | _ => stuck

/-! ## Methods that access a cell once -/

/-- What methods do before and after the one access they make. -/
structure Methods (τ : Type) where
  /-- the value of the new cell -/
  new : τ → R Nat
  /-- the access -/
  call : AtomicOp τ → R (AtomicOp Nat)
  /-- what becomes of the answer -/
  ret : AtomicOut Nat → R (AtomicOut τ)
  /-- the value printed, given the contents of the cell -/
  shown : Nat → R τ

/-- The text `prog`, on whatever `AtomicUsize`, makes exactly one access in each operation, and does otherwise what `M` says:
`call` before the access, and `ret` after it, neither of which depends on the world. -/
def Decomposes (c : Cfg) (J : (p : Nat) → OrdinalImpl (P p)) (prog : Prog) (M : Methods (P 0)) : Prop :=
  ∃ a : Nat → Val P,
    (∀ S v r, atomicCall c J prog S "new" [.usr 0 v] r = do
      let x ← M.new v
      let (i, r) ← S.new x r
      .ok (a i, r)) ∧
    (∀ S i op r, atomicOp (atomicCall c J prog S) (a i) op r = do
      let p ← M.call op
      let (x, r) ← S.ask i p r
      let out ← M.ret x
      .ok (out, r)) ∧
    ∀ S i w r, atomicCall c J prog S "fmt" [.ref (a i), w] r = do
      let (x, r) ← S.load i .relaxed r
      let v ← M.shown x
      S.fmt v w r

/-- The text of `atomic.rs` is a program; its functions decompose, and what they decompose into has property `Q`. -/
def AtomicSource (c : Cfg) (J : (p : Nat) → OrdinalImpl (P p)) (Q : Methods (P 0) → Prop) : Prop :=
  ∃ prog M, parse atomicRs = some prog ∧ Decomposes c J prog M ∧ Q M

/-! ## Threads -/

/-- What a thread is doing. -/
inductive At (τ : Type) where
  | idle
  /-- in the method, before the access -/
  | before (op : AtomicOp τ)
  /-- about to make the access -/
  | access (op : AtomicOp τ) (p : AtomicOp Nat)
  /-- after it -/
  | after (op : AtomicOp τ) (x : R (AtomicOut Nat))

/-- The cell, and of each thread the results so far and what it is doing. -/
structure Threads (T τ : Type) where
  cell : Nat
  results : T → List (R (AtomicOut τ))
  at_ : T → At τ

variable {T τ : Type} [DecidableEq T]

/-- Thread `t` goes on: it chooses its next call depending on its results, enters the method, makes the access, or returns. -/
def Threads.step (M : Methods τ) (prog : T → List (R (AtomicOut τ)) → Option (AtomicOp τ)) (s : Threads T τ) (t : T) :
    List (AtomicEv T τ) × Threads T τ :=
  let fin op (r : R (AtomicOut τ)) := ([.res t op r], { s with results := setAt s.results t (s.results t ++ [r]), at_ := setAt s.at_ t .idle })
  let now a := { s with at_ := setAt s.at_ t a }
  match s.at_ t with
  | .idle => match prog t (s.results t) with
    | none => ([], s)
    | some op => ([.inv t op], now (.before op))
  | .before op => match M.call op with
    | .error e => fin op (.error e)
    | .ok p => ([], now (.access op p))
  | .access op p => match AtomicSpec.step s.cell p with
    | (x, cell) => ([], { now (.after op x) with cell := cell })
  | .after op x => fin op (x >>= M.ret)

/-- A schedule: the events, and the state after it. -/
def Threads.run (M : Methods τ) (prog : T → List (R (AtomicOut τ)) → Option (AtomicOp τ)) : Threads T τ → List T → List (AtomicEv T τ) × Threads T τ
  | s, [] => ([], s)
  | s, t :: ts =>
    let (es, s) := s.step M prog t
    let (es', s) := Threads.run M prog s ts
    (es ++ es', s)

/-- All threads idle. -/
def Threads.start (cell : Nat) : Threads T τ := ⟨cell, fun _ => [], fun _ => .idle⟩

end OrdinalMap.Text
