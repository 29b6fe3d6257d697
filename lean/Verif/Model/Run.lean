import Verif.Model.Source
/-!
# Running the emitted text

An interpreter for the part of Rust that the derive macro emits (`Model/Source.lean`).  It knows
nothing about the macro: it runs any syntax tree, with variables, blocks, `if`, `match`, `return`,
assignment, calls and constructors as in Rust.  What is not Rust, or not of the right type, is
`Fault.compileError` when the interpreter comes to it (rustc looks everywhere; the static checks are
those of `Model/Derive.lean`).

Names: `Self::X` is the variant `X` if there is one, else the associated constant; a name of the
prelude is not a variable (`Ident.bindable`).  `ordinal_map::..` and `std::option::..` are the real
ones (`Model/Names.lean` is about what else they could be).
-/

namespace OrdinalMap.Derive.Src
open OrdinalMap OrdinalMap.Derive

variable {ι : Type}

/-- The type the impl is for. -/
inductive Decl (ι : Type) where
  | struct (fs : Fields ι)
  | tuple (tys : List ι)
  | enum (vs : List (String × Fields ι))

/-- Values. -/
inductive V (Ty : Types ι) where
  | unit
  | num (n : Nat)
  | bool (b : Bool)
  /-- a field value -/
  | fld (v : Ty.Val)
  /-- a reference to one -/
  | fldRef (v : Ty.Val)
  /-- a value of type `Self`: number of the variant (`0` if not an enum) and fields in order -/
  | obj (k : Nat) (l : List Ty.Val)
  /-- a reference to one -/
  | objRef (k : Nat) (l : List Ty.Val)
  | none
  | some (v : V Ty)

/-- Variables in scope, innermost first, each with whether it is `mut`. -/
abbrev VEnv (Ty : Types ι) := List (Ident × Bool × V Ty)

/-- How an expression ends: with a value, or by `return`. -/
inductive Out (Ty : Types ι) (α : Type) where
  | val (a : α)
  | ret (v : V Ty)

/-- Running something that may change variables and may return. -/
def Ev (Ty : Types ι) (α : Type) := VEnv Ty → R (Out Ty α × VEnv Ty)

variable {Ty : Types ι}

/-- A value, no change. -/
def Ev.ok {α : Type} (a : α) : Ev Ty α := fun env => .ok (.val a, env)

/-- Something that does not touch variables. -/
def Ev.of {α : Type} (r : R α) : Ev Ty α := fun env => do .ok (.val (← r), env)

/-- Rejected by rustc. -/
def Ev.bad {α : Type} : Ev Ty α := fun _ => .error .compileError

/-- First `x`, then `f`; a `return` skips `f`. -/
def Ev.bind {α β : Type} (x : Ev Ty α) (f : α → Ev Ty β) : Ev Ty β := fun env =>
  match x env with
  | .error e => .error e
  | .ok (.ret v, env) => .ok (.ret v, env)
  | .ok (.val a, env) => f a env

instance : Monad (Ev Ty) where
  pure := Ev.ok
  bind := Ev.bind

/-- Assign to the innermost variable of that name. -/
def assign (x : Ident) (v : V Ty) : VEnv Ty → VEnv Ty
  | [] => []
  | (y, b, w) :: env => if x == y then (y, b, v) :: env else (y, b, w) :: assign x v env

/-- The variables of a block end with it. -/
def Ev.scoped {α : Type} (x : Ev Ty α) : Ev Ty α := fun env =>
  match x env with
  | .error e => .error e
  | .ok (o, env') => .ok (o, env'.drop (env'.length - env.length))

/-- Read a variable. -/
def readV (x : Ident) : Ev Ty (V Ty) := fun env =>
  match env.lookup x with
  | some (_, v) => .ok (.val v, env)
  | none => .error .compileError

/-- `x /= n` -/
def divV (x : Ident) (n : Nat) : Ev Ty (V Ty) := fun env =>
  match env.lookup x with
  | some (true, .num k) =>
    match divU k n with
    | .error e => .error e
    | .ok q => .ok (.val .unit, assign x (.num q) env)
  | _ => .error .compileError

/-- `let x = v;` -/
def letV (isMut : Bool) (x : Ident) (v : V Ty) : Ev Ty Unit := fun env =>
  if x.bindable then .ok (.val (), (x, isMut, v) :: env) else .error .compileError

/-- A path written as names. -/
def isNames (l : List String) (p : List Seg) : Bool := p == l.map fun s => Seg.id (.user s)

/-- The number and the fields of the variant of that name. -/
def variantOf (s : String) : Nat → List (String × Fields ι) → Option (Nat × Fields ι)
  | _, [] => none
  | k, v :: vs => if v.1 = s then some (k, v.2) else variantOf s (k + 1) vs

/-- The constructor a path is. -/
def Decl.ctor : Decl ι → List Seg → Option (Nat × Fields ι)
  | .struct fs, [.Self] => some (0, fs)
  | .enum vs, [.Self, .id (.user s)] => variantOf s 0 vs
  | _, _ => none

/-- `usize` operators. -/
def binOp (c : Cfg) (m : Mode) (op : BinOp) (a b : Nat) : R (V Ty) :=
  match op, m with
  | .add, .const => .num <$> addC c a b
  | .add, .runtime => .num <$> addU c a b
  | .sub, .const => .num <$> subC a b
  | .sub, .runtime => .num <$> subU c a b
  | .mul, .const => .num <$> mulC c a b
  | .mul, .runtime => .num <$> mulU c a b
  | .rem, .const => .num <$> remC a b
  | .rem, .runtime => .num <$> remU a b
  | .lt, _ => .ok (.bool (decide (a < b)))
  | .gt, _ => .ok (.bool (decide (b < a)))
  | .eq, _ => .ok (.bool (decide (a = b)))
  | .ne, _ => .ok (.bool (decide (a ≠ b)))

/-- Both operands must be `usize`. -/
def binOpV (c : Cfg) (m : Mode) (op : BinOp) : V Ty → V Ty → R (V Ty)
  | .num a, .num b => binOp c m op a b
  | _, _ => .error .compileError

/-- Field values of the given types. -/
def fldVals [DecidableEq ι] : List ι → List (V Ty) → R (List Ty.Val)
  | [], [] => .ok []
  | t :: ts, .fld v :: vs => if v.1 = t then do .ok (v :: (← fldVals ts vs)) else .error .compileError
  | _, _ => .error .compileError

/-- The fields of a struct literal in declaration order: each exactly once. -/
def recordVals [DecidableEq ι] (l : List (String × ι)) (fs : List (Ident × V Ty)) : R (List Ty.Val) :=
  if fs.length = l.length then
    l.mapM fun f => match fs.lookup (.user f.1) with
      | some (.fld v) => if v.1 = f.2 then .ok v else .error .compileError
      | _ => .error .compileError
  else .error .compileError

/-- A field of the struct by name. -/
def Decl.fieldNamed (d : Decl ι) (x : Ident) (l : List Ty.Val) : Option Ty.Val :=
  match d with
  | .struct (.named ns) => ((ns.map fun n => Ident.user n.1).zip l).lookup x
  | _ => none

/-- A field of the tuple or tuple struct by position. -/
def Decl.fieldAt (d : Decl ι) (i : Nat) (l : List Ty.Val) : Option Ty.Val :=
  match d with
  | .struct (.unnamed _) => l[i]?
  | .tuple _ => l[i]?
  | _ => none

/-- What the variables of a pattern are bound to. -/
def bindAll (xs : List Ident) (vs : List (Option Ty.Val)) : Option (VEnv Ty) :=
  match xs, vs with
  | [], [] => some []
  | x :: xs, some v :: vs =>
    if x.bindable then (bindAll xs vs).map fun env => (x, false, .fldRef v) :: env else none
  | _, _ => none

/-- Match a reference to variant `k` with fields `l` against a pattern: `none` if rustc rejects the
pattern, `some none` if it does not match, else the new variables, bound to references. -/
def matchPat (d : Decl ι) (k : Nat) (l : List Ty.Val) : PatT → Option (Option (VEnv Ty))
  | .path p => match d.ctor p with
    | some (j, .unit) => some (if j = k then some [] else none)
    | _ => none
  | .tuple p xs => match d.ctor p with
    | some (j, .unnamed tys) =>
      if xs.Nodup ∧ xs.length = tys.length then
        if j = k then (bindAll xs (l.map some)).map some else some none
      else none
    | _ => none
  | .record p xs => match d.ctor p with
    | some (j, .named ns) =>
      if xs.Nodup ∧ xs.length = ns.length then
        if j = k then
          (bindAll xs (xs.map fun x => ((ns.map fun n => Ident.user n.1).zip l).lookup x)).map some
        else some none
      else none
    | _ => none

section
variable [DecidableEq ι] (c : Cfg) (d : Decl ι) (size : R Nat)

/-- A path as an expression. -/
def pathV (p : List Seg) : Ev Ty (V Ty) :=
  if isNames ["None"] p || isNames ["std", "option", "Option", "None"] p then .ok .none
  else match p with
  | [.id x] => readV x
  | p => match d.ctor p with
    | some (k, .unit) => .ok (.obj k [])
    | some _ => .bad
    | none => if p == [.Self, .id (.user "ORDINAL_SIZE")] then .of (.num <$> size) else .bad

/-- A call of a path. -/
def callV (m : Mode) (p : List Seg) (args : List (V Ty)) : R (V Ty) :=
  if isNames ["std", "option", "Option", "Some"] p then
    match args with
    | [v] => .ok (.some v)
    | _ => .error .compileError
  else if isNames ["ordinal_map", "Ordinal", "ordinal"] p then
    match m, args with
    | .runtime, [.fldRef v] => .num <$> (Ty.impl v.1).ordinal v.2
    | _, _ => .error .compileError
  else match d.ctor p with
  | some (k, .unnamed tys) => .obj k <$> fldVals tys args
  | _ => .error .compileError

/-- A call of `<t as tr>::x`. -/
def callQ (m : Mode) (t : ι) (tr : List Seg) (x : Ident) (args : List (V Ty)) : R (V Ty) :=
  if isNames ["ordinal_map", "Ordinal"] tr && x == .user "from_ordinal" then
    match m, args with
    | .runtime, [.num n] => do
      match ← (Ty.impl t).fromOrdinal n with
      | some v => .ok (.some (.fld ⟨t, v⟩))
      | none => .ok .none
    | _, _ => .error .compileError
  else .error .compileError

/-- A method call. -/
def methodV (x : Ident) (recv : V Ty) (args : List (V Ty)) : R (V Ty) :=
  if x = .user "unwrap" then
    match recv, args with
    | .some v, [] => .ok v
    | .none, [] => .error .panic
    | _, _ => .error .compileError
  else .error .compileError

/-- A tuple expression. -/
def tupleV (vs : List (V Ty)) : R (V Ty) :=
  match d, vs with
  | .tuple tys, vs => .obj 0 <$> fldVals tys vs
  | _, [] => .ok .unit
  | _, _ => .error .compileError

/-- A struct literal. -/
def recordV (p : List Seg) (fs : List (Ident × V Ty)) : R (V Ty) :=
  match d.ctor p with
  | some (k, .named l) => .obj k <$> recordVals l fs
  | _ => .error .compileError

variable (self : Option (Nat × List Ty.Val))

mutual
/-- Run an expression. -/
def runE (self : Option (Nat × List Ty.Val)) (m : Mode) : E ι → Ev Ty (V Ty)
  | .int n => if n < c.M then .ok (.num n) else .bad
  | .usize n => if n < c.M then .ok (.num n) else .bad
  | .path p => pathV d size p
  | .qpath t tr x =>
    if isNames ["ordinal_map", "Ordinal"] tr && x == .user "ORDINAL_SIZE" then .of (.num <$> (Ty.impl t).size)
    else .bad
  | .self => match self with
    | some (k, l) => .ok (.objRef k l)
    | none => .bad
  | .ref e => (runE self m e).bind fun
    | .fld v => .ok (.fldRef v)
    | _ => .bad
  | .field e x => (runE self m e).bind fun
    | .objRef _ l => match d.fieldNamed x l with
      | some v => .ok (.fld v)
      | none => .bad
    | _ => .bad
  | .index e i => (runE self m e).bind fun
    | .objRef _ l => match d.fieldAt i l with
      | some v => .ok (.fld v)
      | none => .bad
    | _ => .bad
  | .call f args => match f with
    | .path p => (runEs self m args).bind fun vs => .of (callV d m p vs)
    | .qpath t tr x => (runEs self m args).bind fun vs => .of (callQ m t tr x vs)
    | _ => .bad
  | .method e x args => (runE self m e).bind fun v => (runEs self m args).bind fun vs => .of (methodV x v vs)
  | .bin op a b => (runE self m a).bind fun v => (runE self m b).bind fun w => .of (binOpV c m op v w)
  | .divAssign a b => match a with
    | .path [.id x] => (runE self m b).bind fun
      | .num n => divV x n
      | _ => .bad
    | _ => .bad
  | .tuple es => (runEs self m es).bind fun vs => .of (tupleV d vs)
  | .record p fs => (runFs self m fs).bind fun vs => .of (recordV d p vs)
  | .block b => (runB self m b).scoped
  | .constBlock b => fun env =>
    match runB none .const b [] with
    | .error e => .error e
    | .ok (.ret _, _) => .error .compileError
    | .ok (.val v, _) => .ok (.val v, env)
  | .ifE e b => (runE self m e).bind fun
    | .bool true => (runB self m b).scoped.bind fun
      | .unit => .ok .unit
      | _ => .bad
    | .bool false => .ok .unit
    | _ => .bad
  | .ret0 => fun env => .ok (.ret .unit, env)
  | .ret e => (runE self m e).bind fun v env => .ok (.ret v, env)
  | .matchE e arms => (runE self m e).bind fun
    | .objRef k l => runArms self m k l arms
    | _ => .bad
/-- Run expressions from left to right. -/
def runEs (self : Option (Nat × List Ty.Val)) (m : Mode) : Es ι → Ev Ty (List (V Ty))
  | .nil => .ok []
  | .cons e es => (runE self m e).bind fun v => (runEs self m es).bind fun vs => .ok (v :: vs)
/-- Run the fields of a struct literal from left to right. -/
def runFs (self : Option (Nat × List Ty.Val)) (m : Mode) : Fs ι → Ev Ty (List (Ident × V Ty))
  | .nil => .ok []
  | .cons x e fs => (runE self m e).bind fun v => (runFs self m fs).bind fun vs => .ok ((x, v) :: vs)
/-- Run the first arm that matches. -/
def runArms (self : Option (Nat × List Ty.Val)) (m : Mode) (k : Nat) (l : List Ty.Val) : Arms ι → Ev Ty (V Ty)
  | .nil => .bad
  | .cons p e arms => match matchPat d k l p with
    | none => .bad
    | some none => runArms self m k l arms
    | some (some new) => Ev.scoped fun env => runE self m e (new ++ env)
/-- Run the content of a block. -/
def runB (self : Option (Nat × List Ty.Val)) (m : Mode) : B ι → Ev Ty (V Ty)
  | .nil => .ok .unit
  | .tail e => runE self m e
  | .letS isMut x e b => (runE self m e).bind fun v => (letV isMut x v).bind fun _ => runB self m b
  | .semi e b => (runE self m e).bind fun _ => runB self m b
  | .stmt e b => (runE self m e).bind fun
    | .unit => runB self m b
    | _ => .bad
end

/-- Run the body of a function. -/
def runFn (b : B ι) (env : VEnv Ty) : R (V Ty) :=
  match runB c d size self .runtime b env with
  | .error e => .error e
  | .ok (.val v, _) => .ok v
  | .ok (.ret v, _) => .ok v

/-- A `usize`. -/
def asNum : V Ty → R Nat
  | .num n => .ok n
  | _ => .error .compileError

/-- Evaluate the constant `ORDINAL_SIZE`; it must not refer to itself. -/
def sizeOfImpl (Ty : Types ι) (A : Impl ι) : R Nat :=
  match runE (Ty := Ty) c d (.error .compileError) none .const A.size [] with
  | .error e => .error e
  | .ok (.val v, _) => asNum v
  | .ok (.ret _, _) => .error .compileError

/-- Call `ordinal` of the impl. -/
def ordinalOfImpl (A : Impl ι) (x : Nat × List Ty.Val) : R Nat := do
  asNum (← runFn c d (sizeOfImpl c d Ty A) (some x) A.ordinal [])

/-- Call `from_ordinal` of the impl. -/
def fromOrdinalOfImpl (Ty : Types ι) (A : Impl ι) (i : Nat) : R (Option (Nat × List Ty.Val)) := do
  match ← runFn (Ty := Ty) c d (sizeOfImpl c d Ty A) none A.fromOrdinal [(A.param, false, .num i)] with
  | .none => .ok none
  | .some (.obj k l) => .ok (some (k, l))
  | _ => .error .compileError
end

section
variable [DecidableEq ι] (c : Cfg) (Ty : Types ι)

/-- The impl of a struct or tuple with field types `tys`, run from its syntax tree. -/
def structText (d : Decl ι) (tys : List ι) (A : Impl ι) : OrdinalImpl (FieldVals Ty tys) where
  size := sizeOfImpl c d Ty A
  ordinal v := ordinalOfImpl c d A (0, v.1)
  fromOrdinal i := do
    match ← fromOrdinalOfImpl c d Ty A i with
    | none => .ok none
    | some p => if h : p.2.map Sigma.fst = tys then .ok (some ⟨p.2, h⟩) else .error .compileError

/-- The impl of an enum, run from its syntax tree. -/
def enumText (vs : List (String × Fields ι)) (A : Impl ι) : OrdinalImpl (EnumVal Ty (vs.map (·.2))) where
  size := sizeOfImpl c (.enum vs) Ty A
  ordinal v := ordinalOfImpl c (.enum vs) A v.1
  fromOrdinal i := do
    match ← fromOrdinalOfImpl c (.enum vs) Ty A i with
    | none => .ok none
    | some p =>
      if h : ∃ v, (vs.map (·.2))[p.1]? = some v ∧ p.2.map Sigma.fst = fieldTypes v then .ok (some ⟨p, h⟩)
      else .error .compileError
end

end OrdinalMap.Derive.Src
