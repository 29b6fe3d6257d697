import Lean.Meta.Tactic.Simp
import Verif.Text.Attr
import Verif.Text.Run
/-!
# Rules for running programs

Each rule is one step of the evaluator on a term of known shape.  Continuations are not simplified before they are applied.
-/

namespace OrdinalMap.Text

variable {P : Nat → Type} (c : Cfg) (te : TyEnv) (o : Outside P) (md : Mode) (env : Env) (h : Heap P)

/-! ## Only the first argument is simplified

These procedures simplify the argument that is evaluated first, and stop if that is not enough to take a step. -/

section
open Lean Meta

/-- Is this a result, so that a rule applies? -/
def isResult (e : Expr) : Bool :=
  e.isAppOf ``Res.val || e.isAppOf ``Except.ok || e.isAppOf ``Except.error || e.isAppOf ``Option.some || e.isAppOf ``Option.none ||
    e.isAppOf ``Val.bool && (e.appArg!.isConstOf ``true || e.appArg!.isConstOf ``false)

/-- Simplify the argument `i` of `e`. -/
def simpOnly (i : Nat) (e : Expr) : SimpM Simp.Step := do
  let args := e.getAppArgs
  if h : i < args.size then
    let r ← Simp.simp args[i]
    if r.expr == args[i] then
      if isResult r.expr then return .continue else return .done { expr := e }
    let f := mkAppN e.getAppFn (args.extract 0 i)
    let mut res ← Simp.mkCongr { expr := f } r
    for a in args.extract (i + 1) args.size do
      res ← Simp.mkCongrFun res a
    return .visit res
  else return .continue
end

simproc_decl onValArg (Res.onVal _ _ _) := simpOnly 2
simproc_decl onLocArg (Res.onLoc _ _) := simpOnly 1
simproc_decl liftArg (lift _ _) := simpOnly 2

/-! ## Sequencing -/

@[text ↓] theorem onVal_val (v : Val P) (k : Val P → Heap P → Res P) : (Res.val v h).onVal md k = k v h := rfl
@[text ↓] theorem onVal_ok (v : Val P) (k : Val P → Heap P → Res P) : Res.onVal md (.ok (.loc (.val v), h)) k = k v h := rfl
@[text ↓] theorem onVal_heap (a : Nat) (ps : List Proj) (k : Val P → Heap P → Res P) :
    Res.onVal md (.ok (.loc (.heap a ps), h)) k = lift (Loc.get md h (.heap a ps)) fun v => k v h := by
  simp only [Res.onVal, lift]
  cases Loc.get md h (.heap a ps) <;> rfl
@[text ↓] theorem onVal_err (f : Fault) (k : Val P → Heap P → Res P) : Res.onVal md (.error f) k = .error f := rfl
@[text ↓] theorem onVal_ret (v : Val P) (k : Val P → Heap P → Res P) : Res.onVal md (.ok (.ret v, h)) k = .ok (.ret v, h) := rfl
@[text ↓] theorem onLoc_ok (l : Loc P) (k : Loc P → Heap P → Res P) : Res.onLoc (.ok (.loc l, h)) k = k l h := rfl
@[text ↓] theorem onLoc_val (v : Val P) (k : Loc P → Heap P → Res P) : Res.onLoc (Res.val v h) k = k (.val v) h := rfl
@[text ↓] theorem onLoc_err (f : Fault) (k : Loc P → Heap P → Res P) : Res.onLoc (.error f) k = .error f := rfl
@[text ↓] theorem onLoc_ret (v : Val P) (k : Loc P → Heap P → Res P) : Res.onLoc (.ok (.ret v, h)) k = .ok (.ret v, h) := rfl
@[text ↓] theorem lift_ok {α : Type} (a : α) (k : α → Res P) : lift (.ok a) k = k a := rfl
@[text ↓] theorem lift_err {α : Type} (f : Fault) (k : α → Res P) : lift (.error f) k = .error f := rfl

@[text] theorem scope_val (n : Nat) (v : Val P) : (Res.val v h).scope md n = Res.val v (h.take n) := rfl
@[text] theorem scope_heap (n a : Nat) (ps : List Proj) :
    Res.scope md n (.ok (.loc (.heap a ps), h)) = lift (Loc.get md h (.heap a ps)) fun v => Res.val v (h.take n) := by
  simp only [Res.scope, lift, Res.val]
  cases Loc.get md h (.heap a ps) <;> rfl
@[text] theorem scope_ret (n : Nat) (v : Val P) : Res.scope md n (.ok (.ret v, h)) = .ok (.ret v, h.take n) := rfl
@[text] theorem scope_err (n : Nat) (f : Fault) : Res.scope (P := P) md n (.error f) = .error f := rfl

@[text] theorem out_val (n : Nat) (t : Option RT) (v : Val P) : (Res.val v h).out md n t = .ok (coerce t v, h.take n) := rfl
@[text] theorem out_ret (n : Nat) (t : Option RT) (v : Val P) :
    Res.out md n t (.ok (.ret v, h)) = .ok (coerce t v, h.take n) := rfl
@[text] theorem out_heap (n a : Nat) (ps : List Proj) (t : Option RT) :
    Res.out md n t (.ok (.loc (.heap a ps), h)) = (fun v => (coerce t v, h.take n)) <$> Loc.get md h (.heap a ps) := by
  simp only [Res.out]
  cases Loc.get md h (.heap a ps) <;> rfl
@[text] theorem out_err (n : Nat) (t : Option RT) (f : Fault) : Res.out (P := P) md n t (.error f) = .error f := rfl

/-! ## Memory -/

@[text] theorem get_val (v : Val P) : Loc.get md h (.val v) = .ok v := rfl
@[text] theorem get_var (a : Nat) : Loc.get md h (.heap a []) = match h[a]? with
    | some v => .ok v
    | none => stuck := by
  simp only [Loc.get, getPath]
  cases h[a]? <;> rfl
@[text] theorem set_var (v : Val P) (a : Nat) : Loc.set md h v (.heap a []) = match h[a]? with
    | some _ => .ok (h.set a v)
    | none => stuck := by
  simp only [Loc.set, setPath]
  cases h[a]? <;> rfl

@[text] theorem auto_eq (l : Loc P) : Loc.auto md h l = match l.get md h with
    | .ok v => Loc.follow md h 8 l v
    | .error f => .error f := rfl
@[text] theorem follow_uint (n : Nat) (l : Loc P) (w : W) (k : Nat) :
    Loc.follow md h (n + 1) l (.uint w k) = .ok (l, .uint w k) := rfl
@[text] theorem follow_sint (n : Nat) (l : Loc P) (w : W) (k : Int) :
    Loc.follow md h (n + 1) l (.sint w k) = .ok (l, .sint w k) := rfl
@[text] theorem follow_nzu (n : Nat) (l : Loc P) (w : W) (k : Nat) :
    Loc.follow md h (n + 1) l (.nzu w k) = .ok (l, .nzu w k) := rfl
@[text] theorem follow_nzs (n : Nat) (l : Loc P) (w : W) (k : Int) :
    Loc.follow md h (n + 1) l (.nzs w k) = .ok (l, .nzs w k) := rfl
@[text] theorem follow_bool (n : Nat) (l : Loc P) (b : Bool) : Loc.follow md h (n + 1) l (.bool b) = .ok (l, .bool b) := rfl
@[text] theorem follow_chr (n : Nat) (l : Loc P) (k : Nat) : Loc.follow md h (n + 1) l (.chr k) = .ok (l, .chr k) := rfl
@[text] theorem follow_con (n : Nat) (l : Loc P) (x : String) (vs : List (Val P)) :
    Loc.follow md h (n + 1) l (.con x vs) = .ok (l, .con x vs) := rfl
@[text] theorem follow_obj (n : Nat) (l : Loc P) (x : String) (vs : List (String × Val P)) :
    Loc.follow md h (n + 1) l (.obj x vs) = .ok (l, .obj x vs) := rfl
@[text] theorem follow_arr (n : Nat) (l : Loc P) (vs : List (Val P)) :
    Loc.follow md h (n + 1) l (.arr vs) = .ok (l, .arr vs) := rfl
@[text] theorem follow_bld (n k : Nat) (l : Loc P) (vs : List (Val P)) :
    Loc.follow md h (n + 1) l (.bld k vs) = .ok (l, .bld k vs) := rfl
@[text] theorem follow_range (n a b : Nat) (l : Loc P) :
    Loc.follow md h (n + 1) l (.range a b) = .ok (l, .range a b) := rfl
@[text] theorem follow_usr (n p : Nat) (l : Loc P) (v : P p) :
    Loc.follow md h (n + 1) l (.usr p v) = .ok (l, .usr p v) := rfl
@[text] theorem follow_it (n : Nat) (l : Loc P) (vs : List (Val P)) :
    Loc.follow md h (n + 1) l (.it vs) = .ok (l, .it vs) := rfl
@[text] theorem follow_ref (n : Nat) (l : Loc P) (v : Val P) :
    Loc.follow md h (n + 1) l (.ref v) = Loc.follow md h n (.val v) v := rfl
@[text] theorem follow_mref (n a : Nat) (ps : List Proj) (l : Loc P) :
    Loc.follow md h (n + 1) l (.mref a ps) = match Loc.get md h (.heap a ps) with
    | .ok v => Loc.follow md h n (.heap a ps) v
    | .error f => .error f := rfl

@[text] theorem deref_ref (l : Loc P) (v : Val P) : l.derefOf (.ref v) = .ok (.val v) := rfl
@[text] theorem deref_mref (l : Loc P) (a : Nat) (ps : List Proj) : l.derefOf (.mref a ps) = .ok (.heap a ps) := rfl
@[text] theorem deref_box (v w : Val P) : Loc.derefOf (.val w) (.con "Box" [v]) = .ok (.val v) := rfl

@[text] theorem alloc_nil : alloc [] env h = (env, h) := rfl
@[text] theorem alloc_cons (x : String) (v : Val P) (xs : List (String × Val P)) :
    alloc ((x, v) :: xs) env h = alloc xs ((x, h.length) :: env) (h ++ [v]) := rfl
@[text] theorem find_cons (x y : String) (a : Nat) : Env.find x ((y, a) :: env) = if x = y then some a else Env.find x env :=
  rfl
@[text] theorem find_nil (x : String) : Env.find x [] = none := rfl

/-! ## Expressions -/

@[text] theorem eval_num (n : Nat) (s : String) : eval c te o (.num n s) md env h =
    if s = "" then Res.val (.lit n) h else Res.val (coerce (intTy s) (.lit n)) h := rfl
@[text] theorem eval_bool (b : Bool) : eval c te o (.bool b) md env h = Res.val (.bool b) h := rfl
@[text] theorem eval_name (x : String) (ts : Tys) : eval c te o (.path [⟨x, ts⟩]) md env h = nameVal te o env x h := rfl
@[text] theorem eval_path (t x : String) (ts us : Tys) :
    eval c te o (.path [⟨t, ts⟩, ⟨x, us⟩]) md env h = pathVal c te o t x h := rfl
@[text] theorem eval_deref (e : Ex) : eval c te o (.un .deref e) md env h = (eval c te o e md env h).onLoc fun l h =>
    lift (l.get md h) fun v => lift (l.derefOf v) fun l => .ok (.loc l, h) := rfl
@[text] theorem eval_not (e : Ex) : eval c te o (.un .not e) md env h =
    (eval c te o e md env h).onVal md fun v h => lift (unop c .not v) fun v => Res.val v h := rfl
@[text] theorem eval_ref (m : Bool) (e : Ex) : eval c te o (.ref m e) md env h =
    (eval c te o e md env h).onLoc fun l h => refTo m md l h := rfl

@[text] theorem eval_add (a b : Ex) : eval c te o (.bin .add a b) md env h =
    (eval c te o a md env h).onVal md fun v h => (eval c te o b md env h).onVal md fun w h =>
      lift (binop c md .add v w) fun r => Res.val r h := rfl
@[text] theorem eval_sub (a b : Ex) : eval c te o (.bin .sub a b) md env h =
    (eval c te o a md env h).onVal md fun v h => (eval c te o b md env h).onVal md fun w h =>
      lift (binop c md .sub v w) fun r => Res.val r h := rfl
@[text] theorem eval_mul (a b : Ex) : eval c te o (.bin .mul a b) md env h =
    (eval c te o a md env h).onVal md fun v h => (eval c te o b md env h).onVal md fun w h =>
      lift (binop c md .mul v w) fun r => Res.val r h := rfl
@[text] theorem eval_div (a b : Ex) : eval c te o (.bin .div a b) md env h =
    (eval c te o a md env h).onVal md fun v h => (eval c te o b md env h).onVal md fun w h =>
      lift (binop c md .div v w) fun r => Res.val r h := rfl
@[text] theorem eval_rem (a b : Ex) : eval c te o (.bin .rem a b) md env h =
    (eval c te o a md env h).onVal md fun v h => (eval c te o b md env h).onVal md fun w h =>
      lift (binop c md .rem v w) fun r => Res.val r h := rfl
@[text] theorem eval_and (a b : Ex) : eval c te o (.bin .and a b) md env h =
    (eval c te o a md env h).onVal md fun v h => (eval c te o b md env h).onVal md fun w h =>
      lift (binop c md .and v w) fun r => Res.val r h := rfl
@[text] theorem eval_or (a b : Ex) : eval c te o (.bin .or a b) md env h =
    (eval c te o a md env h).onVal md fun v h => (eval c te o b md env h).onVal md fun w h =>
      lift (binop c md .or v w) fun r => Res.val r h := rfl
@[text] theorem eval_xor (a b : Ex) : eval c te o (.bin .xor a b) md env h =
    (eval c te o a md env h).onVal md fun v h => (eval c te o b md env h).onVal md fun w h =>
      lift (binop c md .xor v w) fun r => Res.val r h := rfl
@[text] theorem eval_shl (a b : Ex) : eval c te o (.bin .shl a b) md env h =
    (eval c te o a md env h).onVal md fun v h => (eval c te o b md env h).onVal md fun w h =>
      lift (binop c md .shl v w) fun r => Res.val r h := rfl
@[text] theorem eval_shr (a b : Ex) : eval c te o (.bin .shr a b) md env h =
    (eval c te o a md env h).onVal md fun v h => (eval c te o b md env h).onVal md fun w h =>
      lift (binop c md .shr v w) fun r => Res.val r h := rfl
@[text] theorem eval_eq (a b : Ex) : eval c te o (.bin .eq a b) md env h =
    (eval c te o a md env h).onVal md fun v h => (eval c te o b md env h).onVal md fun w h =>
      lift (binop c md .eq v w) fun r => Res.val r h := rfl
@[text] theorem eval_ne (a b : Ex) : eval c te o (.bin .ne a b) md env h =
    (eval c te o a md env h).onVal md fun v h => (eval c te o b md env h).onVal md fun w h =>
      lift (binop c md .ne v w) fun r => Res.val r h := rfl
@[text] theorem eval_lt (a b : Ex) : eval c te o (.bin .lt a b) md env h =
    (eval c te o a md env h).onVal md fun v h => (eval c te o b md env h).onVal md fun w h =>
      lift (binop c md .lt v w) fun r => Res.val r h := rfl
@[text] theorem eval_gt (a b : Ex) : eval c te o (.bin .gt a b) md env h =
    (eval c te o a md env h).onVal md fun v h => (eval c te o b md env h).onVal md fun w h =>
      lift (binop c md .gt v w) fun r => Res.val r h := rfl
@[text] theorem eval_le (a b : Ex) : eval c te o (.bin .le a b) md env h =
    (eval c te o a md env h).onVal md fun v h => (eval c te o b md env h).onVal md fun w h =>
      lift (binop c md .le v w) fun r => Res.val r h := rfl
@[text] theorem eval_ge (a b : Ex) : eval c te o (.bin .ge a b) md env h =
    (eval c te o a md env h).onVal md fun v h => (eval c te o b md env h).onVal md fun w h =>
      lift (binop c md .ge v w) fun r => Res.val r h := rfl
@[text] theorem eval_assign (a b : Ex) : eval c te o (.assign a b) md env h =
    (eval c te o b md env h).onVal md fun v h => (eval c te o a md env h).onLoc fun l h =>
      lift (l.set md h v) fun h => Res.val .unit h := rfl
@[text] theorem eval_assignOp (p : BinOp) (a b : Ex) : eval c te o (.assignOp p a b) md env h =
    (eval c te o b md env h).onVal md fun w h => (eval c te o a md env h).onLoc fun l h =>
      lift (l.get md h) fun v => lift (binop c md p v w) fun r => lift (l.set md h r) fun h => Res.val .unit h := rfl
@[text] theorem eval_cast (e : Ex) (t : Ty) : eval c te o (.cast e t) md env h =
    (eval c te o e md env h).onVal md fun v h => match rty te t with
      | some t => lift (cast c v t) fun v => Res.val v h
      | none => .error .compileError := rfl
@[text] theorem eval_call (p : List Seg) (args : Exs) : eval c te o (.call (.path p) args) md env h =
    evalArgs c te o args md env h fun vs h => callPath c te o env p vs h := rfl
@[text] theorem eval_method (e : Ex) (f : String) (ts : Tys) (args : Exs) : eval c te o (.method e f ts args) md env h =
    (eval c te o e md env h).onLoc fun l h => evalArgs c te o args md env h fun vs h => callMethod c md o l f vs h := rfl
@[text] theorem eval_field (e : Ex) (x : String) : eval c te o (.field e x) md env h =
    (eval c te o e md env h).onLoc fun l h => lift (Loc.auto md h l) fun m =>
      lift (m.1.proj md (.field x)) fun l => .ok (.loc l, h) := rfl
@[text] theorem eval_try (e : Ex) : eval c te o (.try e) md env h = (eval c te o e md env h).onVal md tryVal := rfl
@[text] theorem eval_tuple (es : Exs) : eval c te o (.tuple es) md env h =
    evalArgs c te o es md env h fun vs h => Res.val (.con "()" vs) h := rfl
@[text] theorem eval_block (b : Blk) : eval c te o (.block b) md env h = (evalBlk c te o b md env h).scope md h.length := rfl
@[text] theorem eval_constBlock (b : Blk) : eval c te o (.constBlock b) md env h =
    (evalBlk c te o b .const [] h).scope .const h.length := rfl

/-- The name of the struct in a literal. -/
def recName (te : TyEnv) (x : String) : String := match te.find x with
  | some (.con y) => y
  | _ => x

/-- Choose by a condition. -/
def branch (v : Val P) (a b : Res P) : Res P :=
  match v with
  | .bool true => a
  | .bool false => b
  | _ => .error .compileError

simproc_decl branchArg (branch _ _ _) := simpOnly 1
@[text ↓] theorem branch_true (a b : Res P) : branch (.bool true) a b = a := rfl
@[text ↓] theorem branch_false (a b : Res P) : branch (.bool false) a b = b := rfl

@[text] theorem eval_if (e : Ex) (b : Blk) (f : Ex) : eval c te o (.ifE e b f) md env h =
    (eval c te o e md env h).onVal md fun v h =>
      branch v ((evalBlk c te o b md env h).scope md h.length) (eval c te o f md env h) := by
  rw [eval]
  rfl
@[text] theorem eval_match (e : Ex) (arms : Arms) : eval c te o (.matchE e arms) md env h =
    (eval c te o e md env h).onLoc fun l h => evalArms c te o arms md env h l := rfl
@[text] theorem eval_ret (e : Ex) : eval c te o (.ret e) md env h =
    (eval c te o e md env h).onVal md fun v h => .ok (.ret v, h) := rfl
@[text] theorem eval_mac (x : String) (es : Exs) : eval c te o (.mac x es) md env h =
    if x = "panic" ∨ x = "unreachable" then fail md
    else if x = "debug_assert" ∧ c.debugAssertions = false then Res.val .unit h
    else evalArgs c te o es md env h fun vs h => macCall o md x vs h := rfl
@[text] theorem eval_repeat (e n : Ex) : eval c te o (.repeat e n) md env h =
    (eval c te o e md env h).onVal md fun v h => (eval c te o n md env h).onVal md fun n h =>
      lift (repeatVal v n) fun v => Res.val v h := rfl
@[text] theorem eval_record (x : String) (ts : Tys) (fs : Fls) : eval c te o (.record [⟨x, ts⟩] fs) md env h =
    evalFields c te o fs md env h fun vs h =>
      Res.val (.obj (recName te x) (coerceFields te (o.struct (recName te x)) vs)) h := rfl
@[text] theorem eval_index (e i : Ex) : eval c te o (.index e i) md env h =
    (eval c te o e md env h).onLoc fun l h => (eval c te o i md env h).onVal md fun i h =>
      lift (Loc.auto md h l) fun m => indexAt o md m.1 m.2 i h := rfl
@[text] theorem eval_lor (a b : Ex) : eval c te o (.bin .lor a b) md env h =
    (eval c te o a md env h).onVal md fun v h => branch v (Res.val (.bool true) h) (eval c te o b md env h) := by
  rw [eval]
  congr
  funext v h
  cases v <;> try rfl
  rename_i b
  cases b <;> rfl
@[text] theorem eval_land (a b : Ex) : eval c te o (.bin .land a b) md env h =
    (eval c te o a md env h).onVal md fun v h => branch v (eval c te o b md env h) (Res.val (.bool false) h) := by
  rw [eval]
  rfl
@[text] theorem fields_nil (k : List (String × Val P) → Heap P → Res P) : evalFields c te o .nil md env h k = k [] h := rfl
@[text] theorem fields_cons (x : String) (e : Ex) (fs : Fls) (k : List (String × Val P) → Heap P → Res P) :
    evalFields c te o (.cons x e fs) md env h k =
      (eval c te o e md env h).onVal md fun v h => evalFields c te o fs md env h fun vs h => k ((x, v) :: vs) h := rfl
@[text] theorem eval_range (a b : Ex) : eval c te o (.range a b) md env h =
    (eval c te o a md env h).onVal md fun v h => (eval c te o b md env h).onVal md fun w h =>
      lift (rangeVal v w) fun r => Res.val r h := rfl

@[text] theorem args_nil (k : List (Val P) → Heap P → Res P) : evalArgs c te o .nil md env h k = k [] h := rfl
@[text] theorem args_cons (e : Ex) (es : Exs) (k : List (Val P) → Heap P → Res P) : evalArgs c te o (.cons e es) md env h k =
    (eval c te o e md env h).onVal md fun v h => evalArgs c te o es md env h fun vs h => k (v :: vs) h := rfl

/-- The continuation of a match. -/
def arm (b : Option (List (String × Val P))) (yes : List (String × Val P) → Res P) (no : Res P) : Res P :=
  match b with
  | some xs => yes xs
  | none => no

simproc_decl armArg (arm _ _ _) := simpOnly 1
@[text ↓] theorem arm_some (xs : List (String × Val P)) (yes : List (String × Val P) → Res P) (no : Res P) :
    arm (some xs) yes no = yes xs := rfl
@[text ↓] theorem arm_none (yes : List (String × Val P) → Res P) (no : Res P) : arm none yes no = no := rfl

@[text] theorem arms_nil (l : Loc P) : evalArms c te o .nil md env h l = .error .compileError := rfl
@[text] theorem arms_cons (p : Pat) (e : Ex) (as : Arms) (l : Loc P) : evalArms c te o (.cons p e as) md env h l =
    lift (matchPat md h p .move l) fun b => arm b
      (fun xs => (eval c te o e md (alloc xs env h).1 (alloc xs env h).2).scope md h.length)
      (evalArms c te o as md env h l) := by
  rw [evalArms]
  rfl

@[text] theorem blk_nil : evalBlk c te o .nil md env h = Res.val .unit h := rfl
@[text] theorem blk_tail (e : Ex) : evalBlk c te o (.tail e) md env h = eval c te o e md env h := rfl
@[text] theorem blk_let (p : Pat) (e : Ex) (b : Blk) : evalBlk c te o (.letS p e b) md env h =
    (eval c te o e md env h).onVal md fun v h => lift (matchPat md h p .move (.val v)) fun m => arm m
      (fun xs => evalBlk c te o b md (alloc xs env h).1 (alloc xs env h).2) (.error .compileError) := by
  rw [evalBlk]
  rfl

/-- `else` must leave the block. -/
def leaves (r : Res P) : Res P :=
  match r with
  | .ok (.loc _, _) => .error .compileError
  | r => r

@[text] theorem leaves_ret (v : Val P) : leaves (.ok (.ret v, h)) = .ok (.ret v, h) := rfl

@[text] theorem blk_letElse (p : Pat) (e : Ex) (els b : Blk) : evalBlk c te o (.letElse p e els b) md env h =
    (eval c te o e md env h).onVal md fun v h => lift (matchPat md h p .move (.val v)) fun m => arm m
      (fun xs => evalBlk c te o b md (alloc xs env h).1 (alloc xs env h).2) (leaves (evalBlk c te o els md env h)) := by
  rw [evalBlk]
  rfl
@[text] theorem blk_semi (e : Ex) (b : Blk) : evalBlk c te o (.semi e b) md env h =
    (eval c te o e md env h).onLoc fun l h => lift (dropTemp o l h) fun h => evalBlk c te o b md env h := rfl
@[text] theorem blk_stmt (e : Ex) (b : Blk) : evalBlk c te o (.stmt e b) md env h =
    (eval c te o e md env h).onLoc fun _ h => evalBlk c te o b md env h := rfl

/-! ## Loops -/

/-- The end of an iteration. -/
def again (r : Res P) : R (Option (Ctl P) × Heap P) :=
  match r with
  | .ok (k, h) => .ok (some k, h)
  | .error f => .error f

@[text] theorem again_val (v : Val P) : again (Res.val v h) = .ok (some (.loc (.val v)), h) := rfl
@[text] theorem again_ret (v : Val P) : again (.ok (.ret v, h)) = .ok (some (.ret v), h) := rfl
@[text] theorem again_err (f : Fault) : again (P := P) (.error f) = .error f := rfl

/-- An iteration after the condition. -/
def whileStep (r : Res P) (k : Heap P → Res P) : R (Option (Ctl P) × Heap P) :=
  match r with
  | .ok (.loc (.val (.bool true)), h) => again (k h)
  | .ok (.loc (.val (.bool false)), h) => .ok (none, h)
  | .ok (.loc _, _) => .error .compileError
  | .ok (k, h) => .ok (some k, h)
  | .error f => .error f

simproc_decl whileArg (whileStep _ _) := simpOnly 1
@[text ↓] theorem whileStep_true (k : Heap P → Res P) : whileStep (Res.val (.bool true) h) k = again (k h) := rfl
@[text ↓] theorem whileStep_false (k : Heap P → Res P) : whileStep (Res.val (.bool false) h) k = .ok (none, h) := rfl

/-- An iteration of `while e b`. -/
def whileBody (e : Ex) (b : Blk) (h : Heap P) : R (Option (Ctl P) × Heap P) :=
  whileStep ((eval c te o e md env h).onVal md fun v h => Res.val v h) fun h => (evalBlk c te o b md env h).scope md h.length

@[text] theorem eval_while (e : Ex) (b : Blk) : eval c te o (.whileE e b) md env h =
    whileLoop (whileBody c te o md env e b) (c.M + 1) h := by
  rw [eval]
  rfl

/-- An iteration of `while let` after the expression. -/
def whileLetStep (p : Pat) (r : Res P) (k : List (String × Val P) → Heap P → Res P) : R (Option (Ctl P) × Heap P) :=
  match r with
  | .ok (.loc l, h) => match matchPat md h p .move l with
    | .ok (some xs) => again (k xs h)
    | .ok none => .ok (none, h)
    | .error f => .error f
  | .ok (k, h) => .ok (some k, h)
  | .error f => .error f

/-- An iteration of `while let p = e b`. -/
def whileLetBody (p : Pat) (e : Ex) (b : Blk) (h : Heap P) : R (Option (Ctl P) × Heap P) :=
  whileLetStep md p (eval c te o e md env h) fun xs h => (evalBlk c te o b md (alloc xs env h).1 (alloc xs env h).2).scope md h.length

@[text] theorem eval_whileLet (p : Pat) (e : Ex) (b : Blk) : eval c te o (.whileLet p e b) md env h =
    whileLoop (whileLetBody c te o md env p e b) (c.M + 1) h := by
  rw [eval]
  rfl

/-- An iteration of `loop b`. -/
def loopBody (b : Blk) (h : Heap P) : R (Option (Ctl P) × Heap P) := again ((evalBlk c te o b md env h).scope md h.length)

@[text] theorem eval_loop (b : Blk) : eval c te o (.loopE b) md env h =
    whileLoop (loopBody c te o md env b) (c.M + 1) h := by
  rw [eval]
  rfl

/-- An iteration of `for p in _ b`. -/
def forBody (p : Pat) (b : Blk) (v : Val P) (h : Heap P) : Res P :=
  lift (matchPat md h p .move (.val v)) fun m => arm m
    (fun xs => (evalBlk c te o b md (alloc xs env h).1 (alloc xs env h).2).scope md h.length) (.error .compileError)

@[text] theorem eval_for (p : Pat) (e : Ex) (b : Blk) : eval c te o (.forE p e b) md env h =
    (eval c te o e md env h).onVal md fun v h => forAny c o md (forBody c te o md env p b) v h := by
  rw [eval]
  rfl

@[text] theorem eval_ifLet (p : Pat) (e : Ex) (b : Blk) (f : Ex) : eval c te o (.ifLet p e b f) md env h =
    (eval c te o e md env h).onLoc fun l h => lift (matchPat md h p .move l) fun m => arm m
      (fun xs => (evalBlk c te o b md (alloc xs env h).1 (alloc xs env h).2).scope md h.length) (eval c te o f md env h) := by
  rw [eval]
  rfl

@[text] theorem eval_closure (ps : Pats) (e : Ex) : eval c te o (.closure ps e) md env h = Res.val (.clo te env ps e) h := rfl

@[text] theorem for_obj (f : Val P → Heap P → Res P) (x : String) (fs : List (String × Val P)) :
    forAny c o md f (.obj x fs) h =
      (iterLoop (o.call (.con x) "next" [.mref h.length []]) f (c.M + 1) (h ++ [.obj x fs])).scope md h.length := rfl
@[text] theorem for_mref (f : Val P → Heap P → Res P) (a : Nat) (ps : List Proj) : forAny c o md f (.mref a ps) h =
    lift (Loc.get md h (.heap a ps)) fun
      | .obj x _ => iterLoop (o.call (.con x) "next" [.mref a ps]) f (c.M + 1) h
      | _ => .error .compileError := rfl
@[text] theorem for_range (f : Val P → Heap P → Res P) (a b : Nat) : forAny c o md f (.range a b) h =
    forLoop f ((List.range' a (b - a)).map (.uint .size ·)) h := rfl
@[text] theorem for_ref_arr (f : Val P → Heap P → Res P) (vs : List (Val P)) : forAny c o md f (.ref (.arr vs)) h =
    forLoop f (vs.map .ref) h := rfl
@[text] theorem for_arr (f : Val P → Heap P → Res P) (vs : List (Val P)) : forAny c o md f (.arr vs) h = forLoop f vs h := rfl
@[text] theorem for_it (f : Val P → Heap P → Res P) (vs : List (Val P)) : forAny c o md f (.it vs) h = forLoop f vs h := rfl

/-! ## Names, calls, patterns -/

attribute [text] nameVal pathVal callPath callTy callMethod macCall macVal repeatVal recName indexAt coerceArgs share stdConst stdFn stdMethod stdMut stdPlace mapMethod memFn dropTemp typeOf unop rangeVal refTo okOr Val.opt
  nameTy intTy TyEnv.find rty isFnCtor W.bits binop strip uintOp sintOp litOp shlOp cast coerce coerceTuple tupleTys tryVal
  matchPat matchPats lastName isCtor inRange bindTo Loc.proj valPart part Val.none Val.some Val.unit fail stuck orFail
  bindAll bindParams bindPats

/-! ## Calls of the program -/

/-- Is this a type parameter? -/
def RT.isPar : RT → Bool
  | .par _ => true
  | _ => false

variable {c te} {J : (p : Nat) → OrdinalImpl (P p)} {prog : Prog} {U : UserFns P}

theorem outside_const {t : RT} {x : String} {ty : Ty} {e : Ex} (n : Nat) (hp : prog.const t x = some (ty, e))
    (ht : t.isPar = false) : (outside c J te prog (n + 1) U).const t x =
      Prod.fst <$> (eval c (("Self", t) :: te) (outside c J te prog n U) e .const [] []).out .const 0
        (rty (("Self", t) :: te) ty) := by
  cases t
  case par => exact absurd ht (by simp [RT.isPar])
  all_goals simp only [outside, hp]

theorem outside_glob {x : String} {ty : Ty} {e : Ex} (n : Nat) (hp : prog.glob x = some (ty, e)) :
    (outside c J te prog (n + 1) U).glob x =
      Prod.fst <$> (eval c te (outside c J te prog n U) e .const [] []).out .const 0 (rty te ty) := by
  simp only [outside, hp]

theorem outside_call {t : RT} {f : String} {d : FnDef} (n : Nat) (args : List (Val P)) (h : Heap P)
    (hp : prog.fn t f = some d) (ht : t.isPar = false) : (outside c J te prog (n + 1) U).call t f args h = (do
      let xs ← bindAll h d args
      (evalBlk c (("Self", t) :: te) (outside c J te prog n U) d.body .run (alloc xs [] h).1 (alloc xs [] h).2).out .run
        h.length (rty (("Self", t) :: te) d.ret)) := by
  cases t
  case par => exact absurd ht (by simp [RT.isPar])
  all_goals simp only [outside, hp]

theorem outside_free {f : String} {d : FnDef} (n : Nat) (args : List (Val P)) (h : Heap P) (hp : prog.free f = some d) :
    (outside c J te prog (n + 1) U).free f args h = (do
      let xs ← bindAll h d args
      (evalBlk c te (outside c J te prog n U) d.body .run (alloc xs [] h).1 (alloc xs [] h).2).out .run h.length
        (rty te d.ret)) := by
  simp only [outside, hp]

theorem outside_struct (n : Nat) (x : String) : (outside c J te prog (n + 1) U).struct x = prog.struct x := rfl
theorem outside_variant (n : Nat) (t x : String) : (outside c J te prog (n + 1) U).variant t x = prog.variant t x := rfl

theorem outside_par_dflt {f : String} {d : FnDef} (n p : Nat) (args : List (Val P)) (h : Heap P)
    (hp : prog.dflt f = some d) (hf : (f == "ordinal" || f == "from_ordinal") = false) :
    (outside c J te prog (n + 1) U).call (.par p) f args h = (do
      let xs ← bindAll h d args
      (evalBlk c (("Self", .par p) :: te) (outside c J te prog n U) d.body .run (alloc xs [] h).1 (alloc xs [] h).2).out .run
        h.length (rty (("Self", .par p) :: te) d.ret)) := by
  simp only [Bool.or_eq_false_iff, beq_eq_false_iff_ne] at hf
  simp only [outside, hp, hf, or_self, if_false]

theorem outside_par_const (n p : Nat) : (outside c J te prog (n + 1) U).const (.par p) "ORDINAL_SIZE" =
    (.uint .size ·) <$> (J p).size := rfl

theorem outside_par_ordinal (n p : Nat) (v : P p) (h : Heap P) :
    (outside c J te prog (n + 1) U).call (.par p) "ordinal" [.ref (.usr p v)] h =
      (fun k => (.uint .size k, h)) <$> (J p).ordinal v := by
  simp only [outside, parCall, true_or, if_true]
  cases (J p).ordinal v <;> simp

theorem outside_par_from (n p i : Nat) (h : Heap P) :
    (outside c J te prog (n + 1) U).call (.par p) "from_ordinal" [.uint .size i] h =
      (fun q => (.opt (q.map (.usr p ·)), h)) <$> (J p).fromOrdinal i := by
  simp only [outside, parCall, or_true, if_true]
  cases (J p).fromOrdinal i <;> simp

theorem outside_par_self (n p : Nat) (f : String) : (outside c J te prog (n + 1) U).self (.par p) f = some .ref := rfl

theorem outside_self {t : RT} {f : String} {d : FnDef} (n : Nat) (hp : prog.fn t f = some d) (ht : t.isPar = false) :
    (outside c J te prog (n + 1) U).self t f = some d.self := by
  cases t
  case par => exact absurd ht (by simp [RT.isPar])
  all_goals simp only [outside, hp, Option.map_some]

theorem outside_clo (n : Nat) (te' : TyEnv) (env : Env) (ps : Pats) (e : Ex) (args : List (Val P)) (h : Heap P) :
    (outside c J te prog (n + 1) U).apply (.clo te' env ps e) args h = (do
      let xs ← bindPats h ps args
      (eval c te' (outside c J te prog n U) e .run (alloc xs env h).1 (alloc xs env h).2).out .run h.length none) := rfl

theorem outside_ufn (n k : Nat) (args : List (Val P)) (h : Heap P) :
    (outside c J te prog (n + 1) U).apply (.ufn k) args h = U k args h := rfl

end OrdinalMap.Text
