import Verif.SpecTextDebug
/-!
# Specification: running the source text of the `Clone` impls

The texts clone a boxed slice, an array or an iterator of `std`, and these clone the values they hold.  What `V::clone` does is supplied from
outside: it changes the state `P 2` of the world, which is in variable 0, and may panic.  What `std` does is fixed: it clones the items in order,
and an item that is an `Option` by cloning the value in it.
-/

namespace OrdinalMap.Text

variable {P : Nat → Type}

/-- `V::clone` -/
abbrev Cloner (P : Nat → Type) := P 1 → P 2 → R (P 1 × P 2)

/-- `clone` of a `V` or an `Option<V>`. -/
def cloneItem (C : Cloner P) : Val P → P 2 → R (Val P × P 2)
  | .usr 1 v, r => do
    let (v, r) ← C v r
    .ok (.usr 1 v, r)
  | .con "Some" [.usr 1 v], r => do
    let (v, r) ← C v r
    .ok (.some (.usr 1 v), r)
  | .con "None" [], r => .ok (.none, r)
  | _, _ => stuck

/-- The items in order. -/
def cloneItems (C : Cloner P) : List (Val P) → P 2 → R (List (Val P) × P 2)
  | [], r => .ok ([], r)
  | v :: vs, r => do
    let (w, r) ← cloneItem C v r
    let (ws, r) ← cloneItems C vs r
    .ok (w :: ws, r)

/-- `clone` of a boxed slice or an array, and of an iterator of `std` that owns its items.  (An iterator over references is copied by the
evaluator.) -/
def stdClone (C : Cloner P) : List (Val P) → Heap P → R (Val P × Heap P)
  | [.ref (.arr vs)], h => onWorld (fun r => do
    let (ws, r) ← cloneItems C vs r
    .ok (.arr ws, r)) h
  | [.ref (.it vs)], h => onWorld (fun r => do
    let (ws, r) ← cloneItems C vs r
    .ok (.it ws, r)) h
  | _, _ => stuck

/-- `outside` with `V::clone`.  The functions named `clone` may use it; all others are as they were. -/
def outsideC (c : Cfg) (J : (p : Nat) → OrdinalImpl (P p)) (te : TyEnv) (prog : Prog) (C : Cloner P) : Nat → Outside P
  | 0 => outside c J te prog 0
  | n + 1 => { outside c J te prog (n + 1) with
      call := fun t f args h =>
        if f = "clone" then
          if t = .arr ∨ t = .con "std::Iter" then stdClone C args h
          else match prog.fn t f with
            | none => stuck
            | some d => do
              let xs ← bindAll h d args
              (evalBlk c (("Self", t) :: te) (outsideC c J te prog C n) d.body .run (alloc xs [] h).1 (alloc xs [] h).2).out .run
                h.length (rty (("Self", t) :: te) d.ret)
        else (outside c J te prog (n + 1)).call t f args h
      self := fun t f => if f = "clone" then some .ref else (outside c J te prog (n + 1)).self t f }

/-- `v.clone()` for a `v` of type `t`, in the state `r` of the world. -/
def cloneText (c : Cfg) (J : (p : Nat) → OrdinalImpl (P p)) (te : TyEnv) (prog : Prog) (C : Cloner P) (t : String) (v : Val P) (r : P 2) :
    R (Val P × P 2) := do
  match ← (outsideC c J te prog C 9).call (.con t) "clone" [.ref v] [.usr 2 r] with
  | (x, [.usr 2 r]) => .ok (x, r)
  | _ => stuck

/-- Clone these values, in this order. -/
def cloneEach {α ρ : Type} (C : α → ρ → R (α × ρ)) : List α → ρ → R (List α × ρ)
  | [], r => .ok ([], r)
  | v :: vs, r => do
    let (w, r) ← C v r
    let (ws, r) ← cloneEach C vs r
    .ok (w :: ws, r)

/-- `clone` calls `V::clone` on the values `vs`, once on each, in this order, and on no other; a panic ends it there.  If there is none,
`copy` holds of the clones and of what is returned. -/
def ClonesText (C : Cloner P) (vs : List (P 1)) (clone : P 2 → R (Val P × P 2)) (copy : List (P 1) → Val P → Prop) : Prop := ∀ r,
  (∀ f, cloneEach C vs r = .error f → clone r = .error f) ∧
  ∀ ws r', cloneEach C vs r = .ok (ws, r') → ∃ v, clone r = .ok (v, r') ∧ copy ws v

/-- An iterator of type `x`, made by `f`, whose clone, after any calls, has the same keys left and the clones of the values, and then behaves
like an iterator over these. -/
def ClonesRest {ι : Type} (call : Machine P) (clone : String → Val P → P 2 → R (Val P × P 2)) (C : Cloner P) (t : RT) (f x : String)
    (arg : Val P) (read : Heap P → Val P → R ι) (value : ι → P 1) (put : ι → P 1 → ι) (l : List ι) : Prop :=
  ∃ it, call t f [arg] [] = .ok (it, []) ∧ BehavesLike (textMapIter call x read 0) [it] l fun rest h => ∃ it, h = [it] ∧
    ClonesText C (rest.map value) (clone x it) fun ws it' => BehavesLike (textMapIter call x read 0) [it'] (List.zipWith put rest ws)

end OrdinalMap.Text
