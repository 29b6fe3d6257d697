import Verif.SpecTextTotal
/-!
# Specification: running the source text of `IntoIterator` for references to maps

`SpecTextMap.lean` looks up functions by the name of the type alone, so it does not find those of `impl … for &X`.  This file does.
-/

namespace OrdinalMap.Text

variable {P : Nat → Type}

/-- Is this `&x`, with any arguments? -/
def isRefTo (x : String) : Ty → Bool
  | .ref false (.path [y] _) => x == y
  | _ => false

/-- The function `f` of the impls for `&x`. -/
def Prog.refFn (x f : String) : Prog → Option FnDef
  | [] => none
  | .impl d :: is => if isRefTo x d.ty then match findFn f d.fns with
      | some r => some r
      | none => Prog.refFn x f is
    else Prog.refFn x f is
  | _ :: is => Prog.refFn x f is

/-- `<&x>::f(args)` on a heap, by the text. -/
def refCall (c : Cfg) (J : (p : Nat) → OrdinalImpl (P p)) (S : Nat) (prog : Prog) (U : UserFns P) (x f : String) (args : List (Val P))
    (h : Heap P) : R (Val P × Heap P) :=
  match prog.refFn x f with
  | none => stuck
  | some d => do
    let xs ← bindAll h d args
    (evalBlk c (mapTys S) (outside c J (mapTys S) prog 9 U) d.body .run (alloc xs [] h).1 (alloc xs [] h).2).out .run h.length
      (rty (mapTys S) d.ret)

/-- `into` makes of the map `v` an iterator of type `x` that behaves like a deque of the pairs `ps`.  With `k` items left, `obs` holds. -/
def IteratesRef (call : Machine P) (into : List (Val P) → Heap P → R (Val P × Heap P)) (x : String) (v : Val P) (ps : List (P 0 × P 1))
    (obs : Nat → Val P → Prop) : Prop :=
  ∃ it, into [.ref v] [] = .ok (it, []) ∧ BehavesLike (textMapIter call x readPairRef 0) [it] ps fun rest h => ∃ it, h = [it] ∧ obs rest.length it

end OrdinalMap.Text
