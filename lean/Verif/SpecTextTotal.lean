import Verif.SpecTextMap
/-!
# Total maps run from the text: the client

As in `SpecTextMap.lean`.  Values of type `P 2` are states of the closures that the client passes, and values of type `P 3` are errors.
-/

namespace OrdinalMap.Text

variable {P : Nat → Type}

/-- An iterator of `std` over a slice: what is left. -/
def asIter : Val P → R (List (Val P))
  | .it vs => .ok vs
  | _ => stuck

/-- An iterator of `std` over a slice, reading the items. -/
def stdIter {τ : Type} (read : Val P → R τ) : DEIter (List (Val P)) τ :=
  ⟨fun l => item ((listIter _).next l), fun l => item ((listIter _).nextBack l)⟩
where
  item : Option (Val P) × List (Val P) → R (Option τ × List (Val P))
    | (none, l) => .ok (none, l)
    | (some r, l) => do .ok (some (← read r), l)

/-- A step of a client of `slice::IterMut`: the heap, the iterator and the references handed out. -/
def stdMutStep (s : Heap P × List (Val P) × List (Val P)) : MutStep (P 1) → R (Option (P 1) × Heap P × List (Val P) × List (Val P))
  | .front => hand ((listIter _).next s.2.1)
  | .back => hand ((listIter _).nextBack s.2.1)
  | .write j v => match s.2.2[j]? with
    | none => .ok (none, s)
    | some r => do .ok (none, ← assign s.1 (.usr 1 v) r, s.2)
where
  hand : Option (Val P) × List (Val P) → R (Option (P 1) × Heap P × List (Val P) × List (Val P))
    | (none, l) => .ok (none, s.1, l, s.2.2)
    | (some r, l) => do .ok (some (← asValue (← deref s.1 r)), s.1, l, s.2.2 ++ [r])

section
variable (call : Machine P)

/-- One operation on a total map of type `t`, by the text.  The state is the map at run time, in variable 0. -/
def textTotalStep (t : RT) (v : Val P) : TotalOp (P 0) (P 1) → R (MapOut (P 0) (P 1) × Val P)
  | .get k => read "get" k
  | .index k => read "index" k
  | .getMut k w => write "get_mut" k w
  | .indexMut k w => write "index_mut" k w
  | .insert k w => do
    let (r, h) ← call t "insert" [.mref 0 [], .usr 0 k, .usr 1 w] [v]
    .ok (.opt (some (← asValue r)), ← firstVar h)
  | .len => do
    match ← call t "len" [.ref v] [] with
    | (.uint .size n, _) => .ok (.nat n, v)
    | _ => stuck
  | .isEmpty => do
    match ← call t "is_empty" [.ref v] [] with
    | (.bool b, _) => .ok (.bool b, v)
    | _ => stuck
  | .iter ds => do .ok (.items (← textItems call t "iter" "total::Iter" readPairRef v ds), v)
  | .keys ds => do .ok (.keys (← textItems call t "keys" "OrdinalValues" readKey v ds), v)
  | .values ds => do
    let (it, _) ← call t "values" [.ref v] []
    let (os, _) ← (stdIter (readRef [])).run (← asIter it) ds
    .ok (.vals os, v)
  | .iterMut steps => do
    let (os, v) ← textMut call t "iter_mut" "total::IterMut" splitPair v steps
    .ok (.items os, v)
  | .valuesMut steps => do
    let (it, h) ← call t "values_mut" [.mref 0 []] [v]
    let (os, s) ← runOps stdMutStep (h, ← asIter it, []) steps
    .ok (.vals os, ← firstVar s.1)
where
  read (f : String) (k : P 0) : R (MapOut (P 0) (P 1) × Val P) := do
    let (r, _) ← call t f [.ref v, .ref (.usr 0 k)] []
    .ok (.opt (some (← asValue (← deref [] r))), v)
  write (f : String) (k : P 0) (w : P 1) : R (MapOut (P 0) (P 1) × Val P) := do
    let (r, h) ← call t f [.mref 0 [], .ref (.usr 0 k)] [v]
    .ok (.opt (some (← asValue (← deref h r))), ← firstVar (← assign h (.usr 1 w) r))

/-- `len` and `size_hint` of the iterator `it` of type `x` are right: `k` items are left. -/
def ExactLen (x : String) (k : Nat) (it : Val P) : Prop :=
  call (.con x) "len" [.ref it] [] = .ok (.uint .size k, []) ∧
  call (.con x) "size_hint" [.ref it] [] = .ok (hintVal (k, some k), [])

/-- `iter`, `keys`, `into_keys`, `values` and `into_values` of the map `v` of type `t` are right. -/
def TotalIterates (t : RT) (v : Val P) (ps : List (P 0 × P 1)) : Prop :=
  Iterates call t "iter" "total::Iter" (.ref v) readPairRef ps
    (fun k it => ExactLen call "total::Iter" k it ∧ ClonesSame call "total::Iter" it) ∧
  Iterates call t "keys" "OrdinalValues" (.ref v) readKey (ps.map (·.1)) (ExactLen call "OrdinalValues") ∧
  Iterates call t "into_keys" "OrdinalValues" v readKey (ps.map (·.1)) (ExactLen call "OrdinalValues") ∧
  call t "values" [.ref v] [] = .ok (.it (ps.map fun p => .ref (.usr 1 p.2)), []) ∧
  call t "into_values" [v] [] = .ok (.arr (ps.map fun p => .usr 1 p.2), [])

end

/-! ## Closures of the client -/

/-- A closure with its state in variable 0. -/
def stateFn (f : P 0 → P 2 → R (Val P × P 2)) : UserFns P
  | 0, [.usr 0 k], .usr 2 r :: h => do
    let (v, r) ← f k r
    .ok (v, .usr 2 r :: h)
  | _, _, _ => stuck

/-- `FnMut(K) -> V` -/
def initFn (init : P 0 → P 2 → R (P 1 × P 2)) : UserFns P :=
  stateFn fun k r => do
    let (v, r) ← init k r
    .ok (.usr 1 v, r)

/-- `FnMut(K) -> Result<V, E>` -/
def tryInitFn (init : P 0 → P 2 → R (Except (P 3) (P 1) × P 2)) : UserFns P :=
  stateFn fun k r => do
    match ← init k r with
    | (.ok v, r) => .ok (.con "Ok" [.usr 1 v], r)
    | (.error e, r) => .ok (.con "Err" [.usr 3 e], r)

/-- `V::default`, with the state of the world in variable 0. -/
def defaultFn (D : P 2 → R (P 1 × P 2)) : UserFns P
  | 1, [], .usr 2 r :: h => do
    let (v, r) ← D r
    .ok (.usr 1 v, .usr 2 r :: h)
  | _, _, _ => stuck

end OrdinalMap.Text
