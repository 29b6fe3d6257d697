import Verif.SpecTextSet
import Verif.Text.FilesMap
import Verif.Text.Names
import Verif.Model.Map
/-!
# Specification: running the source text of `map/`

How the values of the model look at run time, and what it means that a text computes what the model computes.
-/

namespace OrdinalMap.Text

/-- `ordinal/traits.rs`, `values.rs`, the files in `map/`, and `array_from_iter.rs`, with `true` for those in `map/total`. -/
def mapSources : List (Bool × String) :=
  [(false, ordinalTraitsRs), (false, valuesRs), (false, mapEnumerateRs), (true, totalIterRs), (true, totalMapRs),
    (true, totalArrayMapRs), (false, mapIterRs), (false, mapEntryRs), (false, mapRs), (false, mapArrayMapRs),
    (false, arrayFromIterRs), (false, arrayAsMutRs)]

/-- The items of the texts. -/
def programIn : List (Bool × String) → Option Prog
  | [] => some []
  | (t, s) :: ss => match parseIn t s, programIn ss with
    | some a, some b => some (a ++ b)
    | _, _ => none

/-- The source texts make up a program, and it has property `Q`. -/
def MapSources (Q : Prog → Prop) : Prop := ∃ prog, programIn mapSources = some prog ∧ Q prog

/-- The meaning of the type parameters: `K` (called `T` in some files) is the type of keys, `V` the type of values, and `S` the
length of arrays, also of those that `ArrayBuilder` makes (`N`). -/
def mapTys (S : Nat) : TyEnv := [("K", .par 0), ("T", .par 0), ("V", .par 1), ("S", .num S), ("N", .num S)]

variable {P : Nat → Type}

/-! ## Values of the model at run time -/

/-- `(K, V)` -/
def pairVal (p : P 0 × Val P) : Val P := .con "()" [.usr 0 p.1, p.2]

/-- `(k, &v)` -/
def pairRef (p : P 0 × P 1) : Val P := pairVal (p.1, .ref (.usr 1 p.2))

/-- `(k, v)` -/
def pairOwn (p : P 0 × P 1) : Val P := pairVal (p.1, .usr 1 p.2)

/-- A slot of a sparse map. -/
def slotVal (o : Option (P 1)) : Val P := .opt (o.map (.usr 1 ·))

/-- The slots of a sparse map. -/
def slotsVal (s : List (Option (P 1))) : Val P := .arr (s.map slotVal)

/-- `OrdinalMap<K, V>` -/
def mapVal (s : OMap (P 1)) : Val P := .obj "OrdinalMap" [("map", slotsVal s), phantom]

/-- `OrdinalEnumerate<K, I>` for an iterator of `std` -/
def enumVal (s : Enumerate (List (Val P))) : Val P :=
  .obj "OrdinalEnumerate" [("next", .uint .size s.next), ("iter", .it s.iter), phantom]

/-- The struct `x` with the field `iter`. -/
def wrapVal (x : String) (v : Val P) : Val P := .obj x [("iter", v)]

/-! ## The API, run from the text -/

/-- How functions are called: type, name, arguments and heap to answer and heap. -/
abbrev Machine (P : Nat → Type) := RT → String → List (Val P) → Heap P → R (Val P × Heap P)

/-- `t::f(args)` on a heap, by the text.  Calls nest to depth 9 at most. -/
def mapCall (c : Cfg) (J : (p : Nat) → OrdinalImpl (P p)) (S : Nat) (prog : Prog) (U : UserFns P := noFns) : Machine P :=
  (outside c J (mapTys S) prog 9 U).call

/-- `*r` -/
def deref (h : Heap P) : Val P → R (Val P)
  | .ref v => .ok v
  | .mref a ps => Loc.get .run h (.heap a ps)
  | _ => stuck

/-- `*r = w` -/
def assign (h : Heap P) (w : Val P) : Val P → R (Heap P)
  | .mref a ps => Loc.set .run h w (.heap a ps)
  | _ => stuck

/-- A value of type `K`. -/
def asKey : Val P → R (P 0)
  | .usr 0 k => .ok k
  | _ => stuck

/-- A value of type `V`. -/
def asValue : Val P → R (P 1)
  | .usr 1 v => .ok v
  | _ => stuck

/-- An `Option`. -/
def asOpt : Val P → R (Option (Val P))
  | .con "None" [] => .ok none
  | .con "Some" [v] => .ok (some v)
  | _ => stuck

/-- A pair. -/
def asPair : Val P → R (P 0 × Val P)
  | .con "()" [.usr 0 k, v] => .ok (k, v)
  | _ => stuck

/-- The first variable. -/
def firstVar : Heap P → R (Val P)
  | v :: _ => .ok v
  | [] => stuck

/-- `(K, &V)` -/
def readPairRef (h : Heap P) (r : Val P) : R (P 0 × P 1) := do
  let (k, r) ← asPair r
  .ok (k, ← asValue (← deref h r))

/-- `(K, V)` -/
def readPair (_ : Heap P) (r : Val P) : R (P 0 × P 1) := do
  let (k, r) ← asPair r
  .ok (k, ← asValue r)

/-- `K` -/
def readKey (_ : Heap P) (r : Val P) : R (P 0) := asKey r

/-- `&V` -/
def readRef (h : Heap P) (r : Val P) : R (P 1) := do asValue (← deref h r)

section
variable {τ : Type} (call : Machine P)

/-- `f` (which is `next` or `next_back`) of the iterator of type `x` in variable `a`. -/
def textNext (x f : String) (read : Heap P → Val P → R τ) (a : Nat) (h : Heap P) : R (Option τ × Heap P) := do
  let (r, h) ← call (.con x) f [.mref a []] h
  match ← asOpt r with
  | none => .ok (none, h)
  | some r => .ok (some (← read h r), h)

/-- The iterator of type `x` in variable `a`, by the text. -/
def textMapIter (x : String) (read : Heap P → Val P → R τ) (a : Nat) : DEIter (Heap P) τ :=
  ⟨textNext call x "next" read a, textNext call x "next_back" read a⟩

/-- `iter()` and its like: the items that the calls yield. -/
def textItems (t : RT) (f x : String) (read : Heap P → Val P → R τ) (v : Val P) (ds : List Dir) : R (List (Option τ)) := do
  let (it, _) ← call t f [.ref v] []
  Prod.fst <$> (textMapIter call x read 0).run [it] ds

/-- A step of a client of the mutable iterator of type `x` in variable 1.  The client has been handed the references `s.2`.
`split` tells the reference in an item from what is reported about it. -/
def textMutStep (x : String) (split : Val P → R (Val P × (P 1 → τ))) (s : Heap P × List (Val P)) :
    MutStep (P 1) → R (Option τ × Heap P × List (Val P))
  | .front => advance "next"
  | .back => advance "next_back"
  | .write j v => match s.2[j]? with
    | none => .ok (none, s)
    | some r => do .ok (none, ← assign s.1 (.usr 1 v) r, s.2)
where
  advance (f : String) : R (Option τ × Heap P × List (Val P)) := do
    let (o, h) ← textNext call x f (fun _ r => .ok r) 1 s.1
    match o with
    | none => .ok (none, h, s.2)
    | some r => do
      let (r, report) ← split r
      .ok (some (report (← asValue (← deref h r))), h, s.2 ++ [r])

/-- `(k, &mut v)` -/
def splitPair (r : Val P) : R (Val P × (P 1 → P 0 × P 1)) := do
  let (k, r) ← asPair r
  .ok (r, fun v => (k, v))

/-- `&mut v` -/
def splitRef (r : Val P) : R (Val P × (P 1 → P 1)) := .ok (r, id)

/-- `iter_mut()` and its like: what the client is told, and the map afterwards. -/
def textMut (t : RT) (f x : String) (split : Val P → R (Val P × (P 1 → τ))) (v : Val P) (steps : List (MutStep (P 1))) :
    R (List (Option τ) × Val P) := do
  let (it, h) ← call t f [.mref 0 []] [v]
  let (os, s) ← runOps (textMutStep call x split) (h ++ [it], []) steps
  .ok (os, ← firstVar s.1)

/-- One operation on a sparse map of type `t`, by the text.  The state is the map at run time, in variable 0. -/
def textMapStep (t : RT) (v : Val P) : MapOp (P 0) (P 1) → R (MapOut (P 0) (P 1) × Val P)
  | .get k => do
    let (r, _) ← call t "get" [.ref v, .ref (.usr 0 k)] []
    match ← asOpt r with
    | none => .ok (.opt none, v)
    | some r => .ok (.opt (some (← asValue (← deref [] r))), v)
  | .getMut k w => do
    let (r, h) ← call t "get_mut" [.mref 0 [], .ref (.usr 0 k)] [v]
    match ← asOpt r with
    | none => .ok (.opt none, ← firstVar h)
    | some r => .ok (.opt (some (← asValue (← deref h r))), ← firstVar (← assign h (.usr 1 w) r))
  | .insert k w => do
    let (r, h) ← call t "insert" [.mref 0 [], .usr 0 k, .usr 1 w] [v]
    .ok (.opt (← (← asOpt r).mapM asValue), ← firstVar h)
  | .remove k => do
    let (r, h) ← call t "remove" [.mref 0 [], .ref (.usr 0 k)] [v]
    .ok (.opt (← (← asOpt r).mapM asValue), ← firstVar h)
  | .orInsert k x w => do
    let (e, h) ← call t "entry" [.mref 0 [], .usr 0 k] [v]
    let (r, h) ← call (.con "Entry") "or_insert" [e, .usr 1 x] h
    .ok (.opt (some (← asValue (← deref h r))), ← firstVar (← assign h (.usr 1 w) r))
  | .entry k x w => do
    let (e, h) ← call t "entry" [.mref 0 [], .usr 0 k] [v]
    let (r, h) ← call (.con "Entry") "key" [.ref e] h
    let key ← asKey (← deref h r)
    match e with
    | .con "Vacant" [e] => do
      let (_, h) ← call (.con "VacantEntry") "insert" [e, .usr 1 x] h
      .ok (.entry key none, ← firstVar h)
    | .con "Occupied" [e] => do
      let (r, h) ← call (.con "OccupiedEntry") "get" [.ref e] h
      let old ← asValue (← deref h r)
      let (r, h) ← call (.con "OccupiedEntry") "get_mut" [.mref 1 []] (h ++ [e])
      .ok (.entry key (some old), ← firstVar (← assign h (.usr 1 w) r))
    | _ => stuck
  | .len => do
    match ← call t "len" [.ref v] [] with
    | (.uint .size n, _) => .ok (.nat n, v)
    | _ => stuck
  | .isEmpty => do
    match ← call t "is_empty" [.ref v] [] with
    | (.bool b, _) => .ok (.bool b, v)
    | _ => stuck
  | .iter ds => do .ok (.items (← textItems call t "iter" "Iter" readPairRef v ds), v)
  | .keys ds => do .ok (.keys (← textItems call t "keys" "Keys" readKey v ds), v)
  | .values ds => do .ok (.vals (← textItems call t "values" "Values" readRef v ds), v)
  | .iterMut steps => do
    let (os, v) ← textMut call t "iter_mut" "IterMut" splitPair v steps
    .ok (.items os, v)
  | .valuesMut steps => do
    let (os, v) ← textMut call t "values_mut" "ValuesMut" splitRef v steps
    .ok (.vals os, v)
  | .drain ds leak => do
    let (it, h) ← call t "drain" [.mref 0 []] [v]
    let (os, h) ← (textMapIter call "Drain" readPair 1).run (h ++ [it]) ds
    let h ← if leak then .ok h else Prod.snd <$> call (.con "Drain") "drop" [.mref 1 []] h
    .ok (.items os, ← firstVar h)
  | .clear => do
    let (_, h) ← call t "clear" [.mref 0 []] [v]
    .ok (.unit, ← firstVar h)

/-- `size_hint` of the iterator `it` of type `x` is right: `k` items are left. -/
def HintRight (x : String) (k : Nat) (it : Val P) : Prop :=
  ∃ lo hi, call (.con x) "size_hint" [.ref it] [] = .ok (hintVal (lo, some hi), []) ∧ lo ≤ k ∧ k ≤ hi

/-- `clone` of the iterator `it` of type `x` makes the same iterator. -/
def ClonesSame (x : String) (it : Val P) : Prop := call (.con x) "clone" [.ref it] [] = .ok (it, [])

/-- `t::f(arg)` makes an iterator of type `x` that behaves like a deque of the items `l`.  With `k` items left, `obs` holds. -/
def Iterates (t : RT) (f x : String) (arg : Val P) (read : Heap P → Val P → R τ) (l : List τ) (obs : Nat → Val P → Prop) : Prop :=
  ∃ it, call t f [arg] [] = .ok (it, []) ∧
    BehavesLike (textMapIter call x read 0) [it] l fun rest h => ∃ it, h = [it] ∧ obs rest.length it

/-- `iter`, `keys` and `values` of the map `v` of type `t` are right. -/
def IteratesLike (t : RT) (v : Val P) (ps : List (P 0 × P 1)) : Prop :=
  Iterates call t "iter" "Iter" (.ref v) readPairRef ps (fun k it => HintRight call "Iter" k it ∧ ClonesSame call "Iter" it) ∧
  Iterates call t "keys" "Keys" (.ref v) readKey (ps.map (·.1)) (fun k it => HintRight call "Keys" k it ∧ ClonesSame call "Keys" it) ∧
  Iterates call t "values" "Values" (.ref v) readRef (ps.map (·.2))
    (fun k it => HintRight call "Values" k it ∧ ClonesSame call "Values" it)

end

end OrdinalMap.Text
