import Verif.SpecText
import Verif.Text.FilesSet
import Verif.Model.Set
/-!
# Specification: running the source text of `values.rs` and `set/`

How the values of the model look at run time, and what it means that a text computes what the model computes.
-/

namespace OrdinalMap.Text

/-- `ordinal/traits.rs`, `values.rs` and the files in `set/`. -/
def setSources : List String :=
  [ordinalTraitsRs, valuesRs, setArrayRs, setIterRs, setRefRs, setMutRs, setRs, set64Rs]

/-- The source texts make up a program, and it has property `Q`. -/
def SetSources (Q : Prog → Prop) : Prop := ∃ prog, program setSources = some prog ∧ Q prog

/-- The meaning of the type parameters: `T` is the type of the elements, and `S` is the number of words. -/
def setTys (S : Nat) : TyEnv := [("T", .par 0), ("S", .num S)]

variable {P : Nat → Type}

/-! ## Values of the model at run time -/

/-- `PhantomData` -/
def phantom : String × Val P := ("_phantom", .con "PhantomData" [])

/-- `u64` -/
def wordVal (w : BitVec 64) : Val P := .uint .w64 w.toNat

/-- `[u64]` -/
def wordsVal (ws : List (BitVec 64)) : Val P := .arr (ws.map wordVal)

/-- `(usize, Option<usize>)` -/
def hintVal (r : Nat × Option Nat) : Val P := .con "()" [.uint .size r.1, .opt (r.2.map (.uint .size ·))]

/-- `OrdinalValues<T>` -/
def valuesVal (s : OrdinalValues) : Val P := .obj "OrdinalValues" [("range", .range s.start s.stop), phantom]

/-- `OrdinalSetRef<T>` -/
def setRefVal (ws : SetRef) : Val P := .obj "OrdinalSetRef" [("words", .ref (wordsVal ws)), phantom]

/-- `set::Iter<T>` -/
def setIterVal (s : SetIter) : Val P := .obj "Iter" [("iter", valuesVal s.iter), ("set", setRefVal s.set)]

/-- `OrdinalSet<T>` -/
def setVal (s : OrdinalSet) : Val P := .obj "OrdinalSet" [("set", match s with
  | .small w => .con "Small" [wordVal w]
  | .large ws => .con "Large" [wordsVal ws]), phantom]

/-- `OrdinalArraySet<T, S>` -/
def arraySetVal (s : OrdinalArraySet) : Val P := .obj "OrdinalArraySet" [("words", wordsVal s), phantom]

/-- `OrdinalSet64<T>` -/
def set64Val (s : OrdinalSet64) : Val P := .obj "OrdinalSet64" [("set", wordVal s), phantom]

/-- `Iter64<T>` -/
def iter64Val (s : Iter64) : Val P := .obj "Iter64" [("set", wordVal s), phantom]

/-! ## Memory -/

/-- There is a `v` at a place: a variable, or a part of one. -/
def Place (h : Heap P) (a : Nat) (ps : List Proj) (v : Val P) : Prop :=
  Loc.get .run h (.heap a ps) = .ok v ∧ ∀ p ∈ ps, p ≠ .single

/-- The heap after a write to a place. -/
def put (h : Heap P) (a : Nat) (ps : List Proj) (w : Val P) : Heap P :=
  match Loc.set .run h w (.heap a ps) with
  | .ok h' => h'
  | .error _ => h

/-! ## The API, run from the text -/

variable (c : Cfg) (J : (p : Nat) → OrdinalImpl (P p)) (S : Nat) (prog : Prog)

/-- `t::f(args)` on a heap, by the text.  Calls nest to depth 7 at most. -/
def setCall (t : RT) (f : String) (args : List (Val P)) (h : Heap P) : R (Val P × Heap P) :=
  (outside c J (setTys S) prog 7).call t f args h

/-- `t::f(args)` by the text, for arguments that hold no `&mut`. -/
def setFn (t : RT) (f : String) (args : List (Val P)) : R (Val P) := Prod.fst <$> setCall c J S prog t f args []

/-- `contains` and `insert` of the set type `t`, by the text.  The state is the set at run time, in a variable. -/
def textSet (t : RT) : SetApi (Val P) (P 0) where
  contains v x := do
    match ← setFn c J S prog t "contains" [.ref v, .ref (.usr 0 x)] with
    | .bool b => .ok b
    | _ => stuck
  insert v x := do
    match ← setCall c J S prog t "insert" [.mref 0 [], .usr 0 x] [v] with
    | (.bool b, [v']) => .ok (b, v')
    | _ => stuck

/-- An answer `Option<T>`, and the variable after the call. -/
def answer : Val P × Heap P → R (Option (P 0) × Val P)
  | (.con "None" [], [v]) => .ok (none, v)
  | (.con "Some" [.usr 0 a], [v]) => .ok (some a, v)
  | _ => stuck

/-- `next` and `next_back` of the iterator type `t`, by the text. -/
def textIter (t : RT) : DEIter (Val P) (P 0) where
  next v := do answer (← setCall c J S prog t "next" [.mref 0 []] [v])
  nextBack v := do answer (← setCall c J S prog t "next_back" [.mref 0 []] [v])

end OrdinalMap.Text
