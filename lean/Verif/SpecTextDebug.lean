import Verif.SpecTextMap
import Verif.SpecTextSet
import Verif.SpecDebug
/-!
# Specification: running the source text of the `Debug` impls

The texts print through `core::fmt`: they ask the `Formatter` for a builder, pass it an iterator, and finish it; one uses `write!`.  What these functions do
is supplied from outside: they change the state `P 2` of the world, which is in variable 0 and is what the `&mut Formatter` refers to, and may
panic.  Only what `entries` does with the iterator is fixed: it takes items until there is none, and passes on each one before it takes the
next.
-/

namespace OrdinalMap.Text

variable {P : Nat → Type}

/-- What the texts call in `core::fmt`. -/
structure Printer (P : Nat → Type) where
  /-- `f.debug_list()`, `f.debug_set()`, `f.debug_map()` -/
  start : String → P 2 → R (P 2)
  /-- the builder is passed an item -/
  entry : Val P → P 2 → R (P 2)
  /-- `finish()` -/
  finish : P 2 → R (Val P × P 2)
  /-- `write!(f, args)`, with the format string first -/
  write : List (Val P) → P 2 → R (Val P × P 2)

/-- Change the state of the world. -/
def onWorld (g : P 2 → R (Val P × P 2)) : Heap P → R (Val P × Heap P)
  | .usr 2 r :: h => do
    let (v, r) ← g r
    .ok (v, .usr 2 r :: h)
  | _ => stuck

/-- `DebugList`, `DebugSet` or `DebugMap`; there is only one at a time. -/
def printerVal : Val P := .obj "DebugBuilder" []

/-- `entries`: at most `n` calls of `next`. -/
def entriesText (next : Heap P → R (Val P × Heap P)) (entry : Val P → P 2 → R (P 2)) : Nat → Heap P → R (Heap P)
  | 0, _ => .error .diverge
  | n + 1, h => do
    match ← next h with
    | (.con "None" [], h) => .ok h
    | (.con "Some" [v], h) => do
      let (_, h) ← onWorld (fun r => do .ok (.unit, ← entry v r)) h
      entriesText next entry n h
    | _ => stuck

/-- The methods of `Formatter` that make a builder. -/
def startsBuilder (f : String) : Bool := f == "debug_list" || f == "debug_set" || f == "debug_map"

/-- `outside` with `core::fmt`.  The functions named `fmt` may use it; all others are as they were. -/
def outsideF (c : Cfg) (J : (p : Nat) → OrdinalImpl (P p)) (te : TyEnv) (prog : Prog) (D : Printer P) : Nat → Outside P
  | 0 => outside c J te prog 0
  | n + 1 => { outside c J te prog (n + 1) with
      call := fun t f args h =>
        if startsBuilder f then match t, args with
          | .par 2, [.mref 0 []] => onWorld (fun r => do .ok (printerVal, ← D.start f r)) h
          | _, _ => stuck
        else if f = "entries" then match t, args with
          | .con "DebugBuilder", [.obj "DebugBuilder" [], it] => match typeOf it with
            | some t => do
              let h' ← entriesText ((outside c J te prog (n + 1)).call t "next" [.mref h.length []]) D.entry (c.M + 1) (h ++ [it])
              .ok (printerVal, h'.take h.length)
            | none => stuck
          | _, _ => stuck
        else if f = "finish" then match t, args with
          | .con "DebugBuilder", [.obj "DebugBuilder" []] => onWorld D.finish h
          | _, _ => stuck
        else if f = "fmt" then
          if t = .con "Debug" then match args with
            | [.ref v, f] => match typeOf v with
              | some t => (outsideF c J te prog D n).call t "fmt" [.ref v, f] h
              | none => stuck
            | _ => stuck
          else match prog.fn t f with
            | none => stuck
            | some d => do
              let xs ← bindAll h d args
              (evalBlk c (("Self", t) :: te) (outsideF c J te prog D n) d.body .run (alloc xs [] h).1 (alloc xs [] h).2).out .run
                h.length (rty (("Self", t) :: te) d.ret)
        else (outside c J te prog (n + 1)).call t f args h
      free := fun f args h =>
        if f = "write!" then match args with
          | .mref 0 [] :: args => onWorld (D.write args) h
          | _ => stuck
        else (outside c J te prog (n + 1)).free f args h
      self := fun t f =>
        if startsBuilder f then some .refMut else if f = "entries" ∨ f = "finish" then some .value
        else (outside c J te prog (n + 1)).self t f }

/-- `Debug::fmt(&v, f)` for a `v` of type `t`, in the state `r` of the world. -/
def fmtText (c : Cfg) (J : (p : Nat) → OrdinalImpl (P p)) (te : TyEnv) (prog : Prog) (D : Printer P) (t : String) (v : Val P) (r : P 2) :
    R (Val P × P 2) := do
  match ← (outsideF c J te prog D 9).call (.con t) "fmt" [.ref v, .mref 0 []] [.usr 2 r] with
  | (x, [.usr 2 r]) => .ok (x, r)
  | _ => stuck

/-- The same, if there are other variables `h`, to which `v` may refer; the world is variable 0, so that they are variables 1, 2, ….  The result has
the variables afterwards. -/
def fmtAt (c : Cfg) (J : (p : Nat) → OrdinalImpl (P p)) (te : TyEnv) (prog : Prog) (D : Printer P) (t : String) (v : Val P) (h : Heap P) (r : P 2) :
    R ((Val P × P 2) × Heap P) := do
  match ← (outsideF c J te prog D 9).call (.con t) "fmt" [.ref v, .mref 0 []] (.usr 2 r :: h) with
  | (x, .usr 2 r :: h) => .ok ((x, r), h)
  | _ => stuck

/-- Print these items with the builder made by `f`. -/
def Printer.print (D : Printer P) (f : String) (items : List (Val P)) (r : P 2) : R (Val P × P 2) := do
  let r ← D.start f r
  let r ← items.foldlM (fun r v => D.entry v r) r
  D.finish r

/-- `entries`, for any iterator: at most so many calls of `next`. -/
def entriesOf {s ι : Type} (next : s → R (Option ι × s)) (entry : ι → P 2 → R (P 2)) : Nat → s → P 2 → R (P 2 × s)
  | 0, _, _ => .error .diverge
  | n + 1, it, r => do
    let (o, it) ← next it
    match o with
    | none => .ok (r, it)
    | some x => do entriesOf next entry n it (← entry x r)

/-- Print the items of this iterator with the builder made by `f`. -/
def Printer.printFrom {s ι : Type} (D : Printer P) (f : String) (next : s → R (Option ι × s)) (val : ι → Val P) (fuel : Nat) (it : s) (r : P 2) :
    R (Val P × P 2) := do
  let r ← D.start f r
  let (r, _) ← entriesOf next (fun x => D.entry (val x)) fuel it r
  D.finish r

/-- The iterator of type `x` made by `f`, after any sequence of `next` and `next_back`: its `fmt` does what `print` does with the items
that are left. -/
def PrintsRest {τ : Type} (call : Machine P) (fmt : String → Val P → P 2 → R (Val P × P 2)) (print : List (Val P) → P 2 → R (Val P × P 2))
    (t : RT) (f x : String) (arg : Val P) (read : Heap P → Val P → R τ) (val : τ → Val P) (l : List τ) : Prop :=
  ∃ it, call t f [arg] [] = .ok (it, []) ∧
    BehavesLike (textMapIter call x read 0) [it] l fun rest h => ∃ it, h = [it] ∧ ∀ r, fmt x it r = print (rest.map val) r

/-- A sparse map prints itself as a map of its entries, and its iterators as lists of what is left; `into` is the type of the
consuming one. -/
def PrintsMap (D : Printer P) (call : Machine P) (fmt : String → Val P → P 2 → R (Val P × P 2)) (t into : String) (v : Val P)
    (ps : List (P 0 × P 1)) : Prop :=
  (∀ r, fmt t v r = D.print "debug_map" (ps.map pairRef) r) ∧
  PrintsRest call fmt (D.print "debug_list") (.con t) "iter" "Iter" (.ref v) readPairRef pairRef ps ∧
  PrintsRest call fmt (D.print "debug_list") (.con t) "keys" "Keys" (.ref v) readKey (.usr 0) (ps.map (·.1)) ∧
  PrintsRest call fmt (D.print "debug_list") (.con t) "values" "Values" (.ref v) readRef (fun v => .ref (.usr 1 v)) (ps.map (·.2)) ∧
  PrintsRest call fmt (D.print "debug_list") (.con t) "into_iter" into v readPair pairRef ps

/-- A total map prints itself as a map of its entries, and its iterators as lists of what is left. -/
def PrintsTotal (D : Printer P) (call : Machine P) (fmt : String → Val P → P 2 → R (Val P × P 2)) (t into : String) (v : Val P)
    (ps : List (P 0 × P 1)) : Prop :=
  (∀ r, fmt t v r = D.print "debug_map" (ps.map pairRef) r) ∧
  PrintsRest call fmt (D.print "debug_list") (.con t) "iter" "total::Iter" (.ref v) readPairRef pairRef ps ∧
  PrintsRest call fmt (D.print "debug_list") (.con t) "into_iter" into v readPair pairRef ps

mutual
/-- The same value, if another variable comes before all others. -/
def Val.later : Val P → Val P
  | .con x vs => .con x (laters vs)
  | .obj x fs => .obj x (laterFields fs)
  | .arr vs => .arr (laters vs)
  | .bld n vs => .bld n (laters vs)
  | .ref v => .ref v.later
  | .mref a ps => .mref (a + 1) ps
  | .it vs => .it (laters vs)
  | v => v

def laters : List (Val P) → List (Val P)
  | [] => []
  | v :: vs => v.later :: laters vs

def laterFields : List (String × Val P) → List (String × Val P)
  | [] => []
  | (x, v) :: fs => (x, v.later) :: laterFields fs
end

/-- The items that a mutable iterator has left, with the current values. -/
def leftPairs (sp : MutSpec (P 0) (P 1)) : List (P 0 × P 1) := sp.rest.filterMap fun k => (sp.map k).map fun v => (k, v)

/-- The mutable iterator of type `x` that `f` makes of the map `v`, whose entries are `m` and whose keys are `ks`, prints what is left of it,
with the current values, after any calls and writes through references that it has handed out, and leaves the map as it is.  `told` is what
is told about an item, `val` how it is printed. -/
def PrintsMut {τ : Type} (call : Machine P) (fmt : String → Val P → Heap P → P 2 → R ((Val P × P 2) × Heap P))
    (print : List (Val P) → P 2 → R (Val P × P 2)) (t : RT) (f x : String) (v : Val P) (split : Val P → R (Val P × (P 1 → τ)))
    (told : P 0 × P 1 → τ) (val : P 0 × P 1 → Val P) (ks : List (P 0)) (m : P 0 → Option (P 1)) [DecidableEq (P 0)] : Prop :=
  ∃ it, call t f [.mref 0 []] [v] = .ok (it, [v]) ∧
    RunsLike (textMutStep call x split) (fun sp op => ((MutSpec.step sp op).1.map told, (MutSpec.step sp op).2)) ([v, it], []) ⟨ks, [], m⟩ fun sp s =>
      ∃ v it, s.1 = [v, it] ∧ ∀ r, fmt x it.later [v] r = (fun y => (y, [v])) <$> print ((leftPairs sp).map val) r

/-- The mutable iterators of a sparse map print what is left of them. -/
def PrintsMuts (D : Printer P) (call : Machine P) (fmt : String → Val P → Heap P → P 2 → R ((Val P × P 2) × Heap P)) (t : String) (v : Val P)
    (ks : List (P 0)) (m : P 0 → Option (P 1)) [DecidableEq (P 0)] : Prop :=
  PrintsMut call fmt (D.print "debug_list") (.con t) "iter_mut" "IterMut" v splitPair id pairRef ks m ∧
  PrintsMut call fmt (D.print "debug_list") (.con t) "values_mut" "ValuesMut" v splitRef (·.2) (fun p => .ref (.usr 1 p.2)) ks m

/-- What `fmt` of the iterator over all values writes, if `rest` of `all` is left: nothing, or the first item, and the last one if items have
been taken from the back. -/
def Printer.printValues {α : Type} [DecidableEq α] (D : Printer P) (val : α → Val P) (all rest : List α) : P 2 → R (Val P × P 2) :=
  match rest with
  | [] => D.write [.str "[]"]
  | x :: more =>
    if rest.getLast? = all.getLast? then D.write [.str "[{:?}..]", val x]
    else match more.getLast? with
      | none => D.write [.str "[{:?}]", val x]
      | some y => D.write [.str "[{:?}..={:?}]", val x, val y]

/-! ## Texts -/

/-- Types of keys and values, and as the state of the world what has been printed, and how to go on. -/
def printTypes (K V : Type) : Nat → Type
  | 0 => K
  | 1 => V
  | 2 => List String × String
  | _ => Unit

variable {K V : Type}

/-- The `Debug` of items: keys, references to values, and pairs of them.  In a map, a pair is printed as an entry. -/
def itemText (alt : Bool) (key : K → String) (value : V → String) (f : String) : Val (printTypes K V) → R String
  | .usr 0 k => .ok (key k)
  | .ref (.usr 1 v) => .ok (value v)
  | .con "()" [.usr 0 k, .ref (.usr 1 v)] => .ok (if f = "debug_map" then key k ++ ": " ++ value v else pairText alt key value (k, v))
  | _ => stuck

/-- A printer that collects what the entries print; `finish` puts brackets around it.  Of `write!` only the format strings of the texts are known. -/
def textPrinter (alt : Bool) (key : K → String) (value : V → String) : Printer (printTypes K V) where
  start f r := .ok (r.1, f)
  entry v r := do .ok (r.1 ++ [← itemText alt key value r.2 v], r.2)
  finish r := .ok (.str (if r.2 = "debug_list" then seqText "[" "]" alt r.1 else seqText "{" "}" alt r.1), r)
  write args r := match args with
    | [.str "[]"] => .ok (.str "[]", r)
    | [.str "[{:?}..]", v] => do .ok (.str ("[" ++ (← itemText alt key value "" v) ++ "..]"), r)
    | [.str "[{:?}]", v] => do .ok (.str ("[" ++ (← itemText alt key value "" v) ++ "]"), r)
    | [.str "[{:?}..={:?}]", v, w] => do
      .ok (.str ("[" ++ (← itemText alt key value "" v) ++ "..=" ++ (← itemText alt key value "" w) ++ "]"), r)
    | _ => stuck

/-- The text that is printed. -/
def printed : Val (printTypes K V) × (List String × String) → R String
  | (.str t, _) => .ok t
  | _ => stuck

end OrdinalMap.Text
