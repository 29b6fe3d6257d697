import Verif.SpecFormat
import Verif.Model.Atomic
import Verif.Model.Set
import Verif.Model.Map
import Verif.Model.TotalMap
/-!
# The `Debug` impls, call by call

Model/Debug.lean says which text the impls produce.  Here they are given a writer that may refuse or panic, and flags,
and the builders of `core::fmt` (fmt/builders.rs) are modelled as they are written: `PadAdapter`, `DebugInner`,
`DebugMap`, `DebugTuple`.  A builder that has met an error formats nothing more, but `entries` goes on taking items from
the iterator.  Those of the caller's flags that are not used by the builders are passed on.
-/

namespace OrdinalMap.Format
open OrdinalMap

variable {ω σ ι K V τ : Type}

/-! ## `core::fmt` -/

/-- `x?; y` -/
def tryThen (x y : M ω Bool) : M ω Bool := do
  if ← x then y else .of (.ok false)

/-- `Ok(())` -/
def okay : M ω Bool := .of (.ok true)

/-- Code on the inner writer of a `PadAdapter`. -/
def inner {α : Type} (x : M ω α) : M (ω × Bool) α := fun st => ((x st.1).1, ((x st.1).2, st.2))

/-- `if self.state.on_newline { self.buf.write_str("    ")?; }` -/
def padIndent (w : Writer ω) : M (ω × Bool) Bool := fun st =>
  if st.2 then inner (w (.str "    ")) st else okay st

/-- `self.state.on_newline = b;` -/
def setNewline (b : Bool) : M (ω × Bool) Unit := fun st => (.ok (), (st.1, b))

/-- The loop of `PadAdapter::write_str`. -/
def padLoop (w : Writer ω) : List (List Char) → M (ω × Bool) Bool
  | [] => okay
  | l :: ls => tryThen (padIndent w) (do
    setNewline (l.getLast? == some '\n')
    tryThen (inner (w (.str (String.ofList l)))) (padLoop w ls))

/-- `PadAdapter`: the writer `w` with `on_newline`. -/
def padAdapter (w : Writer ω) : Writer (ω × Bool)
  | .str s => padLoop w (splitLines s.toList)
  | .char ch => tryThen (padIndent w) (do
    setNewline (ch == '\n')
    inner (w (.char ch)))

/-- Code with a `PadAdapter` whose `on_newline` is `nl`: the result, and `on_newline` afterwards. -/
def wrap (nl : Bool) (x : M (ω × Bool) Bool) : M ω (Bool × Bool) := fun st =>
  match x (st, nl) with
  | (.ok b, st) => (.ok (b, st.2), st.1)
  | (.error e, st) => (.error e, st.1)

/-- `DebugInner`. -/
structure Inner where
  result : Bool
  hasFields : Bool

/-- `DebugInner::entry`. -/
def Inner.entry (w : Writer ω) (o : Options) (b : Inner) (item : Show) : M ω Inner := do
  let r ← if b.result then
      if o.alternate then
        tryThen (if b.hasFields then okay else w (.str "\n")) (do
          let r ← wrap true (tryThen (item _ (padAdapter w) o) (padAdapter w (.str ",\n")))
          .of (.ok r.1))
      else tryThen (if b.hasFields then w (.str ", ") else okay) (item ω w o)
    else .of (.ok false)
  .of (.ok ⟨r, true⟩)

/-- `entries` of `DebugList` and `DebugSet`; `fuel` bounds the rounds. -/
def entriesLoop (w : Writer ω) (o : Options) (next : σ → R (Option ι × σ)) (item : ι → Show) :
    Nat → σ → Inner → M ω Inner
  | 0, _, _ => .of (.error .diverge)
  | fuel + 1, s, b => do
    let (x, s) ← .of (next s)
    match x with
    | none => .of (.ok b)
    | some x => do
      let b ← b.entry w o (item x)
      entriesLoop w o next item fuel s b

/-- `f.debug_list().entries(it).finish()` and the same with `debug_set`; `it` is evaluated after the bracket is
written. -/
def debugSeq (opn cls : String) (next : σ → R (Option ι × σ)) (item : ι → Show) (it : R (Nat × σ)) : Show := fun _ w o => do
  let r ← w (.str opn)
  let (fuel, s) ← .of it
  let b ← entriesLoop w o next item fuel s ⟨r, false⟩
  if b.result then w (.str cls) else .of (.ok false)

/-- `DebugMap`; `newline` is the state of its `PadAdapter`. -/
structure MapBuilder where
  result : Bool
  hasFields : Bool
  hasKey : Bool
  newline : Bool

/-- `DebugMap::key`. -/
def MapBuilder.key (w : Writer ω) (o : Options) (b : MapBuilder) (k : Show) : M ω MapBuilder := do
  if b.result then
    if b.hasKey then .of (.error .panic)
    else if o.alternate then do
      if ← (if b.hasFields then okay else w (.str "\n")) then do
        let (r, nl) ← wrap true (tryThen (k _ (padAdapter w) o) (padAdapter w (.str ": ")))
        .of (.ok ⟨r, b.hasFields, r, nl⟩)
      else .of (.ok ⟨false, b.hasFields, false, b.newline⟩)
    else do
      let r ← tryThen (if b.hasFields then w (.str ", ") else okay) (tryThen (k ω w o) (w (.str ": ")))
      .of (.ok ⟨r, b.hasFields, r, b.newline⟩)
  else .of (.ok b)

/-- `DebugMap::value`. -/
def MapBuilder.value (w : Writer ω) (o : Options) (b : MapBuilder) (v : Show) : M ω MapBuilder := do
  if b.result then
    if !b.hasKey then .of (.error .panic)
    else if o.alternate then do
      let (r, nl) ← wrap b.newline (tryThen (v _ (padAdapter w) o) (padAdapter w (.str ",\n")))
      .of (.ok ⟨r, true, !r, nl⟩)
    else do
      let r ← v ω w o
      .of (.ok ⟨r, true, !r, b.newline⟩)
  else .of (.ok ⟨false, true, b.hasKey, b.newline⟩)

/-- `DebugMap::entries`. -/
def mapEntriesLoop (w : Writer ω) (o : Options) (next : σ → R (Option (K × V) × σ)) (key : K → Show) (value : V → Show) :
    Nat → σ → MapBuilder → M ω MapBuilder
  | 0, _, _ => .of (.error .diverge)
  | fuel + 1, s, b => do
    let (x, s) ← .of (next s)
    match x with
    | none => .of (.ok b)
    | some p => do
      let b ← b.key w o (key p.1)
      let b ← b.value w o (value p.2)
      mapEntriesLoop w o next key value fuel s b

/-- `f.debug_map().entries(it).finish()`. -/
def debugMap (next : σ → R (Option (K × V) × σ)) (key : K → Show) (value : V → Show) (it : R (Nat × σ)) : Show := fun _ w o => do
  let r ← w (.str "{")
  let (fuel, s) ← .of it
  let b ← mapEntriesLoop w o next key value fuel s ⟨r, false, false, true⟩
  if b.result then
    if b.hasKey then .of (.error .panic) else w (.str "}")
  else .of (.ok false)

/-- `DebugTuple`. -/
structure TupleBuilder where
  result : Bool
  fields : Nat

/-- `DebugTuple::field`. -/
def TupleBuilder.field (w : Writer ω) (o : Options) (b : TupleBuilder) (v : Show) : M ω TupleBuilder := do
  let r ← if b.result then
      if o.alternate then
        tryThen (if b.fields = 0 then w (.str "(\n") else okay) (do
          let r ← wrap true (tryThen (v _ (padAdapter w) o) (padAdapter w (.str ",\n")))
          .of (.ok r.1))
      else tryThen (w (.str (if b.fields = 0 then "(" else ", "))) (v ω w o)
    else .of (.ok false)
  .of (.ok ⟨r, b.fields + 1⟩)

/-- `DebugTuple::finish`, with an empty name. -/
def TupleBuilder.finish (w : Writer ω) (o : Options) (b : TupleBuilder) : M ω Bool :=
  if 0 < b.fields then
    if b.result then
      tryThen (if b.fields = 1 ∧ !o.alternate then w (.str ",") else okay) (w (.str ")"))
    else .of (.ok false)
  else .of (.ok b.result)

/-- `Debug` of a pair: `debug_tuple("")` and two fields. -/
def debugPair (key : K → Show) (value : V → Show) (p : K × V) : Show := fun _ w o => do
  let r ← w (.str "")
  let b ← TupleBuilder.field w o ⟨r, 0⟩ (key p.1)
  let b ← b.field w o (value p.2)
  b.finish w o

/-- What `format_args!` consists of: literal text and arguments with `{:?}`. -/
inductive Arg where
  | lit (s : String)
  | arg (x : Show)

/-- `write!(f, ..)`, which is `fmt::write`: an argument is printed with the flags written at its place, here none, and not
with those of the caller. -/
def writeFmt : List Arg → Show
  | [], _, _, _ => okay
  | .lit s :: as, ω, w, o => tryThen (w (.str s)) (writeFmt as ω w o)
  | .arg x :: as, ω, w, o => tryThen (x ω w {}) (writeFmt as ω w o)

/-- `Debug::fmt` of something that has to be computed. -/
def ofR (x : R α) (f : α → Show) : Show := fun ω w o => do
  let a ← .of x
  f a ω w o

/-! ## `OrdinalValues`, `AtomicOrdinal` -/

/-- `Debug for OrdinalValues` (values.rs:92-107). -/
def ordinalValues (I : OrdinalImpl τ) (item : τ → Show) (s : OrdinalValues) : Show :=
  ofR (OrdinalValues.next I (OrdinalValues.clone s)) fun
    | (none, _) => writeFmt [.lit "[]"]
    | (some first, it) => ofR I.size fun n =>
      if s.stop = n then writeFmt [.lit "[", .arg (item first), .lit "..]"]
      else ofR (OrdinalValues.nextBack I it) fun
        | (none, _) => writeFmt [.lit "[", .arg (item first), .lit "]"]
        | (some last, _) => writeFmt [.lit "[", .arg (item first), .lit "..=", .arg (item last), .lit "]"]

/-- `Debug for AtomicOrdinal` (atomic.rs:40-45). -/
def atomicOrdinal (I : OrdinalImpl τ) (item : τ → Show) (cell : Nat) : Show :=
  match (AtomicOrdinal.step I cell (.load .relaxed)).1 with
  | .ok (.val v) => item v
  | .ok _ => fun _ _ _ => .of (.error .ub)
  | .error e => fun _ _ _ => .of (.error e)

/-! ## Total maps and their iterators -/

/-- `Debug for total::Iter` (total/iter.rs:60-64): prints a clone. -/
def totalIter (c : Cfg) (I : OrdinalImpl K) (key : K → Show) (value : V → Show) (s : TotalIter V) : Show :=
  debugSeq "[" "]" (TotalIter.next c I) (debugPair key value) (.ok (TotalIter.len s + 1, TotalIter.clone s))

/-- What the other iterators over total maps print: their `iter()`. -/
def totalIterOf (c : Cfg) (I : OrdinalImpl K) (key : K → Show) (value : V → Show) (s : TotalIter V) : Show :=
  debugSeq "[" "]" (TotalIter.next c I) (debugPair key value) (.ok (TotalIter.len s + 1, s))

/-- `Debug for total::IterMut` (total/iter.rs:110-114). -/
def totalIterMut (c : Cfg) (I : OrdinalImpl K) (key : K → Show) (value : V → Show) (s : TotalIterMut V) : Show :=
  totalIterOf c I key value (TotalIterMut.iter s)

/-- `Debug for total::IntoIter` (total/iter.rs:216-220). -/
def totalIntoIter (c : Cfg) (I : OrdinalImpl K) (key : K → Show) (value : V → Show) (s : TotalIntoIter V) : Show :=
  totalIterOf c I key value (TotalIntoIter.iter s)

/-- `Debug for total::IntoIterArray` (total/iter.rs:164-168). -/
def totalIntoIterArray (c : Cfg) (I : OrdinalImpl K) (key : K → Show) (value : V → Show) (s : TotalIntoIterArray V) : Show :=
  totalIterOf c I key value (TotalIntoIterArray.iter s)

/-- What total maps print: their `iter()`. -/
def totalMapOf (c : Cfg) (I : OrdinalImpl K) (key : K → Show) (value : V → Show) (s : TotalIter V) : Show :=
  debugMap (TotalIter.next c I) key value (.ok (TotalIter.len s + 1, s))

/-- `Debug for OrdinalTotalMap` (total/map.rs:141-145). -/
def totalMap (c : Cfg) (I : OrdinalImpl K) (key : K → Show) (value : V → Show) (s : OrdinalTotalMap V) : Show :=
  totalMapOf c I key value (OrdinalTotalMap.iter s)

/-- `Debug for OrdinalTotalArrayMap` (total/array_map.rs:219-223). -/
def totalArrayMap (c : Cfg) (I : OrdinalImpl K) (key : K → Show) (value : V → Show) (s : OrdinalTotalArrayMap V) : Show :=
  totalMapOf c I key value (OrdinalTotalArrayMap.iter s)

/-! ## Sparse maps and their iterators -/

/-- `Debug for Iter` (map/iter.rs:62-66): prints a clone. -/
def mapIter (c : Cfg) (I : OrdinalImpl K) (key : K → Show) (value : V → Show) (s : MapIter V) : Show :=
  debugSeq "[" "]" (MapIter.next c I) (debugPair key value) (.ok (TotalIter.len s + 1, MapIter.clone s))

/-- What the other iterators over sparse maps print: their `iter()`. -/
def mapIterOf (c : Cfg) (I : OrdinalImpl K) (key : K → Show) (value : V → Show) (s : MapIter V) : Show :=
  debugSeq "[" "]" (MapIter.next c I) (debugPair key value) (.ok (TotalIter.len s + 1, s))

/-- `Debug for IterMut` (map/iter.rs:116-120). -/
def mapIterMut (c : Cfg) (I : OrdinalImpl K) (key : K → Show) (value : V → Show) (s : MapIterMut V) : Show :=
  mapIterOf c I key value (MapIterMut.iter s)

/-- `Debug for IntoIter` (map/iter.rs:417-421). -/
def mapIntoIter (c : Cfg) (I : OrdinalImpl K) (key : K → Show) (value : V → Show) (s : MapIntoIter V) : Show :=
  mapIterOf c I key value (MapIntoIter.iter s)

/-- `Debug for IntoIterArray` (map/iter.rs:358-362). -/
def mapIntoIterArray (c : Cfg) (I : OrdinalImpl K) (key : K → Show) (value : V → Show) (s : MapIntoIterArray V) : Show :=
  mapIterOf c I key value (MapIntoIterArray.iter s)

/-- `Debug for Keys<K, ()>` (map/iter.rs:165-169): prints a clone. -/
def keys (c : Cfg) (I : OrdinalImpl K) (key : K → Show) (s : Keys Unit) : Show :=
  debugSeq "[" "]" (Keys.next c I) key (.ok (TotalIter.len s + 1, Keys.clone s))

/-- `Debug for Values` (map/iter.rs:214-218): prints a clone. -/
def values (c : Cfg) (I : OrdinalImpl K) (value : V → Show) (s : Values V) : Show :=
  debugSeq "[" "]" (Values.next c I) value (.ok (TotalIter.len s + 1, Values.clone s))

/-- `Debug for ValuesMut` (map/iter.rs:260-264). -/
def valuesMut (c : Cfg) (I : OrdinalImpl K) (value : V → Show) (s : ValuesMut V) : Show :=
  debugSeq "[" "]" (Values.next c I) value (.ok (TotalIter.len (ValuesMut.iter s) + 1, ValuesMut.iter s))

/-- What sparse maps print: their `iter()`. -/
def mapOf (c : Cfg) (I : OrdinalImpl K) (key : K → Show) (value : V → Show) (s : MapIter V) : Show :=
  debugMap (MapIter.next c I) key value (.ok (TotalIter.len s + 1, s))

/-- `Debug for OrdinalMap` (map/map.rs:173-177). -/
def omap (c : Cfg) (I : OrdinalImpl K) (key : K → Show) (value : V → Show) (s : OMap V) : Show :=
  mapOf c I key value (OMap.iter s)

/-- `Debug for OrdinalArrayMap` (map/array_map.rs:184-188). -/
def arrayMap (c : Cfg) (I : OrdinalImpl K) (key : K → Show) (value : V → Show) (s : OrdinalArrayMap V) : Show :=
  mapOf c I key value (OrdinalArrayMap.iter s)

/-! ## Sets -/

/-- `Debug for set::Iter` (set/iter.rs:64-68): prints a clone. -/
def setIter (c : Cfg) (I : OrdinalImpl τ) (item : τ → Show) (s : SetIter) : Show :=
  debugSeq "[" "]" (SetIter.next c I) item (.ok (s.iter.len + 1, s.clone))

/-- `Debug for OrdinalSetRef` (set/set_ref.rs:47-51): the iterator is made after the bracket is written. -/
def setRef (c : Cfg) (I : OrdinalImpl τ) (item : τ → Show) (s : SetRef) : Show :=
  debugSeq "{" "}" (SetIter.next c I) item (do
    let it ← SetRef.iter I s
    .ok (it.iter.len + 1, it))

/-- `Debug for OrdinalSet` (set/set.rs:114-118). -/
def oset (c : Cfg) (I : OrdinalImpl τ) (item : τ → Show) (s : OrdinalSet) : Show :=
  ofR (OrdinalSet.asRef c I s) (setRef c I item)

/-- `Debug for OrdinalArraySet` (set/array.rs:105-109). -/
def arraySet (c : Cfg) (I : OrdinalImpl τ) (S : Nat) (item : τ → Show) (s : OrdinalArraySet) : Show :=
  ofR (OrdinalArraySet.asRef c I S s) (setRef c I item)

/-- `Debug for Iter64` (set/set64.rs:63-67): prints a clone. -/
def iter64 (c : Cfg) (I : OrdinalImpl τ) (item : τ → Show) (s : Iter64) : Show :=
  debugSeq "[" "]" (Iter64.next c I) item (.ok (Iter64.len s + 1, Iter64.clone s))

/-- `Debug for OrdinalSet64` (set/set64.rs:160-164). -/
def set64 (c : Cfg) (I : OrdinalImpl τ) (item : τ → Show) (s : OrdinalSet64) : Show :=
  ofR (OrdinalSet64.asRef c I s) (setRef c I item)

end OrdinalMap.Format
