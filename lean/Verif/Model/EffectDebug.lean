import Verif.Model.Atomic
import Verif.Model.Debug
import Verif.Model.Effect
/-!
# `Debug` and `AtomicOrdinal` over an `Ordinal` implementation with state

The `Debug` impls of Model/Debug.lean once more, over `SImpl`.  The `Debug` of the keys, values and items is user
code too: it may have state, may panic, and may return `Err(fmt::Error)`.  As in `core::fmt` a builder that has met
an error formats nothing more, but `entries` goes on taking items from the iterator.  The text goes to a `String`,
which accepts everything.

`AtomicOrdinal` (atomic.rs) is split as in Model/Atomic.lean into what a method does before it calls its
`AtomicUsize` and what it does after; between the two anything may happen.
-/

namespace OrdinalMap.Eff

variable {σ s ι K V τ : Type}

/-! ## Builders (`core::fmt`) -/

/-- What a `fmt` function has done: the text it has appended, `none` for `Err(fmt::Error)`. -/
abbrev Fmt (σ : Type) := M σ (Option String)

/-- A `fmt` function that does not touch the state and always succeeds. -/
def Fmt.text (t : String) : Fmt σ := .of (.ok (some t))

/-- `a?` followed by `b` in a `fmt` function. -/
def Fmt.then (a : Fmt σ) (f : String → Fmt σ) : M σ (Option String) := do
  match ← a with
  | none => .of (.ok none)
  | some t => f t

/-- `Builder.entry`; `none` is a builder that has met an error. -/
def entry (alt : Bool) (b : Option Builder) (text : Fmt σ) : M σ (Option Builder) :=
  match b with
  | none => .of (.ok none)
  | some b => do
    let o ← text
    .of (.ok (o.map (b.entry alt)))

/-- `entriesLoop` with state. -/
def entriesLoop (alt : Bool) (next : s → M σ (Option ι × s)) (text : ι → Fmt σ) :
    Nat → s → Option Builder → M σ (Option Builder)
  | 0, _, _ => .of (.error .diverge)
  | fuel + 1, it, b => do
    let (o, it) ← next it
    match o with
    | none => .of (.ok b)
    | some x => do
      let b ← entry alt b (text x)
      entriesLoop alt next text fuel it b

/-- `debugSeq` with state. -/
def debugSeq (opn cls : String) (alt : Bool) (next : s → M σ (Option ι × s)) (text : ι → Fmt σ) (fuel : Nat) (it : s) :
    M σ (Option String) := do
  let b ← entriesLoop alt next text fuel it (some ⟨opn, false⟩)
  .of (.ok (b.map fun b => b.out ++ cls))

/-- An entry of `debug_map`. -/
def pairEntry (key : K → Fmt σ) (value : V → Fmt σ) (p : K × V) : Fmt σ :=
  (key p.1).then fun k => (value p.2).then fun v => .text (k ++ ": " ++ v)

/-- `debugPair` with state. -/
def debugPair (alt : Bool) (key : K → Fmt σ) (value : V → Fmt σ) (p : K × V) : M σ (Option String) := do
  let b ← entry alt (some ⟨"(", false⟩) (key p.1)
  let b ← entry alt b (value p.2)
  .of (.ok (b.map fun b => b.out ++ ")"))

/-! ## `OrdinalValues` -/

/-- `Debug for OrdinalValues` (values.rs:92-107), as `OrdinalValues.debug`; `{:#?}` gives the same text, because the
items are written with `{:?}`. -/
def ordinalValuesDebug (J : SImpl σ K) (item : K → Fmt σ) (r : OrdinalValues) : M σ (Option String) := do
  let (o, it) ← valuesNext J (OrdinalValues.clone r)
  match o with
  | none => Fmt.text "[]"
  | some first => do
    let n ← M.of J.size
    if r.stop = n then (item first).then fun t => .text ("[" ++ t ++ "..]")
    else do
      let (o, _) ← valuesNextBack J it
      match o with
      | none => (item first).then fun t => .text ("[" ++ t ++ "]")
      | some last => (item first).then fun a => (item last).then fun b => .text ("[" ++ a ++ "..=" ++ b ++ "]")

/-! ## Maps -/

/-- `Debug` of the total map iterators (total/iter.rs:60-64, 110-114, 164-168, 216-220). -/
def totalIterDebug (c : Cfg) (J : SImpl σ K) (alt : Bool) (key : K → Fmt σ) (value : V → Fmt σ) (it : TotalIter V) :
    Fmt σ :=
  debugSeq "[" "]" alt (enumNext c J (listIter V)) (debugPair alt key value) (TotalIter.len it + 1) it

/-- `Debug for OrdinalTotalMap` (total/map.rs:141-145), `Debug for OrdinalTotalArrayMap`
(total/array_map.rs:219-223). -/
def totalDebug (c : Cfg) (J : SImpl σ K) (alt : Bool) (key : K → Fmt σ) (value : V → Fmt σ) (m : List V) : Fmt σ :=
  debugSeq "{" "}" alt (enumNext c J (listIter V)) (pairEntry key value) (TotalIter.len (TotalIter.new m 0) + 1)
    (TotalIter.new m 0)

/-- `Debug` of the sparse map iterators (map/iter.rs:62-66, 116-120, 358-362, 417-421). -/
def mapIterDebug (c : Cfg) (J : SImpl σ K) (alt : Bool) (key : K → Fmt σ) (value : V → Fmt σ) (it : MapIter V) : Fmt σ :=
  debugSeq "[" "]" alt (mapNext c J) (debugPair alt key value) (TotalIter.len it + 1) it

/-- `Debug for Keys<K, ()>` (map/iter.rs:165-169). -/
def keysDebug (c : Cfg) (J : SImpl σ K) (alt : Bool) (key : K → Fmt σ) (it : Keys Unit) : Fmt σ :=
  debugSeq "[" "]" alt (mapItem (fun p => p.1) (mapNext c J)) key (TotalIter.len it + 1) it

/-- `Debug for Values` and `Debug for ValuesMut` (map/iter.rs:214-218, 260-264). -/
def valuesDebug (c : Cfg) (J : SImpl σ K) (alt : Bool) (value : V → Fmt σ) (it : Values V) : Fmt σ :=
  debugSeq "[" "]" alt (mapItem (fun p => p.2) (mapNext c J)) value (TotalIter.len it + 1) it

/-- `Debug for OrdinalMap` (map/map.rs:173-177), `Debug for OrdinalArrayMap` (map/array_map.rs:184-188). -/
def mapDebug (c : Cfg) (J : SImpl σ K) (alt : Bool) (key : K → Fmt σ) (value : V → Fmt σ) (m : List (Option V)) : Fmt σ :=
  debugSeq "{" "}" alt (mapNext c J) (pairEntry key value) (TotalIter.len (TotalIter.new m 0) + 1) (TotalIter.new m 0)

/-! ## Sets -/

/-- `Debug for set::Iter` (set/iter.rs:64-68). -/
def setIterDebug (c : Cfg) (J : SImpl σ K) (alt : Bool) (item : K → Fmt σ) (it : SetIter) : Fmt σ :=
  debugSeq "[" "]" alt (setNext c J) item (it.iter.len + 1) it

/-- `Debug for OrdinalSetRef` (set/set_ref.rs:47-51). -/
def refDebug (c : Cfg) (J : SImpl σ K) (alt : Bool) (item : K → Fmt σ) (ws : SetRef) : M σ (Option String) := do
  let r ← M.of (valuesNew J)
  debugSeq "{" "}" alt (setNext c J) item (r.len + 1) ⟨r, ws⟩

/-- `Debug for OrdinalSet` (set/set.rs:114-118). -/
def osetDebug (c : Cfg) (J : SImpl σ K) (alt : Bool) (item : K → Fmt σ) (t : OrdinalSet) : M σ (Option String) := do
  let ws ← M.of (do
    match decide ((← J.size) ≤ 64), t with
    | true, .small w => refNew c J [w]
    | false, .large ws => refNew c J ws
    | _, _ => .error .panic)
  refDebug c J alt item ws

/-- `Debug for OrdinalArraySet` (set/array.rs:105-109). -/
def asetDebug (c : Cfg) (J : SImpl σ K) (S : Nat) (alt : Bool) (item : K → Fmt σ) (ws : OrdinalArraySet) : M σ (Option String) := do
  let ws ← M.of (do
    constAssert (S == divCeil (← J.size) 64)
    refNew c J ws)
  refDebug c J alt item ws

/-- `Debug for Iter64` (set/set64.rs:63-67). -/
def iter64Debug (c : Cfg) (J : SImpl σ K) (alt : Bool) (item : K → Fmt σ) (w : Iter64) : Fmt σ :=
  debugSeq "[" "]" alt (iter64Next c J) item (Iter64.len w + 1) w

/-- `Debug for OrdinalSet64` (set/set64.rs:160-164). -/
def set64Debug (c : Cfg) (J : SImpl σ K) (alt : Bool) (item : K → Fmt σ) (w : OrdinalSet64) : M σ (Option String) := do
  let ws ← M.of (refNew c J [w])
  refDebug c J alt item ws

/-! ## `AtomicOrdinal` (atomic.rs) -/

/-- The methods up to the call of the `AtomicUsize`: `load` (atomic.rs:59), `store` (atomic.rs:64),
`compare_exchange` (atomic.rs:75-79). -/
def atomicCall (J : SImpl σ τ) : AtomicOp τ → M σ Prim
  | .load order => .of (.ok (.load order))
  | .store value order => do
    let i ← J.ordinal value
    .of (.ok (.store i order))
  | .cas old new success failure => do
    let oldOrd ← J.ordinal old
    let newOrd ← J.ordinal new
    .of (.ok (.cas oldOrd newOrd success failure))

/-- `T::from_ordinal(v).unwrap()` (atomic.rs:59, 81, 82). -/
def atomicValue (J : SImpl σ τ) (v : Nat) : M σ τ := do
  let o ← J.fromOrdinal v
  .of (unwrap o)

/-- The methods after it. -/
def atomicRet (J : SImpl σ τ) : RawRes → M σ (AtomicOut τ)
  | .unit => .of (.ok .unit)
  | .val v => do
    let x ← atomicValue J v
    .of (.ok (.val x))
  | .ok v => do
    let x ← atomicValue J v
    .of (.ok (.ok x))
  | .err v => do
    let x ← atomicValue J v
    .of (.ok (.err x))

/-- `Debug` (atomic.rs:40-45), with the number the relaxed load has returned. -/
def atomicDebug (J : SImpl σ τ) (item : τ → Fmt σ) (cell : Nat) : M σ (Option String) := do
  let x ← atomicValue J cell
  item x

/-- A whole method call on a cell that only this call touches (`AtomicOrdinal.step`). -/
def atomicStep (J : SImpl σ τ) (cell : Nat) (op : AtomicOp τ) : σ → (R (AtomicOut τ) × Nat) × σ := fun st =>
  match atomicCall J op st with
  | (.error e, st) => ((.error e, cell), st)
  | (.ok p, st) =>
    match Prim.exec cell p with
    | .error e => ((.error e, cell), st)
    | .ok (raw, cell') => (((atomicRet J raw st).1, cell'), (atomicRet J raw st).2)

end OrdinalMap.Eff
