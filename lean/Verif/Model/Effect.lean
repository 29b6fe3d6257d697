import Verif.Model.Map
import Verif.Model.Set
/-!
# The maps and sets over an `Ordinal` implementation with state

`OrdinalImpl` is a type whose functions are pure.  Safe Rust allows more: `ordinal` and `from_ordinal` may
read and write statics, cells and thread locals, so that two calls with the same argument differ.  Here the
operations are modelled again over such an implementation (`SImpl`), call by call: how often and in which
order the crate calls `ordinal` and `from_ordinal` is part of the model.  What is not a call of user code
(indexing, arithmetic, `std`) is taken from the other models.  `Lemmas/Effect.lean` proves that on pure
implementations both models agree.
-/

namespace OrdinalMap

variable {σ s α β ι K V W E ω ο : Type}

/-- Code that may read and write a state `σ` (everything user code can reach), and may fail; the state
survives the failure. -/
def M (σ α : Type) := σ → R α × σ

namespace M

/-- Code that does not touch the state. -/
def of (x : R α) : M σ α := fun st => (x, st)

/-- Run one piece of code after another; a failure ends both. -/
protected def bind (x : M σ α) (f : α → M σ β) : M σ β := fun st =>
  match x st with
  | (.ok a, st) => f a st
  | (.error e, st) => (.error e, st)

instance : Monad (M σ) where
  pure a := of (.ok a)
  bind := M.bind

/-- A closure on an explicit state, as the other models have it. -/
def ofState (f : σ → R (α × σ)) : M σ α := fun st =>
  match f st with
  | .ok (a, st') => (.ok a, st')
  | .error e => (.error e, st)

/-- The result of a run in the form the other models have. -/
def result (x : M σ α) (st : σ) : R (α × σ) :=
  match x st with
  | (.ok a, st') => .ok (a, st')
  | (.error e, _) => .error e

end M

/-- An implementation of `trait Ordinal` (traits.rs:55-103) whose functions may have state.
`ORDINAL_SIZE` is a constant. -/
structure SImpl (σ K : Type) where
  size : R Nat
  ordinal : K → M σ Nat
  fromOrdinal : Nat → M σ (Option K)

/-- A pure implementation. -/
def SImpl.ofPure (I : OrdinalImpl K) : SImpl σ K :=
  ⟨I.size, fun k => .of (I.ordinal k), fun i => .of (I.fromOrdinal i)⟩

namespace Eff

/-! ## `OrdinalValues` (values.rs) -/

/-- `OrdinalValues::new` (values.rs:28-33). -/
def valuesNew (J : SImpl σ K) : R OrdinalValues := do .ok ⟨0, ← J.size⟩

/-- `OrdinalValues::next` (values.rs:40-43). -/
def valuesNext (J : SImpl σ K) (r : OrdinalValues) : M σ (Option K × OrdinalValues) :=
  match Range.next r with
  | (none, r) => .of (.ok (none, r))
  | (some i, r) => do
    let a ← M.of (unwrap (← J.fromOrdinal i))
    .of (.ok (some a, r))

/-- `OrdinalValues::next_back` (values.rs:76-79). -/
def valuesNextBack (J : SImpl σ K) (r : OrdinalValues) : M σ (Option K × OrdinalValues) :=
  match Range.nextBack r with
  | (none, r) => .of (.ok (none, r))
  | (some i, r) => do
    let a ← M.of (unwrap (← J.fromOrdinal i))
    .of (.ok (some a, r))

/-! ## Runs -/

/-- `DEIter.run` with state. -/
def run (next nextBack : s → M σ (Option ι × s)) : s → List Dir → M σ (List (Option ι) × s)
  | it, [] => .of (.ok ([], it))
  | it, d :: ds => do
    let (o, it) ← match d with
      | .front => next it
      | .back => nextBack it
    let (os, it) ← run next nextBack it ds
    .of (.ok (o :: os, it))

/-- `runOps` with state. -/
def runOps (step : s → ω → M σ (ο × s)) : s → List ω → M σ (List ο × s)
  | x, [] => .of (.ok ([], x))
  | x, op :: ops => do
    let (o, x) ← step x op
    let (os, x) ← runOps step x ops
    .of (.ok (o :: os, x))

/-! ## Map iterators (map/enumerate.rs, map/total/iter.rs, map/iter.rs) -/

/-- `OrdinalEnumerate::next` (enumerate.rs:25-30). -/
def enumNext (c : Cfg) (J : SImpl σ K) (S : StdIter s ι) (e : Enumerate s) :
    M σ (Option (K × ι) × Enumerate s) :=
  match S.next e.iter with
  | (none, iter) => .of (.ok (none, ⟨e.next, iter⟩))
  | (some v, iter) => do
    let k ← M.of (unwrap (← J.fromOrdinal e.next))
    let next ← M.of (addU c e.next 1)
    .of (.ok (some (k, v), ⟨next, iter⟩))

/-- `OrdinalEnumerate::next_back` (enumerate.rs:49-53). -/
def enumNextBack (c : Cfg) (J : SImpl σ K) (S : StdIter s ι) (e : Enumerate s) :
    M σ (Option (K × ι) × Enumerate s) :=
  match S.nextBack e.iter with
  | (none, iter) => .of (.ok (none, ⟨e.next, iter⟩))
  | (some v, iter) => do
    let i ← M.of (addU c e.next (S.len iter))
    let k ← M.of (unwrap (← J.fromOrdinal i))
    .of (.ok (some (k, v), ⟨e.next, iter⟩))

/-- `total::IterMut::next` (total/iter.rs:89-91). -/
def mutNext (c : Cfg) (J : SImpl σ K) (it : TotalIterMut V) : M σ (Option (K × Nat) × TotalIterMut V) := do
  let (o, e) ← enumNext c J slotIter it.it
  .of (.ok (o, ⟨it.mem, e⟩))

/-- `total::IterMut::next_back` (total/iter.rs:105-107). -/
def mutNextBack (c : Cfg) (J : SImpl σ K) (it : TotalIterMut V) : M σ (Option (K × Nat) × TotalIterMut V) := do
  let (o, e) ← enumNextBack c J slotIter it.it
  .of (.ok (o, ⟨it.mem, e⟩))

/-- The `loop`s of map/iter.rs (26-33, 43-50, 89-96, 106-113, 287-294, 302-309, 336-343, 348-355, 392-399,
407-414). -/
def skipLoop (step : s → M σ (Option α × s)) (body : α → s → R (Option β × s)) :
    Nat → s → M σ (Option β × s)
  | 0, _ => .of (.error .diverge)
  | fuel + 1, it => do
    match ← step it with
    | (none, it) => .of (.ok (none, it))
    | (some a, it) => do
      match ← M.of (body a it) with
      | (some b, it) => .of (.ok (some b, it))
      | (none, it) => skipLoop step body fuel it

/-- `Iter::next` (map/iter.rs:26-33), `IntoIter::next` (map/iter.rs:392-399), `IntoIterArray::next`
(map/iter.rs:336-343). -/
def mapNext (c : Cfg) (J : SImpl σ K) (it : MapIter V) : M σ (Option (K × V) × MapIter V) :=
  skipLoop (enumNext c J (listIter _)) MapIter.body (TotalIter.len it + 1) it

/-- `Iter::next_back` (map/iter.rs:43-50), `IntoIter::next_back` (map/iter.rs:407-414),
`IntoIterArray::next_back` (map/iter.rs:348-355). -/
def mapNextBack (c : Cfg) (J : SImpl σ K) (it : MapIter V) : M σ (Option (K × V) × MapIter V) :=
  skipLoop (enumNextBack c J (listIter _)) MapIter.body (TotalIter.len it + 1) it

/-- `IterMut::next` (map/iter.rs:89-96). -/
def mapMutNext (c : Cfg) (J : SImpl σ K) (it : MapIterMut V) : M σ (Option (K × Nat) × MapIterMut V) :=
  skipLoop (mutNext c J) MapIterMut.body (TotalIterMut.len it + 1) it

/-- `IterMut::next_back` (map/iter.rs:106-113). -/
def mapMutNextBack (c : Cfg) (J : SImpl σ K) (it : MapIterMut V) : M σ (Option (K × Nat) × MapIterMut V) :=
  skipLoop (mutNextBack c J) MapIterMut.body (TotalIterMut.len it + 1) it

/-- `Drain::next` (map/iter.rs:287-294). -/
def drainNext (c : Cfg) (J : SImpl σ K) (it : Drain V) : M σ (Option (K × V) × Drain V) :=
  skipLoop (mutNext c J) Drain.body (TotalIterMut.len it + 1) it

/-- `Drain::next_back` (map/iter.rs:302-309). -/
def drainNextBack (c : Cfg) (J : SImpl σ K) (it : Drain V) : M σ (Option (K × V) × Drain V) :=
  skipLoop (mutNextBack c J) Drain.body (TotalIterMut.len it + 1) it

/-- `for _ in self {}` (map/iter.rs:280). -/
def dropLoop (c : Cfg) (J : SImpl σ K) : Nat → Drain V → M σ (List (Option V))
  | 0, _ => .of (.error .diverge)
  | fuel + 1, it => do
    match ← drainNext c J it with
    | (none, it) => .of (.ok it.mem)
    | (some _, it) => dropLoop c J fuel it

/-- `Drop for Drain` (map/iter.rs:279-281). -/
def drainDrop (c : Cfg) (J : SImpl σ K) (it : Drain V) : M σ (List (Option V)) :=
  dropLoop c J (TotalIterMut.len it + 1) it

/-- `Iterator::count` on `Iter` (std). -/
def countLoop (c : Cfg) (J : SImpl σ K) : Nat → MapIter V → Nat → M σ Nat
  | 0, _, _ => .of (.error .diverge)
  | fuel + 1, it, acc => do
    match ← mapNext c J it with
    | (none, _) => .of (.ok acc)
    | (some _, it) => do countLoop c J fuel it (← M.of (addU c acc 1))

/-- `len()` of the sparse maps (map.rs:64-66, array_map.rs:56-58). -/
def mapLen (c : Cfg) (J : SImpl σ K) (m : List (Option V)) : M σ Nat :=
  countLoop c J (TotalIter.len (TotalIter.new m 0) + 1) (TotalIter.new m 0) 0

/-- `is_empty()` of the sparse maps (map.rs:70-72, array_map.rs:61-63). -/
def mapIsEmpty (c : Cfg) (J : SImpl σ K) (m : List (Option V)) : M σ Bool := do
  let (o, _) ← mapNext c J (TotalIter.new m 0)
  .of (.ok o.isNone)

/-- Clients of the sparse maps' `iter_mut()`, as `MutClient.step`. -/
def clientStep (c : Cfg) (J : SImpl σ K) (x : MutClient V) : MutStep V → M σ (Option (K × V) × MutClient V)
  | .front => do
    let (o, it) ← mapMutNext c J x.it
    match o with
    | none => .of (.ok (none, ⟨it, x.handed⟩))
    | some (k, slot) => .of (do .ok (some (k, ← readSome it.mem slot), ⟨it, x.handed ++ [slot]⟩))
  | .back => do
    let (o, it) ← mapMutNextBack c J x.it
    match o with
    | none => .of (.ok (none, ⟨it, x.handed⟩))
    | some (k, slot) => .of (do .ok (some (k, ← readSome it.mem slot), ⟨it, x.handed ++ [slot]⟩))
  | .write j v =>
    match x.handed[j]? with
    | none => .of (.ok (none, x))
    | some slot => .of (do .ok (none, ⟨⟨← writeSome x.it.mem slot v, x.it.it⟩, x.handed⟩))

/-- Clients of the total maps' `iter_mut()`, as `MutClientT.step`. -/
def clientStepT (c : Cfg) (J : SImpl σ K) (x : MutClientT V) : MutStep V → M σ (Option (K × V) × MutClientT V)
  | .front => do
    let (o, it) ← mutNext c J x.it
    match o with
    | none => .of (.ok (none, ⟨it, x.handed⟩))
    | some (k, slot) => .of (do .ok (some (k, ← readSlot it.mem slot), ⟨it, x.handed ++ [slot]⟩))
  | .back => do
    let (o, it) ← mutNextBack c J x.it
    match o with
    | none => .of (.ok (none, ⟨it, x.handed⟩))
    | some (k, slot) => .of (do .ok (some (k, ← readSlot it.mem slot), ⟨it, x.handed ++ [slot]⟩))
  | .write j v =>
    match x.handed[j]? with
    | none => .of (.ok (none, x))
    | some slot => .of (do .ok (none, ⟨⟨← writeSlot x.it.mem slot v, x.it.it⟩, x.handed⟩))

/-- `Option::map` on what a step yields (`Keys`, `Values`, `ValuesMut`: map/iter.rs:139-153, 188-202,
243-257). -/
def mapItem (f : α → β) (step : s → M σ (Option α × s)) (it : s) : M σ (Option β × s) := do
  let (o, it) ← step it
  .of (.ok (o.map f, it))

/-- Clients of the sparse maps' `values_mut()`, as `MutClient.stepV`. -/
def clientStepV (c : Cfg) (J : SImpl σ K) (x : MutClient V) : MutStep V → M σ (Option V × MutClient V)
  | .front => do
    let (o, it) ← mapItem (fun p => p.2) (mapMutNext c J) x.it
    match o with
    | none => .of (.ok (none, ⟨it, x.handed⟩))
    | some slot => .of (do .ok (some (← readSome it.mem slot), ⟨it, x.handed ++ [slot]⟩))
  | .back => do
    let (o, it) ← mapItem (fun p => p.2) (mapMutNextBack c J) x.it
    match o with
    | none => .of (.ok (none, ⟨it, x.handed⟩))
    | some slot => .of (do .ok (some (← readSome it.mem slot), ⟨it, x.handed ++ [slot]⟩))
  | .write j v =>
    match x.handed[j]? with
    | none => .of (.ok (none, x))
    | some slot => .of (do .ok (none, ⟨⟨← writeSome x.it.mem slot v, x.it.it⟩, x.handed⟩))

/-- The operations of sparse maps that take no key; they are the same for `OrdinalMap`
(map.rs:62-72, 104-144) and `OrdinalArrayMap` (array_map.rs:52-63, 102-142).  On a key operation this does
nothing. -/
def keyless (c : Cfg) (J : SImpl σ K) (m : List (Option V)) : MapOp K V → M σ (MapOut K V × List (Option V))
  | .len => do
    let n ← mapLen c J m
    .of (.ok (.nat n, m))
  | .isEmpty => do
    let b ← mapIsEmpty c J m
    .of (.ok (.bool b, m))
  | .iter ds => do
    let (os, _) ← run (mapNext c J) (mapNextBack c J) (TotalIter.new m 0) ds
    .of (.ok (.items os, m))
  | .keys ds => do
    let (os, _) ← run (mapItem (fun p => p.1) (mapNext c J)) (mapItem (fun p => p.1) (mapNextBack c J))
      (TotalIter.new m 0) ds
    .of (.ok (.keys os, m))
  | .values ds => do
    let (os, _) ← run (mapItem (fun p => p.2) (mapNext c J)) (mapItem (fun p => p.2) (mapNextBack c J))
      (TotalIter.new m 0) ds
    .of (.ok (.vals os, m))
  | .iterMut steps => do
    let (os, cl) ← runOps (clientStep c J) ⟨TotalIterMut.new m, []⟩ steps
    .of (.ok (.items os, cl.it.mem))
  | .valuesMut steps => do
    let (os, cl) ← runOps (clientStepV c J) ⟨TotalIterMut.new m, []⟩ steps
    .of (.ok (.vals os, cl.it.mem))
  | .drain ds leak => do
    let (os, d) ← run (drainNext c J) (drainNextBack c J) (Drain.new m) ds
    let m ← if leak then M.of (.ok d.mem) else drainDrop c J d
    .of (.ok (.items os, m))
  | .clear => do
    let m ← drainDrop c J (Drain.new m)
    .of (.ok (.unit, m))
  | _ => .of (.ok (.unit, m))

/-! ## `OrdinalMap` (map/map.rs) -/

/-- `OrdinalMap::init_full_map` (map.rs:74-82). -/
def initFullMap (c : Cfg) (J : SImpl σ K) (sz : Nat) (m : OMap V) : R (OMap V) := do
  if List.isEmpty m then do
    withCapacity c sz (← J.size)
    .ok (List.replicate (← J.size) none)
  else .ok m

/-- `OrdinalMap::contains_key` (map.rs:58-60). -/
def omapContainsKey (J : SImpl σ K) (m : OMap V) (k : K) : M σ Bool := do
  let i ← J.ordinal k
  .of (.ok (m[i]?).isSome)

/-- `OrdinalMap::insert` (map.rs:86-89): `self.map[key.ordinal()].replace(value)`. -/
def omapInsert (c : Cfg) (J : SImpl σ K) (sz : Nat) (m : OMap V) (k : K) (v : V) :
    M σ (Option V × OMap V) := do
  let m ← M.of (initFullMap c J sz m)
  let i ← J.ordinal k
  .of (do
    let old ← getIdx m i
    .ok (old, ← setIdx m i (some v)))

/-- `OrdinalMap::entry` (map.rs:92-96). -/
def omapEntry (c : Cfg) (J : SImpl σ K) (sz : Nat) (m : OMap V) (k : K) : M σ (Entry K × OMap V) := do
  let m ← M.of (initFullMap c J sz m)
  let i ← J.ordinal k
  .of (do
    let slot ← OrdinalTotalMap.slotOf m i
    .ok (← Entry.new m k slot, m))

/-- One operation on an `OrdinalMap`: `get` (map.rs:46-48), `get_mut` (map.rs:52-54), `insert`, `remove`
(map.rs:100-102), `entry` with its clients as in `OMap.step`, and the operations without a key. -/
def omapStep (c : Cfg) (J : SImpl σ K) (sz : Nat) (m : OMap V) : MapOp K V → M σ (MapOut K V × OMap V)
  | .get k => do
    let i ← J.ordinal k
    .of (.ok (.opt (m[i]?).join, m))
  | .getMut k w => do
    let i ← J.ordinal k
    .of (getMutClient ((m[i]?).join.map fun _ => i) m w)
  | .insert k v => do
    let (old, m) ← omapInsert c J sz m k v
    .of (.ok (.opt old, m))
  | .remove k => do
    let i ← J.ordinal k
    match m[i]? with
    | none => .of (.ok (.opt none, m))
    | some o => .of (.ok (.opt o, m.set i none))
  | .orInsert k v w => do
    let (e, m) ← omapEntry c J sz m k
    .of (do
      let (slot, m) ← e.orInsert m v
      .ok (.opt (some (← readSome m slot)), ← writeSome m slot w))
  | .entry k v w => do
    let (e, m) ← omapEntry c J sz m k
    .of (entryClient e m v w)
  | op => keyless c J m op

/-- `FromIterator for OrdinalMap` (map.rs:155-161), the loop. -/
def omapExtend (c : Cfg) (J : SImpl σ K) (sz : Nat) : OMap V → List (K × V) → M σ (OMap V)
  | m, [] => .of (.ok m)
  | m, (k, v) :: ps => do
    let (_, m) ← omapInsert c J sz m k v
    omapExtend c J sz m ps

/-! ## The total maps (map/total/map.rs, map/total/array_map.rs) -/

/-- `&mut self.map[key.ordinal()]` (total/map.rs:64-66, 107-109, 127-129, total/array_map.rs:97-99, 185-187,
199-201): the slot. -/
def slotFor (J : SImpl σ K) (m : List V) (k : K) : M σ Nat := do
  let i ← J.ordinal k
  .of (OrdinalTotalMap.slotOf m i)

/-- `&self.map[key.ordinal()]` (total/map.rs:59-61, 121-123, total/array_map.rs:92-94, 193-195). -/
def totalGet (J : SImpl σ K) (m : List V) (k : K) : M σ V := do
  let i ← J.ordinal k
  .of (getIdx m i)

/-- One operation on a total map.  `len` is `ORDINAL_SIZE` for `OrdinalTotalMap` (total/map.rs:48-50) and
`S` for `OrdinalTotalArrayMap` (total/array_map.rs:82-84). -/
def totalStep (c : Cfg) (J : SImpl σ K) (len : R Nat) (m : List V) : TotalOp K V → M σ (MapOut K V × List V)
  | .get k => do
    let v ← totalGet J m k
    .of (.ok (.opt (some v), m))
  | .index k => do
    let v ← totalGet J m k
    .of (.ok (.opt (some v), m))
  | .getMut k w => do
    let slot ← slotFor J m k
    .of (do .ok (.opt (some (← readSlot m slot)), ← writeSlot m slot w))
  | .indexMut k w => do
    let slot ← slotFor J m k
    .of (do .ok (.opt (some (← readSlot m slot)), ← writeSlot m slot w))
  | .insert k v => do
    let i ← J.ordinal k
    .of (do
      let old ← getIdx m i
      .ok (.opt (some old), ← setIdx m i v))
  | .len => .of (do .ok (.nat (← len), m))
  | .isEmpty => .of (do .ok (.bool ((← len) == 0), m))
  | .iter ds => do
    let (os, _) ← run (enumNext c J (listIter V)) (enumNextBack c J (listIter V)) (TotalIter.new m 0) ds
    .of (.ok (.items os, m))
  | .keys ds => do
    let r ← M.of (valuesNew J)
    let (os, _) ← run (valuesNext J) (valuesNextBack J) r ds
    .of (.ok (.keys os, m))
  | .values ds => .of (do
    let (os, _) ← (listIter V).it.run m ds
    .ok (.vals os, m))
  | .iterMut steps => do
    let (os, cl) ← runOps (clientStepT c J) ⟨TotalIterMut.new m, []⟩ steps
    .of (.ok (.items os, cl.it.mem))
  | .valuesMut steps => .of (do
    let (os, cl) ← OrdinalMap.runOps SlotClient.step ⟨m, ⟨0, m.length⟩, []⟩ steps
    .ok (.vals os, cl.mem))

/-- The loop of `OrdinalTotalMap::try_new` (total/map.rs:29-31).  The closure shares the state. -/
def tryNewLoop (J : SImpl σ K) (init : K → M σ (Except E V)) :
    Nat → OrdinalValues → List V → M σ (Except E (List V))
  | 0, _, _ => .of (.error .diverge)
  | fuel + 1, it, map => do
    match ← valuesNext J it with
    | (none, _) => .of (.ok (.ok map))
    | (some v, it) => do
      match ← init v with
      | .error e => .of (.ok (.error e))
      | .ok x => tryNewLoop J init fuel it (map ++ [x])

/-- `OrdinalTotalMap::try_new` (total/map.rs:27-36). -/
def tryNew (c : Cfg) (J : SImpl σ K) (sz : Nat) (init : K → M σ (Except E V)) : M σ (Except E (List V)) := do
  M.of (do withCapacity c sz (← J.size))
  let it ← M.of (valuesNew J)
  tryNewLoop J init (OrdinalValues.len it + 1) it []

/-- The loop and end of `OrdinalTotalArrayMap::try_new` (total/array_map.rs:54-60). -/
def tryNewArrayLoop (J : SImpl σ K) (init : K → M σ (Except E V)) :
    Nat → OrdinalValues → ArrayBuilder V → M σ (Except E (List V))
  | 0, _, _ => .of (.error .diverge)
  | fuel + 1, it, a => do
    match ← valuesNext J it with
    | (none, _) => .of (do .ok (.ok (← a.finish)))
    | (some v, it) => do
      match ← init v with
      | .error e => .of (do
        let _ ← a.drop
        .ok (.error e))
      | .ok x => do tryNewArrayLoop J init fuel it (← M.of (a.push x))

/-- `OrdinalTotalArrayMap::try_new` (total/array_map.rs:51-61). -/
def tryNewArray (J : SImpl σ K) (S : Nat) (init : K → M σ (Except E V)) : M σ (Except E (List V)) := do
  M.of (do constAssert ((← J.size) == S))
  let it ← M.of (valuesNew J)
  tryNewArrayLoop J init (OrdinalValues.len it + 1) it (ArrayBuilder.new V S)

/-- `OrdinalTotalArrayMap::new` (total/array_map.rs:64-70). -/
def newArray (J : SImpl σ K) (S : Nat) (init : K → M σ V) : M σ (List V) := do
  M.of (do constAssert ((← J.size) == S))
  match ← tryNewArray (E := Empty) J S (fun k => do
      let v ← init k
      .of (.ok (.ok v))) with
  | .ok map => .of (.ok map)
  | .error e => nomatch e

/-- `OrdinalTotalArrayMap::as_ref` (total/array_map.rs:102-104). -/
def asRef (J : SImpl σ K) (S : Nat) (m : List V) : M σ (List V) := newArray J S (totalGet J m)

/-- `array_from_iter(self.into_iter().map(|(k, v)| f(k, v)))` (total/array_map.rs:125 with
array_from_iter.rs:8-11). -/
def mapLoop (c : Cfg) (J : SImpl σ K) (f : K → V → M σ W) :
    Nat → TotalIntoIterArray V → ArrayBuilder W → M σ (List W)
  | 0, _, _ => .of (.error .diverge)
  | fuel + 1, it, b => do
    match ← enumNext c J (listIter V) it with
    | (none, _) => .of b.finish
    | (some (k, v), it) => do
      let w ← f k v
      mapLoop c J f fuel it (← M.of (b.push w))

/-- `OrdinalTotalArrayMap::map` (total/array_map.rs:123-128). -/
def map (c : Cfg) (J : SImpl σ K) (S : Nat) (m : List V) (f : K → V → M σ W) : M σ (List W) :=
  mapLoop c J f (TotalIntoIterArray.len (TotalIntoIterArray.new m) + 1) (TotalIntoIterArray.new m)
    (ArrayBuilder.new W S)

/-! ## `OrdinalArrayMap` (map/array_map.rs) -/

/-- `OrdinalArrayMap::new` (array_map.rs:46-50). -/
def arrayMapNew (V : Type) (J : SImpl σ K) (S : Nat) : M σ (OrdinalArrayMap V) :=
  newArray J S fun _ => .of (.ok none)

/-- `OrdinalArrayMap::contains_key` (array_map.rs:79-81). -/
def amapContainsKey (J : SImpl σ K) (m : OrdinalArrayMap V) (k : K) : M σ Bool := do
  let o ← totalGet J m k
  .of (.ok o.isSome)

/-- `OrdinalArrayMap::insert` (array_map.rs:85-87). -/
def amapInsert (J : SImpl σ K) (m : OrdinalArrayMap V) (k : K) (v : V) :
    M σ (Option V × OrdinalArrayMap V) := do
  let slot ← slotFor J m k
  .of (do .ok (← readSlot m slot, ← writeSlot m slot (some v)))

/-- `OrdinalArrayMap::entry` (array_map.rs:91-94). -/
def amapEntry (J : SImpl σ K) (m : OrdinalArrayMap V) (k : K) : M σ (Entry K × OrdinalArrayMap V) := do
  let slot ← slotFor J m k
  .of (do .ok (← Entry.new m k slot, m))

/-- One operation on an `OrdinalArrayMap`: `get` (array_map.rs:67-69), `get_mut` (array_map.rs:73-75),
`insert`, `remove` (array_map.rs:98-100), `entry`, and the operations without a key. -/
def amapStep (c : Cfg) (J : SImpl σ K) (m : OrdinalArrayMap V) :
    MapOp K V → M σ (MapOut K V × OrdinalArrayMap V)
  | .get k => do
    let o ← totalGet J m k
    .of (.ok (.opt o, m))
  | .getMut k w => do
    let slot ← slotFor J m k
    .of (do getMutClient ((← readSlot m slot).map fun _ => slot) m w)
  | .insert k v => do
    let (old, m) ← amapInsert J m k v
    .of (.ok (.opt old, m))
  | .remove k => do
    let slot ← slotFor J m k
    .of (do .ok (.opt (← readSlot m slot), ← writeSlot m slot none))
  | .orInsert k v w => do
    let (e, m) ← amapEntry J m k
    .of (do
      let (slot, m) ← e.orInsert m v
      .ok (.opt (some (← readSome m slot)), ← writeSome m slot w))
  | .entry k v w => do
    let (e, m) ← amapEntry J m k
    .of (entryClient e m v w)
  | op => keyless c J m op

/-- The loop of `retain` (array_map.rs:149-155). -/
def retainLoop (c : Cfg) (J : SImpl σ K) (f : K → V → M σ (Bool × V)) :
    Nat → MapIterMut V → M σ (OrdinalArrayMap V)
  | 0, _ => .of (.error .diverge)
  | fuel + 1, it => do
    match ← mutNext c J it with
    | (none, it) => .of (.ok it.mem)
    | (some (key, slot), it) => do
      match ← M.of (readSlot it.mem slot) with
      | none => retainLoop c J f fuel it
      | some value => do
        let (keep, value) ← f key value
        let mem ← M.of (do
          let mem ← writeSome it.mem slot value
          if keep then .ok mem else writeSlot mem slot none)
        retainLoop c J f fuel ⟨mem, it.it⟩

/-- `OrdinalArrayMap::retain` (array_map.rs:145-156). -/
def retain (c : Cfg) (J : SImpl σ K) (m : OrdinalArrayMap V) (f : K → V → M σ (Bool × V)) :
    M σ (OrdinalArrayMap V) :=
  retainLoop c J f (TotalIterMut.len (TotalIterMut.new m) + 1) (TotalIterMut.new m)

/-- `FromIterator for OrdinalArrayMap` (array_map.rs:167-173), the loop. -/
def amapExtend (J : SImpl σ K) : OrdinalArrayMap V → List (K × V) → M σ (OrdinalArrayMap V)
  | m, [] => .of (.ok m)
  | m, (k, v) :: ps => do
    let (_, m) ← amapInsert J m k v
    amapExtend J m ps

/-! ## Sets (set/) -/

/-- `OrdinalSetRef::contains` (set_ref.rs:30-35): `ordinal` is called for the word, and if the word exists
again for the bit. -/
def refContains (c : Cfg) (J : SImpl σ K) (ws : SetRef) (x : K) : M σ Bool := do
  let i ← J.ordinal x
  match ws[i / 64]? with
  | none => .of (.ok false)
  | some word => do
    let j ← J.ordinal x
    .of (do
      let mask ← shl64 c 1 (j % 64)
      .ok (word &&& mask != 0))

/-- `OrdinalSetRef::new` (set_ref.rs:21-27). -/
def refNew (c : Cfg) (J : SImpl σ K) (ws : List (BitVec 64)) : R SetRef := do
  debugAssert c (ws.length == 0 || ws.length == divCeil (← J.size) 64)
  .ok ws

/-- `OrdinalSetMut::new` (set_mut.rs:14-20). -/
def mutNew (c : Cfg) (J : SImpl σ K) (ws : List (BitVec 64)) : R (List (BitVec 64)) := do
  debugAssert c (ws.length == divCeil (← J.size) 64)
  .ok ws

/-- `OrdinalSetMut::insert` (set_mut.rs:28-33).  In `words[a] |= b` on `u64` the right operand is evaluated
first, then the index. -/
def setInsert (c : Cfg) (J : SImpl σ K) (ws : List (BitVec 64)) (x : K) : M σ (Bool × List (BitVec 64)) := do
  let r ← M.of (refNew c J ws)
  let prev ← refContains c J r x
  let j ← J.ordinal x
  let mask ← M.of (shl64 c 1 (j % 64))
  let i ← J.ordinal x
  .of (do
    let w ← getIdx ws (i / 64)
    .ok (!prev, ← setIdx ws (i / 64) (w ||| mask)))

/-- `OrdinalSet::contains` (set.rs:58-60). -/
def osetContains (c : Cfg) (J : SImpl σ K) (t : OrdinalSet) (x : K) : M σ Bool := do
  let ws ← M.of (do
    match decide ((← J.size) ≤ 64), t with
    | true, .small w => refNew c J [w]
    | false, .large ws => refNew c J ws
    | _, _ => .error .panic)
  refContains c J ws x

/-- The allocation in `OrdinalSet::insert` (set.rs:68-75). -/
def osetAlloc (c : Cfg) (J : SImpl σ K) (ws : List (BitVec 64)) : R (List (BitVec 64)) := do
  if ws.isEmpty then do
    let t ← subU c (← unwrap (checkedAdd c (← J.size) 64)) 1
    .ok (List.replicate (← divU t 64) 0)
  else .ok ws

/-- `OrdinalSet::insert` (set.rs:64-80). -/
def osetInsert (c : Cfg) (J : SImpl σ K) (t : OrdinalSet) (x : K) : M σ (Bool × OrdinalSet) := do
  match decide ((← M.of J.size) ≤ 64), t with
  | true, .small w => do
    let ws ← M.of (mutNew c J [w])
    let (b, ws) ← setInsert c J ws x
    .of (do .ok (b, .small (← getIdx ws 0)))
  | false, .large ws => do
    let ws ← M.of (do mutNew c J (← osetAlloc c J ws))
    let (b, ws) ← setInsert c J ws x
    .of (.ok (b, .large ws))
  | _, _ => .of (.error .panic)

/-- `OrdinalArraySet::contains` (array.rs:65-67). -/
def asetContains (c : Cfg) (J : SImpl σ K) (S : Nat) (ws : OrdinalArraySet) (x : K) : M σ Bool := do
  let ws ← M.of (do
    constAssert (S == divCeil (← J.size) 64)
    refNew c J ws)
  refContains c J ws x

/-- `OrdinalArraySet::insert` (array.rs:71-73). -/
def asetInsert (c : Cfg) (J : SImpl σ K) (S : Nat) (ws : OrdinalArraySet) (x : K) :
    M σ (Bool × OrdinalArraySet) := do
  let ws ← M.of (do
    constAssert (S == divCeil (← J.size) 64)
    mutNew c J ws)
  setInsert c J ws x

/-- `OrdinalSet64::contains` (set64.rs:129-132). -/
def set64Contains (c : Cfg) (J : SImpl σ K) (w : OrdinalSet64) (x : K) : M σ Bool := do
  M.of (do constAssert ((← J.size) ≤ 64))
  let i ← J.ordinal x
  .of (do
    let mask ← shl64 c 1 i
    .ok (w &&& mask != 0))

/-- `OrdinalSet64::insert` (set64.rs:110-115). -/
def set64Insert (c : Cfg) (J : SImpl σ K) (w : OrdinalSet64) (x : K) : M σ (Bool × OrdinalSet64) := do
  M.of (do constAssert ((← J.size) ≤ 64))
  let b ← set64Contains c J w x
  let i ← J.ordinal x
  .of (do
    let mask ← shl64 c 1 i
    .ok (!b, w ||| mask))

/-- The loop of `OrdinalSet64::from_iter` (set64.rs:144-146). -/
def set64Extend (c : Cfg) (J : SImpl σ K) : OrdinalSet64 → List K → M σ OrdinalSet64
  | w, [] => .of (.ok w)
  | w, x :: xs => do
    let i ← J.ordinal x
    let mask ← M.of (shl64 c 1 i)
    set64Extend c J (w ||| mask) xs

/-- The `loop` of `Iter::next` and `Iter::next_back` (set/iter.rs:28-33, 45-50); `step` is the step of the
inner iterator. -/
def setLoop (c : Cfg) (J : SImpl σ K) (step : OrdinalValues → M σ (Option K × OrdinalValues)) :
    Nat → SetIter → M σ (Option K × SetIter)
  | 0, _ => .of (.error .diverge)
  | fuel + 1, it => do
    match ← step it.iter with
    | (none, r) => .of (.ok (none, ⟨r, it.set⟩))
    | (some x, r) => do
      if ← refContains c J it.set x then .of (.ok (some x, ⟨r, it.set⟩))
      else setLoop c J step fuel ⟨r, it.set⟩

/-- `Iter::next` (set/iter.rs:27-34). -/
def setNext (c : Cfg) (J : SImpl σ K) (it : SetIter) : M σ (Option K × SetIter) :=
  setLoop c J (valuesNext J) (it.iter.len + 1) it

/-- `Iter::next_back` (set/iter.rs:44-51). -/
def setNextBack (c : Cfg) (J : SImpl σ K) (it : SetIter) : M σ (Option K × SetIter) :=
  setLoop c J (valuesNextBack J) (it.iter.len + 1) it

/-- `Iter64::next` (set64.rs:20-28). -/
def iter64Next (c : Cfg) (J : SImpl σ K) (w : Iter64) : M σ (Option K × Iter64) := do
  let i := trailingZeros w
  if i = 64 then .of (.ok (none, w))
  else do
    let mask ← M.of (shl64 c 1 i)
    let x ← M.of (unwrap (← J.fromOrdinal i))
    .of (.ok (some x, w &&& ~~~mask))

/-- `Iter64::next_back` (set64.rs:46-50). -/
def iter64NextBack (c : Cfg) (J : SImpl σ K) (w : Iter64) : M σ (Option K × Iter64) :=
  match checkedSub 63 (leadingZeros w) with
  | none => .of (.ok (none, w))
  | some i => do
    let mask ← M.of (shl64 c 1 i)
    let x ← M.of (unwrap (← J.fromOrdinal i))
    .of (.ok (some x, w &&& ~~~mask))

/-! ## `[T; N]` (array.rs) -/

/-- The loop of `<[T; N]>::from_ordinal` (array.rs:27-33). -/
def arrayFromLoop (J : SImpl σ K) : Nat → Nat → ArrayBuilder K → M σ (Option (Nat × ArrayBuilder K))
  | 0, n, b => .of (.ok (some (n, b)))
  | k + 1, n, b => do
    let t ← M.of J.size
    match checkedRem n t with
    | none => .of (do
      let _ ← b.drop
      .ok none)
    | some i => do
      let o ← J.fromOrdinal i
      let b ← M.of (do b.push (← unwrap o))
      let n ← M.of (divU n t)
      arrayFromLoop J k n b

/-- `<[T; N]>::from_ordinal` (array.rs:24-41). -/
def arrayFrom (J : SImpl σ K) (N i : Nat) : M σ (Option (List K)) := do
  match ← arrayFromLoop J N i (ArrayBuilder.new K N) with
  | none => .of (.ok none)
  | some (n, b) =>
    if n ≠ 0 then .of (do
      let _ ← b.drop
      .ok none)
    else .of (do .ok (some (← b.finish).reverse))

/-- The loop of `<[T; N]>::ordinal` (array.rs:17-20). -/
def arrayOrdinalLoop (c : Cfg) (J : SImpl σ K) : List K → Nat → M σ Nat
  | [], r => .of (.ok r)
  | v :: vs, r => do
    let r ← M.of (do unwrap (checkedMul c r (← J.size)))
    let i ← J.ordinal v
    arrayOrdinalLoop c J vs (← M.of (addU c r i))

end Eff
end OrdinalMap
