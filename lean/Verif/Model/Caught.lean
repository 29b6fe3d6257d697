import Verif.Model.EffectDebug
/-!
# Operations whose panics are caught

A panic can be caught (`catch_unwind`), and then the collection that the panicking operation had borrowed is used
further.  `Model/Effect.lean` forgets the collection when an operation fails.  Here the operations that have `&mut`
access are modelled once more, write by write: the collection is part of a state that outlives the failure.
Operations with `&` access (`get`, `len`, `iter`, …) cannot change the collection and are taken from
`Model/Effect.lean`.

User code is `ordinal` and `from_ordinal` of the key; destructors of values do not panic here (C75 has those).
-/

namespace OrdinalMap

variable {σ s t α β ι K V ω ο : Type}

/-- Code with exclusive access to a collection `s`.  What it has written to `s` stays when it fails. -/
abbrev Upd (σ s α : Type) := M (σ × s) α

namespace Upd

/-- A call of user code, which cannot reach the collection while it is borrowed. -/
def user (x : M σ α) : Upd σ s α := fun p => ((x p.1).1, ((x p.1).2, p.2))

/-- Read the collection. -/
def read : Upd σ s s := fun p => (.ok p.2, p)

/-- Write the collection. -/
def write (m : s) : Upd σ s Unit := fun p => (.ok (), (p.1, m))

/-- Code on something that borrows the collection (an iterator), or on a part of the state. -/
def zoom (get : s → t) (set : s → t → s) (x : Upd σ t α) : Upd σ s α := fun p =>
  ((x (p.1, get p.2)).1, ((x (p.1, get p.2)).2.1, set p.2 (x (p.1, get p.2)).2.2))

end Upd

/-- How something ended whose panics are caught. -/
inductive Ended (ο : Type) where
  | returned (o : ο)
  | panicked
  /-- a panic while unwinding from a panic: the process is gone -/
  | aborted

namespace Caught
open Upd

/-- `catch_unwind(|| x)`. -/
def catchUnwind (x : Upd σ s α) : Upd σ s (Ended α) := fun p =>
  match x p with
  | (.ok a, p) => (.ok (.returned a), p)
  | (.error .panic, p) => (.ok .panicked, p)
  | (.error e, p) => (.error e, p)

/-- `catch_unwind(|| x)` where `x` owns something with a destructor `d` that runs while unwinding. -/
def catchWith (x : Upd σ s α) (d : Upd σ s Unit) : Upd σ s (Ended α) := fun p =>
  match x p with
  | (.ok a, p) => (.ok (.returned a), p)
  | (.error .panic, p) =>
    match d p with
    | (.ok (), p) => (.ok .panicked, p)
    | (.error .panic, p) => (.ok .aborted, p)
    | (.error e, p) => (.error e, p)
  | (.error e, p) => (.error e, p)

/-- A history of operations whose panics are caught one by one.  It ends early if the process aborts. -/
def run (step : ω → Upd σ s (Ended ο)) : List ω → Upd σ s (List (Ended ο))
  | [] => .of (.ok [])
  | op :: ops => do
    match ← step op with
    | .aborted => .of (.ok [.aborted])
    | e => do
      let es ← run step ops
      .of (.ok (e :: es))

/-! ## Mutable iterators (map/enumerate.rs, map/total/iter.rs, map/iter.rs) -/

/-- `OrdinalEnumerate::next` (enumerate.rs:25-30) in `total::IterMut::next` (total/iter.rs:89-91): the slice
iterator moves on, then `from_ordinal` is called, then `self.next` is increased. -/
def mutNext (c : Cfg) (J : SImpl σ K) : Upd σ (TotalIterMut V) (Option (K × Nat)) := do
  let it ← read
  match Range.next it.it.iter with
  | (none, r) => do
    write ⟨it.mem, ⟨it.it.next, r⟩⟩
    .of (.ok none)
  | (some slot, r) => do
    write ⟨it.mem, ⟨it.it.next, r⟩⟩
    let o ← user (J.fromOrdinal it.it.next)
    let k ← .of (unwrap o)
    let next ← .of (addU c it.it.next 1)
    write ⟨it.mem, ⟨next, r⟩⟩
    .of (.ok (some (k, slot)))

/-- `OrdinalEnumerate::next_back` (enumerate.rs:49-53) in `total::IterMut::next_back` (total/iter.rs:105-107). -/
def mutNextBack (c : Cfg) (J : SImpl σ K) : Upd σ (TotalIterMut V) (Option (K × Nat)) := do
  let it ← read
  match Range.nextBack it.it.iter with
  | (none, r) => do
    write ⟨it.mem, ⟨it.it.next, r⟩⟩
    .of (.ok none)
  | (some slot, r) => do
    write ⟨it.mem, ⟨it.it.next, r⟩⟩
    let i ← .of (addU c it.it.next (Range.len r))
    let o ← user (J.fromOrdinal i)
    let k ← .of (unwrap o)
    .of (.ok (some (k, slot)))

/-- The `loop`s of map/iter.rs (89-96, 106-113, 287-294, 302-309). -/
def skipLoop (step : Upd σ s (Option α)) (body : α → Upd σ s (Option β)) : Nat → Upd σ s (Option β)
  | 0 => .of (.error .diverge)
  | fuel + 1 => do
    match ← step with
    | none => .of (.ok none)
    | some a => do
      match ← body a with
      | some b => .of (.ok (some b))
      | none => skipLoop step body fuel

/-- `if let (k, Some(v)) = next { return Some((k, v)) }` (map/iter.rs:92-94, 109-111). -/
def mapBody (p : K × Nat) : Upd σ (MapIterMut V) (Option (K × Nat)) := do
  let it ← read
  match it.mem[p.2]? with
  | none => .of (.error .ub)
  | some (some _) => .of (.ok (some p))
  | some none => .of (.ok none)

/-- `if let Some(v) = mem::take(v) { return Some((k, v)) }` (map/iter.rs:290-292, 305-307). -/
def drainBody (p : K × Nat) : Upd σ (Drain V) (Option (K × V)) := do
  let ⟨mem, e⟩ ← read
  match mem[p.2]? with
  | none => .of (.error .ub)
  | some o => do
    write ⟨mem.set p.2 none, e⟩
    match o with
    | some v => .of (.ok (some (p.1, v)))
    | none => .of (.ok none)

/-- `IterMut::next` (map/iter.rs:89-96). -/
def mapMutNext (c : Cfg) (J : SImpl σ K) : Upd σ (MapIterMut V) (Option (K × Nat)) := do
  let it ← read
  skipLoop (mutNext c J) mapBody (TotalIterMut.len it + 1)

/-- `IterMut::next_back` (map/iter.rs:106-113). -/
def mapMutNextBack (c : Cfg) (J : SImpl σ K) : Upd σ (MapIterMut V) (Option (K × Nat)) := do
  let it ← read
  skipLoop (mutNextBack c J) mapBody (TotalIterMut.len it + 1)

/-- `Drain::next` (map/iter.rs:287-294). -/
def drainNext (c : Cfg) (J : SImpl σ K) : Upd σ (Drain V) (Option (K × V)) := do
  let it ← read
  skipLoop (mutNext c J) drainBody (TotalIterMut.len it + 1)

/-- `Drain::next_back` (map/iter.rs:302-309). -/
def drainNextBack (c : Cfg) (J : SImpl σ K) : Upd σ (Drain V) (Option (K × V)) := do
  let it ← read
  skipLoop (mutNextBack c J) drainBody (TotalIterMut.len it + 1)

/-- `for _ in self {}` (map/iter.rs:280). -/
def dropLoop (c : Cfg) (J : SImpl σ K) : Nat → Upd σ (Drain V) Unit
  | 0 => .of (.error .diverge)
  | fuel + 1 => do
    match ← drainNext c J with
    | none => .of (.ok ())
    | some _ => dropLoop c J fuel

/-- `Drop for Drain` (map/iter.rs:279-281). -/
def drainDrop (c : Cfg) (J : SImpl σ K) : Upd σ (Drain V) Unit := do
  let it ← read
  dropLoop c J (TotalIterMut.len it + 1)

/-- Calls of `next` and `next_back`. -/
def runDirs (next nextBack : Upd σ s (Option ι)) : List Dir → Upd σ s (List (Option ι))
  | [] => .of (.ok [])
  | d :: ds => do
    let o ← match d with
      | .front => next
      | .back => nextBack
    let os ← runDirs next nextBack ds
    .of (.ok (o :: os))

/-- Steps of a client. -/
def runSteps (step : ω → Upd σ s ο) : List ω → Upd σ s (List ο)
  | [] => .of (.ok [])
  | op :: ops => do
    let o ← step op
    let os ← runSteps step ops
    .of (.ok (o :: os))

/-- The client hands the iterator to `x`. -/
def onIter (x : Upd σ (MapIterMut V) α) : Upd σ (MutClient V) α := zoom (·.it) (fun s it => ⟨it, s.handed⟩) x

/-- The same on total maps. -/
def onIterT (x : Upd σ (TotalIterMut V) α) : Upd σ (MutClientT V) α := zoom (·.it) (fun s it => ⟨it, s.handed⟩) x

/-- A step of a client of `iter_mut()` on a sparse map, as `MutClient.step`. -/
def clientStep (c : Cfg) (J : SImpl σ K) : MutStep V → Upd σ (MutClient V) (Option (K × V))
  | .front => do
    let o ← onIter (mapMutNext c J)
    match o with
    | none => .of (.ok none)
    | some (k, slot) => do
      let s ← read
      let v ← .of (readSome s.it.mem slot)
      write ⟨s.it, s.handed ++ [slot]⟩
      .of (.ok (some (k, v)))
  | .back => do
    let o ← onIter (mapMutNextBack c J)
    match o with
    | none => .of (.ok none)
    | some (k, slot) => do
      let s ← read
      let v ← .of (readSome s.it.mem slot)
      write ⟨s.it, s.handed ++ [slot]⟩
      .of (.ok (some (k, v)))
  | .write j v => do
    let s ← read
    match s.handed[j]? with
    | none => .of (.ok none)
    | some slot => do
      let mem ← .of (writeSome s.it.mem slot v)
      write ⟨⟨mem, s.it.it⟩, s.handed⟩
      .of (.ok none)

/-- A step of a client of `iter_mut()` on a total map, as `MutClientT.step`. -/
def clientStepT (c : Cfg) (J : SImpl σ K) : MutStep V → Upd σ (MutClientT V) (Option (K × V))
  | .front => do
    let o ← onIterT (mutNext c J)
    match o with
    | none => .of (.ok none)
    | some (k, slot) => do
      let s ← read
      let v ← .of (readSlot s.it.mem slot)
      write ⟨s.it, s.handed ++ [slot]⟩
      .of (.ok (some (k, v)))
  | .back => do
    let o ← onIterT (mutNextBack c J)
    match o with
    | none => .of (.ok none)
    | some (k, slot) => do
      let s ← read
      let v ← .of (readSlot s.it.mem slot)
      write ⟨s.it, s.handed ++ [slot]⟩
      .of (.ok (some (k, v)))
  | .write j v => do
    let s ← read
    match s.handed[j]? with
    | none => .of (.ok none)
    | some slot => do
      let mem ← .of (writeSlot s.it.mem slot v)
      write ⟨⟨mem, s.it.it⟩, s.handed⟩
      .of (.ok none)

/-- `map.iter_mut()` of a sparse map, then the steps. -/
def iterMut (c : Cfg) (J : SImpl σ K) (steps : List (MutStep V)) : Upd σ (List (Option V)) (List (Option (K × V))) :=
  zoom (fun m => (⟨TotalIterMut.new m, []⟩ : MutClient V)) (fun _ s => s.it.mem) (runSteps (clientStep c J) steps)

/-- `map.iter_mut()` of a total map, then the steps. -/
def iterMutT (c : Cfg) (J : SImpl σ K) (steps : List (MutStep V)) : Upd σ (List V) (List (Option (K × V))) :=
  zoom (fun m => (⟨TotalIterMut.new m, []⟩ : MutClientT V)) (fun _ s => s.it.mem) (runSteps (clientStepT c J) steps)

/-- `map.drain()`, the calls, and the end of the `Drain`: a panic in one of the calls drops it while unwinding;
otherwise it is leaked, or dropped, which may panic as well. -/
def drain (c : Cfg) (J : SImpl σ K) (ds : List Dir) (leak : Bool) :
    Upd σ (List (Option V)) (Ended (List (Option (K × V)))) :=
  zoom Drain.new (fun _ d => d.mem) (do
    match ← catchWith (runDirs (drainNext c J) (drainNextBack c J) ds) (drainDrop c J) with
    | .returned os => do
      match ← catchUnwind (if leak then .of (.ok ()) else drainDrop c J) with
      | .returned _ => .of (.ok (.returned os))
      | .panicked => .of (.ok .panicked)
      | .aborted => .of (.ok .aborted)
    | .panicked => .of (.ok .panicked)
    | .aborted => .of (.ok .aborted))

/-- `map.clear()` (map.rs:142-144, array_map.rs:140-142). -/
def clear (c : Cfg) (J : SImpl σ K) : Upd σ (List (Option V)) Unit :=
  zoom Drain.new (fun _ d => d.mem) (drainDrop c J)

/-- The operations of sparse maps that take no key (map.rs:62-72, 104-144, array_map.rs:52-63, 102-142), except
`drain`.  On other operations this does nothing. -/
def keyless (c : Cfg) (J : SImpl σ K) : MapOp K V → Upd σ (List (Option V)) (MapOut K V)
  | .len => do
    let m ← read
    let n ← user (Eff.mapLen c J m)
    .of (.ok (.nat n))
  | .isEmpty => do
    let m ← read
    let b ← user (Eff.mapIsEmpty c J m)
    .of (.ok (.bool b))
  | .iter ds => do
    let m ← read
    let p ← user (Eff.run (Eff.mapNext c J) (Eff.mapNextBack c J) (TotalIter.new m 0) ds)
    .of (.ok (.items p.1))
  | .keys ds => do
    let m ← read
    let p ← user (Eff.run (Eff.mapItem (fun p => p.1) (Eff.mapNext c J)) (Eff.mapItem (fun p => p.1) (Eff.mapNextBack c J))
      (TotalIter.new m 0) ds)
    .of (.ok (.keys p.1))
  | .values ds => do
    let m ← read
    let p ← user (Eff.run (Eff.mapItem (fun p => p.2) (Eff.mapNext c J)) (Eff.mapItem (fun p => p.2) (Eff.mapNextBack c J))
      (TotalIter.new m 0) ds)
    .of (.ok (.vals p.1))
  | .iterMut steps => do
    let os ← iterMut c J steps
    .of (.ok (.items os))
  | .valuesMut steps => do
    let os ← iterMut c J steps
    .of (.ok (.vals (os.map (Option.map fun p => p.2))))
  | .clear => do
    clear c J
    .of (.ok .unit)
  | _ => .of (.ok .unit)

/-! ## `OrdinalMap` (map/map.rs) -/

/-- `OrdinalMap::init_full_map` (map.rs:74-82). -/
def initFullMap (c : Cfg) (J : SImpl σ K) (sz : Nat) : Upd σ (OMap V) Unit := do
  let m ← read
  let m ← .of (Eff.initFullMap c J sz m)
  write m

/-- `OrdinalMap::entry` (map.rs:92-96). -/
def omapEntry (c : Cfg) (J : SImpl σ K) (sz : Nat) (k : K) : Upd σ (OMap V) (Entry K) := do
  initFullMap c J sz
  let i ← user (J.ordinal k)
  let m ← read
  .of (do
    let slot ← OrdinalTotalMap.slotOf m i
    Entry.new m k slot)

/-- What the client of `MapOp.orInsert` does with the entry. -/
def orInsertClient (e : Entry K) (v w : V) : Upd σ (List (Option V)) (MapOut K V) := do
  let m ← read
  let (slot, m) ← .of (e.orInsert m v)
  write m
  let old ← .of (readSome m slot)
  let m ← .of (writeSome m slot w)
  write m
  .of (.ok (.opt (some old)))

/-- Code of clients that calls no user code. -/
def client (f : List (Option V) → R (MapOut K V × List (Option V))) : Upd σ (List (Option V)) (MapOut K V) := do
  let m ← read
  let (o, m) ← .of (f m)
  write m
  .of (.ok o)

/-- An operation on an `OrdinalMap`, except `drain`: `get` (map.rs:46-48), `get_mut` (map.rs:52-54), `insert`
(map.rs:86-89), `remove` (map.rs:100-102), `entry`. -/
def omapOp (c : Cfg) (J : SImpl σ K) (sz : Nat) : MapOp K V → Upd σ (OMap V) (MapOut K V)
  | .get k => do
    let m ← read
    let i ← user (J.ordinal k)
    .of (.ok (.opt (m[i]?).join))
  | .getMut k w => do
    let i ← user (J.ordinal k)
    client fun m => getMutClient ((m[i]?).join.map fun _ => i) m w
  | .insert k v => do
    initFullMap c J sz
    let i ← user (J.ordinal k)
    let m ← read
    let old ← .of (getIdx m i)
    let m ← .of (setIdx m i (some v))
    write m
    .of (.ok (.opt old))
  | .remove k => do
    let i ← user (J.ordinal k)
    let m ← read
    match m[i]? with
    | none => .of (.ok (.opt none))
    | some o => do
      write (m.set i none)
      .of (.ok (.opt o))
  | .orInsert k v w => do
    let e ← omapEntry c J sz k
    orInsertClient e v w
  | .entry k v w => do
    let e ← omapEntry c J sz k
    client fun m => entryClient e m v w
  | op => keyless c J op

/-- An operation on an `OrdinalMap` whose panic is caught. -/
def omapStep (c : Cfg) (J : SImpl σ K) (sz : Nat) : MapOp K V → Upd σ (OMap V) (Ended (MapOut K V))
  | .drain ds leak => do
    match ← drain c J ds leak with
    | .returned os => .of (.ok (.returned (.items os)))
    | .panicked => .of (.ok .panicked)
    | .aborted => .of (.ok .aborted)
  | op => catchUnwind (omapOp c J sz op)

/-! ## `OrdinalArrayMap` (map/array_map.rs) -/

/-- `&mut self.map[key.ordinal()]` (total/map.rs:64-66, 107-109, 127-129, total/array_map.rs:97-99, 185-187,
199-201): the slot. -/
def slotFor (J : SImpl σ K) (k : K) : Upd σ (List V) Nat := do
  let i ← user (J.ordinal k)
  let m ← read
  .of (OrdinalTotalMap.slotOf m i)

/-- `OrdinalArrayMap::entry` (array_map.rs:91-94). -/
def amapEntry (J : SImpl σ K) (k : K) : Upd σ (OrdinalArrayMap V) (Entry K) := do
  let slot ← slotFor J k
  let m ← read
  .of (Entry.new m k slot)

/-- An operation on an `OrdinalArrayMap`, except `drain`: `get` (array_map.rs:67-69), `get_mut`
(array_map.rs:73-75), `insert` (array_map.rs:85-87), `remove` (array_map.rs:98-100), `entry`. -/
def amapOp (c : Cfg) (J : SImpl σ K) : MapOp K V → Upd σ (OrdinalArrayMap V) (MapOut K V)
  | .get k => do
    let m ← read
    let i ← user (J.ordinal k)
    let o ← .of (getIdx m i)
    .of (.ok (.opt o))
  | .getMut k w => do
    let slot ← slotFor J k
    client fun m => do getMutClient ((← readSlot m slot).map fun _ => slot) m w
  | .insert k v => do
    let slot ← slotFor J k
    client fun m => do .ok (.opt (← readSlot m slot), ← writeSlot m slot (some v))
  | .remove k => do
    let slot ← slotFor J k
    client fun m => do .ok (.opt (← readSlot m slot), ← writeSlot m slot none)
  | .orInsert k v w => do
    let e ← amapEntry J k
    orInsertClient e v w
  | .entry k v w => do
    let e ← amapEntry J k
    client fun m => entryClient e m v w
  | op => keyless c J op

/-- An operation on an `OrdinalArrayMap` whose panic is caught. -/
def amapStep (c : Cfg) (J : SImpl σ K) : MapOp K V → Upd σ (OrdinalArrayMap V) (Ended (MapOut K V))
  | .drain ds leak => do
    match ← drain c J ds leak with
    | .returned os => .of (.ok (.returned (.items os)))
    | .panicked => .of (.ok .panicked)
    | .aborted => .of (.ok .aborted)
  | op => catchUnwind (amapOp c J op)

/-! ## The total maps (map/total/map.rs, map/total/array_map.rs) -/

/-- An operation on a total map.  `len` as in `Eff.totalStep`. -/
def totalOp (c : Cfg) (J : SImpl σ K) (len : R Nat) : TotalOp K V → Upd σ (List V) (MapOut K V)
  | .get k => do
    let m ← read
    let i ← user (J.ordinal k)
    let v ← .of (getIdx m i)
    .of (.ok (.opt (some v)))
  | .index k => do
    let m ← read
    let i ← user (J.ordinal k)
    let v ← .of (getIdx m i)
    .of (.ok (.opt (some v)))
  | .getMut k w => do
    let slot ← slotFor J k
    let m ← read
    let old ← .of (readSlot m slot)
    let m ← .of (writeSlot m slot w)
    write m
    .of (.ok (.opt (some old)))
  | .indexMut k w => do
    let slot ← slotFor J k
    let m ← read
    let old ← .of (readSlot m slot)
    let m ← .of (writeSlot m slot w)
    write m
    .of (.ok (.opt (some old)))
  | .insert k v => do
    let i ← user (J.ordinal k)
    let m ← read
    let old ← .of (getIdx m i)
    let m ← .of (setIdx m i v)
    write m
    .of (.ok (.opt (some old)))
  | .len => .of (do .ok (.nat (← len)))
  | .isEmpty => .of (do .ok (.bool ((← len) == 0)))
  | .iter ds => do
    let m ← read
    let p ← user (Eff.run (Eff.enumNext c J (listIter V)) (Eff.enumNextBack c J (listIter V)) (TotalIter.new m 0) ds)
    .of (.ok (.items p.1))
  | .keys ds => do
    let r ← .of (Eff.valuesNew J)
    let p ← user (Eff.run (Eff.valuesNext J) (Eff.valuesNextBack J) r ds)
    .of (.ok (.keys p.1))
  | .values ds => do
    let m ← read
    let p ← .of ((listIter V).it.run m ds)
    .of (.ok (.vals p.1))
  | .iterMut steps => do
    let os ← iterMutT c J steps
    .of (.ok (.items os))
  | .valuesMut steps => do
    let m ← read
    let p ← .of (OrdinalMap.runOps SlotClient.step ⟨m, ⟨0, m.length⟩, []⟩ steps)
    write p.2.mem
    .of (.ok (.vals p.1))

/-- An operation on a total map whose panic is caught. -/
def totalStep (c : Cfg) (J : SImpl σ K) (len : R Nat) (op : TotalOp K V) : Upd σ (List V) (Ended (MapOut K V)) :=
  catchUnwind (totalOp c J len op)

/-! ## Sets (set/) -/

/-- `OrdinalSetMut::insert` (set_mut.rs:28-33) on the words. -/
def setInsert (c : Cfg) (J : SImpl σ K) (x : K) : Upd σ (List (BitVec 64)) Bool := do
  let ws ← read
  let r ← .of (Eff.refNew c J ws)
  let prev ← user (Eff.refContains c J r x)
  let j ← user (J.ordinal x)
  let mask ← .of (shl64 c 1 (j % 64))
  let i ← user (J.ordinal x)
  let w ← .of (getIdx ws (i / 64))
  let ws ← .of (setIdx ws (i / 64) (w ||| mask))
  write ws
  .of (.ok !prev)

/-- An operation on an `OrdinalSet`: `insert` (set.rs:64-80), `contains` (set.rs:58-60). -/
def osetOp (c : Cfg) (J : SImpl σ K) : SetOp K → Upd σ OrdinalSet Bool
  | .insert x => do
    let sz ← .of J.size
    let t ← read
    match decide (sz ≤ 64), t with
    | true, .small w => do
      let _ ← .of (Eff.mutNew c J [w])
      -- `slice::from_mut(set)`: the slice is the word itself
      zoom (fun _ => [w]) (fun t ws => match ws with | [w] => .small w | _ => t) (setInsert c J x)
    | false, .large ws => do
      let ws ← .of (Eff.osetAlloc c J ws)
      write (.large ws)
      let _ ← .of (Eff.mutNew c J ws)
      zoom (fun _ => ws) (fun _ ws => .large ws) (setInsert c J x)
    | _, _ => .of (.error .panic)
  | .contains x => do
    let t ← read
    user (Eff.osetContains c J t x)

/-- An operation on an `OrdinalArraySet`: `insert` (array.rs:71-73), `contains` (array.rs:65-67). -/
def asetOp (c : Cfg) (J : SImpl σ K) (S : Nat) : SetOp K → Upd σ OrdinalArraySet Bool
  | .insert x => do
    let ws ← read
    let _ ← .of (do
      constAssert (S == divCeil (← J.size) 64)
      Eff.mutNew c J ws)
    setInsert c J x
  | .contains x => do
    let ws ← read
    user (Eff.asetContains c J S ws x)

/-- An operation on an `OrdinalSet64`: `insert` (set64.rs:110-115), `contains` (set64.rs:129-132). -/
def set64Op (c : Cfg) (J : SImpl σ K) : SetOp K → Upd σ OrdinalSet64 Bool
  | .insert x => do
    let w ← read
    .of (do constAssert ((← J.size) ≤ 64))
    let b ← user (Eff.set64Contains c J w x)
    let i ← user (J.ordinal x)
    let mask ← .of (shl64 c 1 i)
    write (w ||| mask)
    .of (.ok !b)
  | .contains x => do
    let w ← read
    user (Eff.set64Contains c J w x)

end Caught
end OrdinalMap
