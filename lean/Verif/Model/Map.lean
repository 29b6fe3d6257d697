import Verif.Model.TotalMap
/-!
# Model of `map/map.rs`, `map/entry.rs` and `map/array_map.rs`
-/

namespace OrdinalMap

variable {K V ρ : Type}

/-! ## `Entry` (map/entry.rs)

An entry holds a reference to its slot; the memory is passed along. -/

/-- `enum Entry` (entry.rs:22-27) with `OccupiedEntry` (entry.rs:3-7) and `VacantEntry`
(entry.rs:11-15): the key and the slot. -/
inductive Entry (K : Type) where
  | occupied (key : K) (slot : Nat)
  | vacant (key : K) (slot : Nat)

namespace Entry

/-- `Entry::new` (entry.rs:64-70). -/
def new (mem : List (Option V)) (key : K) (slot : Nat) : R (Entry K) :=
  match mem[slot]? with
  | none => .error .ub
  | some o => .ok (if o.isSome then .occupied key slot else .vacant key slot)

/-- `Entry::key` (entry.rs:74-79), `OccupiedEntry::key` (entry.rs:32-34), `VacantEntry::key`
(entry.rs:52-54). -/
def key : Entry K → K
  | .occupied key _ => key
  | .vacant key _ => key

/-- `OccupiedEntry::get` (entry.rs:38-40). -/
def occupiedGet (mem : List (Option V)) (slot : Nat) : R V :=
  match mem[slot]? with
  | none => .error .ub
  | some o => unwrap o

/-- `OccupiedEntry::get_mut` (entry.rs:44-46): a reference into the slot. -/
def occupiedGetMut (mem : List (Option V)) (slot : Nat) : R Nat :=
  match mem[slot]? with
  | none => .error .ub
  | some o => do
    let _ ← unwrap o
    .ok slot

/-- `VacantEntry::insert` (entry.rs:58-60). -/
def vacantInsert (mem : List (Option V)) (slot : Nat) (value : V) : R (List (Option V)) :=
  writeSlot mem slot (some value)

/-- `Entry::or_insert` (entry.rs:83-88): a reference into the slot. -/
def orInsert (mem : List (Option V)) (e : Entry K) (value : V) : R (Nat × List (Option V)) :=
  match e with
  | .occupied _ slot => do .ok (← occupiedGetMut mem slot, mem)
  | .vacant _ slot => do .ok (slot, ← writeSlot mem slot (some value))

end Entry

/-! ## `OrdinalMap` (map/map.rs) -/

/-- `struct OrdinalMap<K, V>` (map.rs:27-31): the boxed slice, empty until the first insertion. -/
abbrev OMap (V : Type) := List (Option V)

namespace OMap

/-- `OrdinalMap::new` (map.rs:37-42), also `Default` (map.rs:149-151). -/
def new (V : Type) : OMap V := []

/-- `OrdinalMap::get` (map.rs:46-48). -/
def get (I : OrdinalImpl K) (s : OMap V) (k : K) : R (Option V) := do
  match s[← I.ordinal k]? with
  | none => .ok none
  | some o => .ok o

/-- `OrdinalMap::get_mut` (map.rs:52-54): a reference into the slot. -/
def getMut (I : OrdinalImpl K) (s : OMap V) (k : K) : R (Option Nat) := do
  let i ← I.ordinal k
  match s[i]? with
  | none => .ok none
  | some o => .ok (o.map fun _ => i)

/-- `OrdinalMap::contains_key` (map.rs:58-60). -/
def containsKey (I : OrdinalImpl K) (s : OMap V) (k : K) : R Bool := do
  .ok (s[← I.ordinal k]?).isSome

/-- `OrdinalMap::iter` (map.rs:106-108), also `IntoIterator for &OrdinalMap` (map.rs:194-196). -/
def iter (s : OMap V) : MapIter V := TotalIter.new s 0

/-- `OrdinalMap::len` (map.rs:64-66). -/
def len (c : Cfg) (I : OrdinalImpl K) (s : OMap V) : R Nat := MapIter.count c I (iter s)

/-- `OrdinalMap::is_empty` (map.rs:70-72). -/
def isEmpty (c : Cfg) (I : OrdinalImpl K) (s : OMap V) : R Bool := do
  let (o, _) ← MapIter.next c I (iter s)
  .ok o.isNone

/-- `OrdinalMap::init_full_map` (map.rs:74-82); `sz` is `size_of::<Option<V>>()`. -/
def initFullMap (c : Cfg) (I : OrdinalImpl K) (sz : Nat) (s : OMap V) : R (OMap V) := do
  if List.isEmpty s then do
    withCapacity c sz (← I.size)
    .ok (List.replicate (← I.size) none)
  else .ok s

/-- `OrdinalMap::insert` (map.rs:86-89). -/
def insert (c : Cfg) (I : OrdinalImpl K) (sz : Nat) (s : OMap V) (k : K) (v : V) :
    R (Option V × OMap V) := do
  let s ← initFullMap c I sz s
  let old ← getIdx s (← I.ordinal k)
  .ok (old, ← setIdx s (← I.ordinal k) (some v))

/-- `OrdinalMap::entry` (map.rs:92-96). -/
def entry (c : Cfg) (I : OrdinalImpl K) (sz : Nat) (s : OMap V) (k : K) : R (Entry K × OMap V) := do
  let s ← initFullMap c I sz s
  let slot ← OrdinalTotalMap.slotOf s (← I.ordinal k)
  .ok (← Entry.new s k slot, s)

/-- `OrdinalMap::remove` (map.rs:100-102). -/
def remove (I : OrdinalImpl K) (s : OMap V) (k : K) : R (Option V × OMap V) := do
  let i ← I.ordinal k
  match s[i]? with
  | none => .ok (none, s)
  | some o => .ok (o, s.set i none)

/-- `OrdinalMap::iter_mut` (map.rs:112-114), `values_mut` (map.rs:130-132). -/
def iterMut (s : OMap V) : MapIterMut V := TotalIterMut.new s

/-- `OrdinalMap::keys` (map.rs:118-120). -/
def keys (s : OMap V) : Keys V := iter s

/-- `OrdinalMap::values` (map.rs:124-126). -/
def values (s : OMap V) : Values V := iter s

/-- `OrdinalMap::drain` (map.rs:136-138). -/
def drain (s : OMap V) : Drain V := Drain.new s

/-- `OrdinalMap::clear` (map.rs:142-144): the `Drain` is dropped at once. -/
def clear (c : Cfg) (I : OrdinalImpl K) (s : OMap V) : R (OMap V) := Drain.drop c I (drain s)

/-- The loop of `from_iter` (map.rs:157-159). -/
def extendLoop (c : Cfg) (I : OrdinalImpl K) (sz : Nat) : OMap V → List (K × V) → R (OMap V)
  | s, [] => .ok s
  | s, (k, v) :: ps => do
    let (_, s) ← insert c I sz s k v
    extendLoop c I sz s ps

/-- `FromIterator` (map.rs:155-161). -/
def fromIter (c : Cfg) (I : OrdinalImpl K) (sz : Nat) (ps : List (K × V)) : R (OMap V) :=
  extendLoop c I sz (new V) ps

/-- `Clone` (map.rs:164-171); `cl` is `V::clone`. -/
def clone (cl : V → V) (s : OMap V) : OMap V := List.map (Option.map cl) s

/-- `IntoIterator` (map.rs:184-186). -/
def intoIter (s : OMap V) : MapIntoIter V := TotalIntoIter.new s

end OMap

/-! ## `OrdinalArrayMap` (map/array_map.rs) -/

/-- `struct OrdinalArrayMap<K, V, S>` (array_map.rs:39-41). -/
abbrev OrdinalArrayMap (V : Type) := OrdinalTotalArrayMap (Option V)

namespace OrdinalArrayMap

/-- `OrdinalArrayMap::new` (array_map.rs:46-50), also `Default` (array_map.rs:161-163). -/
def new (V : Type) (I : OrdinalImpl K) (S : Nat) : R (OrdinalArrayMap V) := do
  let (m, _) ← OrdinalTotalArrayMap.new I S (fun _ () => .ok (none, ())) ()
  .ok m

/-- `OrdinalArrayMap::iter` (array_map.rs:104-106), also `IntoIterator for &OrdinalArrayMap`
(array_map.rs:205-207). -/
def iter (s : OrdinalArrayMap V) : MapIter V := OrdinalTotalArrayMap.iter s

/-- `OrdinalArrayMap::len` (array_map.rs:56-58). -/
def len (c : Cfg) (I : OrdinalImpl K) (s : OrdinalArrayMap V) : R Nat := MapIter.count c I (iter s)

/-- `OrdinalArrayMap::is_empty` (array_map.rs:61-63). -/
def isEmpty (c : Cfg) (I : OrdinalImpl K) (s : OrdinalArrayMap V) : R Bool := do
  let (o, _) ← MapIter.next c I (iter s)
  .ok o.isNone

/-- `OrdinalArrayMap::get` (array_map.rs:67-69). -/
def get (I : OrdinalImpl K) (s : OrdinalArrayMap V) (k : K) : R (Option V) := OrdinalTotalArrayMap.get I s k

/-- `OrdinalArrayMap::get_mut` (array_map.rs:73-75): a reference into the slot. -/
def getMut (I : OrdinalImpl K) (s : OrdinalArrayMap V) (k : K) : R (Option Nat) := do
  let slot ← OrdinalTotalArrayMap.getMut I s k
  .ok ((← readSlot s slot).map fun _ => slot)

/-- `OrdinalArrayMap::contains_key` (array_map.rs:79-81). -/
def containsKey (I : OrdinalImpl K) (s : OrdinalArrayMap V) (k : K) : R Bool := do
  .ok (← get I s k).isSome

/-- `OrdinalArrayMap::insert` (array_map.rs:85-87). -/
def insert (I : OrdinalImpl K) (s : OrdinalArrayMap V) (k : K) (v : V) :
    R (Option V × OrdinalArrayMap V) := do
  let slot ← OrdinalTotalArrayMap.getMut I s k
  .ok (← readSlot s slot, ← writeSlot s slot (some v))

/-- `OrdinalArrayMap::entry` (array_map.rs:91-94). -/
def entry (I : OrdinalImpl K) (s : OrdinalArrayMap V) (k : K) : R (Entry K × OrdinalArrayMap V) := do
  let slot ← OrdinalTotalArrayMap.indexMut I s k
  .ok (← Entry.new s k slot, s)

/-- `OrdinalArrayMap::remove` (array_map.rs:98-100). -/
def remove (I : OrdinalImpl K) (s : OrdinalArrayMap V) (k : K) : R (Option V × OrdinalArrayMap V) := do
  let slot ← OrdinalTotalArrayMap.getMut I s k
  .ok (← readSlot s slot, ← writeSlot s slot none)

/-- `OrdinalArrayMap::iter_mut` (array_map.rs:110-112), `values_mut` (array_map.rs:128-130). -/
def iterMut (s : OrdinalArrayMap V) : MapIterMut V := OrdinalTotalArrayMap.iterMut s

/-- `OrdinalArrayMap::keys` (array_map.rs:116-118). -/
def keys (s : OrdinalArrayMap V) : Keys V := iter s

/-- `OrdinalArrayMap::values` (array_map.rs:122-124). -/
def values (s : OrdinalArrayMap V) : Values V := iter s

/-- `OrdinalArrayMap::drain` (array_map.rs:134-136). -/
def drain (s : OrdinalArrayMap V) : Drain V := Drain.new s

/-- `OrdinalArrayMap::clear` (array_map.rs:140-142). -/
def clear (c : Cfg) (I : OrdinalImpl K) (s : OrdinalArrayMap V) : R (OrdinalArrayMap V) :=
  Drain.drop c I (drain s)

/-- The loop of `retain` (array_map.rs:149-155).  `f` may change the value, has its own state, and
may panic. -/
def retainLoop (c : Cfg) (I : OrdinalImpl K) (f : K → V → ρ → R (Bool × V × ρ)) :
    Nat → MapIterMut V → ρ → R (OrdinalArrayMap V × ρ)
  | 0, _, _ => .error .diverge
  | fuel + 1, s, r => do
    match ← TotalIterMut.next c I s with
    | (none, s) => .ok (s.mem, r)
    | (some (key, slot), s) => do
      match ← readSlot s.mem slot with
      | none => retainLoop c I f fuel s r
      | some value => do
        let (keep, value, r) ← f key value r
        let mem ← writeSome s.mem slot value
        let mem ← if keep then .ok mem else writeSlot mem slot none
        retainLoop c I f fuel ⟨mem, s.it⟩ r

/-- `OrdinalArrayMap::retain` (array_map.rs:145-156). -/
def retain (c : Cfg) (I : OrdinalImpl K) (s : OrdinalArrayMap V) (f : K → V → ρ → R (Bool × V × ρ))
    (r : ρ) : R (OrdinalArrayMap V × ρ) :=
  retainLoop c I f (TotalIterMut.len (iterMut s) + 1) (iterMut s) r

/-- The loop of `from_iter` (array_map.rs:169-171). -/
def extendLoop (I : OrdinalImpl K) : OrdinalArrayMap V → List (K × V) → R (OrdinalArrayMap V)
  | s, [] => .ok s
  | s, (k, v) :: ps => do
    let (_, s) ← insert I s k v
    extendLoop I s ps

/-- `FromIterator` (array_map.rs:167-173). -/
def fromIter (I : OrdinalImpl K) (S : Nat) (ps : List (K × V)) : R (OrdinalArrayMap V) := do
  extendLoop I (← new V I S) ps

/-- `Clone` (array_map.rs:176-182); `cl` is `V::clone`. -/
def clone (cl : V → V) (s : OrdinalArrayMap V) : OrdinalArrayMap V :=
  OrdinalTotalArrayMap.clone (Option.map cl) s

/-- `IntoIterator` (array_map.rs:195-197). -/
def intoIter (s : OrdinalArrayMap V) : MapIntoIterArray V := OrdinalTotalArrayMap.intoIter s

end OrdinalArrayMap

/-! ## Histories -/

/-- What a client does with an entry in `MapOp.entry`. -/
def entryClient (e : Entry K) (mem : List (Option V)) (v w : V) : R (MapOut K V × List (Option V)) :=
  match e with
  | .vacant _ slot => do .ok (.entry e.key none, ← Entry.vacantInsert mem slot v)
  | .occupied _ slot => do
    let old ← Entry.occupiedGet mem slot
    let slot ← Entry.occupiedGetMut mem slot
    .ok (.entry e.key (some old), ← writeSome mem slot w)

/-- What a client does with `get_mut` in `MapOp.getMut`. -/
def getMutClient (r : Option Nat) (mem : List (Option V)) (w : V) : R (MapOut K V × List (Option V)) :=
  match r with
  | none => .ok (.opt none, mem)
  | some slot => do .ok (.opt (some (← readSome mem slot)), ← writeSome mem slot w)

/-- One operation on an `OrdinalMap`. -/
def OMap.step (c : Cfg) (I : OrdinalImpl K) (sz : Nat) (s : OMap V) :
    MapOp K V → R (MapOut K V × OMap V)
  | .get k => do .ok (.opt (← get I s k), s)
  | .getMut k w => do getMutClient (← getMut I s k) s w
  | .insert k v => do
    let (old, s) ← insert c I sz s k v
    .ok (.opt old, s)
  | .remove k => do
    let (old, s) ← remove I s k
    .ok (.opt old, s)
  | .orInsert k v w => do
    let (e, s) ← entry c I sz s k
    let (slot, s) ← e.orInsert s v
    .ok (.opt (some (← readSome s slot)), ← writeSome s slot w)
  | .entry k v w => do
    let (e, s) ← entry c I sz s k
    entryClient e s v w
  | .len => do .ok (.nat (← len c I s), s)
  | .isEmpty => do .ok (.bool (← isEmpty c I s), s)
  | .iter ds => do
    let (os, _) ← (MapIter.it c I).run (iter s) ds
    .ok (.items os, s)
  | .keys ds => do
    let (os, _) ← (Keys.it c I).run (keys s) ds
    .ok (.keys os, s)
  | .values ds => do
    let (os, _) ← (Values.it c I).run (values s) ds
    .ok (.vals os, s)
  | .iterMut steps => do
    let (os, cl) ← runOps (MutClient.step c I) ⟨iterMut s, []⟩ steps
    .ok (.items os, cl.it.mem)
  | .valuesMut steps => do
    let (os, cl) ← runOps (MutClient.stepV c I) ⟨iterMut s, []⟩ steps
    .ok (.vals os, cl.it.mem)
  | .drain ds leak => do
    let (os, d) ← (Drain.it c I).run (drain s) ds
    .ok (.items os, ← if leak then .ok d.mem else Drain.drop c I d)
  | .clear => do .ok (.unit, ← clear c I s)

/-- One operation on an `OrdinalArrayMap`. -/
def OrdinalArrayMap.step (c : Cfg) (I : OrdinalImpl K) (s : OrdinalArrayMap V) :
    MapOp K V → R (MapOut K V × OrdinalArrayMap V)
  | .get k => do .ok (.opt (← get I s k), s)
  | .getMut k w => do getMutClient (← getMut I s k) s w
  | .insert k v => do
    let (old, s) ← insert I s k v
    .ok (.opt old, s)
  | .remove k => do
    let (old, s) ← remove I s k
    .ok (.opt old, s)
  | .orInsert k v w => do
    let (e, s) ← entry I s k
    let (slot, s) ← e.orInsert s v
    .ok (.opt (some (← readSome s slot)), ← writeSome s slot w)
  | .entry k v w => do
    let (e, s) ← entry I s k
    entryClient e s v w
  | .len => do .ok (.nat (← len c I s), s)
  | .isEmpty => do .ok (.bool (← isEmpty c I s), s)
  | .iter ds => do
    let (os, _) ← (MapIter.it c I).run (iter s) ds
    .ok (.items os, s)
  | .keys ds => do
    let (os, _) ← (Keys.it c I).run (keys s) ds
    .ok (.keys os, s)
  | .values ds => do
    let (os, _) ← (Values.it c I).run (values s) ds
    .ok (.vals os, s)
  | .iterMut steps => do
    let (os, cl) ← runOps (MutClient.step c I) ⟨iterMut s, []⟩ steps
    .ok (.items os, cl.it.mem)
  | .valuesMut steps => do
    let (os, cl) ← runOps (MutClient.stepV c I) ⟨iterMut s, []⟩ steps
    .ok (.vals os, cl.it.mem)
  | .drain ds leak => do
    let (os, d) ← (Drain.it c I).run (drain s) ds
    .ok (.items os, ← if leak then .ok d.mem else Drain.drop c I d)
  | .clear => do .ok (.unit, ← clear c I s)

end OrdinalMap
