import Verif.Model.MapIter
import Verif.Model.ArrayBuilder
/-!
# Model of `map/total/map.rs` and `map/total/array_map.rs`

Closures are functions on an explicit state `ρ` which may also panic (`R`).
-/

namespace OrdinalMap

variable {K V W E ρ : Type}

/-- `Vec::with_capacity(n)` for elements of `sz` bytes: panics with "capacity overflow" when the
allocation would exceed `isize::MAX` bytes.  (That the allocator has the memory is assumed.) -/
def withCapacity (c : Cfg) (sz n : Nat) : R Unit :=
  if n * sz ≤ 2 ^ (c.bits - 1) - 1 then .ok () else .error .panic

/-! ## `OrdinalTotalMap` -/

/-- `struct OrdinalTotalMap<T, V>` (total/map.rs:20-23). -/
abbrev OrdinalTotalMap (V : Type) := List V

namespace OrdinalTotalMap

/-- The loop of `try_new` (total/map.rs:29-31); `?` returns the error. -/
def tryNewLoop (I : OrdinalImpl K) (init : K → ρ → R (Except E V × ρ)) :
    Nat → OrdinalValues → List V → ρ → R (Except E (List V) × ρ)
  | 0, _, _, _ => .error .diverge
  | fuel + 1, it, map, r => do
    match ← OrdinalValues.next I it with
    | (none, _) => .ok (.ok map, r)
    | (some v, it) => do
      match ← init v r with
      | (.error e, r) => .ok (.error e, r)
      | (.ok x, r) => tryNewLoop I init fuel it (map ++ [x]) r

/-- `OrdinalTotalMap::try_new` (total/map.rs:27-36); `sz` is `size_of::<V>()`. -/
def tryNew (c : Cfg) (I : OrdinalImpl K) (sz : Nat) (init : K → ρ → R (Except E V × ρ)) (r : ρ) :
    R (Except E (OrdinalTotalMap V) × ρ) := do
  withCapacity c sz (← I.size)
  let it ← OrdinalValues.new I
  tryNewLoop I init (OrdinalValues.len it + 1) it [] r

/-- `OrdinalTotalMap::new` (total/map.rs:39-44). -/
def new (c : Cfg) (I : OrdinalImpl K) (sz : Nat) (init : K → ρ → R (V × ρ)) (r : ρ) :
    R (OrdinalTotalMap V × ρ) := do
  match ← tryNew (E := Empty) c I sz (fun k r => do
      let (v, r) ← init k r
      .ok (.ok v, r)) r with
  | (.ok map, r) => .ok (map, r)
  | (.error e, _) => nomatch e

/-- `Default` (total/map.rs:113-115); `dflt` is `V::default()`, possibly stateful. -/
def default (c : Cfg) (I : OrdinalImpl K) (sz : Nat) (dflt : ρ → R (V × ρ)) (r : ρ) :
    R (OrdinalTotalMap V × ρ) :=
  new c I sz (fun _ => dflt) r

/-- `OrdinalTotalMap::len` (total/map.rs:48-50). -/
def len (I : OrdinalImpl K) (_ : OrdinalTotalMap V) : R Nat := I.size

/-- `OrdinalTotalMap::is_empty` (total/map.rs:54-56). -/
def isEmpty (I : OrdinalImpl K) (s : OrdinalTotalMap V) : R Bool := do .ok ((← len I s) == 0)

/-- `OrdinalTotalMap::get` (total/map.rs:59-61); a reference is the slot. -/
def get (I : OrdinalImpl K) (s : OrdinalTotalMap V) (k : K) : R V := do getIdx s (← I.ordinal k)

/-- `&mut self.map[i]`: the slot, bounds-checked. -/
def slotOf (s : List V) (i : Nat) : R Nat := if i < s.length then .ok i else .error .panic

/-- `OrdinalTotalMap::get_mut` (total/map.rs:64-66). -/
def getMut (I : OrdinalImpl K) (s : OrdinalTotalMap V) (k : K) : R Nat := do slotOf s (← I.ordinal k)

/-- `Index` (total/map.rs:121-123). -/
def index (I : OrdinalImpl K) (s : OrdinalTotalMap V) (k : K) : R V := get I s k

/-- `IndexMut` (total/map.rs:127-129). -/
def indexMut (I : OrdinalImpl K) (s : OrdinalTotalMap V) (k : K) : R Nat := getMut I s k

/-- `OrdinalTotalMap::keys` (total/map.rs:69-71). -/
def keys (I : OrdinalImpl K) (_ : OrdinalTotalMap V) : R OrdinalValues := OrdinalValues.new I

/-- `OrdinalTotalMap::into_keys` (total/map.rs:74-76). -/
def intoKeys (I : OrdinalImpl K) (_ : OrdinalTotalMap V) : R OrdinalValues := OrdinalValues.new I

/-- `OrdinalTotalMap::values` (total/map.rs:79-81): a `slice::Iter`. -/
def values (s : OrdinalTotalMap V) : List V := s

/-- `OrdinalTotalMap::into_values` (total/map.rs:89-91). -/
def intoValues (s : OrdinalTotalMap V) : List V := s

/-- `OrdinalTotalMap::iter` (total/map.rs:95-97), also `IntoIterator for &OrdinalTotalMap`
(total/map.rs:160-162). -/
def iter (s : OrdinalTotalMap V) : TotalIter V := TotalIter.new s 0

/-- `OrdinalTotalMap::iter_mut` (total/map.rs:101-103). -/
def iterMut (s : OrdinalTotalMap V) : TotalIterMut V := TotalIterMut.new s

/-- `OrdinalTotalMap::insert` (total/map.rs:107-109). -/
def insert (I : OrdinalImpl K) (s : OrdinalTotalMap V) (k : K) (v : V) : R (V × OrdinalTotalMap V) := do
  let old ← getIdx s (← I.ordinal k)
  .ok (old, ← setIdx s (← I.ordinal k) v)

/-- `IntoIterator` (total/map.rs:151-153). -/
def intoIter (s : OrdinalTotalMap V) : TotalIntoIter V := TotalIntoIter.new s

/-- `Clone` (total/map.rs:132-139); `cl` is `V::clone`. -/
def clone (cl : V → V) (s : OrdinalTotalMap V) : OrdinalTotalMap V := s.map cl

end OrdinalTotalMap

/-! ## `OrdinalTotalArrayMap` -/

/-- `struct OrdinalTotalArrayMap<K, V, S>` (total/array_map.rs:40-43): `[V; S]`. -/
abbrev OrdinalTotalArrayMap (V : Type) := List V

namespace OrdinalTotalArrayMap

/-- `ASSERT` (total/array_map.rs:46-48). -/
def assertS (I : OrdinalImpl K) (S : Nat) : R Unit := do constAssert ((← I.size) == S)

/-- The loop and end of `try_new` (total/array_map.rs:54-60).  On the early return the builder is
dropped. -/
def tryNewLoop (I : OrdinalImpl K) (init : K → ρ → R (Except E V × ρ)) :
    Nat → OrdinalValues → ArrayBuilder V → ρ → R (Except E (List V) × ρ)
  | 0, _, _, _ => .error .diverge
  | fuel + 1, it, a, r => do
    match ← OrdinalValues.next I it with
    | (none, _) => .ok (.ok (← a.finish), r)
    | (some v, it) => do
      match ← init v r with
      | (.error e, r) => do
        let _ ← a.drop
        .ok (.error e, r)
      | (.ok x, r) => do tryNewLoop I init fuel it (← a.push x) r

/-- `OrdinalTotalArrayMap::try_new` (total/array_map.rs:51-61). -/
def tryNew (I : OrdinalImpl K) (S : Nat) (init : K → ρ → R (Except E V × ρ)) (r : ρ) :
    R (Except E (OrdinalTotalArrayMap V) × ρ) := do
  assertS I S
  let it ← OrdinalValues.new I
  tryNewLoop I init (OrdinalValues.len it + 1) it (ArrayBuilder.new V S) r

/-- `OrdinalTotalArrayMap::new` (total/array_map.rs:64-70). -/
def new (I : OrdinalImpl K) (S : Nat) (init : K → ρ → R (V × ρ)) (r : ρ) :
    R (OrdinalTotalArrayMap V × ρ) := do
  assertS I S
  match ← tryNew (E := Empty) I S (fun k r => do
      let (v, r) ← init k r
      .ok (.ok v, r)) r with
  | (.ok map, r) => .ok (map, r)
  | (.error e, _) => nomatch e

/-- `Default` (total/array_map.rs:214-216). -/
def default (I : OrdinalImpl K) (S : Nat) (dflt : ρ → R (V × ρ)) (r : ρ) :
    R (OrdinalTotalArrayMap V × ρ) :=
  new I S (fun _ => dflt) r

/-- `OrdinalTotalArrayMap::from_array` (total/array_map.rs:73-78); `array : [V; S]` is any list of
length `S`.  There is no `ASSERT`. -/
def fromArray (array : List V) : R (OrdinalTotalArrayMap V) := .ok array

/-- `OrdinalTotalArrayMap::len` (total/array_map.rs:82-84). -/
def len (S : Nat) (_ : OrdinalTotalArrayMap V) : Nat := S

/-- `OrdinalTotalArrayMap::is_empty` (total/array_map.rs:87-89). -/
def isEmpty (S : Nat) (s : OrdinalTotalArrayMap V) : Bool := len S s == 0

/-- `OrdinalTotalArrayMap::get` (total/array_map.rs:92-94). -/
def get (I : OrdinalImpl K) (s : OrdinalTotalArrayMap V) (k : K) : R V := do getIdx s (← I.ordinal k)

/-- `OrdinalTotalArrayMap::get_mut` (total/array_map.rs:97-99). -/
def getMut (I : OrdinalImpl K) (s : OrdinalTotalArrayMap V) (k : K) : R Nat := do
  OrdinalTotalMap.slotOf s (← I.ordinal k)

/-- `Index` (total/array_map.rs:193-195). -/
def index (I : OrdinalImpl K) (s : OrdinalTotalArrayMap V) (k : K) : R V := do getIdx s (← I.ordinal k)

/-- `IndexMut` (total/array_map.rs:199-201). -/
def indexMut (I : OrdinalImpl K) (s : OrdinalTotalArrayMap V) (k : K) : R Nat := do
  OrdinalTotalMap.slotOf s (← I.ordinal k)

/-- `OrdinalTotalArrayMap::as_ref` (total/array_map.rs:102-104); the references are represented by
the values they point to. -/
def asRef (I : OrdinalImpl K) (S : Nat) (s : OrdinalTotalArrayMap V) : R (OrdinalTotalArrayMap V) := do
  let (m, _) ← new I S (fun k () => do .ok (← get I s k, ())) ()
  .ok m

/-- `OrdinalTotalArrayMap::as_mut` (total/array_map.rs:107-109): a map of references (slots). -/
def asMut (S : Nat) (_ : OrdinalTotalArrayMap V) : R (OrdinalTotalArrayMap Nat) := do
  fromArray (← arrayAsMut S)

/-- `OrdinalTotalArrayMap::zip` (total/array_map.rs:112-120). -/
def zip (S : Nat) (s : OrdinalTotalArrayMap V) (other : OrdinalTotalArrayMap W) :
    R (OrdinalTotalArrayMap (V × W)) :=
  arrayFromIter S (List.zip s other)

/-- `IntoIterator` (total/array_map.rs:229-231). -/
def intoIter (s : OrdinalTotalArrayMap V) : TotalIntoIterArray V := TotalIntoIterArray.new s

/-- `array_from_iter(self.into_iter().map(|(k, v)| f(k, v)))` (total/array_map.rs:125 with
array_from_iter.rs:8-11): pull, apply, push. -/
def mapLoop (c : Cfg) (I : OrdinalImpl K) (f : K → V → ρ → R (W × ρ)) :
    Nat → TotalIntoIterArray V → ArrayBuilder W → ρ → R (List W × ρ)
  | 0, _, _, _ => .error .diverge
  | fuel + 1, it, b, r => do
    match ← TotalIntoIterArray.next c I it with
    | (none, _) => .ok (← b.finish, r)
    | (some (k, v), it) => do
      let (w, r) ← f k v r
      mapLoop c I f fuel it (← b.push w) r

/-- `OrdinalTotalArrayMap::map` (total/array_map.rs:123-128). -/
def map (c : Cfg) (I : OrdinalImpl K) (S : Nat) (s : OrdinalTotalArrayMap V) (f : K → V → ρ → R (W × ρ))
    (r : ρ) : R (OrdinalTotalArrayMap W × ρ) :=
  mapLoop c I f (TotalIntoIterArray.len (intoIter s) + 1) (intoIter s) (ArrayBuilder.new W S) r

/-- `OrdinalTotalArrayMap::map_values` (total/array_map.rs:131-133). -/
def mapValues (c : Cfg) (I : OrdinalImpl K) (S : Nat) (s : OrdinalTotalArrayMap V) (f : V → ρ → R (W × ρ))
    (r : ρ) : R (OrdinalTotalArrayMap W × ρ) :=
  map c I S s (fun _ v => f v) r

/-- `OrdinalTotalArrayMap::iter` (total/array_map.rs:136-138), also
`IntoIterator for &OrdinalTotalArrayMap` (total/array_map.rs:238-240). -/
def iter (s : OrdinalTotalArrayMap V) : TotalIter V := TotalIter.new s 0

/-- `OrdinalTotalArrayMap::iter_mut` (total/array_map.rs:141-143). -/
def iterMut (s : OrdinalTotalArrayMap V) : TotalIterMut V := TotalIterMut.new s

/-- `OrdinalTotalArrayMap::keys` (total/array_map.rs:146-148). -/
def keys (I : OrdinalImpl K) (_ : OrdinalTotalArrayMap V) : R OrdinalValues := OrdinalValues.new I

/-- `OrdinalTotalArrayMap::into_keys` (total/array_map.rs:154-156). -/
def intoKeys (I : OrdinalImpl K) (s : OrdinalTotalArrayMap V) : R OrdinalValues := keys I s

/-- `OrdinalTotalArrayMap::values` (total/array_map.rs:159-161): a `slice::Iter`. -/
def values (s : OrdinalTotalArrayMap V) : List V := s

/-- `OrdinalTotalArrayMap::values_array` (total/array_map.rs:164-166): `&[V; S]`, represented by the
array it points to. -/
def valuesArray (s : OrdinalTotalArrayMap V) : List V := s

/-- `OrdinalTotalArrayMap::values_array_mut` (total/array_map.rs:174-176): `&mut [V; S]`.  A mutable
reference to the whole array is what can be read through it and what the map is once `a` is stored
through it. -/
def valuesArrayMut (s : OrdinalTotalArrayMap V) : List V × (List V → OrdinalTotalArrayMap V) := (s, fun a => a)

/-- `OrdinalTotalArrayMap::into_values` (total/array_map.rs:179-181). -/
def intoValues (s : OrdinalTotalArrayMap V) : List V := s

/-- `OrdinalTotalArrayMap::insert` (total/array_map.rs:185-187). -/
def insert (I : OrdinalImpl K) (s : OrdinalTotalArrayMap V) (k : K) (v : V) :
    R (V × OrdinalTotalArrayMap V) := do
  let old ← getIdx s (← I.ordinal k)
  .ok (old, ← setIdx s (← I.ordinal k) v)

/-- `Clone` (total/array_map.rs:204-211); `cl` is `V::clone`. -/
def clone (cl : V → V) (s : OrdinalTotalArrayMap V) : OrdinalTotalArrayMap V := List.map cl s

end OrdinalTotalArrayMap

/-! ## Histories

`step` runs one `TotalOp` by calling the functions above. -/

/-- A client of `values_mut()` (total/map.rs:84-86, total/array_map.rs:169-171, which is
`slice::IterMut`): memory, the slots left, the references handed out. -/
structure SlotClient (V : Type) where
  mem : List V
  it : Range
  handed : List Nat

/-- A step of the client. -/
def SlotClient.step (s : SlotClient V) : MutStep V → R (Option V × SlotClient V)
  | .front =>
    match slotIter.next s.it with
    | (none, it) => .ok (none, ⟨s.mem, it, s.handed⟩)
    | (some slot, it) => do .ok (some (← readSlot s.mem slot), ⟨s.mem, it, s.handed ++ [slot]⟩)
  | .back =>
    match slotIter.nextBack s.it with
    | (none, it) => .ok (none, ⟨s.mem, it, s.handed⟩)
    | (some slot, it) => do .ok (some (← readSlot s.mem slot), ⟨s.mem, it, s.handed ++ [slot]⟩)
  | .write j v =>
    match s.handed[j]? with
    | none => .ok (none, s)
    | some slot => do .ok (none, ⟨← writeSlot s.mem slot v, s.it, s.handed⟩)

/-- One operation on an `OrdinalTotalMap`. -/
def OrdinalTotalMap.step (c : Cfg) (I : OrdinalImpl K) (s : OrdinalTotalMap V) :
    TotalOp K V → R (MapOut K V × OrdinalTotalMap V)
  | .get k => do .ok (.opt (some (← get I s k)), s)
  | .index k => do .ok (.opt (some (← index I s k)), s)
  | .getMut k w => do
    let slot ← getMut I s k
    .ok (.opt (some (← readSlot s slot)), ← writeSlot s slot w)
  | .indexMut k w => do
    let slot ← indexMut I s k
    .ok (.opt (some (← readSlot s slot)), ← writeSlot s slot w)
  | .insert k v => do
    let (old, s) ← insert I s k v
    .ok (.opt (some old), s)
  | .len => do .ok (.nat (← len I s), s)
  | .isEmpty => do .ok (.bool (← isEmpty I s), s)
  | .iter ds => do
    let (os, _) ← (TotalIter.it c I).run (iter s) ds
    .ok (.items os, s)
  | .keys ds => do
    let (os, _) ← (OrdinalValues.iter I).run (← keys I s) ds
    .ok (.keys os, s)
  | .values ds => do
    let (os, _) ← (listIter V).it.run (values s) ds
    .ok (.vals os, s)
  | .iterMut steps => do
    let (os, cl) ← runOps (MutClientT.step c I) ⟨iterMut s, []⟩ steps
    .ok (.items os, cl.it.mem)
  | .valuesMut steps => do
    let (os, cl) ← runOps SlotClient.step ⟨s, ⟨0, s.length⟩, []⟩ steps
    .ok (.vals os, cl.mem)

/-- One operation on an `OrdinalTotalArrayMap`. -/
def OrdinalTotalArrayMap.step (c : Cfg) (I : OrdinalImpl K) (S : Nat) (s : OrdinalTotalArrayMap V) :
    TotalOp K V → R (MapOut K V × OrdinalTotalArrayMap V)
  | .get k => do .ok (.opt (some (← get I s k)), s)
  | .index k => do .ok (.opt (some (← index I s k)), s)
  | .getMut k w => do
    let slot ← getMut I s k
    .ok (.opt (some (← readSlot s slot)), ← writeSlot s slot w)
  | .indexMut k w => do
    let slot ← indexMut I s k
    .ok (.opt (some (← readSlot s slot)), ← writeSlot s slot w)
  | .insert k v => do
    let (old, s) ← insert I s k v
    .ok (.opt (some old), s)
  | .len => .ok (.nat (len S s), s)
  | .isEmpty => .ok (.bool (isEmpty S s), s)
  | .iter ds => do
    let (os, _) ← (TotalIter.it c I).run (iter s) ds
    .ok (.items os, s)
  | .keys ds => do
    let (os, _) ← (OrdinalValues.iter I).run (← keys I s) ds
    .ok (.keys os, s)
  | .values ds => do
    let (os, _) ← (listIter V).it.run (values s) ds
    .ok (.vals os, s)
  | .iterMut steps => do
    let (os, cl) ← runOps (MutClientT.step c I) ⟨iterMut s, []⟩ steps
    .ok (.items os, cl.it.mem)
  | .valuesMut steps => do
    let (os, cl) ← runOps SlotClient.step ⟨s, ⟨0, s.length⟩, []⟩ steps
    .ok (.vals os, cl.mem)

/-- One operation on an `OrdinalTotalArrayMap<K, V, n>`, array views included. -/
def OrdinalTotalArrayMap.arrayStep (c : Cfg) (I : OrdinalImpl K) (n : Nat) (s : OrdinalTotalArrayMap V) :
    ArrayOp K V n → R (MapOut K V × OrdinalTotalArrayMap V)
  | .total op => step c I n s op
  | .readAt i => do .ok (.opt (some (← getIdx (valuesArray s) i)), s)
  | .writeAt i v => do
    let (a, store) := valuesArrayMut s
    .ok (.opt (some (← getIdx a i)), store (← setIdx a i v))
  | .assign vs _ =>
    let (a, store) := valuesArrayMut s
    .ok (.vals (a.map some), store vs)
  | .permute p => do
    let a := intoValues s
    .ok (.unit, ← fromArray (← (List.finRange n).mapM fun i => getIdx a (p i)))
  | .asMut ws => do
    let refs ← asMut n s
    let s ← ws.foldlM (fun s w => do writeSlot s (← index I refs w.1) w.2) s
    .ok (.unit, s)
  | .asRef k => do .ok (.opt (some (← get I (← asRef I n s) k)), s)

end OrdinalMap
