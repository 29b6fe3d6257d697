import Verif.Model.Values
import Verif.SpecMap
/-!
# Model of `map/enumerate.rs`, `map/total/iter.rs` and `map/iter.rs`

References into a slice are slot indices.  Iterators that hand out `&mut` references carry the
memory of the slice they borrow, so that reads and writes through the references can be interleaved
with iteration.
-/

namespace OrdinalMap

variable {K V σ ι : Type}

/-! ## Standard library iterators -/

/-- An `ExactSizeIterator + DoubleEndedIterator` of the standard library. -/
structure StdIter (σ ι : Type) where
  next : σ → Option ι × σ
  nextBack : σ → Option ι × σ
  len : σ → Nat

/-- `slice::Iter`, `vec::IntoIter`, `array::IntoIter`: the items left.  `as_slice()` is the list. -/
def listIter (V : Type) : StdIter (List V) V :=
  ⟨fun l => (l.head?, l.tail), fun l => (l.getLast?, l.dropLast), List.length⟩

/-- `slice::IterMut`: the slots left; an item is a reference to its slot. -/
def slotIter : StdIter Range Nat := ⟨Range.next, Range.nextBack, Range.len⟩

/-- A use of `slice::Iter` etc. as an iterator on its own. -/
def StdIter.it (S : StdIter σ ι) : DEIter σ ι := ⟨fun s => .ok (S.next s), fun s => .ok (S.nextBack s)⟩

/-! ## `OrdinalEnumerate` (map/enumerate.rs) -/

/-- `struct OrdinalEnumerate<K, I>` (enumerate.rs:5-9). -/
structure Enumerate (σ : Type) where
  next : Nat
  iter : σ

namespace Enumerate

/-- `OrdinalEnumerate::new` (enumerate.rs:12-18). -/
def new (iter : σ) (next : Nat) : Enumerate σ := ⟨next, iter⟩

/-- `OrdinalEnumerate::next` (enumerate.rs:25-30). -/
def nextItem (c : Cfg) (I : OrdinalImpl K) (S : StdIter σ ι) (s : Enumerate σ) :
    R (Option (K × ι) × Enumerate σ) :=
  match S.next s.iter with
  | (none, iter) => .ok (none, ⟨s.next, iter⟩)
  | (some v, iter) => do
    let k ← unwrap (← I.fromOrdinal s.next)
    let next ← addU c s.next 1
    .ok (some (k, v), ⟨next, iter⟩)

/-- `OrdinalEnumerate::next_back` (enumerate.rs:49-53). -/
def nextBackItem (c : Cfg) (I : OrdinalImpl K) (S : StdIter σ ι) (s : Enumerate σ) :
    R (Option (K × ι) × Enumerate σ) :=
  match S.nextBack s.iter with
  | (none, iter) => .ok (none, ⟨s.next, iter⟩)
  | (some v, iter) => do
    let k ← unwrap (← I.fromOrdinal (← addU c s.next (S.len iter)))
    .ok (some (k, v), ⟨s.next, iter⟩)

/-- `OrdinalEnumerate::len` (enumerate.rs:40-42). -/
def len (S : StdIter σ ι) (s : Enumerate σ) : Nat := S.len s.iter

/-- `OrdinalEnumerate::size_hint` (enumerate.rs:33-35); the standard iterators report their exact
length. -/
def sizeHint (S : StdIter σ ι) (s : Enumerate σ) : Nat × Option Nat :=
  (S.len s.iter, some (S.len s.iter))

/-- `Clone for OrdinalEnumerate` (enumerate.rs:58-64), `cl` clones the inner iterator. -/
def clone (cl : σ → σ) (s : Enumerate σ) : Enumerate σ := ⟨s.next, cl s.iter⟩

end Enumerate

/-! ## Total map iterators (map/total/iter.rs) -/

/-- `total::Iter` (total/iter.rs:14-16), `total::IntoIterArray` (total/iter.rs:117-119) and
`total::IntoIter` (total/iter.rs:171-173).  Borrowed items are represented by their values. -/
abbrev TotalIter (V : Type) := Enumerate (List V)

namespace TotalIter

/-- `total::Iter::new` (total/iter.rs:19-23). -/
def new (l : List V) (next : Nat) : TotalIter V := Enumerate.new l next

/-- `total::Iter::next` (total/iter.rs:30-32). -/
def next (c : Cfg) (I : OrdinalImpl K) (s : TotalIter V) : R (Option (K × V) × TotalIter V) :=
  s.nextItem c I (listIter V)

/-- `total::Iter::next_back` (total/iter.rs:47-49). -/
def nextBack (c : Cfg) (I : OrdinalImpl K) (s : TotalIter V) : R (Option (K × V) × TotalIter V) :=
  s.nextBackItem c I (listIter V)

/-- The iterator. -/
def it (c : Cfg) (I : OrdinalImpl K) : DEIter (TotalIter V) (K × V) := ⟨next c I, nextBack c I⟩

/-- `total::Iter::len` (total/iter.rs:40-42). -/
def len (s : TotalIter V) : Nat := Enumerate.len (listIter V) s

/-- `total::Iter::size_hint` (total/iter.rs:34-36). -/
def sizeHint (s : TotalIter V) : Nat × Option Nat := Enumerate.sizeHint (listIter V) s

/-- `Clone for total::Iter` (total/iter.rs:52-58). -/
def clone (s : TotalIter V) : TotalIter V := Enumerate.clone id s

end TotalIter

/-- `total::IntoIter` (total/iter.rs:171-173). -/
abbrev TotalIntoIter (V : Type) := Enumerate (List V)

namespace TotalIntoIter

/-- `total::IntoIter::new` (total/iter.rs:177-181). -/
def new (l : List V) : TotalIntoIter V := Enumerate.new l 0

/-- `total::IntoIter::iter` (total/iter.rs:183-185). -/
def iter (s : TotalIntoIter V) : TotalIter V := TotalIter.new (Enumerate.iter s) s.next

/-- `total::IntoIter::next` (total/iter.rs:192-194). -/
def next (c : Cfg) (I : OrdinalImpl K) (s : TotalIntoIter V) : R (Option (K × V) × TotalIntoIter V) :=
  s.nextItem c I (listIter V)

/-- `total::IntoIter::next_back` (total/iter.rs:211-213). -/
def nextBack (c : Cfg) (I : OrdinalImpl K) (s : TotalIntoIter V) : R (Option (K × V) × TotalIntoIter V) :=
  s.nextBackItem c I (listIter V)

/-- The iterator. -/
def it (c : Cfg) (I : OrdinalImpl K) : DEIter (TotalIntoIter V) (K × V) := ⟨next c I, nextBack c I⟩

/-- `total::IntoIter::len` (total/iter.rs:204-206). -/
def len (s : TotalIntoIter V) : Nat := Enumerate.len (listIter V) s

/-- `total::IntoIter::size_hint` (total/iter.rs:197-199). -/
def sizeHint (s : TotalIntoIter V) : Nat × Option Nat := Enumerate.sizeHint (listIter V) s

/-- `Clone for total::IntoIter` (total/iter.rs:222-228); `cl` is `V::clone`. -/
def clone (cl : V → V) (s : TotalIntoIter V) : TotalIntoIter V := Enumerate.clone (List.map cl) s

end TotalIntoIter

/-- `total::IntoIterArray` (total/iter.rs:117-119). -/
abbrev TotalIntoIterArray (V : Type) := Enumerate (List V)

namespace TotalIntoIterArray

/-- `total::IntoIterArray::new` (total/iter.rs:123-127). -/
def new (l : List V) : TotalIntoIterArray V := Enumerate.new l 0

/-- `total::IntoIterArray::iter` (total/iter.rs:129-131). -/
def iter (s : TotalIntoIterArray V) : TotalIter V := TotalIter.new (Enumerate.iter s) s.next

/-- `total::IntoIterArray::next` (total/iter.rs:138-140). -/
def next (c : Cfg) (I : OrdinalImpl K) (s : TotalIntoIterArray V) :
    R (Option (K × V) × TotalIntoIterArray V) :=
  s.nextItem c I (listIter V)

/-- `total::IntoIterArray::next_back` (total/iter.rs:151-153). -/
def nextBack (c : Cfg) (I : OrdinalImpl K) (s : TotalIntoIterArray V) :
    R (Option (K × V) × TotalIntoIterArray V) :=
  s.nextBackItem c I (listIter V)

/-- The iterator. -/
def it (c : Cfg) (I : OrdinalImpl K) : DEIter (TotalIntoIterArray V) (K × V) := ⟨next c I, nextBack c I⟩

/-- `total::IntoIterArray::len` (total/iter.rs:144-146). -/
def len (s : TotalIntoIterArray V) : Nat := Enumerate.len (listIter V) s

/-- `size_hint` of `total::IntoIterArray`: not overridden (total/iter.rs:134-141), so the default
`(0, None)` of `Iterator`. -/
def sizeHint (_ : TotalIntoIterArray V) : Nat × Option Nat := (0, none)

/-- `Clone for total::IntoIterArray` (total/iter.rs:156-162); `cl` is `V::clone`. -/
def clone (cl : V → V) (s : TotalIntoIterArray V) : TotalIntoIterArray V :=
  Enumerate.clone (List.map cl) s

end TotalIntoIterArray

/-- A borrowed slice and the state of `total::IterMut` (total/iter.rs:69-71) over it. -/
structure TotalIterMut (V : Type) where
  mem : List V
  it : Enumerate Range

namespace TotalIterMut

/-- `total::IterMut::new(slice.iter_mut())` (total/iter.rs:75-79). -/
def new (mem : List V) : TotalIterMut V := ⟨mem, Enumerate.new ⟨0, mem.length⟩ 0⟩

/-- `total::IterMut::iter` (total/iter.rs:81-83); `as_slice()` is what is left of the slice. -/
def iter (s : TotalIterMut V) : TotalIter V :=
  TotalIter.new ((s.mem.take s.it.iter.stop).drop s.it.iter.start) s.it.next

/-- `total::IterMut::next` (total/iter.rs:89-91). -/
def next (c : Cfg) (I : OrdinalImpl K) (s : TotalIterMut V) : R (Option (K × Nat) × TotalIterMut V) := do
  let (o, it) ← s.it.nextItem c I slotIter
  .ok (o, ⟨s.mem, it⟩)

/-- `total::IterMut::next_back` (total/iter.rs:105-107). -/
def nextBack (c : Cfg) (I : OrdinalImpl K) (s : TotalIterMut V) : R (Option (K × Nat) × TotalIterMut V) := do
  let (o, it) ← s.it.nextBackItem c I slotIter
  .ok (o, ⟨s.mem, it⟩)

/-- `total::IterMut::len` (total/iter.rs:99-101). -/
def len (s : TotalIterMut V) : Nat := Enumerate.len slotIter s.it

/-- `total::IterMut::size_hint` (total/iter.rs:93-95). -/
def sizeHint (s : TotalIterMut V) : Nat × Option Nat := Enumerate.sizeHint slotIter s.it

end TotalIterMut

/-! ## Sparse map iterators (map/iter.rs) -/

/-- The common shape of the `loop`s in map/iter.rs: `loop { let next = it.next()?; … }`, where the
body either returns an item or continues.  `fuel` bounds the number of rounds. -/
def skipLoop {α β : Type} (step : σ → R (Option α × σ)) (body : α → σ → R (Option β × σ)) :
    Nat → σ → R (Option β × σ)
  | 0, _ => .error .diverge
  | fuel + 1, s => do
    match ← step s with
    | (none, s) => .ok (none, s)
    | (some a, s) => do
      match ← body a s with
      | (some b, s) => .ok (some b, s)
      | (none, s) => skipLoop step body fuel s

/-- `struct Iter` (map/iter.rs:11-13). -/
abbrev MapIter (V : Type) := TotalIter (Option V)

namespace MapIter

/-- `if let (k, Some(v)) = next { return Some((k, v)) }` (map/iter.rs:29-31, 46-48). -/
def body (p : K × Option V) (s : MapIter V) : R (Option (K × V) × MapIter V) :=
  match p with
  | (k, some v) => .ok (some (k, v), s)
  | (_, none) => .ok (none, s)

/-- `Iter::next` (map/iter.rs:26-33). -/
def next (c : Cfg) (I : OrdinalImpl K) (s : MapIter V) : R (Option (K × V) × MapIter V) :=
  skipLoop (TotalIter.next c I) body (TotalIter.len s + 1) s

/-- `Iter::next_back` (map/iter.rs:43-50). -/
def nextBack (c : Cfg) (I : OrdinalImpl K) (s : MapIter V) : R (Option (K × V) × MapIter V) :=
  skipLoop (TotalIter.nextBack c I) body (TotalIter.len s + 1) s

/-- The iterator. -/
def it (c : Cfg) (I : OrdinalImpl K) : DEIter (MapIter V) (K × V) := ⟨next c I, nextBack c I⟩

/-- `Iter::size_hint` (map/iter.rs:36-38). -/
def sizeHint (s : MapIter V) : Nat × Option Nat := (0, some (TotalIter.len s))

/-- `Clone for Iter` (map/iter.rs:53-60). -/
def clone (s : MapIter V) : MapIter V := TotalIter.clone s

/-- `Iterator::count` (std, not overridden): `next` until `None`, counting in `usize`. -/
def countLoop (c : Cfg) (I : OrdinalImpl K) : Nat → MapIter V → Nat → R Nat
  | 0, _, _ => .error .diverge
  | fuel + 1, s, acc => do
    match ← next c I s with
    | (none, _) => .ok acc
    | (some _, s) => do countLoop c I fuel s (← addU c acc 1)

/-- `Iterator::count`. -/
def count (c : Cfg) (I : OrdinalImpl K) (s : MapIter V) : R Nat := countLoop c I (TotalIter.len s + 1) s 0

end MapIter

/-- `struct Keys` (map/iter.rs:124-126). -/
abbrev Keys (V : Type) := MapIter V

namespace Keys

/-- `Keys::next` (map/iter.rs:139-141). -/
def next (c : Cfg) (I : OrdinalImpl K) (s : Keys V) : R (Option K × Keys V) := do
  let (o, s) ← MapIter.next c I s
  .ok (o.map fun p => p.1, s)

/-- `Keys::next_back` (map/iter.rs:151-153). -/
def nextBack (c : Cfg) (I : OrdinalImpl K) (s : Keys V) : R (Option K × Keys V) := do
  let (o, s) ← MapIter.nextBack c I s
  .ok (o.map fun p => p.1, s)

/-- The iterator. -/
def it (c : Cfg) (I : OrdinalImpl K) : DEIter (Keys V) K := ⟨next c I, nextBack c I⟩

/-- `Keys::size_hint` (map/iter.rs:144-146). -/
def sizeHint (s : Keys V) : Nat × Option Nat := MapIter.sizeHint s

/-- `Clone for Keys` (map/iter.rs:156-163). -/
def clone (s : Keys V) : Keys V := MapIter.clone s

end Keys

/-- `struct Values` (map/iter.rs:173-175). -/
abbrev Values (V : Type) := MapIter V

namespace Values

/-- `Values::next` (map/iter.rs:188-190). -/
def next (c : Cfg) (I : OrdinalImpl K) (s : Values V) : R (Option V × Values V) := do
  let (o, s) ← MapIter.next c I s
  .ok (o.map fun p => p.2, s)

/-- `Values::next_back` (map/iter.rs:200-202). -/
def nextBack (c : Cfg) (I : OrdinalImpl K) (s : Values V) : R (Option V × Values V) := do
  let (o, s) ← MapIter.nextBack c I s
  .ok (o.map fun p => p.2, s)

/-- The iterator. -/
def it (c : Cfg) (I : OrdinalImpl K) : DEIter (Values V) V := ⟨next c I, nextBack c I⟩

/-- `Values::size_hint` (map/iter.rs:193-195). -/
def sizeHint (s : Values V) : Nat × Option Nat := MapIter.sizeHint s

/-- `Clone for Values` (map/iter.rs:205-212). -/
def clone (s : Values V) : Values V := MapIter.clone s

end Values

/-- `struct IntoIter` (map/iter.rs:374-376). -/
abbrev MapIntoIter (V : Type) := TotalIntoIter (Option V)

namespace MapIntoIter

/-- `if let Some(v) = v { return Some((k, v)) }` (map/iter.rs:395-397, 410-412). -/
def body (p : K × Option V) (s : MapIntoIter V) : R (Option (K × V) × MapIntoIter V) :=
  match p with
  | (k, some v) => .ok (some (k, v), s)
  | (_, none) => .ok (none, s)

/-- `IntoIter::iter` (map/iter.rs:383-385). -/
def iter (s : MapIntoIter V) : MapIter V := TotalIntoIter.iter s

/-- `IntoIter::next` (map/iter.rs:392-399). -/
def next (c : Cfg) (I : OrdinalImpl K) (s : MapIntoIter V) : R (Option (K × V) × MapIntoIter V) :=
  skipLoop (TotalIntoIter.next c I) body (TotalIntoIter.len s + 1) s

/-- `IntoIter::next_back` (map/iter.rs:407-414). -/
def nextBack (c : Cfg) (I : OrdinalImpl K) (s : MapIntoIter V) : R (Option (K × V) × MapIntoIter V) :=
  skipLoop (TotalIntoIter.nextBack c I) body (TotalIntoIter.len s + 1) s

/-- The iterator. -/
def it (c : Cfg) (I : OrdinalImpl K) : DEIter (MapIntoIter V) (K × V) := ⟨next c I, nextBack c I⟩

/-- `IntoIter::size_hint` (map/iter.rs:401-403). -/
def sizeHint (s : MapIntoIter V) : Nat × Option Nat := (0, some (TotalIntoIter.len s))

/-- `Clone for IntoIter` (map/iter.rs:423-429); `cl` is `V::clone`. -/
def clone (cl : V → V) (s : MapIntoIter V) : MapIntoIter V := TotalIntoIter.clone (Option.map cl) s

end MapIntoIter

/-- `struct IntoIterArray` (map/iter.rs:313-316). -/
abbrev MapIntoIterArray (V : Type) := TotalIntoIterArray (Option V)

namespace MapIntoIterArray

/-- `if let Some(v) = v { return Some((k, v)) }` (map/iter.rs:339-341, 351-353). -/
def body (p : K × Option V) (s : MapIntoIterArray V) : R (Option (K × V) × MapIntoIterArray V) :=
  match p with
  | (k, some v) => .ok (some (k, v), s)
  | (_, none) => .ok (none, s)

/-- `IntoIterArray::iter` (map/iter.rs:327-329). -/
def iter (s : MapIntoIterArray V) : MapIter V := TotalIntoIterArray.iter s

/-- `IntoIterArray::next` (map/iter.rs:336-343). -/
def next (c : Cfg) (I : OrdinalImpl K) (s : MapIntoIterArray V) :
    R (Option (K × V) × MapIntoIterArray V) :=
  skipLoop (TotalIntoIterArray.next c I) body (TotalIntoIterArray.len s + 1) s

/-- `IntoIterArray::next_back` (map/iter.rs:348-355). -/
def nextBack (c : Cfg) (I : OrdinalImpl K) (s : MapIntoIterArray V) :
    R (Option (K × V) × MapIntoIterArray V) :=
  skipLoop (TotalIntoIterArray.nextBack c I) body (TotalIntoIterArray.len s + 1) s

/-- The iterator. -/
def it (c : Cfg) (I : OrdinalImpl K) : DEIter (MapIntoIterArray V) (K × V) := ⟨next c I, nextBack c I⟩

/-- `size_hint` of `IntoIterArray`: not overridden (map/iter.rs:332-344). -/
def sizeHint (_ : MapIntoIterArray V) : Nat × Option Nat := (0, none)

/-- `Clone for IntoIterArray` (map/iter.rs:364-371); `cl` is `V::clone`. -/
def clone (cl : V → V) (s : MapIntoIterArray V) : MapIntoIterArray V :=
  TotalIntoIterArray.clone (Option.map cl) s

end MapIntoIterArray

/-- `struct IterMut` (map/iter.rs:70-72) with the slice it borrows. -/
abbrev MapIterMut (V : Type) := TotalIterMut (Option V)

namespace MapIterMut

/-- `if let (k, Some(v)) = next { return Some((k, v)) }` (map/iter.rs:92-94, 109-111): looks into the
slot; the returned reference points inside it. -/
def body (p : K × Nat) (s : MapIterMut V) : R (Option (K × Nat) × MapIterMut V) :=
  match s.mem[p.2]? with
  | none => .error .ub
  | some (some _) => .ok (some (p.1, p.2), s)
  | some none => .ok (none, s)

/-- `IterMut::iter` (map/iter.rs:80-82). -/
def iter (s : MapIterMut V) : MapIter V := TotalIterMut.iter s

/-- `IterMut::next` (map/iter.rs:89-96). -/
def next (c : Cfg) (I : OrdinalImpl K) (s : MapIterMut V) : R (Option (K × Nat) × MapIterMut V) :=
  skipLoop (TotalIterMut.next c I) body (TotalIterMut.len s + 1) s

/-- `IterMut::next_back` (map/iter.rs:106-113). -/
def nextBack (c : Cfg) (I : OrdinalImpl K) (s : MapIterMut V) : R (Option (K × Nat) × MapIterMut V) :=
  skipLoop (TotalIterMut.nextBack c I) body (TotalIterMut.len s + 1) s

/-- `IterMut::size_hint` (map/iter.rs:99-101). -/
def sizeHint (s : MapIterMut V) : Nat × Option Nat := (0, some (TotalIterMut.len s))

end MapIterMut

/-- `struct ValuesMut` (map/iter.rs:222-224). -/
abbrev ValuesMut (V : Type) := MapIterMut V

namespace ValuesMut

/-- `ValuesMut::iter` (map/iter.rs:232-236). -/
def iter (s : ValuesMut V) : Values V := MapIterMut.iter s

/-- `ValuesMut::next` (map/iter.rs:243-245). -/
def next (c : Cfg) (I : OrdinalImpl K) (s : ValuesMut V) : R (Option Nat × ValuesMut V) := do
  let (o, s) ← MapIterMut.next c I s
  .ok (o.map fun p => p.2, s)

/-- `ValuesMut::next_back` (map/iter.rs:255-257). -/
def nextBack (c : Cfg) (I : OrdinalImpl K) (s : ValuesMut V) : R (Option Nat × ValuesMut V) := do
  let (o, s) ← MapIterMut.nextBack c I s
  .ok (o.map fun p => p.2, s)

/-- `ValuesMut::size_hint` (map/iter.rs:248-250). -/
def sizeHint (s : ValuesMut V) : Nat × Option Nat := MapIterMut.sizeHint s

end ValuesMut

/-- `struct Drain` (map/iter.rs:268-270) with the slice it borrows. -/
abbrev Drain (V : Type) := TotalIterMut (Option V)

namespace Drain

/-- `Drain::new` (map/iter.rs:273-275) on `slice.iter_mut()`. -/
def new (mem : List (Option V)) : Drain V := TotalIterMut.new mem

/-- `if let Some(v) = mem::take(v) { return Some((k, v)) }` (map/iter.rs:290-292, 305-307). -/
def body (p : K × Nat) (s : Drain V) : R (Option (K × V) × Drain V) :=
  match s.mem[p.2]? with
  | none => .error .ub
  | some o =>
    let s : Drain V := ⟨s.mem.set p.2 none, s.it⟩
    match o with
    | some v => .ok (some (p.1, v), s)
    | none => .ok (none, s)

/-- `Drain::next` (map/iter.rs:287-294). -/
def next (c : Cfg) (I : OrdinalImpl K) (s : Drain V) : R (Option (K × V) × Drain V) :=
  skipLoop (TotalIterMut.next c I) body (TotalIterMut.len s + 1) s

/-- `Drain::next_back` (map/iter.rs:302-309). -/
def nextBack (c : Cfg) (I : OrdinalImpl K) (s : Drain V) : R (Option (K × V) × Drain V) :=
  skipLoop (TotalIterMut.nextBack c I) body (TotalIterMut.len s + 1) s

/-- The iterator. -/
def it (c : Cfg) (I : OrdinalImpl K) : DEIter (Drain V) (K × V) := ⟨next c I, nextBack c I⟩

/-- `Drain::size_hint` (map/iter.rs:296-298). -/
def sizeHint (s : Drain V) : Nat × Option Nat := (0, some (TotalIterMut.len s))

/-- `for _ in self {}` (map/iter.rs:280); returns the slice left behind. -/
def dropLoop (c : Cfg) (I : OrdinalImpl K) : Nat → Drain V → R (List (Option V))
  | 0, _ => .error .diverge
  | fuel + 1, s => do
    match ← next c I s with
    | (none, s) => .ok s.mem
    | (some _, s) => dropLoop c I fuel s

/-- `Drop for Drain` (map/iter.rs:279-281). -/
def drop (c : Cfg) (I : OrdinalImpl K) (s : Drain V) : R (List (Option V)) :=
  dropLoop c I (TotalIterMut.len s + 1) s

end Drain

/-! ## Clients of mutable iterators

These are not part of the crate; they say what a client can do with the references it is handed. -/

/-- Read through a reference to the contents of `Some` in slot `i`. -/
def readSome (mem : List (Option V)) (i : Nat) : R V :=
  match mem[i]? with
  | some (some v) => .ok v
  | _ => .error .ub

/-- Write through a reference to the contents of `Some` in slot `i`. -/
def writeSome (mem : List (Option V)) (i : Nat) (v : V) : R (List (Option V)) :=
  match mem[i]? with
  | some (some _) => .ok (mem.set i (some v))
  | _ => .error .ub

/-- Read through a reference to slot `i`. -/
def readSlot (mem : List V) (i : Nat) : R V :=
  match mem[i]? with
  | some v => .ok v
  | none => .error .ub

/-- Write through a reference to slot `i`. -/
def writeSlot (mem : List V) (i : Nat) (v : V) : R (List V) :=
  if i < mem.length then .ok (mem.set i v) else .error .ub

/-- A client of `iter_mut()` on a sparse map: the iterator and the references it was handed. -/
structure MutClient (V : Type) where
  it : MapIterMut V
  handed : List Nat

/-- A step of the client.  On `next`/`next_back` it reads through the new reference. -/
def MutClient.step (c : Cfg) (I : OrdinalImpl K) (s : MutClient V) :
    MutStep V → R (Option (K × V) × MutClient V)
  | .front => do
    let (o, it) ← MapIterMut.next c I s.it
    match o with
    | none => .ok (none, ⟨it, s.handed⟩)
    | some (k, slot) => .ok (some (k, ← readSome it.mem slot), ⟨it, s.handed ++ [slot]⟩)
  | .back => do
    let (o, it) ← MapIterMut.nextBack c I s.it
    match o with
    | none => .ok (none, ⟨it, s.handed⟩)
    | some (k, slot) => .ok (some (k, ← readSome it.mem slot), ⟨it, s.handed ++ [slot]⟩)
  | .write j v =>
    match s.handed[j]? with
    | none => .ok (none, s)
    | some slot => do .ok (none, ⟨⟨← writeSome s.it.mem slot v, s.it.it⟩, s.handed⟩)

/-- A step of a client of `values_mut()` on a sparse map. -/
def MutClient.stepV (c : Cfg) (I : OrdinalImpl K) (s : MutClient V) :
    MutStep V → R (Option V × MutClient V)
  | .front => do
    let (o, it) ← ValuesMut.next c I s.it
    match o with
    | none => .ok (none, ⟨it, s.handed⟩)
    | some slot => .ok (some (← readSome it.mem slot), ⟨it, s.handed ++ [slot]⟩)
  | .back => do
    let (o, it) ← ValuesMut.nextBack c I s.it
    match o with
    | none => .ok (none, ⟨it, s.handed⟩)
    | some slot => .ok (some (← readSome it.mem slot), ⟨it, s.handed ++ [slot]⟩)
  | .write j v =>
    match s.handed[j]? with
    | none => .ok (none, s)
    | some slot => do .ok (none, ⟨⟨← writeSome s.it.mem slot v, s.it.it⟩, s.handed⟩)

/-- A client of `iter_mut()` on a total map. -/
structure MutClientT (V : Type) where
  it : TotalIterMut V
  handed : List Nat

/-- A step of the client. -/
def MutClientT.step (c : Cfg) (I : OrdinalImpl K) (s : MutClientT V) :
    MutStep V → R (Option (K × V) × MutClientT V)
  | .front => do
    let (o, it) ← TotalIterMut.next c I s.it
    match o with
    | none => .ok (none, ⟨it, s.handed⟩)
    | some (k, slot) => .ok (some (k, ← readSlot it.mem slot), ⟨it, s.handed ++ [slot]⟩)
  | .back => do
    let (o, it) ← TotalIterMut.nextBack c I s.it
    match o with
    | none => .ok (none, ⟨it, s.handed⟩)
    | some (k, slot) => .ok (some (k, ← readSlot it.mem slot), ⟨it, s.handed ++ [slot]⟩)
  | .write j v =>
    match s.handed[j]? with
    | none => .ok (none, s)
    | some slot => do .ok (none, ⟨⟨← writeSlot s.it.mem slot v, s.it.it⟩, s.handed⟩)

end OrdinalMap
