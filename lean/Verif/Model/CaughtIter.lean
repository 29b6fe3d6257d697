import Verif.Model.Caught
/-!
# Iterators whose panics are caught

An iterator that was created outside the `catch_unwind` can be used again after one of its calls panicked.  Here
`next` and `next_back` are modelled write by write, like the operations in `Model/Caught.lean`, which has the
mutable iterators and `Drain`.
-/

namespace OrdinalMap.Caught
open Upd

variable {σ s ι K V : Type}

/-- A call of `next` or `next_back` whose panic is caught. -/
def call (next nextBack : Upd σ s (Option ι)) : Dir → Upd σ s (Ended (Option ι))
  | .front => catchUnwind next
  | .back => catchUnwind nextBack

/-! ## Maps (map/enumerate.rs, map/iter.rs) -/

/-- `OrdinalEnumerate::next` (enumerate.rs:25-30): the inner iterator moves on, then `from_ordinal` is called, then
`self.next` is increased.  `total::Iter`, `total::IntoIter` and `total::IntoIterArray` pass on to it
(total/iter.rs:30-32, 138-140, 192-194). -/
def enumNext (c : Cfg) (J : SImpl σ K) (S : StdIter s ι) : Upd σ (Enumerate s) (Option (K × ι)) := do
  let e ← read
  match S.next e.iter with
  | (none, it) => do
    write ⟨e.next, it⟩
    .of (.ok none)
  | (some v, it) => do
    write ⟨e.next, it⟩
    let o ← user (J.fromOrdinal e.next)
    let k ← .of (unwrap o)
    let next ← .of (addU c e.next 1)
    write ⟨next, it⟩
    .of (.ok (some (k, v)))

/-- `OrdinalEnumerate::next_back` (enumerate.rs:49-53). -/
def enumNextBack (c : Cfg) (J : SImpl σ K) (S : StdIter s ι) : Upd σ (Enumerate s) (Option (K × ι)) := do
  let e ← read
  match S.nextBack e.iter with
  | (none, it) => do
    write ⟨e.next, it⟩
    .of (.ok none)
  | (some v, it) => do
    write ⟨e.next, it⟩
    let i ← .of (addU c e.next (S.len it))
    let o ← user (J.fromOrdinal i)
    let k ← .of (unwrap o)
    .of (.ok (some (k, v)))

/-- `Iter::next` (map/iter.rs:26-33), `IntoIter::next` (map/iter.rs:392-399), `IntoIterArray::next`
(map/iter.rs:336-343). -/
def mapNext (c : Cfg) (J : SImpl σ K) : Upd σ (MapIter V) (Option (K × V)) := do
  let it ← read
  skipLoop (enumNext c J (listIter (Option V))) (fun p => .of (.ok (p.2.map fun v => (p.1, v)))) (TotalIter.len it + 1)

/-- `Iter::next_back` (map/iter.rs:43-50), `IntoIter::next_back` (map/iter.rs:407-414),
`IntoIterArray::next_back` (map/iter.rs:348-355). -/
def mapNextBack (c : Cfg) (J : SImpl σ K) : Upd σ (MapIter V) (Option (K × V)) := do
  let it ← read
  skipLoop (enumNextBack c J (listIter (Option V))) (fun p => .of (.ok (p.2.map fun v => (p.1, v))))
    (TotalIter.len it + 1)

/-- `let mut d = map.drain();` (map.rs:136-138, array_map.rs:134-136), calls of `d.next()` and `d.next_back()` whose
panics are caught one by one, and the end of `d`: leaked, or dropped, where a panic is caught as well. -/
def drainCalls (c : Cfg) (J : SImpl σ K) (ds : List Dir) (leak : Bool) :
    Upd σ (List (Option V)) (List (Ended (Option (K × V))) × Ended Unit) :=
  zoom Drain.new (fun _ d => d.mem) (do
    let es ← run (call (drainNext c J) (drainNextBack c J)) ds
    let e ← catchUnwind (if leak then .of (.ok ()) else drainDrop c J)
    .of (.ok (es, e)))

/-! ## `OrdinalValues` (values.rs) -/

/-- `OrdinalValues::next` (values.rs:40-43). -/
def valuesNext (J : SImpl σ K) : Upd σ OrdinalValues (Option K) := do
  let r ← read
  match Range.next r with
  | (none, r) => do
    write r
    .of (.ok none)
  | (some i, r) => do
    write r
    let o ← user (J.fromOrdinal i)
    let a ← .of (unwrap o)
    .of (.ok (some a))

/-- `OrdinalValues::next_back` (values.rs:76-79). -/
def valuesNextBack (J : SImpl σ K) : Upd σ OrdinalValues (Option K) := do
  let r ← read
  match Range.nextBack r with
  | (none, r) => do
    write r
    .of (.ok none)
  | (some i, r) => do
    write r
    let o ← user (J.fromOrdinal i)
    let a ← .of (unwrap o)
    .of (.ok (some a))

/-! ## Sets (set/iter.rs, set64.rs) -/

/-- The `loop` of `Iter::next` and `Iter::next_back` (set/iter.rs:28-33, 45-50). -/
def setLoop (c : Cfg) (J : SImpl σ K) (step : Upd σ OrdinalValues (Option K)) : Nat → Upd σ SetIter (Option K)
  | 0 => .of (.error .diverge)
  | fuel + 1 => do
    let o ← zoom (fun it : SetIter => it.iter) (fun it r => ⟨r, it.set⟩) step
    match o with
    | none => .of (.ok none)
    | some x => do
      let it ← read
      let b ← user (Eff.refContains c J it.set x)
      if b then .of (.ok (some x))
      else setLoop c J step fuel

/-- `Iter::next` (set/iter.rs:27-34). -/
def setNext (c : Cfg) (J : SImpl σ K) : Upd σ SetIter (Option K) := do
  let it ← read
  setLoop c J (valuesNext J) (it.iter.len + 1)

/-- `Iter::next_back` (set/iter.rs:44-51). -/
def setNextBack (c : Cfg) (J : SImpl σ K) : Upd σ SetIter (Option K) := do
  let it ← read
  setLoop c J (valuesNextBack J) (it.iter.len + 1)

/-- `Iter64::next` (set64.rs:20-28): the bit is cleared before `from_ordinal` is called. -/
def iter64Next (c : Cfg) (J : SImpl σ K) : Upd σ Iter64 (Option K) := do
  let w ← read
  let i := trailingZeros w
  if i = 64 then .of (.ok none)
  else do
    let mask ← .of (shl64 c 1 i)
    write (w &&& ~~~mask)
    let o ← user (J.fromOrdinal i)
    let x ← .of (unwrap o)
    .of (.ok (some x))

/-- `Iter64::next_back` (set64.rs:46-50). -/
def iter64NextBack (c : Cfg) (J : SImpl σ K) : Upd σ Iter64 (Option K) := do
  let w ← read
  match checkedSub 63 (leadingZeros w) with
  | none => .of (.ok none)
  | some i => do
    let mask ← .of (shl64 c 1 i)
    write (w &&& ~~~mask)
    let o ← user (J.fromOrdinal i)
    let x ← .of (unwrap o)
    .of (.ok (some x))

end OrdinalMap.Caught
