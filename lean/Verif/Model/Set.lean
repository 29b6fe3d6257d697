import Verif.Model.Values
/-!
# Model of `set/`

Bitmaps are lists of `u64` words (`BitVec 64`).  Heap allocation always succeeds.
-/

namespace OrdinalMap

variable {τ : Type}

/-- `ordinal_array_set_s` (set/array.rs:11-13). -/
def ordinalArraySetS (I : OrdinalImpl τ) : R Nat := do .ok (divCeil (← I.size) 64)

/-! ## `OrdinalSetRef` (set/set_ref.rs) -/

/-- `struct OrdinalSetRef` (set_ref.rs:9-12): the words. -/
abbrev SetRef := List (BitVec 64)

namespace SetRef

/-- `OrdinalSetRef::new` (set_ref.rs:21-27). -/
def new (c : Cfg) (I : OrdinalImpl τ) (words : List (BitVec 64)) : R SetRef := do
  debugAssert c (words.length == 0 || words.length == (← ordinalArraySetS I))
  .ok words

/-- `OrdinalSetRef::contains` (set_ref.rs:30-35). -/
def contains (c : Cfg) (I : OrdinalImpl τ) (s : SetRef) (x : τ) : R Bool := do
  match s[(← I.ordinal x) / 64]? with
  | none => .ok false
  | some word => do
    let mask ← shl64 c 1 ((← I.ordinal x) % 64)
    .ok (word &&& mask != 0)

end SetRef

/-! ## `Iter` (set/iter.rs) -/

/-- `struct Iter` (set/iter.rs:8-11). -/
structure SetIter where
  iter : OrdinalValues
  set : SetRef

namespace SetIter

/-- `Iter::new` (set/iter.rs:15-20). -/
def new (I : OrdinalImpl τ) (set : SetRef) : R SetIter := do .ok ⟨← OrdinalValues.new I, set⟩

/-- The `loop` of `Iter::next` (set/iter.rs:28-33). -/
def nextLoop (c : Cfg) (I : OrdinalImpl τ) : Nat → SetIter → R (Option τ × SetIter)
  | 0, _ => .error .diverge
  | fuel + 1, s => do
    match ← OrdinalValues.next I s.iter with
    | (none, it) => .ok (none, ⟨it, s.set⟩)
    | (some next, it) => do
      if ← s.set.contains c I next then .ok (some next, ⟨it, s.set⟩)
      else nextLoop c I fuel ⟨it, s.set⟩

/-- `Iter::next` (set/iter.rs:27-34).  One more round than there are values left. -/
def next (c : Cfg) (I : OrdinalImpl τ) (s : SetIter) : R (Option τ × SetIter) :=
  nextLoop c I (s.iter.len + 1) s

/-- The `loop` of `Iter::next_back` (set/iter.rs:45-50). -/
def nextBackLoop (c : Cfg) (I : OrdinalImpl τ) : Nat → SetIter → R (Option τ × SetIter)
  | 0, _ => .error .diverge
  | fuel + 1, s => do
    match ← OrdinalValues.nextBack I s.iter with
    | (none, it) => .ok (none, ⟨it, s.set⟩)
    | (some next, it) => do
      if ← s.set.contains c I next then .ok (some next, ⟨it, s.set⟩)
      else nextBackLoop c I fuel ⟨it, s.set⟩

/-- `Iter::next_back` (set/iter.rs:44-51). -/
def nextBack (c : Cfg) (I : OrdinalImpl τ) (s : SetIter) : R (Option τ × SetIter) :=
  nextBackLoop c I (s.iter.len + 1) s

/-- The iterator. -/
def it (c : Cfg) (I : OrdinalImpl τ) : DEIter SetIter τ := ⟨next c I, nextBack c I⟩

/-- `Iter::size_hint` (set/iter.rs:37-39). -/
def sizeHint (s : SetIter) : Nat × Option Nat := (0, some s.iter.len)

/-- `Clone for Iter` (set/iter.rs:54-62). -/
def clone (s : SetIter) : SetIter := ⟨s.iter.clone, s.set⟩

end SetIter

/-- `OrdinalSetRef::iter` (set_ref.rs:16-18). -/
def SetRef.iter (I : OrdinalImpl τ) (s : SetRef) : R SetIter := SetIter.new I s

/-! ## `OrdinalSetMut` (set/set_mut.rs) -/

namespace SetMut

/-- `OrdinalSetMut::new` (set_mut.rs:14-20). -/
def new (c : Cfg) (I : OrdinalImpl τ) (words : List (BitVec 64)) : R (List (BitVec 64)) := do
  debugAssert c (words.length == (← ordinalArraySetS I))
  .ok words

/-- `OrdinalSetMut::insert` (set_mut.rs:28-33); returns the written words too. -/
def insert (c : Cfg) (I : OrdinalImpl τ) (words : List (BitVec 64)) (x : τ) :
    R (Bool × List (BitVec 64)) := do
  let r ← SetRef.new c I words
  let prev ← r.contains c I x
  let mask ← shl64 c 1 ((← I.ordinal x) % 64)
  let w ← getIdx words ((← I.ordinal x) / 64)
  let words ← setIdx words ((← I.ordinal x) / 64) (w ||| mask)
  .ok (!prev, words)

end SetMut

/-! ## `OrdinalSet` (set/set.rs) -/

/-- `enum SetImpl` (set.rs:13-16), which is all of `OrdinalSet` (set.rs:26-29). -/
inductive OrdinalSet where
  | small (w : BitVec 64)
  | large (ws : List (BitVec 64))

namespace OrdinalSet

/-- `IS_SMALL` (set.rs:32). -/
def isSmall (I : OrdinalImpl τ) : R Bool := do .ok ((← I.size) ≤ 64)

/-- `OrdinalSet::new` (set.rs:36-45). -/
def new (I : OrdinalImpl τ) : R OrdinalSet := do
  if ← isSmall I then .ok (.small 0) else .ok (.large [])

/-- `Default` (set.rs:90-92). -/
def default (I : OrdinalImpl τ) : R OrdinalSet := new I

/-- `OrdinalSet::as_ref` (set.rs:48-54); `unreachable!()` is a panic. -/
def asRef (c : Cfg) (I : OrdinalImpl τ) (s : OrdinalSet) : R SetRef := do
  match ← isSmall I, s with
  | true, .small w => SetRef.new c I [w]
  | false, .large ws => SetRef.new c I ws
  | _, _ => .error .panic

/-- `OrdinalSet::contains` (set.rs:58-60). -/
def contains (c : Cfg) (I : OrdinalImpl τ) (s : OrdinalSet) (x : τ) : R Bool := do
  (← asRef c I s).contains c I x

/-- The lazy allocation at the start of the `Large` arm of `insert` (set.rs:68-75). -/
def alloc (c : Cfg) (I : OrdinalImpl τ) (ws : List (BitVec 64)) : R (List (BitVec 64)) := do
  if ws.isEmpty then do
    let t ← subU c (← unwrap (checkedAdd c (← I.size) 64)) 1
    .ok (List.replicate (← divU t 64) 0)
  else .ok ws

/-- `OrdinalSet::insert` (set.rs:64-80). -/
def insert (c : Cfg) (I : OrdinalImpl τ) (s : OrdinalSet) (x : τ) : R (Bool × OrdinalSet) := do
  match ← isSmall I, s with
  | true, .small w => do
    let ws ← SetMut.new c I [w]
    let (b, ws) ← SetMut.insert c I ws x
    .ok (b, .small (← getIdx ws 0))
  | false, .large ws => do
    let ws ← alloc c I ws
    let ws ← SetMut.new c I ws
    let (b, ws) ← SetMut.insert c I ws x
    .ok (b, .large ws)
  | _, _ => .error .panic

/-- `OrdinalSet::iter` (set.rs:84-86). -/
def iter (c : Cfg) (I : OrdinalImpl τ) (s : OrdinalSet) : R SetIter := do
  (← asRef c I s).iter I

/-- The loop of `from_iter` (set.rs:98-100) over the items the iterator yields. -/
def extendLoop (c : Cfg) (I : OrdinalImpl τ) : OrdinalSet → List τ → R OrdinalSet
  | s, [] => .ok s
  | s, x :: xs => do
    let (_, s) ← insert c I s x
    extendLoop c I s xs

/-- `FromIterator` (set.rs:96-102). -/
def fromIter (c : Cfg) (I : OrdinalImpl τ) (xs : List τ) : R OrdinalSet := do
  extendLoop c I (← new I) xs

/-- `Clone` (set.rs:106-111). -/
def clone (s : OrdinalSet) : OrdinalSet := s

/-- The operations. -/
def api (c : Cfg) (I : OrdinalImpl τ) : SetApi OrdinalSet τ := ⟨contains c I, insert c I⟩

end OrdinalSet

/-! ## `OrdinalArraySet` (set/array.rs) -/

/-- `struct OrdinalArraySet<T, S>` (array.rs:36-39): `[u64; S]`; the length is kept by every
operation below because `S` only enters through `default`. -/
abbrev OrdinalArraySet := List (BitVec 64)

namespace OrdinalArraySet

/-- `ASSERT` (array.rs:42). -/
def assertS (I : OrdinalImpl τ) (S : Nat) : R Unit := do constAssert (S == (← ordinalArraySetS I))

/-- `Default` (array.rs:78-83); has no `ASSERT`. -/
def default (S : Nat) : R OrdinalArraySet := .ok (List.replicate S 0)

/-- `OrdinalArraySet::new` (array.rs:46-49). -/
def new (I : OrdinalImpl τ) (S : Nat) : R OrdinalArraySet := do
  assertS I S
  default S

/-- `OrdinalArraySet::as_ref` (array.rs:52-55). -/
def asRef (c : Cfg) (I : OrdinalImpl τ) (S : Nat) (s : OrdinalArraySet) : R SetRef := do
  assertS I S
  SetRef.new c I s

/-- `OrdinalArraySet::as_mut` (array.rs:58-61). -/
def asMut (c : Cfg) (I : OrdinalImpl τ) (S : Nat) (s : OrdinalArraySet) : R (List (BitVec 64)) := do
  assertS I S
  SetMut.new c I s

/-- `OrdinalArraySet::contains` (array.rs:65-67). -/
def contains (c : Cfg) (I : OrdinalImpl τ) (S : Nat) (s : OrdinalArraySet) (x : τ) : R Bool := do
  (← asRef c I S s).contains c I x

/-- `OrdinalArraySet::insert` (array.rs:71-73). -/
def insert (c : Cfg) (I : OrdinalImpl τ) (S : Nat) (s : OrdinalArraySet) (x : τ) :
    R (Bool × OrdinalArraySet) := do
  SetMut.insert c I (← asMut c I S s) x

/-- The loop of `from_iter` (array.rs:89-91). -/
def extendLoop (c : Cfg) (I : OrdinalImpl τ) (S : Nat) : OrdinalArraySet → List τ → R OrdinalArraySet
  | s, [] => .ok s
  | s, x :: xs => do
    let (_, s) ← insert c I S s x
    extendLoop c I S s xs

/-- `FromIterator` (array.rs:87-93). -/
def fromIter (c : Cfg) (I : OrdinalImpl τ) (S : Nat) (xs : List τ) : R OrdinalArraySet := do
  extendLoop c I S (← new I S) xs

/-- `Clone` (array.rs:97-102). -/
def clone (s : OrdinalArraySet) : OrdinalArraySet := s

/-- The operations. -/
def api (c : Cfg) (I : OrdinalImpl τ) (S : Nat) : SetApi OrdinalArraySet τ :=
  ⟨contains c I S, insert c I S⟩

end OrdinalArraySet

/-! ## `OrdinalSet64` (set/set64.rs) -/

/-- `struct OrdinalSet64` (set64.rs:74-77). -/
abbrev OrdinalSet64 := BitVec 64

/-- `struct Iter64` (set64.rs:11-14). -/
abbrev Iter64 := BitVec 64

namespace Iter64

/-- `Iter64::next` (set64.rs:20-28). -/
def next (c : Cfg) (I : OrdinalImpl τ) (s : Iter64) : R (Option τ × Iter64) := do
  let ordinal := trailingZeros s
  if ordinal = 64 then .ok (none, s)
  else do
    let s := s &&& ~~~(← shl64 c 1 ordinal)
    let x ← unwrap (← I.fromOrdinal ordinal)
    .ok (some x, s)

/-- `Iter64::next_back` (set64.rs:46-50). -/
def nextBack (c : Cfg) (I : OrdinalImpl τ) (s : Iter64) : R (Option τ × Iter64) :=
  match checkedSub 63 (leadingZeros s) with
  | none => .ok (none, s)
  | some ordinal => do
    let s := s &&& ~~~(← shl64 c 1 ordinal)
    let x ← unwrap (← I.fromOrdinal ordinal)
    .ok (some x, s)

/-- The iterator. -/
def it (c : Cfg) (I : OrdinalImpl τ) : DEIter Iter64 τ := ⟨next c I, nextBack c I⟩

/-- `Iter64::len` (set64.rs:39-41). -/
def len (s : Iter64) : Nat := countOnes s

/-- `Iter64::size_hint` (set64.rs:31-34). -/
def sizeHint (s : Iter64) : Nat × Option Nat := (len s, some (len s))

/-- `Clone for Iter64` (set64.rs:53-61). -/
def clone (s : Iter64) : Iter64 := s

end Iter64

namespace OrdinalSet64

/-- `ASSERT` (set64.rs:80-82). -/
def assert64 (I : OrdinalImpl τ) : R Unit := do constAssert ((← I.size) ≤ 64)

/-- `OrdinalSet64::new` (set64.rs:86-92), also `Default` (set64.rs:135-139). -/
def new (I : OrdinalImpl τ) : R OrdinalSet64 := do
  assert64 I
  .ok 0

/-- `OrdinalSet64::as_ref` (set64.rs:94-96). -/
def asRef (c : Cfg) (I : OrdinalImpl τ) (s : OrdinalSet64) : R SetRef := SetRef.new c I [s]

/-- `OrdinalSet64::all` (set64.rs:100-106). -/
def all (c : Cfg) (I : OrdinalImpl τ) : R OrdinalSet64 := do
  assert64 I
  sub64 c (← shl64 c 1 (← I.size)) 1

/-- `OrdinalSet64::contains` (set64.rs:129-132). -/
def contains (c : Cfg) (I : OrdinalImpl τ) (s : OrdinalSet64) (x : τ) : R Bool := do
  assert64 I
  let mask ← shl64 c 1 (← I.ordinal x)
  .ok (s &&& mask != 0)

/-- `OrdinalSet64::insert` (set64.rs:110-115). -/
def insert (c : Cfg) (I : OrdinalImpl τ) (s : OrdinalSet64) (x : τ) : R (Bool × OrdinalSet64) := do
  assert64 I
  let r := !(← contains c I s x)
  let mask ← shl64 c 1 (← I.ordinal x)
  .ok (r, s ||| mask)

/-- `OrdinalSet64::iter` (set64.rs:119-125). -/
def iter (I : OrdinalImpl τ) (s : OrdinalSet64) : R Iter64 := do
  assert64 I
  .ok s

/-- The loop of `from_iter` (set64.rs:144-146). -/
def extendLoop (c : Cfg) (I : OrdinalImpl τ) : OrdinalSet64 → List τ → R OrdinalSet64
  | s, [] => .ok s
  | s, x :: xs => do
    let mask ← shl64 c 1 (← I.ordinal x)
    extendLoop c I (s ||| mask) xs

/-- `FromIterator` (set64.rs:142-148). -/
def fromIter (c : Cfg) (I : OrdinalImpl τ) (xs : List τ) : R OrdinalSet64 := do
  extendLoop c I (← new I) xs

/-- `Clone` (set64.rs:151-158). -/
def clone (s : OrdinalSet64) : OrdinalSet64 := s

/-- Derived `PartialEq` (set64.rs:73): compares the word. -/
def eq (s t : OrdinalSet64) : Bool := s == t

/-- The operations. -/
def api (c : Cfg) (I : OrdinalImpl τ) : SetApi OrdinalSet64 τ := ⟨contains c I, insert c I⟩

end OrdinalSet64
end OrdinalMap
