import Verif.SpecIter
import Verif.Model.Values
import Verif.Model.Ordinal
import Verif.Model.Set
import Verif.Model.Map
import Verif.Model.MapIter
/-!
# The test-suite of the crate

The helpers of `tests/util.rs` and the bodies of the unit tests, doc tests and quickcheck tests, as
programs over the model.  `.ok ()` is a test that passes, `.error .panic` one that fails.
`quickcheck` runs a test on random inputs; here the input is a parameter.
-/

namespace OrdinalMap.Tests
open OrdinalMap

open Classical in
/-- `assert!` / `assert_eq!`, of anything. -/
noncomputable def check (p : Prop) : R Unit := if p then .ok () else .error .panic

/-- `for x in l { f(x) }` -/
def forEach {ι : Type} (f : ι → R Unit) : List ι → R Unit
  | [] => .ok ()
  | x :: l => do
    f x
    forEach f l

/-- `if b { f }` -/
def onlyIf (b : Prop) [Decidable b] (f : R Unit) : R Unit := if b then f else .ok ()

/-! ## tests/util.rs -/

section
variable {α : Type} (c : Cfg) (I : OrdinalImpl α)

/-- `test_ordinal_value` (tests/util.rs:11-14). -/
noncomputable def testOrdinalValue (value : α) : R Unit := do
  let ordinal ← I.ordinal value
  let v ← unwrap (← I.fromOrdinal ordinal)
  check (value = v)

/-- `test_ordinal_some` (tests/util.rs:16-25). -/
noncomputable def testOrdinalSome : R Unit := do
  let size ← I.size
  onlyIf (size > 0) do
    testOrdinalValue I (← unwrap (← I.fromOrdinal 0))
    testOrdinalValue I (← unwrap (← I.fromOrdinal (size - 1)))
  check ((← I.fromOrdinal size) = none)
  onlyIf (size < usizeMax c) do
    check ((← I.fromOrdinal (usizeMax c)) = none)

/-- `test_ordinal` (tests/util.rs:27-47).  `lt` is `<`.  `all_values()` never yields more than
`ORDINAL_SIZE` values, which bounds `collect`. -/
noncomputable def testOrdinal (lt : α → α → Prop) (expected : List α) : R Unit := do
  forEach (fun p => check (lt p.1 p.2)) (expected.zip (expected.drop 1))
  let size ← I.size
  check (expected.length = size)
  let s ← OrdinalValues.new I
  check (expected = (← (OrdinalValues.iter I).collect (size + 1) s))
  forEach (fun i => do
    let t ← unwrap (← I.fromOrdinal i)
    check (t = (← unwrap expected[i]?))
    check (i = (← I.ordinal t))) (List.range size)
  check ((← I.fromOrdinal size) = none)
  testOrdinalSome c I

end

/-- The loop of `test_exact_size_iterator` (tests/util.rs:75-79). -/
noncomputable def exactSizeLoop {σ ι : Type} (E : ESIter σ ι) : (rem : Nat) → σ → R σ
  | 0, s => .ok s
  | rem + 1, s => do
    check (rem + 1 = E.len s)
    let (o, s) ← E.next s
    check (o.isSome)
    exactSizeLoop E rem s

/-- `test_exact_size_iterator` (tests/util.rs:73-82). -/
noncomputable def testExactSizeIterator {σ ι : Type} (E : ESIter σ ι) (s : σ) : R Unit := do
  let s ← exactSizeLoop E (E.len s) s
  check (0 = E.len s)
  let (o, _) ← E.next s
  check (o.isNone)

/-! ## The controls: `std::collections::HashMap`, `HashSet`, `Vec` -/

section
variable {K V : Type} [DecidableEq K]

/-- `HashMap::get` -/
def hget (m : List (K × V)) (k : K) : Option V := (m.find? fun p => p.1 = k).map (·.2)

/-- `HashMap::insert` -/
def hinsert (m : List (K × V)) (k : K) (v : V) : Option V × List (K × V) :=
  (hget m k, (k, v) :: m.filter fun p => p.1 ≠ k)

/-- `HashMap::from_iter` -/
def hfromIter (ps : List (K × V)) : List (K × V) := ps.foldl (fun m p => (hinsert m p.1 p.2).2) []

/-- `HashMap == HashMap` (std): the same length, and each entry of the first is in the second. -/
def heq (m m' : List (K × V)) : Prop := m.length = m'.length ∧ ∀ p ∈ m, hget m' p.1 = some p.2

/-- `HashSet::insert` -/
def sinsert (m : List K) (x : K) : Bool × List K := (!m.contains x, if m.contains x then m else x :: m)

/-- `Vec::dedup`: removes consecutive repetitions. -/
def dedup : List K → List K
  | [] => []
  | [a] => [a]
  | a :: b :: l => if a = b then dedup (b :: l) else a :: dedup (b :: l)

open Classical in
/-- `values.sort(); values.dedup();` -/
noncomputable def sortDedup (lt : K → K → Prop) (l : List K) : List K :=
  dedup (l.mergeSort fun a b => decide (¬ lt b a))

/-! ## Maps -/

/-- The first loop of `qc` (map/map.rs:210-215, map/array_map.rs:223-228): insert in the map and in the
control, compare the results and the lengths. -/
noncomputable def qcInserts {σ : Type} (insert : σ → K → V → R (Option V × σ)) (len : σ → R Nat) :
    List (K × V) → σ → List (K × V) → R (σ × List (K × V))
  | [], map, control => .ok (map, control)
  | (key, value) :: values, map, control => do
    let (controlInserted, control) := hinsert control key value
    let (inserted, map) ← insert map key value
    check (controlInserted = inserted)
    check (control.length = (← len map))
    qcInserts insert len values map control

/-- `qc` of map/map.rs:206-220. -/
noncomputable def qcMap (c : Cfg) (I : OrdinalImpl K) (sz : Nat) (vs : List (K × V)) (keys : List K) : R Unit := do
  let (map, control) ← qcInserts (OMap.insert c I sz) (OMap.len c I) vs (OMap.new V) []
  forEach (fun key => do check (hget control key = (← OMap.get I map key))) keys

/-- `qc` of map/array_map.rs:218-233. -/
noncomputable def qcArrayMap (c : Cfg) (I : OrdinalImpl K) (vs : List (K × V)) (keys : List K) : R Unit := do
  let map ← OrdinalArrayMap.new V I (← I.size)
  let (map, control) ← qcInserts (OrdinalArrayMap.insert I) (OrdinalArrayMap.len c I) vs map []
  forEach (fun key => do check (hget control key = (← OrdinalArrayMap.get I map key))) keys

/-- `qc_retain` of map/array_map.rs:235-246; a `false` result is a failure. -/
noncomputable def qcRetain (c : Cfg) (I : OrdinalImpl K) (vs : List (K × V)) (retain : List K) : R Unit := do
  let size ← I.size
  let map ← OrdinalArrayMap.fromIter I size vs
  let control := hfromIter vs
  let (map, ()) ← OrdinalArrayMap.retain c I map (fun key v () => .ok (retain.contains key, v, ())) ()
  let control := control.filter fun p => retain.contains p.1
  let ps ← (MapIntoIterArray.it c I).collect (size + 1) (OrdinalArrayMap.intoIter map)
  check (heq control (hfromIter ps))

/-! ## Sets -/

/-- The first loop of `qc_insert` (set/array.rs:122-124, set/set.rs:132-136, 147-151). -/
noncomputable def qcSetInserts {σ : Type} (api : SetApi σ K) : List K → σ → List K → R (σ × List K)
  | [], set, control => .ok (set, control)
  | value :: values, set, control => do
    let (controlInserted, control) := sinsert control value
    let (inserted, set) ← api.insert set value
    check (controlInserted = inserted)
    qcSetInserts api values set control

/-- `qc_insert` (set/array.rs:118-130), `qc_insert_small`, `qc_insert_large` (set/set.rs:128-156). -/
noncomputable def qcSet {σ : Type} (api : SetApi σ K) (new : R σ) (vs keys : List K) : R Unit := do
  let (set, control) ← qcSetInserts api vs (← new) []
  forEach (fun value => do check (control.contains value = (← api.contains set value))) keys

/-- `qc_iter_small`, `qc_iter_large` (set/set.rs:158-172). -/
noncomputable def qcIter (c : Cfg) (I : OrdinalImpl K) (lt : K → K → Prop) (vs : List K) : R Unit := do
  let set ← OrdinalSet.fromIter c I vs
  let it ← OrdinalSet.iter c I set
  check ((← (SetIter.it c I).collect ((← I.size) + 1) it) = sortDedup lt vs)

/-- `qc_iterator` (set/set64.rs:184-190). -/
noncomputable def qcIter64 (c : Cfg) (I : OrdinalImpl K) (lt : K → K → Prop) (vs : List K) : R Unit := do
  let set ← OrdinalSet64.fromIter c I vs
  let it ← OrdinalSet64.iter I set
  check ((← (Iter64.it c I).collect 65 it) = sortDedup lt vs)

/-- `qc_double_ended_iterator` (set/set64.rs:192-198). -/
noncomputable def qcRev64 (c : Cfg) (I : OrdinalImpl K) (lt : K → K → Prop) (vs : List K) : R Unit := do
  let set ← OrdinalSet64.fromIter c I vs
  let it ← OrdinalSet64.iter I set
  check ((← (Iter64.it c I).revCollect 65 it) = (sortDedup lt vs).reverse)

/-- `qc_exact_size_iterator` (set/set64.rs:200-203). -/
noncomputable def qcExactSize64 (c : Cfg) (I : OrdinalImpl K) (vs : List K) : R Unit := do
  let set ← OrdinalSet64.fromIter c I vs
  let it ← OrdinalSet64.iter I set
  testExactSizeIterator ⟨Iter64.it c I, Iter64.len, Iter64.sizeHint⟩ it

end

/-! ## values.rs -/

/-- `test_iter_debug` (values.rs:113-124). -/
noncomputable def testIterDebug (c : Cfg) : R Unit := do
  let I := u8Impl c
  let debug := OrdinalValues.debug I (fun x => toString x.1)
  let iter ← OrdinalValues.new I
  check ("[0..]" = (← debug iter))
  let (o, iter) ← OrdinalValues.next I iter
  let _ ← unwrap o
  check ("[1..]" = (← debug iter))
  let (o, iter) ← OrdinalValues.nextBack I iter
  let _ ← unwrap o
  check ("[1..=254]" = (← debug iter))
  check (254 = OrdinalValues.len iter)
  let (o, iter) ← (OrdinalValues.iter I).nth 252 iter
  let _ ← unwrap o
  check ("[254]" = (← debug iter))

/-- `test_last` (values.rs:126-130). -/
noncomputable def testLast (c : Cfg) : R Unit := do
  let iter ← OrdinalValues.new (u8Impl c)
  check ((← OrdinalValues.last (u8Impl c) iter).map (·.1) = some 255)

/-! ## primitive.rs -/

/-- `test_u32` (primitive.rs:137-146). -/
noncomputable def testU32 (c : Cfg) : R Unit :=
  if c.bits = 64 then do
    let I := u32Impl c
    let iter ← OrdinalValues.new I
    check (2 ^ 32 - 1 + 1 = OrdinalValues.len iter)
    let (o, iter) ← OrdinalValues.next I iter
    check (o.map (·.1) = some 0)
    let (o, iter) ← OrdinalValues.next I iter
    check (o.map (·.1) = some 1)
    let (o, _) ← OrdinalValues.nextBack I iter
    check (o.map (·.1) = some (2 ^ 32 - 1))
  else .ok ()

/-- `test_i32` (primitive.rs:148-156). -/
noncomputable def testI32 (c : Cfg) : R Unit :=
  if c.bits = 64 then do
    let I := i32Impl c
    let iter ← OrdinalValues.new I
    check (2 ^ 32 - 1 + 1 = OrdinalValues.len iter)
    let (o, iter) ← OrdinalValues.next I iter
    check (o.map (·.1) = some (-2 ^ 31))
    let (o, _) ← OrdinalValues.nextBack I iter
    check (o.map (·.1) = some (2 ^ 31 - 1))
  else .ok ()

/-! ## Ranges the tests iterate over -/

/-- `uN::MIN..=uN::MAX` -/
def rangeU (n : Nat) : List (U n) := (List.range (2 ^ n)).filterMap (tryFromU n)

/-- `iN::MIN..=iN::MAX` -/
def rangeS (n : Nat) : List (S n) :=
  (List.range (2 ^ n)).filterMap fun i => checkedAddUnsigned n (-(2 ^ (n - 1))) i

/-- `(1..=uN::MAX).map(|i| NonZeroUN::new(i).unwrap())` -/
def rangeNZU (n : Nat) : List (NZU n) := (rangeU n).filterMap nzuNew

/-- `(iN::MIN..=iN::MAX).filter_map(NonZeroIN::new)` -/
def rangeNZS (n : Nat) : List (NZS n) := (rangeS n).filterMap nzsNew

/-- `(0..=(char::MAX as u32)).filter_map(char::from_u32)` (char.rs:32) -/
def rangeChar : List RChar := (List.range 0x110000).filterMap charFromU32

/-- `test_non_zero_i32`, without its first line (non_zero.rs:243-244), and the same lines for `i64` and
`isize` (258-259, 272-273): `NonZeroI32::new` returns an `Option`, so it is `Option<NonZeroI32>` that
is tested. -/
noncomputable def testPlusMinusOne {n : Nat} (c : Cfg) (I : OrdinalImpl (NZS n)) : R Unit := do
  testOrdinalValue (optionImpl c I) (nzsOfInt n (-1))
  testOrdinalValue (optionImpl c I) (nzsOfInt n 1)

end OrdinalMap.Tests
