/-!
# The fields of the types

The other model files say what the functions do; here only the declarations of the types are read, field by field.
From the types of the fields rustc derives the auto traits (`Send`, `Sync`, `Unpin`) and the variance of the
parameters.  The crate has no `unsafe impl`, no negative impl and no impl of an auto trait.
-/

namespace OrdinalMap

/-- The types that matter here.  Lifetimes are numbers: a smaller number is a longer lifetime, 0 is `'static`. -/
inductive RTy where
  /-- a type of the user without lifetimes, whose auto traits are given (`u8`, `Rc<u8>`, `Cell<u8>`, `MutexGuard`, ..) -/
  | user (name : Nat) (send sync unpin : Prop)
  /-- `usize`, `u64`, `Range<usize>`, `AtomicUsize`: `Send`, `Sync`, `Unpin` -/
  | plain
  /-- `&'a T` and `&'a [T]` -/
  | ref (a : Nat) (t : RTy)
  /-- `&'a mut T` and `&'a mut [T]` -/
  | refMut (a : Nat) (t : RTy)
  /-- `fn(T)` -/
  | fn (t : RTy)
  /-- `PhantomData<T>` -/
  | phantom (t : RTy)
  /-- `Option<T>` -/
  | option (t : RTy)
  /-- `[T; N]` -/
  | array (t : RTy)
  /-- `Box<[T]>` -/
  | boxed (t : RTy)
  /-- `std::slice::Iter<'a, T>` -/
  | sliceIter (a : Nat) (t : RTy)
  /-- `std::slice::IterMut<'a, T>` -/
  | sliceIterMut (a : Nat) (t : RTy)
  /-- `std::vec::IntoIter<T>` -/
  | vecIntoIter (t : RTy)
  /-- `std::array::IntoIter<T, N>` -/
  | arrayIntoIter (t : RTy)
  /-- a type with the fields of two (a tuple, a struct of two fields, an enum of two variants) -/
  | both (t u : RTy)

/-- Which auto traits a type has. -/
structure Auto where
  send : Prop
  sync : Prop
  unpin : Prop

/-- The auto traits of a type: those of a compound type are those that all its fields have; references and the types of
std with raw pointers have impls of their own (`unsafe impl<T: Sync> Send for slice::Iter<'_, T>`, and so on). -/
def RTy.auto : RTy → Auto
  | user _ s y u => ⟨s, y, u⟩
  | plain => ⟨True, True, True⟩
  | ref _ t => ⟨t.auto.sync, t.auto.sync, True⟩
  | refMut _ t => ⟨t.auto.send, t.auto.sync, True⟩
  | fn _ => ⟨True, True, True⟩
  | phantom t => t.auto
  | option t => t.auto
  | array t => t.auto
  | boxed t => ⟨t.auto.send, t.auto.sync, True⟩
  | sliceIter _ t => ⟨t.auto.sync, t.auto.sync, True⟩
  | sliceIterMut _ t => ⟨t.auto.send, t.auto.sync, True⟩
  | vecIntoIter t => t.auto
  | arrayIntoIter t => t.auto
  | both t u => ⟨t.auto.send ∧ u.auto.send, t.auto.sync ∧ u.auto.sync, t.auto.unpin ∧ u.auto.unpin⟩

/-- `t` can be used where `u` is expected, because the lifetimes in it are long enough. -/
def RTy.sub : RTy → RTy → Prop
  | user n s y p, user m s' y' p' => n = m ∧ s = s' ∧ y = y' ∧ p = p'
  | plain, plain => True
  | ref a t, ref b u => a ≤ b ∧ t.sub u
  | refMut a t, refMut b u => a ≤ b ∧ t.sub u ∧ u.sub t
  | fn t, fn u => u.sub t
  | phantom t, phantom u => t.sub u
  | option t, option u => t.sub u
  | array t, array u => t.sub u
  | boxed t, boxed u => t.sub u
  | sliceIter a t, sliceIter b u => a ≤ b ∧ t.sub u
  | sliceIterMut a t, sliceIterMut b u => a ≤ b ∧ t.sub u ∧ u.sub t
  | vecIntoIter t, vecIntoIter u => t.sub u
  | arrayIntoIter t, arrayIntoIter u => t.sub u
  | both t u, both t' u' => t.sub t' ∧ u.sub u'
  | _, _ => False
termination_by t u => sizeOf t + sizeOf u

/-- Every reference and borrowing iterator in the type has the lifetime `a` or a longer one (`T: 'a`).  The argument of
`fn(T)` counts too. -/
def RTy.outlives (a : Nat) : RTy → Prop
  | user _ _ _ _ | plain => True
  | ref b t | refMut b t | sliceIter b t | sliceIterMut b t => b ≤ a ∧ t.outlives a
  | fn t | phantom t | option t | array t | boxed t | vecIntoIter t | arrayIntoIter t => t.outlives a
  | both t u => t.outlives a ∧ u.outlives a

namespace RTy

/-! ## The types of the crate -/

/-- `OrdinalValues<T>` (values.rs:20-23). -/
def OrdinalValues (T : RTy) : RTy := both plain (phantom T)

/-- `AtomicOrdinal<T>` (atomic.rs:35-38). -/
def AtomicOrdinal (T : RTy) : RTy := both plain (phantom T)

/-- `OrdinalEnumerate<K, I>` (map/enumerate.rs:5-9). -/
def OrdinalEnumerate (K I : RTy) : RTy := both plain (both I (phantom K))

/-- `total::Iter<'a, K, V>` (map/total/iter.rs:14-16). -/
def TotalIter (a : Nat) (K V : RTy) : RTy := OrdinalEnumerate K (sliceIter a V)

/-- `total::IterMut<'a, K, V>` (map/total/iter.rs:69-71). -/
def TotalIterMut (a : Nat) (K V : RTy) : RTy := OrdinalEnumerate K (sliceIterMut a V)

/-- `total::IntoIterArray<K, V, S>` (map/total/iter.rs:117-119). -/
def TotalIntoIterArray (K V : RTy) : RTy := OrdinalEnumerate K (arrayIntoIter V)

/-- `total::IntoIter<K, V>` (map/total/iter.rs:171-173). -/
def TotalIntoIter (K V : RTy) : RTy := OrdinalEnumerate K (vecIntoIter V)

/-- `OrdinalTotalMap<K, V>` (map/total/map.rs:20-23). -/
def OrdinalTotalMap (K V : RTy) : RTy := both (boxed V) (phantom K)

/-- `OrdinalTotalArrayMap<K, V, S>` (map/total/array_map.rs:40-43). -/
def OrdinalTotalArrayMap (K V : RTy) : RTy := both (array V) (phantom K)

/-- `OrdinalMap<K, V>` (map/map.rs:27-31). -/
def OrdinalMap (K V : RTy) : RTy := both (boxed (option V)) (phantom K)

/-- `OrdinalArrayMap<K, V, S>` (map/array_map.rs:39-41). -/
def OrdinalArrayMap (K V : RTy) : RTy := OrdinalTotalArrayMap K (option V)

/-- `map::Iter<'a, K, V>` (map/iter.rs:11-13). -/
def Iter (a : Nat) (K V : RTy) : RTy := TotalIter a K (option V)

/-- `map::IterMut<'a, K, V>` (map/iter.rs:70-72). -/
def IterMut (a : Nat) (K V : RTy) : RTy := TotalIterMut a K (option V)

/-- `map::Keys<'a, K, V>` (map/iter.rs:124-126). -/
def Keys (a : Nat) (K V : RTy) : RTy := Iter a K V

/-- `map::Values<'a, K, V>` (map/iter.rs:173-175). -/
def Values (a : Nat) (K V : RTy) : RTy := Iter a K V

/-- `ValuesMut<'a, K, V>` (map/iter.rs:222-224). -/
def ValuesMut (a : Nat) (K V : RTy) : RTy := IterMut a K V

/-- `map::Drain<'a, K, V>` (map/iter.rs:268-270). -/
def Drain (a : Nat) (K V : RTy) : RTy := TotalIterMut a K (option V)

/-- `map::IntoIterArray<K, V, S>` (map/iter.rs:313-316). -/
def IntoIterArray (K V : RTy) : RTy := both (TotalIntoIterArray K (option V)) (phantom K)

/-- `map::IntoIter<K, V>` (map/iter.rs:374-376). -/
def IntoIter (K V : RTy) : RTy := TotalIntoIter K (option V)

/-- `OccupiedEntry<'a, K, V>` (map/entry.rs:3-7). -/
def OccupiedEntry (a : Nat) (K V : RTy) : RTy := both K (refMut a (option V))

/-- `VacantEntry<'a, K, V>` (map/entry.rs:11-15). -/
def VacantEntry (a : Nat) (K V : RTy) : RTy := both K (refMut a (option V))

/-- `Entry<'a, K, V>` (map/entry.rs:22-27). -/
def Entry (a : Nat) (K V : RTy) : RTy := both (OccupiedEntry a K V) (VacantEntry a K V)

/-- `SetImpl` (set/set.rs:12-16). -/
def SetImpl : RTy := both plain (boxed plain)

/-- `OrdinalSet<T>` (set/set.rs:26-29). -/
def OrdinalSet (T : RTy) : RTy := both SetImpl (phantom T)

/-- `OrdinalArraySet<T, S>` (set/array.rs:36-39). -/
def OrdinalArraySet (T : RTy) : RTy := both (array plain) (phantom T)

/-- `OrdinalSet64<T>` (set/set64.rs:73-77). -/
def OrdinalSet64 (T : RTy) : RTy := both plain (phantom T)

/-- `Iter64<T>` (set/set64.rs:11-14). -/
def Iter64 (T : RTy) : RTy := both plain (phantom T)

/-- `OrdinalSetRef<'a, T>` (set/set_ref.rs:9-12). -/
def OrdinalSetRef (a : Nat) (T : RTy) : RTy := both (ref a plain) (phantom T)

/-- `set::Iter<'a, T>` (set/iter.rs:8-11). -/
def SetIter (a : Nat) (T : RTy) : RTy := both (OrdinalValues T) (OrdinalSetRef a T)

end RTy

end OrdinalMap
