import Verif.Lemmas.ArrayView
import Verif.Props.TotalMap
/-!
# C63: the array views of `OrdinalTotalArrayMap`

`ArrayOp` and `ArraySpec.step` are in SpecMap.lean.
-/

namespace OrdinalMap.Props
open OrdinalMap

variable {K V : Type} {c : Cfg} {I : OrdinalImpl K} {n : Nat}

/-- How an `OrdinalTotalArrayMap<K, V, ORDINAL_SIZE>` comes about: by a constructor or from an array
`[V; ORDINAL_SIZE]`. -/
inductive MadeArrayOf (I : OrdinalImpl K) (n : Nat) : OrdinalTotalArrayMap V → Prop
  | made {S : Nat} {s : OrdinalTotalArrayMap V} (h : MadeArray I S s) : MadeArrayOf I n s
  | fromArray (a : List V) (ha : a.length = n) {s : OrdinalTotalArrayMap V}
      (h : OrdinalTotalArrayMap.fromArray a = .ok s) : MadeArrayOf I n s

theorem madeArrayOf_length (L : Lawful c I n) {s : OrdinalTotalArrayMap V} (h : MadeArrayOf I n s) :
    s.length = n := by
  cases h with
  | made h => exact (madeArray_length L h).2
  | fromArray a ha h => cases h; exact ha

/-- C63: under every history that mixes the map operations with reads and writes of single elements
of `values_array_mut`, replacing the whole array, `from_array(permuted into_values())`, writes
through `as_mut` and reads of `as_ref`, the map behaves like a function from keys to values; and
after every history element `k.ordinal()` of `values_array`, of what `values_array_mut` points to and
of `into_values` is the value of `k`, and there are exactly `n` elements. -/
theorem C63_array_views [DecidableEq K] (L : Lawful c I n) {s : OrdinalTotalArrayMap V}
    (h : MadeArrayOf I n s) :
    ∃ m : K → V, RunsLike (OrdinalTotalArrayMap.arrayStep c I n) (ArraySpec.step I n) s m (fun m s =>
      (∀ k, OrdinalTotalArrayMap.get I s k = .ok (m k)) ∧
      ∀ a, a = OrdinalTotalArrayMap.valuesArray s ∨ a = (OrdinalTotalArrayMap.valuesArrayMut s).1 ∨
          a = OrdinalTotalArrayMap.intoValues s →
        a.length = n ∧ ∀ k i, I.ordinal k = .ok i → a[i]? = some (m k)) := by
  obtain ⟨m, rfl⟩ := exists_store L s (madeArrayOf_length L h)
  refine ⟨m, (runsLike_of (fun m s => s = store I n m) (OrdinalTotalArrayMap.arrayStep_rel L) rfl).mono ?_⟩
  rintro m s rfl
  refine ⟨OrdinalTotalArrayMap_get L m, fun a ha => ?_⟩
  obtain rfl : a = store I n m := by rcases ha with rfl | rfl | rfl <;> rfl
  refine ⟨store_length L m, fun k i hi => ?_⟩
  obtain rfl : ordOf I k = i := by have := L.ordinal_eq k; rw [hi] at this; cases this; rfl
  exact store_get L m k

example := C63_array_views (V := Nat) (ordering_lawful debug64).1 (.fromArray [10, 20, 30] rfl rfl)

/-- C63, storing a whole array through `values_array_mut` leaves exactly the map `from_array` makes of
that array. -/
theorem C63_assign (s : OrdinalTotalArrayMap V) (a : List V) :
    OrdinalTotalArrayMap.fromArray a = .ok ((OrdinalTotalArrayMap.valuesArrayMut s).2 a) := rfl

/-- C63, what `ofArray` means: the value at `k` is the element at `k.ordinal()`. -/
theorem C63_spec_meaning [DecidableEq K] (L : Lawful c I n) (vs : List V) (hv : vs.length = n) (m : K → V)
    (k : K) (i : Nat) (hi : I.ordinal k = .ok i) : vs[i]? = some (ofArray I n vs m k) := by
  obtain ⟨m', rfl⟩ := exists_store L vs hv
  obtain rfl : ordOf I k = i := by have := L.ordinal_eq k; rw [hi] at this; cases this; rfl
  rw [ofArray_store L]
  exact store_get L m' k

example := C63_spec_meaning (ordering_lawful debug64).1 [10, 20, 30] rfl (fun _ => 0) .eq 1 rfl

/-- C63 on `OrdinalTotalArrayMap<Ordering, u32, 3>`: reverse the array, write one element, replace the
whole array, write through `as_mut`. -/
example : Lawful debug64 orderingImpl 3 ∧ MadeArrayOf orderingImpl 3 [10, 20, 30] ∧
    runOps (OrdinalTotalArrayMap.arrayStep debug64 orderingImpl 3) [10, 20, 30]
      [.permute Fin.rev, .writeAt 1 5, .readAt 0, .total (.get .eq)] =
      .ok ([.unit, .opt (some 20), .opt (some 30), .opt (some 5)], [30, 5, 10]) ∧
    runOps (OrdinalTotalArrayMap.arrayStep debug64 orderingImpl 3) [10, 20, 30]
      [.assign [1, 2, 3] rfl, .asMut [(.gt, 7), (.lt, 8), (.gt, 9)], .asRef .gt] =
      .ok ([.vals [some 10, some 20, some 30], .unit, .opt (some 9)], [8, 2, 9]) :=
  ⟨(ordering_lawful _).1, .fromArray [10, 20, 30] rfl rfl, rfl, rfl⟩

end OrdinalMap.Props
