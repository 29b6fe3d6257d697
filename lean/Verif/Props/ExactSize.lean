import Verif.Lemmas.Adapt
import Verif.Props.Values
import Verif.Props.Set
import Verif.Props.TotalMap
/-!
# C42, C61: the `ExactSizeIterator`s of the crate and the standard adapters that use the length
-/

namespace OrdinalMap

/-- `OrdinalValues` as an exact-size iterator (values.rs:36-90). -/
def OrdinalValues.es {α : Type} (I : OrdinalImpl α) : ESIter OrdinalValues α :=
  ⟨OrdinalValues.iter I, OrdinalValues.len, OrdinalValues.sizeHint⟩

/-- `OrdinalSet64`'s iterator as an exact-size iterator (set/set64.rs). -/
def Iter64.es {α : Type} (c : Cfg) (I : OrdinalImpl α) : ESIter Iter64 α :=
  ⟨Iter64.it c I, Iter64.len, Iter64.sizeHint⟩

/-- `total::Iter` as an exact-size iterator (total/iter.rs). -/
def TotalIter.es {K V : Type} (c : Cfg) (I : OrdinalImpl K) : ESIter (TotalIter V) (K × V) :=
  ⟨TotalIter.it c I, TotalIter.len, TotalIter.sizeHint⟩

/-- `total::IntoIter` as an exact-size iterator (total/iter.rs). -/
def TotalIntoIter.es {K V : Type} (c : Cfg) (I : OrdinalImpl K) : ESIter (TotalIntoIter V) (K × V) :=
  ⟨TotalIntoIter.it c I, TotalIntoIter.len, TotalIntoIter.sizeHint⟩

/-- `total::IntoIterArray` as an exact-size iterator (total/iter.rs). -/
def TotalIntoIterArray.es {K V : Type} (c : Cfg) (I : OrdinalImpl K) :
    ESIter (TotalIntoIterArray V) (K × V) :=
  ⟨TotalIntoIterArray.it c I, TotalIntoIterArray.len, TotalIntoIterArray.sizeHint⟩

/-- `total::IterMut` as an exact-size iterator (total/iter.rs).  An item is a key and the slot the
`&mut V` points to. -/
def TotalIterMut.es {K V : Type} (c : Cfg) (I : OrdinalImpl K) : ESIter (TotalIterMut V) (K × Nat) :=
  ⟨⟨TotalIterMut.next c I, TotalIterMut.nextBack c I⟩, TotalIterMut.len, TotalIterMut.sizeHint⟩

namespace Props
variable {K V σ ι : Type} {c : Cfg} {I : OrdinalImpl K} {n : Nat}

/-- `len` and both bounds of `size_hint` are the number of items left, whatever calls were made. -/
def ExactFrom (E : ESIter σ ι) (s : σ) (l : List ι) : Prop :=
  BehavesLike E.toDEIter s l (fun rest s => E.LenExact rest s ∧ E.HintExact rest s)

theorem ExactFrom.adapts {E : ESIter σ ι} {s : σ} {l : List ι} (h : ExactFrom E s l) :
    Adapts E s l ∧ AdaptsSkip E s l :=
  ⟨BehavesLike.adapts (BehavesLike.mono h fun _ _ h => h.1),
    fun k => ESIter.skip_behaves (BehavesLike.mono h fun _ _ h => h.2) k⟩

theorem totalIter_exact (L : Lawful c I n) (m : K → V) :
    ExactFrom (TotalIter.es c I) (TotalIter.new (store I n m) 0) (pairsT I n m) :=
  (TotalIter.behaves L (fresh_view L m)).mono fun _ _ h =>
    ⟨h.len (listIter_views V), h.sizeHint (listIter_views V)⟩

theorem totalIntoIter_exact (L : Lawful c I n) (m : K → V) :
    ExactFrom (TotalIntoIter.es c I) (TotalIntoIter.new (store I n m)) (pairsT I n m) :=
  (TotalIntoIter.behaves L (fresh_view L m)).mono fun _ _ h =>
    ⟨h.len (listIter_views V), h.sizeHint (listIter_views V)⟩

/-- Every key with the slot its `&mut V` points to: the value of the `i`-th key is in slot `i`. -/
def keySlots (I : OrdinalImpl K) (n : Nat) : List (K × Nat) := (values I n).zipIdx

theorem slots_eq (L : Lawful c I n) : slots I n = keySlots I n := by
  apply List.ext_getElem
  · simp [slots, keySlots]
  · intro i h1 h2
    have h := congrArg (·[i]?) (values_ords L)
    simp only [slots, List.length_map, values_length L] at h1
    simp [slots, keySlots, values_length L, h1] at h ⊢
    exact h

theorem totalIterMut_exact (L : Lawful c I n) (m : K → V) :
    ExactFrom (TotalIterMut.es c I) (TotalIterMut.new (store I n m)) (keySlots I n) := by
  refine (behavesLike_of (it := (TotalIterMut.es c I).toDEIter)
    (fun ps (s : TotalIterMut V) => MV I n ps s.it) ?_ ?_ ?_).mono
    fun _ _ h => ⟨h.1.len slotIter_views, h.1.sizeHint slotIter_views⟩
  · rintro ⟨mem, it⟩ ps h
    obtain ⟨it', e1, e2⟩ := MV.next L it ps h
    exact ⟨⟨mem, it'⟩, by simp [TotalIterMut.es, TotalIterMut.next, e1], e2⟩
  · rintro ⟨mem, it⟩ ps h
    obtain ⟨it', e1, e2⟩ := MV.nextBack L it ps h
    exact ⟨⟨mem, it'⟩, by simp [TotalIterMut.es, TotalIterMut.nextBack, e1], e2⟩
  · rw [← slots_eq L]
    simp only [TotalIterMut.new, store_length L]; exact fresh_mv L

/-! ## C42 -/

/-- C42 for `all_values()`. -/
theorem C42_values (L : Lawful c I n) :
    ∃ s, OrdinalValues.new I = .ok s ∧ ExactFrom (OrdinalValues.es I) s (values I n) := by
  obtain ⟨s, h1, h2⟩ := C17_len_hint_count_last L
  exact ⟨s, h1, BehavesLike.mono h2 fun _ _ h => ⟨h.1, h.2.1⟩⟩

example := C42_values (char_lawful debug32)

/-- C42 for the iterator of any reachable `OrdinalSet64`. -/
theorem C42_iter64 [DecidableEq K] (L : Lawful c I n) {s : OrdinalSet64} (h : Reach64 c I s) :
    ∃ m, (∀ x, OrdinalSet64.contains c I s x = .ok (m x)) ∧
      ∃ it, OrdinalSet64.iter I s = .ok it ∧ ExactFrom (Iter64.es c I) it (elements I n m) :=
  C22_iter64 L h

example := C42_iter64 (ordering_lawful debug64).1 (.fromIter [.gt, .lt] rfl : Reach64 debug64 orderingImpl 5)

/-- C42 for `iter()`, `iter_mut()` and `into_iter()` of an `OrdinalTotalMap`, after any history. -/
theorem C42_total_map [DecidableEq K] (L : Lawful c I n) {sz : Nat} {s : OrdinalTotalMap V}
    (h : MadeTotal c I sz s) :
    ∃ m : K → V, RunsLike (OrdinalTotalMap.step c I) (TotalSpec.step I n) s m (fun m s =>
      ExactFrom (TotalIter.es c I) (OrdinalTotalMap.iter s) (pairsT I n m) ∧
      ExactFrom (TotalIterMut.es c I) (OrdinalTotalMap.iterMut s) (keySlots I n) ∧
      ExactFrom (TotalIntoIter.es c I) (OrdinalTotalMap.intoIter s) (pairsT I n m)) := by
  obtain ⟨m, rfl⟩ := exists_store L s (madeTotal_length L h)
  refine ⟨m, (totalMap_runs L m).mono ?_⟩
  rintro m s rfl
  exact ⟨totalIter_exact L m, totalIterMut_exact L m, totalIntoIter_exact L m⟩

example := C42_total_map (ordering_lawful debug64).1
  (.new (fun _ r => .ok (r * 10, r + 1)) 1 4 rfl : MadeTotal debug64 orderingImpl 4 [10, 20, 30])

/-- C42 (partial) for `OrdinalTotalArrayMap`, after any history: `iter()` and `iter_mut()` are exact,
and so is the `len` of `into_iter()`.  Its `size_hint` is a bound.  Missing: that it is exact, which is wrong
(`C42_false`). -/
theorem C42_total_array_map_partial [DecidableEq K] (L : Lawful c I n) {S : Nat}
    {s : OrdinalTotalArrayMap V} (h : MadeArray I S s) :
    ∃ m : K → V, RunsLike (OrdinalTotalArrayMap.step c I S) (TotalSpec.step I n) s m (fun m s =>
      ExactFrom (TotalIter.es c I) (OrdinalTotalArrayMap.iter s) (pairsT I n m) ∧
      ExactFrom (TotalIterMut.es c I) (OrdinalTotalArrayMap.iterMut s) (keySlots I n) ∧
      BehavesLike (TotalIntoIterArray.it c I) (OrdinalTotalArrayMap.intoIter s) (pairsT I n m)
        (fun rest it => (TotalIntoIterArray.es c I).LenExact rest it ∧
          (TotalIntoIterArray.sizeHint it).1 ≤ rest.length ∧
          ∀ u, (TotalIntoIterArray.sizeHint it).2 = some u → rest.length ≤ u)) := by
  obtain ⟨rfl, hl⟩ := madeArray_length L h
  obtain ⟨m, rfl⟩ := exists_store L s hl
  refine ⟨m, (totalArrayMap_runs L m).mono ?_⟩
  rintro m s rfl
  exact ⟨totalIter_exact L m, totalIterMut_exact L m,
    (TotalIntoIterArray.behaves L (fresh_view L m)).mono fun rest s h =>
      ⟨h.len (listIter_views V), Nat.zero_le _, nofun⟩⟩

example := C42_total_array_map_partial (ordering_lawful debug64).1
  (.new (fun _ r => .ok (r * 10, r + 1)) 1 4 rfl : MadeArray orderingImpl 3 [10, 20, 30])

/-- C42 is false: `total::IntoIterArray` implements `ExactSizeIterator`, but its `size_hint` is wrong
in every state, even when nothing is left. -/
theorem C42_false (s : TotalIntoIterArray V) :
    TotalIntoIterArray.sizeHint s ≠ (TotalIntoIterArray.len s, some (TotalIntoIterArray.len s)) := by
  simp [TotalIntoIterArray.sizeHint]

example := C42_false (OrdinalTotalArrayMap.intoIter [5, 6])

/-! ## C61 -/

/-- C61 for `all_values()`: `rev`, `take`, `enumerate`, `zip` and `skip`, driven from both ends. -/
theorem C61_values (L : Lawful c I n) :
    ∃ s, OrdinalValues.new I = .ok s ∧
      Adapts (OrdinalValues.es I) s (values I n) ∧ AdaptsSkip (OrdinalValues.es I) s (values I n) := by
  obtain ⟨s, h1, h2⟩ := C42_values L
  exact ⟨s, h1, h2.adapts⟩

example := C61_values (char_lawful debug32)

/-- C61 for the iterator of any reachable `OrdinalSet64`. -/
theorem C61_iter64 [DecidableEq K] (L : Lawful c I n) {s : OrdinalSet64} (h : Reach64 c I s) :
    ∃ m, (∀ x, OrdinalSet64.contains c I s x = .ok (m x)) ∧
      ∃ it, OrdinalSet64.iter I s = .ok it ∧
        Adapts (Iter64.es c I) it (elements I n m) ∧ AdaptsSkip (Iter64.es c I) it (elements I n m) := by
  obtain ⟨m, h1, it, h2, h3⟩ := C42_iter64 L h
  exact ⟨m, h1, it, h2, h3.adapts⟩

example := C61_iter64 (ordering_lawful debug64).1 (.fromIter [.gt, .lt] rfl : Reach64 debug64 orderingImpl 5)

/-- C61 for `OrdinalTotalMap`. -/
theorem C61_total_map [DecidableEq K] (L : Lawful c I n) {sz : Nat} {s : OrdinalTotalMap V}
    (h : MadeTotal c I sz s) :
    ∃ m : K → V, RunsLike (OrdinalTotalMap.step c I) (TotalSpec.step I n) s m (fun m s =>
      (Adapts (TotalIter.es c I) (OrdinalTotalMap.iter s) (pairsT I n m) ∧
        AdaptsSkip (TotalIter.es c I) (OrdinalTotalMap.iter s) (pairsT I n m)) ∧
      (Adapts (TotalIterMut.es c I) (OrdinalTotalMap.iterMut s) (keySlots I n) ∧
        AdaptsSkip (TotalIterMut.es c I) (OrdinalTotalMap.iterMut s) (keySlots I n)) ∧
      (Adapts (TotalIntoIter.es c I) (OrdinalTotalMap.intoIter s) (pairsT I n m) ∧
        AdaptsSkip (TotalIntoIter.es c I) (OrdinalTotalMap.intoIter s) (pairsT I n m))) := by
  obtain ⟨m, h⟩ := C42_total_map L h
  exact ⟨m, h.mono fun _ _ h => ⟨h.1.adapts, h.2.1.adapts, h.2.2.adapts⟩⟩

example := C61_total_map (ordering_lawful debug64).1
  (.new (fun _ r => .ok (r * 10, r + 1)) 1 4 rfl : MadeTotal debug64 orderingImpl 4 [10, 20, 30])

/-- C61 (partial) for `OrdinalTotalArrayMap`.  Missing: `skip` over `into_iter()` from the back, which
panics (`C61_false`). -/
theorem C61_total_array_map_partial [DecidableEq K] (L : Lawful c I n) {S : Nat}
    {s : OrdinalTotalArrayMap V} (h : MadeArray I S s) :
    ∃ m : K → V, RunsLike (OrdinalTotalArrayMap.step c I S) (TotalSpec.step I n) s m (fun m s =>
      (Adapts (TotalIter.es c I) (OrdinalTotalArrayMap.iter s) (pairsT I n m) ∧
        AdaptsSkip (TotalIter.es c I) (OrdinalTotalArrayMap.iter s) (pairsT I n m)) ∧
      (Adapts (TotalIterMut.es c I) (OrdinalTotalArrayMap.iterMut s) (keySlots I n) ∧
        AdaptsSkip (TotalIterMut.es c I) (OrdinalTotalArrayMap.iterMut s) (keySlots I n)) ∧
      Adapts (TotalIntoIterArray.es c I) (OrdinalTotalArrayMap.intoIter s) (pairsT I n m)) := by
  obtain ⟨m, h⟩ := C42_total_array_map_partial L h
  exact ⟨m, h.mono fun _ _ h => ⟨h.1.adapts, h.2.1.adapts,
    BehavesLike.adapts (h.2.2.mono fun _ _ h => h.1)⟩⟩

example := C61_total_array_map_partial (ordering_lawful debug64).1
  (.new (fun _ r => .ok (r * 10, r + 1)) 1 4 rfl : MadeArray orderingImpl 3 [10, 20, 30])

/-- C61 is false for `OrdinalTotalArrayMap::into_iter()`: in every state and for every `k`,
`skip(k).next_back()` panics in the standard library, because the `size_hint` is not exact; so does
the provided `ExactSizeIterator::len` that `peekable()` and `skip(k)` inherit. -/
theorem C61_false (s : TotalIntoIterArray V) (k : Nat) :
    ((TotalIntoIterArray.es c I).skip.nextBack (s, k)).map (·.1) = .error .panic ∧
      providedLen (TotalIntoIterArray.sizeHint s) = .error .panic := ⟨rfl, rfl⟩

example := C61_false (c := debug64) (I := boolImpl) (OrdinalTotalArrayMap.intoIter [5, 6]) 1

/-! ## Concrete cases -/

/-- C42: the fresh `into_iter()` of a map with two values. -/
example : TotalIntoIterArray.len (OrdinalTotalArrayMap.intoIter [5, 6]) = 2 ∧
    TotalIntoIterArray.sizeHint (OrdinalTotalArrayMap.intoIter [5, 6]) = (0, none) := ⟨rfl, rfl⟩

/-- C42, C61: `Ordering` has three values; a map made by `new`; the adapters from both ends. -/
example : Lawful debug64 orderingImpl 3 ∧ MadeTotal debug64 orderingImpl 4 [10, 20, 30] ∧
    MadeArray orderingImpl 3 [10, 20, 30] ∧ Reach64 debug64 orderingImpl 0 ∧
    ((TotalIter.es debug64 orderingImpl).take.run (OrdinalTotalMap.iter [10, 20, 30], 2)
      [.back, .front, .front]).map (·.1) = .ok [some (.eq, 20), some (.lt, 10), none] ∧
    ((TotalIntoIter.es debug64 orderingImpl).skip.run (OrdinalTotalMap.intoIter [10, 20, 30], 1)
      [.back, .back, .back]).map (·.1) = .ok [some (.gt, 30), some (.eq, 20), none] ∧
    ((TotalIntoIterArray.es debug64 orderingImpl).enumerate.run (OrdinalTotalArrayMap.intoIter [10, 20, 30], 0)
      [.back, .front]).map (·.1) = .ok [some (2, .gt, 30), some (0, .lt, 10)] ∧
    ((TotalIter.es debug64 orderingImpl).zip (TotalIntoIterArray.es debug64 boolImpl) |>.run
      (OrdinalTotalMap.iter [10, 20, 30], OrdinalTotalArrayMap.intoIter ["a", "b"])
      [.back, .front, .back]).map (·.1) =
        .ok [some ((.eq, 20), true, "b"), some ((.lt, 10), false, "a"), none] :=
  ⟨(ordering_lawful _).1, .new (fun _ r => .ok (r * 10, r + 1)) 1 4 rfl,
    .new (fun _ r => .ok (r * 10, r + 1)) 1 4 rfl, .new rfl, rfl, rfl, rfl, rfl⟩

end Props
end OrdinalMap
