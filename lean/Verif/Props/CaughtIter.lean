import Verif.Lemmas.CaughtDrift
import Verif.Props.Caught
import Verif.Props.Set
/-!
# C89: iterators after caught panics

An iterator can be used again after `next` or `next_back` panicked in the key type and the panic was caught.  C89:
nothing worse than panics ever happens, and no item comes twice.  The iterators of `OrdinalValues` and the sets lose
at most the item of the call that panicked.  The iterators of the maps lose the pair if the call was `next_back`; but
`next` has then taken a value and no key, so from there on each key comes with the value of the next key.
-/

namespace OrdinalMap.Props
open OrdinalMap

variable {σ K V : Type} {c : Cfg} {I : OrdinalImpl K} {J : SImpl σ K} {n : Nat} [DecidableEq K]

omit [DecidableEq K] in
/-- C89 for `iter()` and `into_iter()` of the total maps.  `len()` is exact at all times. -/
theorem C89_total_iter (L : Lawful c I n) (H : Honest J I) {sz : Nat} {s : List V}
    (h : MadeTotal c I sz s ∨ MadeArray I n s) : ∃ m : K → V, (∀ k, OrdinalTotalMap.get I s k = .ok (m k)) ∧
    RunsCaught (Caught.call (Caught.enumNext c J (listIter V)) (Caught.enumNextBack c J (listIter V))) Deque.step
      Pairing.after (fun _ => False) (TotalIter.new s 0) (pairsT I n m)
      (fun ps it => TotalIter.len it = ps.length ∧ TotalIter.sizeHint it = (ps.length, some ps.length)) := by
  obtain ⟨m, rfl⟩ := exists_store L s (h.elim (madeTotal_length L) fun h => (madeArray_length L h).2)
  refine ⟨m, OrdinalTotalMap_get L m, (call_total L H (listIter_views V) (fresh_view L m)).obs fun ps it h => ?_⟩
  have := EView.len (listIter_views V) h
  exact ⟨this, by rw [← this]; rfl⟩

example := C89_total_iter (bool_lawful debug64).1 moodyImpl_honest
  (.inl (.new (fun _ r => .ok (r * 10, r + 1)) 1 3 rfl) : MadeTotal debug64 boolImpl 4 [10, 20] ∨ _)

omit [DecidableEq K] in
/-- C89, which value comes with which key, total maps: after `f` calls of `next` that panicked, each key comes with the
value of the key `f` further on. -/
theorem C89_total_keys (L : Lawful c I n) (H : Honest J I) {sz : Nat} {s : List V}
    (h : MadeTotal c I sz s ∨ MadeArray I n s) : ∃ m : K → V, (∀ k, OrdinalTotalMap.get I s k = .ok (m k)) ∧
    ∀ ds st, ∃ es st' q,
      Caught.run (Caught.call (Caught.enumNext c J (listIter V)) (Caught.enumNextBack c J (listIter V))) ds
        (st, TotalIter.new s 0) = (.ok es, (st', q)) ∧
      ∀ (j : Nat) k v, es[j]? = some (.returned (some (k, v))) → ∃ i k', I.ordinal k = .ok i ∧
        I.ordinal k' = .ok (i + frontPanics (ds.take j) (es.take j)) ∧ v = m k' := by
  obtain ⟨m, rfl⟩ := exists_store L s (h.elim (madeTotal_length L) fun h => (madeArray_length L h).2)
  refine ⟨m, OrdinalTotalMap_get L m, fun ds st => ?_⟩
  obtain ⟨es, st', q, r, h1, h2, _⟩ := call_total (c := c) L H (listIter_views V) (fresh_view L m) ds st
  exact ⟨es, st', q, h1, fun j k v => drift_total h2 (Drift.fresh L m) j k v⟩

example := C89_total_keys (bool_lawful debug64).1 moodyImpl_honest
  (.inl (.new (fun _ r => .ok (r * 10, r + 1)) 1 3 rfl) : MadeTotal debug64 boolImpl 4 [10, 20] ∨ _)

/-- The items of an iterator over a sparse map: none if it is not allocated, otherwise all keys, with or without a
value. -/
def SparseItems (I : OrdinalImpl K) (n : Nat) (m : K → Option V) (ps : List (K × Option V)) : Prop :=
  (ps = [] ∧ ∀ k, m k = none) ∨ ps = pairsT I n m

/-- What C89 says of `iter()` and `into_iter()` of a sparse map. -/
def IterCaught (c : Cfg) (I : OrdinalImpl K) (J : SImpl σ K) (n : Nat) (m : K → Option V) (it : MapIter V) : Prop :=
  (∃ ps, SparseItems I n m ps ∧
    RunsCaught (Caught.call (Caught.mapNext c J) (Caught.mapNextBack c J)) Sparse.step Sparse.after (fun _ => False)
      it ps (fun ps it => MapIter.sizeHint it = (0, some ps.length))) ∧
  ∀ ds st, ∃ es st' q, Caught.run (Caught.call (Caught.mapNext c J) (Caught.mapNextBack c J)) ds (st, it) =
      (.ok es, (st', q)) ∧
    ∀ (j : Nat) k v, es[j]? = some (.returned (some (k, v))) → ∃ i k', I.ordinal k = .ok i ∧
      I.ordinal k' = .ok (i + frontPanics (ds.take j) (es.take j)) ∧ m k' = some v

omit [DecidableEq K] in
theorem iterCaught_of (L : Lawful c I n) (H : Honest J I) {b : Bool} {m : K → Option V} {s : List (Option V)}
    (h : Stored I n b m s) : IterCaught c I J n m (TotalIter.new s 0) := by
  have key : ∃ ps, SparseItems I n m ps ∧ Drift I m 0 ps ∧ EView I n (fun l s => s = l) ps (TotalIter.new s 0) := by
    rcases h with ⟨_, rfl⟩ | ⟨_, rfl, rfl⟩
    · exact ⟨_, .inr rfl, Drift.fresh L m, fresh_view L m⟩
    · exact ⟨[], .inl ⟨rfl, fun _ => rfl⟩, Drift.nil _, empty_view⟩
  obtain ⟨ps, h1, h2, h3⟩ := key
  refine ⟨⟨ps, h1, (call_map L H h3).obs fun ps it h => ?_⟩, fun ds st => ?_⟩
  · have := EView.len (listIter_views (Option V)) h
    rw [← this]; rfl
  · obtain ⟨es, st', q, r, g1, g2, _⟩ := call_map (c := c) L H h3 ds st
    exact ⟨es, st', q, g1, fun j k v => drift_sparse g2 h2 j k v⟩

/-- C89 for `iter()` and `into_iter()` of the sparse maps, after any history. -/
theorem C89_map_iter (L : Lawful c I n) (H : Honest J I) :
    (∀ sz, n * sz ≤ 2 ^ (c.bits - 1) - 1 →
      RunsLike (OMap.step c I sz) (MapSpec.step I n) (OMap.new V) (fun _ => none) (fun m s =>
        IterCaught c I J n m (OMap.iter s) ∧ IterCaught c I J n m (OMap.intoIter s))) ∧
    ∃ s, OrdinalArrayMap.new V I n = .ok s ∧
      RunsLike (OrdinalArrayMap.step c I) (MapSpec.step I n) s (fun _ => none) (fun m s =>
        IterCaught c I J n m (OrdinalArrayMap.iter s) ∧ IterCaught c I J n m (OrdinalArrayMap.intoIter s)) := by
  refine ⟨fun sz hsz ops => ?_, _, OrdinalArrayMap.new_eq L, ?_⟩
  · obtain ⟨s', h1, h2⟩ := OMap.runs_new L hsz ops
    exact ⟨s', h1, iterCaught_of L H h2, iterCaught_of L H h2⟩
  · refine (OrdinalArrayMap.runs L _).mono fun m s h => ?_
    subst h
    exact ⟨iterCaught_of L H (b := true) (.inl ⟨rfl, rfl⟩), iterCaught_of L H (b := true) (.inl ⟨rfl, rfl⟩)⟩

example := C89_map_iter (V := Nat) (bool_lawful debug64).1 moodyImpl_honest

/-- C89 for `iter_mut()`.  An item is a key with a reference to the value of some key, which is its own as long as no
`next` panicked; no two items refer to the same value, and the values do not change. -/
theorem C89_iter_mut (L : Lawful c I n) (H : Honest J I) :
    (∀ sz (s : List V), MadeTotal c I sz s ∨ MadeArray I n s →
      RunsCaught (Caught.call (Caught.mutNext c J) (Caught.mutNextBack c J)) Deque.step Pairing.after (fun _ => False)
        (TotalIterMut.new s) ((values I n).zip (List.range n))
        (fun ps it => it.mem = s ∧ TotalIterMut.len it = ps.length)) ∧
    (∀ sz, n * sz ≤ 2 ^ (c.bits - 1) - 1 →
      RunsLike (OMap.step c I sz) (MapSpec.step I n) (OMap.new V) (fun _ => none) (fun m s =>
        ∃ ps, SparseItems I n (fun k => (m k).map fun _ => ordOf I k) ps ∧
          RunsCaught (Caught.call (Caught.mapMutNext c J) (Caught.mapMutNextBack c J)) Sparse.step Sparse.after
            (fun _ => False) (OMap.iterMut s) ps (fun _ it => it.mem = s))) ∧
    ∃ s, OrdinalArrayMap.new V I n = .ok s ∧
      RunsLike (OrdinalArrayMap.step c I) (MapSpec.step I n) s (fun _ => none) (fun m s =>
        ∃ ps, SparseItems I n (fun k => (m k).map fun _ => ordOf I k) ps ∧
          RunsCaught (Caught.call (Caught.mapMutNext c J) (Caught.mapMutNextBack c J)) Sparse.step Sparse.after
            (fun _ => False) (OrdinalArrayMap.iterMut s) ps (fun _ it => it.mem = s)) := by
  have slots : ∀ {W : Type} (m : K → W), EView I n SlotView (pairsT I n (ordOf I)) (TotalIterMut.new (store I n m)).it := by
    intro W m
    have hl : (store I n m).length = n := by simp [store, values_length L]
    refine ⟨⟨Nat.zero_le _, ?_⟩, ?_, ?_⟩
    · simp only [TotalIterMut.new, Enumerate.new, hl, Nat.sub_zero, pairsT, List.map_map]
      rw [← List.range_eq_range', ← values_ords L]; rfl
    · simp [TotalIterMut.new, Enumerate.new, pairsT, values_length L]
    · have := slice_full (values I n)
      rw [values_length L] at this
      simp only [TotalIterMut.new, Enumerate.new, pairsT, List.map_map, List.length_map, values_length L, Nat.zero_add]
      rw [this]; simp [Function.comp_def]
  have sparse : ∀ {b : Bool} {m : K → Option V} {s : List (Option V)}, Stored I n b m s →
      ∃ ps, SparseItems I n (fun k => (m k).map fun _ => ordOf I k) ps ∧ MutView I n s ps (TotalIterMut.new s) := by
    intro b m s h
    rcases h with ⟨_, rfl⟩ | ⟨_, rfl, rfl⟩
    · refine ⟨_, .inr rfl, rfl, _, slots m, fun q hq => ?_, ?_⟩
      · obtain ⟨k, _, rfl⟩ := List.mem_map.1 hq
        simp only [store, List.length_map, values_length L]
        exact L.ord_lt k
      · simp only [pairsT, List.map_map]
        refine List.map_congr_left fun k _ => ?_
        simp [slotItem, store_get L]
    · refine ⟨[], .inl ⟨rfl, fun _ => rfl⟩, rfl, [], ⟨⟨Nat.le_refl _, rfl⟩, Nat.zero_le _, ?_⟩, by simp, rfl⟩
      simp [TotalIterMut.new, Enumerate.new, slice]
  refine ⟨fun sz s h => ?_, fun sz hsz ops => ?_, _, OrdinalArrayMap.new_eq L, ?_⟩
  · obtain ⟨m, rfl⟩ := exists_store L s (h.elim (madeTotal_length L) fun h => (madeArray_length L h).2)
    have e : (values I n).zip (List.range n) = pairsT I n (ordOf I) := by
      rw [← values_ords L, pairsT]
      induction values I n with
      | nil => rfl
      | cons a l ih => simp [ih]
    rw [e]
    refine (call_totalMut L H (mem := store I n m) ⟨rfl, slots m⟩).obs fun ps it h => ⟨h.1, ?_⟩
    exact EView.len slotIter_views h.2
  · obtain ⟨s', h1, h2⟩ := OMap.runs_new L hsz ops
    obtain ⟨ps, h3, h4⟩ := sparse h2
    exact ⟨s', h1, ps, h3, (call_mapMut L H h4).obs fun _ _ h => h.1⟩
  · refine (OrdinalArrayMap.runs L _).mono fun m s h => ?_
    subst h
    obtain ⟨ps, h3, h4⟩ := sparse (b := true) (m := m) (.inl ⟨rfl, rfl⟩)
    exact ⟨ps, h3, (call_mapMut L H h4).obs fun _ _ h => h.1⟩

example := C89_iter_mut (V := Nat) (bool_lawful debug64).1 moodyImpl_honest

omit [DecidableEq K] in
/-- C89 for `OrdinalValues`: exactly the items of the calls that panicked are lost. -/
theorem C89_values (L : Lawful c I n) (H : Honest J I) : ∃ r, OrdinalValues.new I = .ok r ∧
    RunsCaught (Caught.call (Caught.valuesNext J) (Caught.valuesNextBack J)) Deque.step Lossy.after (fun _ => False) r
      (values I n) (fun l r => OrdinalValues.len r = l.length) := by
  obtain ⟨r, h1, h2⟩ := OrdinalValues.new_view L
  exact ⟨r, h1, (call_values L H h2).obs fun l r h => OrdinalValues.view_len L h⟩

example := C89_values (bool_lawful debug64).1 moodyImpl_honest

/-- C89 for the sets, after any history.  A call on `OrdinalSet::iter()` also loses nothing if it was the key type's
`ordinal` or `from_ordinal` of a value that is not a member that panicked; `OrdinalSet64::iter()` asks for members
only. -/
theorem C89_set_iter (L : Lawful c I n) (H : Honest J I) :
    (0 < n → n + 64 < c.M → ∀ xs : List K, ∃ s, OrdinalSet.fromIter c I xs = .ok s ∧
      SetBehavesLike (OrdinalSet.api c I) s (fun x => decide (x ∈ xs)) (fun m s =>
        ∃ it, OrdinalSet.iter c I s = .ok it ∧
          RunsCaught (Caught.call (Caught.setNext c J) (Caught.setNextBack c J)) Deque.step Lossy.afterSome
            (fun _ => False) it (elements I n m) (fun rest it =>
              (SetIter.sizeHint it).1 ≤ rest.length ∧ ∃ hi, (SetIter.sizeHint it).2 = some hi ∧ rest.length ≤ hi))) ∧
    ∀ s, Reach64 c I s → ∃ m, (∀ x, OrdinalSet64.contains c I s x = .ok (m x)) ∧
      ∃ it, OrdinalSet64.iter I s = .ok it ∧
        RunsCaught (Caught.call (Caught.iter64Next c J) (Caught.iter64NextBack c J)) Deque.step Lossy.after
          (fun _ => False) it (elements I n m) (fun rest it =>
            Iter64.len it = rest.length ∧ Iter64.sizeHint it = (rest.length, some rest.length)) := by
  refine ⟨fun hpos hfit xs => ?_, fun s h => ?_⟩
  · obtain ⟨s, h1, h2⟩ := OrdinalSet.fromIter_view L hfit xs
    refine ⟨s, h1, (OrdinalSet.behaves L hfit h2).mono fun m s h => ?_⟩
    obtain ⟨ws, it, h3, h4⟩ := OrdinalSet.iter_view L h (.inl hpos)
    exact ⟨it, h3, (call_set L H h4).obs fun _ _ h => SetIter.sizeHint_view L h⟩
  · obtain ⟨hn, m, hm⟩ := reach64_view L h
    refine ⟨m, OrdinalSet64.contains_view L hn hm, s, by simp [OrdinalSet64.iter, OrdinalSet64.assert64_ok L hn], ?_⟩
    refine (call_iter64 L H hn (Iter64.view_of_set hm)).obs fun rest it h => ?_
    have := Iter64.len_view L hn h
    exact ⟨this, by simp [Iter64.sizeHint, this]⟩

example := C89_set_iter (bool_lawful debug64).1 moodyImpl_honest

/-- No key comes twice. -/
def KeysOnce {s ι : Type} (call : Dir → Upd σ s (Ended (Option (K × ι)))) (it : s) : Prop :=
  ∀ ds st es p, Caught.run call ds (st, it) = (.ok es, p) → ((yielded es).map (·.1)).Nodup

/-- No slot comes twice. -/
def SlotsOnce {s : Type} (call : Dir → Upd σ s (Ended (Option (K × Nat)))) (it : s) : Prop :=
  ∀ ds st es p, Caught.run call ds (st, it) = (.ok es, p) → ((yielded es).map (·.2)).Nodup

omit [DecidableEq K] in
theorem pairsT_keys (m : K → V) : (pairsT I n m).map (·.1) = values I n := by
  simp [pairsT, List.map_map, Function.comp_def]

omit [DecidableEq K] in
theorem run_like {s ι μ : Type} {call : Dir → Upd σ s (Ended (Option ι))} {spec : μ → Dir → Option ι × μ}
    {after : μ → Dir → μ → Prop} {x : s} {m : μ} {P : μ → s → Prop}
    (h : RunsCaught call spec after (fun _ => False) x m P) {ds : List Dir} {st : σ}
    {es : List (Ended (Option ι))} {p : σ × s} (hr : Caught.run call ds (st, x) = (.ok es, p)) :
    ∃ r, CaughtLike spec after (fun _ => False) m ds es r := by
  obtain ⟨es', st', q, r, h1, h2, _⟩ := h ds st
  rw [hr] at h1
  cases h1
  exact ⟨r, h2⟩

omit [DecidableEq K] in
theorem keysOnce_sparse (L : Lawful c I n) {s : Type} {call : Dir → Upd σ s (Ended (Option (K × V)))} {it : s}
    {m : K → Option V} {ps : List (K × Option V)} {P : List (K × Option V) → s → Prop} (h : SparseItems I n m ps)
    (hr : RunsCaught call Sparse.step Sparse.after (fun _ => False) it ps P) : KeysOnce call it := by
  intro ds st es p e
  obtain ⟨r, h2⟩ := run_like hr e
  refine (distinct_sparse h2).1 ?_
  rcases h with ⟨rfl, _⟩ | rfl
  · exact .nil
  · rw [pairsT_keys]; exact values_nodup L

omit [DecidableEq K] in
theorem slotsOnce_sparse (L : Lawful c I n) {s : Type} {call : Dir → Upd σ s (Ended (Option (K × Nat)))} {it : s}
    {m : K → Option V} {ps : List (K × Option Nat)} {P : List (K × Option Nat) → s → Prop}
    (h : SparseItems I n (fun k => (m k).map fun _ => ordOf I k) ps)
    (hr : RunsCaught call Sparse.step Sparse.after (fun _ => False) it ps P) : SlotsOnce call it := by
  intro ds st es p e
  obtain ⟨r, h2⟩ := run_like hr e
  refine (distinct_sparse h2).2 ?_
  rcases h with ⟨rfl, _⟩ | rfl
  · exact .nil
  · have e1 : (pairsT I n fun k => (m k).map fun _ => ordOf I k).filterMap (·.2) =
        ((values I n).filter fun k => (m k).isSome).map (ordOf I) := by
      rw [pairsT]
      induction values I n with
      | nil => rfl
      | cons k l ih =>
        rcases hm : m k with _ | v
        · simpa [hm] using ih
        · simpa [hm] using ih
    rw [e1]
    have : ((values I n).map (ordOf I)).Nodup := by rw [values_ords L]; exact List.nodup_range
    exact ((List.filter_sublist (l := values I n)).map _).nodup this

/-- C89, no item comes twice.  For `iter_mut()` this means that no two of the `&mut` references it has handed out are to
the same value, also if some of its calls panicked. -/
theorem C89_distinct (L : Lawful c I n) (H : Honest J I) :
    (∀ sz (s : List V), MadeTotal c I sz s ∨ MadeArray I n s →
      KeysOnce (Caught.call (Caught.enumNext c J (listIter V)) (Caught.enumNextBack c J (listIter V)))
        (TotalIter.new s 0) ∧
      KeysOnce (Caught.call (Caught.mutNext c J) (Caught.mutNextBack c J)) (TotalIterMut.new s) ∧
      SlotsOnce (Caught.call (Caught.mutNext c J) (Caught.mutNextBack c J)) (TotalIterMut.new s)) ∧
    (∀ sz, n * sz ≤ 2 ^ (c.bits - 1) - 1 →
      RunsLike (OMap.step c I sz) (MapSpec.step I n) (OMap.new V) (fun _ => none) (fun _ s =>
        KeysOnce (Caught.call (Caught.mapNext c J) (Caught.mapNextBack c J)) (OMap.iter s) ∧
        KeysOnce (Caught.call (Caught.mapMutNext c J) (Caught.mapMutNextBack c J)) (OMap.iterMut s) ∧
        SlotsOnce (Caught.call (Caught.mapMutNext c J) (Caught.mapMutNextBack c J)) (OMap.iterMut s))) ∧
    (∃ s, OrdinalArrayMap.new V I n = .ok s ∧
      RunsLike (OrdinalArrayMap.step c I) (MapSpec.step I n) s (fun _ => none) (fun _ s =>
        KeysOnce (Caught.call (Caught.mapNext c J) (Caught.mapNextBack c J)) (OrdinalArrayMap.iter s) ∧
        KeysOnce (Caught.call (Caught.mapMutNext c J) (Caught.mapMutNextBack c J)) (OrdinalArrayMap.iterMut s) ∧
        SlotsOnce (Caught.call (Caught.mapMutNext c J) (Caught.mapMutNextBack c J)) (OrdinalArrayMap.iterMut s))) ∧
    (0 < n → n + 64 < c.M → ∀ xs : List K, ∃ s, OrdinalSet.fromIter c I xs = .ok s ∧
      SetBehavesLike (OrdinalSet.api c I) s (fun x => decide (x ∈ xs)) (fun _ s =>
        ∃ it, OrdinalSet.iter c I s = .ok it ∧ ∀ ds st es p,
          Caught.run (Caught.call (Caught.setNext c J) (Caught.setNextBack c J)) ds (st, it) = (.ok es, p) →
          (yielded es).Nodup)) := by
  obtain ⟨m1, m2, s2, m3, m4⟩ := C89_iter_mut (V := V) L H
  obtain ⟨i1, s3, i2, i3⟩ := C89_map_iter (V := V) L H
  rw [m3] at i2
  cases i2
  refine ⟨fun sz s h => ⟨?_, ?_, ?_⟩, fun sz hsz ops => ?_, ⟨s2, m3, fun ops => ?_⟩, fun hpos hfit xs => ?_⟩
  · intro ds st es p e
    obtain ⟨m, _, hr⟩ := C89_total_iter L H h
    obtain ⟨r, h2⟩ := run_like hr e
    exact (distinct_pairs h2).1 (by rw [pairsT_keys]; exact values_nodup L)
  · intro ds st es p e
    obtain ⟨r, h2⟩ := run_like (m1 sz s h) e
    exact (distinct_pairs h2).1 ((zip_fst_sublist _ _).nodup (values_nodup L))
  · intro ds st es p e
    obtain ⟨r, h2⟩ := run_like (m1 sz s h) e
    exact (distinct_pairs h2).2 ((zip_snd_sublist _ _).nodup List.nodup_range)
  · obtain ⟨s', g1, ⟨⟨ps, g2, g3⟩, _⟩, _⟩ := i1 sz hsz ops
    obtain ⟨s'', j1, ps', j2, j3⟩ := m2 sz hsz ops
    rw [g1] at j1
    cases j1
    exact ⟨s', g1, keysOnce_sparse L g2 g3, keysOnce_sparse L j2 j3, slotsOnce_sparse L j2 j3⟩
  · obtain ⟨s', g1, ⟨⟨ps, g2, g3⟩, _⟩, _⟩ := i3 ops
    obtain ⟨s'', j1, ps', j2, j3⟩ := m4 ops
    rw [g1] at j1
    cases j1
    exact ⟨s', g1, keysOnce_sparse L g2 g3, keysOnce_sparse L j2 j3, slotsOnce_sparse L j2 j3⟩
  · obtain ⟨s, h1, h2⟩ := (C89_set_iter L H).1 hpos hfit xs
    refine ⟨s, h1, h2.mono fun m s ⟨it, h3, h4⟩ => ⟨it, h3, fun ds st es p e => ?_⟩⟩
    obtain ⟨r, h5⟩ := run_like h4 e
    exact distinct_lossy h5 (List.filter_sublist.nodup (values_nodup L))

example := C89_distinct (V := Nat) (bool_lawful debug64).1 moodyImpl_honest

omit [DecidableEq K] in
/-- C89, panics come from the key type only: for every implementation, honest or not, a call returns here exactly when
it returns in the model of C80, with the same item, iterator and calls. -/
theorem C89_agrees (J : SImpl σ K) :
    (∀ (it : TotalIter V) d, AgreesWith it
      (Caught.call (Caught.enumNext c J (listIter V)) (Caught.enumNextBack c J (listIter V)) d)
      (match d with | .front => Eff.enumNext c J (listIter V) it | .back => Eff.enumNextBack c J (listIter V) it)) ∧
    (∀ (it : MapIter V) d, AgreesWith it (Caught.call (Caught.mapNext c J) (Caught.mapNextBack c J) d)
      (match d with | .front => Eff.mapNext c J it | .back => Eff.mapNextBack c J it)) ∧
    (∀ (it : TotalIterMut V) d, AgreesWith it (Caught.call (Caught.mutNext c J) (Caught.mutNextBack c J) d)
      (match d with | .front => Eff.mutNext c J it | .back => Eff.mutNextBack c J it)) ∧
    (∀ (it : MapIterMut V) d, AgreesWith it (Caught.call (Caught.mapMutNext c J) (Caught.mapMutNextBack c J) d)
      (match d with | .front => Eff.mapMutNext c J it | .back => Eff.mapMutNextBack c J it)) ∧
    (∀ r d, AgreesWith r (Caught.call (Caught.valuesNext J) (Caught.valuesNextBack J) d)
      (match d with | .front => Eff.valuesNext J r | .back => Eff.valuesNextBack J r)) ∧
    (∀ it d, AgreesWith it (Caught.call (Caught.setNext c J) (Caught.setNextBack c J) d)
      (match d with | .front => Eff.setNext c J it | .back => Eff.setNextBack c J it)) ∧
    ∀ w d, AgreesWith w (Caught.call (Caught.iter64Next c J) (Caught.iter64NextBack c J) d)
      (match d with | .front => Eff.iter64Next c J w | .back => Eff.iter64NextBack c J w) := by
  refine ⟨fun it d => ?_, fun it d => ?_, fun it d => ?_, fun it d => ?_, fun it d => ?_, fun it d => ?_,
    fun it d => ?_⟩ <;> cases d
  · exact (same_enumNext _ it).caught
  · exact (same_enumNextBack _ it).caught
  · exact (same_mapNext it).caught
  · exact (same_mapNextBack it).caught
  · exact (same_mutNext it).caught
  · exact (same_mutNextBack it).caught
  · exact (same_mapMutNext it).caught
  · exact (same_mapMutNextBack it).caught
  · exact (same_valuesNext it).caught
  · exact (same_valuesNextBack it).caught
  · exact (same_setNext it).caught
  · exact (same_setNextBack it).caught
  · exact (same_iter64Next it).caught
  · exact (same_iter64NextBack it).caught

example := C89_agrees (V := Nat) (c := debug64) moodyImpl

/-- The same implementation, except that the first call of `from_ordinal` panics. -/
def lateImpl (I : OrdinalImpl K) : SImpl Bool K where
  size := I.size
  ordinal k := fun st => (I.ordinal k, st)
  fromOrdinal i := fun st => (if st then I.fromOrdinal i else .error .panic, true)

omit [DecidableEq K] in
theorem lateImpl_honest (I : OrdinalImpl K) : Honest (lateImpl I) I := by
  refine ⟨rfl, fun k st => .inl rfl, fun i st => ?_⟩
  cases st
  · exact .inr rfl
  · exact .inl rfl

omit [DecidableEq K] in
/-- C89, the pairs do get mixed up, for every key type of two or more values and every total map: if the first call of
`next` panics, the second returns the first key with the value of the second key. -/
theorem C89_misaligned (L : Lawful c I n) {sz : Nat} {s : List V} (h : MadeTotal c I sz s ∨ MadeArray I n s) {k k' : K}
    (h0 : I.ordinal k = .ok 0) (h1 : I.ordinal k' = .ok 1) : ∃ v p, OrdinalTotalMap.get I s k' = .ok v ∧
      Caught.run (Caught.call (Caught.enumNext c (lateImpl I) (listIter V))
        (Caught.enumNextBack c (lateImpl I) (listIter V))) [.front, .front] (false, TotalIter.new s 0) =
        (.ok [.panicked, .returned (some (k, v))], p) := by
  obtain ⟨m, rfl⟩ := exists_store L s (h.elim (madeTotal_length L) fun h => (madeArray_length L h).2)
  have e1 : ordOf I k' = 1 := by have := L.ordinal_eq k'; rw [h1] at this; exact (Except.ok.inj this).symm
  have e0 : ordOf I k = 0 := by have := L.ordinal_eq k; rw [h0] at this; exact (Except.ok.inj this).symm
  have g0 := store_get L m k
  have g1 := store_get L m k'
  rw [e0] at g0
  rw [e1] at g1
  have hM : 1 < c.M := by have := L.ord_lt k'; have := L.fits; omega
  obtain ⟨l, hl⟩ : ∃ l, store I n m = m k :: m k' :: l := by
    match hs : store I n m with
    | [] => simp [hs] at g0
    | [a] => simp [hs] at g1
    | a :: b :: l => rw [hs] at g0 g1; simp at g0 g1; exact ⟨l, by rw [g0, g1]⟩
  have hf : I.fromOrdinal 0 = .ok (some k) := by
    obtain ⟨i, _, g1, g2⟩ := L.ordinal k
    rw [h0] at g1
    rw [Except.ok.inj g1]; exact g2
  refine ⟨m k', (true, ⟨1, l⟩), OrdinalTotalMap_get L m k', ?_⟩
  rw [hl]
  have ha : addU c 0 1 = .ok 1 := by simp [addU, hM]
  simp [Caught.run, Caught.call, Caught.catchUnwind, Caught.enumNext, M.bind_apply, Upd.read, Upd.write, Upd.user,
    TotalIter.new, Enumerate.new, listIter, lateImpl, hf, ha, unwrap, M.of]

example := C89_misaligned (bool_lawful debug64).1 (k := false) (k' := true)
  (.inl (.new (fun _ r => .ok (r * 10, r + 1)) 1 3 rfl) : MadeTotal debug64 boolImpl 4 [10, 20] ∨ _) rfl rfl

/-! ## Concrete histories -/

-- The second call panics, in `next`: `false` had come, the value of `true` is lost.
example : Caught.run (Caught.call (Caught.enumNext debug64 moodyImpl (listIter Nat))
    (Caught.enumNextBack debug64 moodyImpl (listIter Nat))) [.front, .front, .front] (4, TotalIter.new [10, 20] 0) =
    (.ok [.returned (some (false, 10)), .panicked, .returned none], (2, ⟨1, []⟩)) := by rfl
-- The first call panics: `false` comes with the value of `true`.
example : Caught.run (Caught.call (Caught.mapNext debug64 moodyImpl)
    (Caught.mapNextBack debug64 moodyImpl)) [.front, .back, .front] (3, OMap.iter [none, some (20 : Nat)]) =
    (.ok [.panicked, .returned (some (false, 20)), .returned none], (1, ⟨0, []⟩)) := by rfl
-- `next_back` panics: the pair of `true` is lost, that of `false` is as it should be.
example : Caught.run (Caught.call (Caught.mapNext debug64 moodyImpl)
    (Caught.mapNextBack debug64 moodyImpl)) [.back, .front] (3, OMap.iter [some 10, some (20 : Nat)]) =
    (.ok [.panicked, .returned (some (false, 10))], (1, ⟨1, []⟩)) := by rfl
-- `OrdinalSet64`: `false` is lost.
example : Caught.run (Caught.call (Caught.iter64Next debug64 moodyImpl)
    (Caught.iter64NextBack debug64 moodyImpl)) [.front, .back] (3, 3) =
    (.ok [.panicked, .returned (some true)], (1, 0)) := by rfl

end OrdinalMap.Props
