import Verif.Lemmas.Consume
import Verif.Props.Values
import Verif.Props.Set
import Verif.Props.Map
import Verif.Props.TotalMap
/-!
# C59: consuming iterators

`Yields it s l` (SpecIter.lean): `collect`, `rev().collect()`, `count`, `last`, `find`, `try_fold`,
`try_rfold`, `nth` and `nth_back` terminate without fault and do what they do on a list, and a partly
consumed iterator goes on as it should.
-/

namespace OrdinalMap.Props
open OrdinalMap

/-- C59: for any iterator that answers `next`/`next_back` like a deque. -/
theorem C59_generic {σ ι : Type} {it : DEIter σ ι} {s : σ} {l : List ι} {obs : List ι → σ → Prop}
    (h : BehavesLike it s l obs) : Yields it s l := h.yields

example := C59_generic (C16_all_values (ordering_lawful debug64).1).choose_spec.2

variable {K V : Type} {c : Cfg} {I : OrdinalImpl K} {n : Nat}

/-- C59, `all_values()`. -/
theorem C59_values (L : Lawful c I n) :
    ∃ s, OrdinalValues.new I = .ok s ∧ Yields (OrdinalValues.iter I) s (values I n) := by
  obtain ⟨s, h1, h2⟩ := C16_all_values L
  exact ⟨s, h1, h2.yields⟩

example := C59_values (char_lawful debug64)

variable [DecidableEq K]

/-- C59, set iterators: `OrdinalSet` and `OrdinalSet64` after any history. -/
theorem C59_sets (L : Lawful c I n) (xs : List K) :
    (0 < n → n + 64 < c.M → ∃ s, OrdinalSet.fromIter c I xs = .ok s ∧
      SetBehavesLike (OrdinalSet.api c I) s (fun x => decide (x ∈ xs)) (fun m s =>
        ∃ it, OrdinalSet.iter c I s = .ok it ∧ Yields (SetIter.it c I) it (elements I n m))) ∧
    ∀ s, Reach64 c I s → ∃ m, (∀ x, OrdinalSet64.contains c I s x = .ok (m x)) ∧
      ∃ it, OrdinalSet64.iter I s = .ok it ∧ Yields (Iter64.it c I) it (elements I n m) := by
  constructor
  · intro hpos hfit
    obtain ⟨s, h1, h2⟩ := C21_iter L hpos hfit xs
    exact ⟨s, h1, h2.mono fun m s ⟨it, h3, h4⟩ => ⟨it, h3, h4.yields⟩⟩
  · intro s h
    obtain ⟨m, h1, it, h2, h3⟩ := C22_iter64 L h
    exact ⟨m, h1, it, h2, h3.yields⟩

example := C59_sets (u8_lawful debug32).1 [⟨200, by decide⟩, ⟨7, by decide⟩]

/-- C59, sparse maps after any history: `iter`, `keys`, `values`, `into_iter`, `drain`. -/
theorem C59_maps (L : Lawful c I n) :
    (∀ sz, n * sz ≤ 2 ^ (c.bits - 1) - 1 →
      RunsLike (OMap.step c I sz) (MapSpec.step I n) (OMap.new V) (fun _ => none) (fun m s =>
        Yields (MapIter.it c I) (OMap.iter s) (pairs I n m) ∧
        Yields (Keys.it c I) (OMap.keys s) ((pairs I n m).map (·.1)) ∧
        Yields (Values.it c I) (OMap.values s) ((pairs I n m).map (·.2)) ∧
        Yields (MapIntoIter.it c I) (OMap.intoIter s) (pairs I n m) ∧
        Yields (Drain.it c I) (OMap.drain s) (pairs I n m))) ∧
    ∃ s, OrdinalArrayMap.new V I n = .ok s ∧
      RunsLike (OrdinalArrayMap.step c I) (MapSpec.step I n) s (fun _ => none) (fun m s =>
        Yields (MapIter.it c I) (OrdinalArrayMap.iter s) (pairs I n m) ∧
        Yields (Keys.it c I) (OrdinalArrayMap.keys s) ((pairs I n m).map (·.1)) ∧
        Yields (Values.it c I) (OrdinalArrayMap.values s) ((pairs I n m).map (·.2)) ∧
        Yields (MapIntoIterArray.it c I) (OrdinalArrayMap.intoIter s) (pairs I n m) ∧
        Yields (Drain.it c I) (OrdinalArrayMap.drain s) (pairs I n m)) := by
  constructor
  · intro sz hsz ops
    obtain ⟨s', e, h⟩ := OMap.runs_new (V := V) L hsz ops
    have hg := iterGood_of L h
    exact ⟨s', e, hg.1.yields, hg.2.1.yields, hg.2.2.yields, (MapIntoIter.behaves L (h.sview L)).yields,
      (Drain.behaves L (DView.start L h)).yields⟩
  · refine ⟨_, OrdinalArrayMap.new_eq L, (OrdinalArrayMap.runs L _).mono ?_⟩
    rintro m s rfl
    have h : Stored I n true m (store I n m) := .inl ⟨rfl, rfl⟩
    have hg := iterGood_of L h
    exact ⟨hg.1.yields, hg.2.1.yields, hg.2.2.yields, (MapIntoIterArray.behaves L (h.sview L)).yields,
      (Drain.behaves L (DView.start L h)).yields⟩

example := C59_maps (V := Nat) (ordering_lawful debug64).1

/-- C59, total maps however made and after any history: `iter`, `into_iter`, `keys`, `values`. -/
theorem C59_total (L : Lawful c I n) :
    (∀ {sz : Nat} {s : OrdinalTotalMap V}, MadeTotal c I sz s →
      ∃ m : K → V, RunsLike (OrdinalTotalMap.step c I) (TotalSpec.step I n) s m (fun m s =>
        Yields (TotalIter.it c I) (OrdinalTotalMap.iter s) (pairsT I n m) ∧
        Yields (TotalIntoIter.it c I) (OrdinalTotalMap.intoIter s) (pairsT I n m) ∧
        (∃ it, OrdinalTotalMap.keys I s = .ok it ∧ Yields (OrdinalValues.iter I) it (values I n)) ∧
        Yields (listIter V).it (OrdinalTotalMap.values s) ((values I n).map m))) ∧
    ∀ {S : Nat} {s : OrdinalTotalArrayMap V}, MadeArray I S s →
      ∃ m : K → V, RunsLike (OrdinalTotalArrayMap.step c I S) (TotalSpec.step I n) s m (fun m s =>
        Yields (TotalIter.it c I) (OrdinalTotalArrayMap.iter s) (pairsT I n m) ∧
        Yields (TotalIntoIterArray.it c I) (OrdinalTotalArrayMap.intoIter s) (pairsT I n m) ∧
        (∃ it, OrdinalTotalArrayMap.keys I s = .ok it ∧ Yields (OrdinalValues.iter I) it (values I n)) ∧
        Yields (listIter V).it (OrdinalTotalArrayMap.values s) ((values I n).map m)) := by
  constructor
  · intro sz s h
    obtain ⟨m, h1⟩ := C41_total_map L h
    refine ⟨m, h1.mono ?_⟩
    rintro m s ⟨⟨h2, ⟨it, h3, h4⟩, -, h5, -⟩, h6⟩
    exact ⟨h2.yields, h6.yields, ⟨it, h3, h4.yields⟩, h5.yields⟩
  · intro S s h
    obtain ⟨m, h1⟩ := C41_total_array_map L h
    refine ⟨m, h1.mono ?_⟩
    rintro m s ⟨⟨h2, ⟨it, h3, h4⟩, -, h5, -⟩, h6⟩
    exact ⟨h2.yields, h6.yields, ⟨it, h3, h4.yields⟩, h5.yields⟩

example := C59_total (V := Nat) (ordering_lawful debug64).1

/-- Concrete consumers: `Ordering::all_values()` and a sparse map without `Equal`. -/
example :
    (OrdinalValues.iter orderingImpl).collect 4 ⟨0, 3⟩ = .ok [.lt, .eq, .gt] ∧
    (OrdinalValues.iter orderingImpl).revCollect 4 ⟨0, 3⟩ = .ok [.gt, .eq, .lt] ∧
    (OrdinalValues.iter orderingImpl).nth 1 ⟨0, 3⟩ = .ok (some .eq, ⟨2, 3⟩) ∧
    (MapIter.it debug64 orderingImpl).collect 3 (OMap.iter [some 7, none, some 6]) = .ok [(.lt, 7), (.gt, 6)] ∧
    (MapIter.it debug64 orderingImpl).count 3 (OMap.iter [some 7, none, some 6]) = .ok 2 ∧
    (MapIter.it debug64 orderingImpl).last 3 (OMap.iter [some 7, none, some 6]) = .ok (some (.gt, 6)) ∧
    ((MapIter.it debug64 orderingImpl).nthBack 1 (OMap.iter [some 7, none, some 6])).map (·.1) =
      .ok (some (.lt, 7)) ∧
    ((MapIter.it debug64 orderingImpl).find (fun p => p.2 < 7) 3 (OMap.iter [some 7, none, some 6])).map (·.1) =
      .ok (some (.gt, 6)) :=
  ⟨rfl, rfl, rfl, rfl, rfl, rfl, rfl, rfl⟩

end OrdinalMap.Props
