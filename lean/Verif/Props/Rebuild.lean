import Verif.Props.Consume
/-!
# C64: rebuilding a collection from its own items

`collect()` into a map or set is `from_iter` on the items the iterator yields; the iterators have no
effects outside themselves, so the items may be listed first.
-/

namespace OrdinalMap.Props
open OrdinalMap

variable {K V : Type} {c : Cfg} {I : OrdinalImpl K} {n : Nat} [DecidableEq K]

/-- Collecting `ps` into either kind of sparse map gives a map that behaves like `m` under every
history. -/
def RebuildsMap (c : Cfg) (I : OrdinalImpl K) (n : Nat) (m : K → Option V) (ps : List (K × V)) : Prop :=
  (∀ sz, n * sz ≤ 2 ^ (c.bits - 1) - 1 → ∃ s, OMap.fromIter c I sz ps = .ok s ∧
    RunsLike (OMap.step c I sz) (MapSpec.step I n) s m) ∧
  ∃ s, OrdinalArrayMap.fromIter I n ps = .ok s ∧
    RunsLike (OrdinalArrayMap.step c I) (MapSpec.step I n) s m

/-- Collecting `xs` into any of the three kinds of set gives a set that behaves like `m`. -/
def RebuildsSet (c : Cfg) (I : OrdinalImpl K) (n : Nat) (m : K → Bool) (xs : List K) : Prop :=
  (n + 64 < c.M → ∃ s, OrdinalSet.fromIter c I xs = .ok s ∧ SetBehavesLike (OrdinalSet.api c I) s m) ∧
  (∃ S s, ordinalArraySetS I = .ok S ∧ OrdinalArraySet.fromIter c I S xs = .ok s ∧
    SetBehavesLike (OrdinalArraySet.api c I S) s m) ∧
  (n ≤ 64 → ∃ s, OrdinalSet64.fromIter c I xs = .ok s ∧ SetBehavesLike (OrdinalSet64.api c I) s m)

/-- `it` from `s`, collected forwards or backwards, terminates and gives items for which `P` holds. -/
def Collects {σ ι : Type} (it : DEIter σ ι) (s : σ) (n : Nat) (P : List ι → Prop) : Prop :=
  ∀ fuel, n < fuel →
    (∃ l, it.collect fuel s = .ok l ∧ P l) ∧ ∃ l, it.revCollect fuel s = .ok l ∧ P l

theorem collects_of {σ ι : Type} {it : DEIter σ ι} {s : σ} {l : List ι} {P : List ι → Prop} (h : Yields it s l)
    (hl : l.length ≤ n) (hP : ∀ l', l'.Perm l → P l') : Collects it s n P := fun fuel hf =>
  ⟨⟨_, h.collect fuel (by omega), hP _ (.refl l)⟩, _, h.revCollect fuel (by omega), hP _ (List.reverse_perm l)⟩

theorem lastValue_perm_pairs (L : Lawful c I n) (m : K → Option V) {ps : List (K × V)}
    (h : ps.Perm (pairs I n m)) : lastValue ps = m := by
  funext k
  have hmem : ∀ v, (k, v) ∈ ps ↔ m k = some v := by
    intro v
    rw [h.mem_iff, pairs, List.mem_filterMap]
    constructor
    · rintro ⟨a, -, ha⟩
      cases hm : m a with
      | none => simp [hm] at ha
      | some w => simp [hm] at ha; obtain ⟨rfl, rfl⟩ := ha; exact hm
    · intro hv
      exact ⟨k, mem_values L k, by simp [hv]⟩
  unfold lastValue
  cases hf : ps.reverse.find? fun p => p.1 = k with
  | none =>
    cases hm : m k with
    | none => rfl
    | some v =>
      have := List.find?_eq_none.1 hf (k, v) (List.mem_reverse.2 ((hmem v).2 hm))
      simp at this
  | some p =>
    have h1 := List.mem_reverse.1 (List.mem_of_find?_eq_some hf)
    have h2 : p.1 = k := by simpa using List.find?_some hf
    obtain ⟨a, v⟩ := p
    subst h2
    exact ((hmem v).1 h1).symm

/-- C64, sparse maps: the pairs of a map in any order, collected into either kind of sparse map, give
the same map. -/
theorem C64_pairs (L : Lawful c I n) (m : K → Option V) (ps : List (K × V)) (h : ps.Perm (pairs I n m)) :
    RebuildsMap c I n m ps := by
  obtain ⟨h1, s, h2, -, h3⟩ := C35_from_iter (c := c) L ps
  rw [lastValue_perm_pairs L m h] at h1 h3
  refine ⟨fun sz hsz => ?_, s, h2, h3⟩
  obtain ⟨s, h4, -, h5⟩ := h1 sz hsz
  exact ⟨s, h4, h5⟩

example := C64_pairs (ordering_lawful debug64).1 (fun k => if k = .eq then none else some 5)
  [(.gt, 5), (.lt, 5)] (by decide)

/-- C64, sets: the elements of a set in any order, with or without repetitions, collected into any
kind of set, give the same set. -/
theorem C64_elements (L : Lawful c I n) (m : K → Bool) (xs : List K) (h : ∀ x, x ∈ xs ↔ m x = true) :
    RebuildsSet c I n m xs := by
  have e : (fun x => decide (x ∈ xs)) = m := by
    funext x
    cases hm : m x <;> simp [h, hm]
  refine ⟨fun hfit => ?_, ?_, fun h64 => ?_⟩
  · have := (C18_ordinal_set L hfit).2 xs
    rwa [e] at this
  · obtain ⟨S, h1, -, h2⟩ := C19_ordinal_array_set L
    obtain ⟨s, h3, h4⟩ := h2 xs
    rw [e] at h4
    exact ⟨S, s, h1, h3, h4⟩
  · have := (C20_ordinal_set64 L h64).2 xs
    rwa [e] at this

example := C64_elements (ordering_lawful debug64).1 (fun k => k != .eq) [.gt, .lt, .gt]
  (by intro x; cases x <;> decide)

omit [DecidableEq K] in
theorem pairs_length_le (L : Lawful c I n) (m : K → Option V) : (pairs I n m).length ≤ n := by
  rw [pairs]
  exact Nat.le_trans (List.length_filterMap_le ..) (by rw [values_length L]; exact Nat.le_refl n)

theorem keys_rebuild (L : Lawful c I n) (m : K → Option V) {ks : List K}
    (h : ks.Perm ((pairs I n m).map (·.1))) : RebuildsSet c I n (fun k => (m k).isSome) ks := by
  refine C64_elements L _ _ fun x => ?_
  rw [h.mem_iff, List.mem_map]
  constructor
  · rintro ⟨⟨a, v⟩, h1, rfl⟩
    obtain ⟨b, -, hb⟩ := List.mem_filterMap.1 h1
    cases hm : m b with
    | none => simp [hm] at hb
    | some w => simp [hm] at hb; obtain ⟨rfl, rfl⟩ := hb; simp [hm]
  · intro hx
    obtain ⟨v, hv⟩ := Option.isSome_iff_exists.1 hx
    exact ⟨(x, v), List.mem_filterMap.2 ⟨x, mem_values L x, by simp [hv]⟩, rfl⟩

/-- What collecting the iterators of a sparse map must give. -/
def MapRebuilds {σ : Type} (c : Cfg) (I : OrdinalImpl K) (n : Nat) (m : K → Option V)
    (iter : MapIter V) (intoIt : DEIter σ (K × V)) (intoIter : σ) (drain : Drain V) (keys : Keys V) : Prop :=
  Collects (MapIter.it c I) iter n (RebuildsMap c I n m) ∧
  Collects intoIt intoIter n (RebuildsMap c I n m) ∧
  Collects (Drain.it c I) drain n (RebuildsMap c I n m) ∧
  Collects (Keys.it c I) keys n (RebuildsSet c I n fun k => (m k).isSome)

/-- C64: after any history, `iter()`, `into_iter()` and `drain()` of a sparse map, forwards or
reversed, collect to the same map, of the same or the other kind, and `keys()` to the set of present
keys. -/
theorem C64_maps (L : Lawful c I n) :
    (∀ sz, n * sz ≤ 2 ^ (c.bits - 1) - 1 →
      RunsLike (OMap.step c I sz) (MapSpec.step I n) (OMap.new V) (fun _ => none) (fun m s =>
        MapRebuilds c I n m (OMap.iter s) (MapIntoIter.it c I) (OMap.intoIter s) (OMap.drain s) (OMap.keys s))) ∧
    ∃ s, OrdinalArrayMap.new V I n = .ok s ∧
      RunsLike (OrdinalArrayMap.step c I) (MapSpec.step I n) s (fun _ => none) (fun m s =>
        MapRebuilds c I n m (OrdinalArrayMap.iter s) (MapIntoIterArray.it c I) (OrdinalArrayMap.intoIter s)
          (OrdinalArrayMap.drain s) (OrdinalArrayMap.keys s)) := by
  obtain ⟨h1, s, h2, h3⟩ := C59_maps (V := V) L
  have hk : ∀ m : K → Option V, ((pairs I n m).map (·.1)).length ≤ n := fun m => by
    rw [List.length_map]; exact pairs_length_le L m
  refine ⟨fun sz hsz => (h1 sz hsz).mono ?_, s, h2, h3.mono ?_⟩ <;>
  · rintro m s ⟨y1, y2, -, y3, y4⟩
    exact ⟨collects_of y1 (pairs_length_le L m) fun ps h => C64_pairs L m ps h,
      collects_of y3 (pairs_length_le L m) fun ps h => C64_pairs L m ps h,
      collects_of y4 (pairs_length_le L m) fun ps h => C64_pairs L m ps h,
      collects_of y2 (hk m) fun ks h => keys_rebuild L m h⟩

example := C64_maps (V := Nat) (ordering_lawful debug64).1

omit [DecidableEq K] in
theorem pairs_some (m : K → V) : pairs I n (fun k => some (m k)) = pairsT I n m := by
  simp [pairs, pairsT]

/-- C64: a total map, however made and after any history, collects to the sparse map with the same
value at every key. -/
theorem C64_total (L : Lawful c I n) :
    (∀ {sz : Nat} {s : OrdinalTotalMap V}, MadeTotal c I sz s →
      ∃ m : K → V, RunsLike (OrdinalTotalMap.step c I) (TotalSpec.step I n) s m (fun m s =>
        Collects (TotalIter.it c I) (OrdinalTotalMap.iter s) n (RebuildsMap c I n fun k => some (m k)) ∧
        Collects (TotalIntoIter.it c I) (OrdinalTotalMap.intoIter s) n (RebuildsMap c I n fun k => some (m k)))) ∧
    ∀ {S : Nat} {s : OrdinalTotalArrayMap V}, MadeArray I S s →
      ∃ m : K → V, RunsLike (OrdinalTotalArrayMap.step c I S) (TotalSpec.step I n) s m (fun m s =>
        Collects (TotalIter.it c I) (OrdinalTotalArrayMap.iter s) n (RebuildsMap c I n fun k => some (m k)) ∧
        Collects (TotalIntoIterArray.it c I) (OrdinalTotalArrayMap.intoIter s) n
          (RebuildsMap c I n fun k => some (m k))) := by
  have hl : ∀ m : K → V, (pairsT I n m).length ≤ n := fun m => by rw [← pairs_some]; exact pairs_length_le L _
  have hp : ∀ (m : K → V) ps, ps.Perm (pairsT I n m) → RebuildsMap c I n (fun k => some (m k)) ps :=
    fun m ps h => C64_pairs L _ ps (by rwa [pairs_some])
  obtain ⟨h1, h2⟩ := C59_total (V := V) (c := c) (I := I) L
  constructor
  · intro sz s h
    obtain ⟨m, h3⟩ := h1 h
    refine ⟨m, h3.mono ?_⟩
    rintro m s ⟨y1, y2, -⟩
    exact ⟨collects_of y1 (hl m) (hp m), collects_of y2 (hl m) (hp m)⟩
  · intro S s h
    obtain ⟨m, h3⟩ := h2 h
    refine ⟨m, h3.mono ?_⟩
    rintro m s ⟨y1, y2, -⟩
    exact ⟨collects_of y1 (hl m) (hp m), collects_of y2 (hl m) (hp m)⟩

example := C64_total (V := Nat) (ordering_lawful debug64).1

/-- C64: after any history, iterating an `OrdinalSet` or a reachable `OrdinalSet64` and collecting into
any kind of set gives the same set. -/
theorem C64_sets (L : Lawful c I n) (xs : List K) :
    (0 < n → n + 64 < c.M → ∃ s, OrdinalSet.fromIter c I xs = .ok s ∧
      SetBehavesLike (OrdinalSet.api c I) s (fun x => decide (x ∈ xs)) (fun m s =>
        ∃ it, OrdinalSet.iter c I s = .ok it ∧ Collects (SetIter.it c I) it n (RebuildsSet c I n m))) ∧
    ∀ s, Reach64 c I s → ∃ m, (∀ x, OrdinalSet64.contains c I s x = .ok (m x)) ∧
      ∃ it, OrdinalSet64.iter I s = .ok it ∧ Collects (Iter64.it c I) it n (RebuildsSet c I n m) := by
  have hl : ∀ m : K → Bool, (elements I n m).length ≤ n := fun m =>
    Nat.le_trans (List.length_filter_le ..) (by rw [values_length L]; exact Nat.le_refl n)
  have hp : ∀ (m : K → Bool) ys, ys.Perm (elements I n m) → RebuildsSet c I n m ys := fun m ys h =>
    C64_elements L m ys fun x => by rw [h.mem_iff]; exact (C21_elements_spec L m).1 x
  obtain ⟨h1, h2⟩ := C59_sets (c := c) L xs
  constructor
  · intro hpos hfit
    obtain ⟨s, h3, h4⟩ := h1 hpos hfit
    refine ⟨s, h3, h4.mono ?_⟩
    rintro m s ⟨it, h5, y⟩
    exact ⟨it, h5, collects_of y (hl m) (hp m)⟩
  · intro s h
    obtain ⟨m, h3, it, h4, y⟩ := h2 s h
    exact ⟨m, h3, it, h4, collects_of y (hl m) (hp m)⟩

example := C64_sets (ordering_lawful debug64).1 [.gt, .lt]

/-- C64 on `OrdinalMap<Ordering, u32>` without `Equal`: reversed iteration collected into an
`OrdinalArrayMap`, and the keys into an `OrdinalSet64`. -/
example : Lawful debug64 orderingImpl 3 ∧
    (do OrdinalArrayMap.fromIter orderingImpl 3
          (← (MapIter.it debug64 orderingImpl).revCollect 4 (OMap.iter [some 7, none, some 6]))) =
      .ok [some 7, none, some 6] ∧
    (do OrdinalSet64.fromIter debug64 orderingImpl
          (← (Keys.it debug64 orderingImpl).collect 4 (OMap.keys [some 7, none, some 6]))) = .ok 0b101 :=
  ⟨(ordering_lawful _).1, rfl, rfl⟩

end OrdinalMap.Props
