import Verif.Lemmas.CloneOwn
import Verif.Lemmas.Clone
import Verif.Props.TotalMap
/-!
# C99: cloning calls `V::clone` once per value, and a panic in it loses and leaks nothing

`cl` is `V::clone`: it has state, and `none` is a panic.  The statements hold after every history.
-/

namespace OrdinalMap.Props
open OrdinalMap

variable {K V ρ : Type} {c : Cfg} {I : OrdinalImpl K} {n : Nat}

theorem stored_clones [DecidableEq K] (L : Lawful c I n) (cl : V → ρ → Option V × ρ) {b : Bool} {m : K → Option V}
    {s : List (Option V)} (h : Stored I n b m s) {f : ρ → Cloned (Option V) (List (Option V)) ρ}
    (hf : ∀ r, f r = CloneOwn.outcome (cloneRun (CloneOwn.option cl) s r) []) :
    ClonesLike cl ((pairs I n m).map (·.2)) (fun r => CloneOwn.values (f r)) (fun ws t =>
      ∃ m' : K → Option V, pairs I n m' = ((pairs I n m).map (·.1)).zip ws ∧ Stored I n b m' t) := by
  have key := CloneOwn.values_clones cl s (CloneOwn.outcome_clones (CloneOwn.option cl) s hf)
  rcases h with ⟨rfl, rfl⟩ | ⟨rfl, rfl, rfl⟩
  · rw [CloneOwn.store_filterMap] at key
    refine CloneOwn.ClonesLike.mono key ?_
    rintro ws t - ⟨os, rfl, h2, rfl⟩
    obtain ⟨m', rfl, h3⟩ := CloneOwn.store_clone L m h2
    exact ⟨m', h3, .inl ⟨rfl, rfl⟩⟩
  · rw [pairs_none]
    refine CloneOwn.ClonesLike.mono key ?_
    rintro ws t - ⟨os, rfl, h2, rfl⟩
    obtain rfl : t = [] := by simpa using h2
    exact ⟨fun _ => none, by simp [pairs_none], .inr ⟨rfl, rfl, rfl⟩⟩

/-- C99 for the sparse maps. -/
theorem C99_maps [DecidableEq K] (L : Lawful c I n) (cl : V → ρ → Option V × ρ) :
    (∀ sz, n * sz ≤ 2 ^ (c.bits - 1) - 1 →
      RunsLike (OMap.step c I sz) (MapSpec.step I n) (OMap.new V) (fun _ => none) (fun m s =>
        ClonesLike cl ((pairs I n m).map (·.2)) (CloneOwn.omap cl s) (fun ws t =>
          ∃ m' : K → Option V, pairs I n m' = ((pairs I n m).map (·.1)).zip ws ∧
            RunsLike (OMap.step c I sz) (MapSpec.step I n) t m'))) ∧
    ∃ s, OrdinalArrayMap.new V I n = .ok s ∧
      RunsLike (OrdinalArrayMap.step c I) (MapSpec.step I n) s (fun _ => none) (fun m s =>
        ClonesLike cl ((pairs I n m).map (·.2)) (CloneOwn.arrayMap cl s) (fun ws t =>
          ∃ m' : K → Option V, pairs I n m' = ((pairs I n m).map (·.1)).zip ws ∧
            RunsLike (OrdinalArrayMap.step c I) (MapSpec.step I n) t m')) := by
  constructor
  · intro sz hsz ops
    obtain ⟨s', h1, h2⟩ := OMap.runs_new L hsz ops
    refine ⟨s', h1, CloneOwn.ClonesLike.mono (stored_clones L cl h2 (fun r => CloneOwn.toVecLoop_eq _ _ [] r)) ?_⟩
    rintro ws t - ⟨m', h3, h4⟩
    refine ⟨m', h3, fun ops => ?_⟩
    obtain ⟨t', h5, _⟩ := OMap.runs L hsz h4 ops
    exact ⟨t', h5, trivial⟩
  · refine ⟨_, OrdinalArrayMap.new_eq L, (OrdinalArrayMap.runs L _).mono ?_⟩
    rintro m s rfl
    refine CloneOwn.ClonesLike.mono (stored_clones L cl (b := true) (.inl ⟨rfl, rfl⟩) (fun r => CloneOwn.array_eq _ _ r)) ?_
    rintro ws t - ⟨m', h3, h4⟩
    obtain ⟨-, rfl⟩ | ⟨h, -⟩ := h4
    · exact ⟨m', h3, (OrdinalArrayMap.runs L m').mono fun _ _ _ => trivial⟩
    · cases h

/-- `{Less: 5, Greater: 6}`, where `V::clone` numbers the clones and panics at the third. -/
example : CloneOwn.omap numberedClone [some 5, none, some 6] 0 = ⟨some [some 50, none, some 61], [], 2⟩ := rfl
example : CloneOwn.omap numberedClone [some 5, none, some 6] 1 = ⟨none, [51], 2⟩ := rfl
example : CloneOwn.arrayMap numberedClone [some 5, none, some 6] 1 = ⟨none, [51], 2⟩ := rfl

example := C99_maps (ordering_lawful debug64).1 numberedClone

/-- C99 for the total maps. -/
theorem C99_total_maps [DecidableEq K] (L : Lawful c I n) (cl : V → ρ → Option V × ρ) (vs : List V) (hvs : vs.length = n) :
    ∃ m0 : K → V, (∀ k, OrdinalTotalMap.get I vs k = .ok (m0 k)) ∧
      RunsLike (OrdinalTotalMap.step c I) (TotalSpec.step I n) vs m0 (fun m s =>
        ClonesLike cl ((pairsT I n m).map (·.2)) (CloneOwn.totalMap cl s) (fun ws t =>
          ∃ m' : K → V, pairsT I n m' = (values I n).zip ws ∧
            RunsLike (OrdinalTotalMap.step c I) (TotalSpec.step I n) t m')) ∧
      RunsLike (OrdinalTotalArrayMap.step c I n) (TotalSpec.step I n) vs m0 (fun m s =>
        ClonesLike cl ((pairsT I n m).map (·.2)) (CloneOwn.totalArrayMap cl s) (fun ws t =>
          ∃ m' : K → V, pairsT I n m' = (values I n).zip ws ∧
            RunsLike (OrdinalTotalArrayMap.step c I n) (TotalSpec.step I n) t m')) := by
  obtain ⟨m0, rfl⟩ := exists_store L vs hvs
  have key : ∀ (m : K → V) (f : ρ → Cloned V (List V) ρ),
      (∀ r, f r = CloneOwn.outcome (cloneRun cl (store I n m) r) []) →
      ClonesLike cl ((pairsT I n m).map (·.2)) f (fun ws t =>
        ∃ m' : K → V, pairsT I n m' = (values I n).zip ws ∧ t = store I n m') := by
    intro m f hf
    have e : (pairsT I n m).map (·.2) = store I n m := by simp [pairsT, Function.comp_def]
    rw [e]
    refine CloneOwn.ClonesLike.mono (CloneOwn.outcome_clones cl _ hf) ?_
    rintro ws t hl rfl
    obtain ⟨m', rfl⟩ := exists_store L t (by rw [hl]; simp [values_length L])
    refine ⟨m', ?_, rfl⟩
    unfold pairsT store
    induction values I n with
    | nil => rfl
    | cons k ks ih => simp [ih]
  refine ⟨m0, OrdinalTotalMap_get L m0, (totalMap_runs L m0).mono ?_, (totalArrayMap_runs L m0).mono ?_⟩
  · rintro m s rfl
    refine CloneOwn.ClonesLike.mono (key m _ (fun r => CloneOwn.toVecLoop_eq _ _ [] r)) ?_
    rintro ws t - ⟨m', h3, rfl⟩
    exact ⟨m', h3, (totalMap_runs L m').mono fun _ _ _ => trivial⟩
  · rintro m s rfl
    refine CloneOwn.ClonesLike.mono (key m _ (fun r => CloneOwn.array_eq _ _ r)) ?_
    rintro ws t - ⟨m', h3, rfl⟩
    exact ⟨m', h3, (totalArrayMap_runs L m').mono fun _ _ _ => trivial⟩

example : CloneOwn.totalMap numberedClone [5, 6, 7] 0 = ⟨none, [50, 61], 2⟩ := rfl
example : CloneOwn.totalArrayMap numberedClone [5, 6, 7] 0 = ⟨none, [50, 61], 2⟩ := rfl

example := C99_total_maps (ordering_lawful debug64).1 numberedClone [5, 6, 7] rfl

theorem lview_clones (cl : V → ρ → Option V × ρ) {ps : List (K × V)} {s : Enumerate (List V)} (h : LView I n ps s)
    {f : ρ → Cloned V (List V) ρ} (hf : ∀ r, f r = CloneOwn.outcome (cloneRun cl s.iter r) []) :
    ClonesLike cl (ps.map (·.2)) (fun r => CloneOwn.enumerate s.next (f r)) (fun ws t =>
      LView I n ((ps.map (·.1)).zip ws) t) := by
  have e : s.iter = ps.map (·.2) := h.1
  rw [← e]
  refine CloneOwn.ClonesLike.mono (CloneOwn.enumerate_clones cl _ s.next (CloneOwn.outcome_clones cl _ hf)) ?_
  rintro ws t hl ⟨h1, rfl⟩
  exact CloneOwn.lview_clone h h1 (by rw [hl, e]; simp)

theorem sview_clones (cl : V → ρ → Option V × ρ) {l : List (K × V)} {s : Enumerate (List (Option V))} (h : SView I n l s)
    {f : ρ → Cloned (Option V) (List (Option V)) ρ}
    (hf : ∀ r, f r = CloneOwn.outcome (cloneRun (CloneOwn.option cl) s.iter r) []) :
    ClonesLike cl (l.map (·.2)) (fun r => CloneOwn.values (CloneOwn.enumerate s.next (f r))) (fun ws t =>
      SView I n ((l.map (·.1)).zip ws) t) := by
  obtain ⟨ps, h, rfl⟩ := h
  have e : s.iter = ps.map (·.2) := h.1
  have key := CloneOwn.values_clones cl _ (CloneOwn.enumerate_clones (CloneOwn.option cl) _ s.next
    (CloneOwn.outcome_clones (CloneOwn.option cl) _ hf))
  have e2 : s.iter.filterMap id = (ps.filterMap present).map (·.2) := by
    rw [e]
    clear h hf key e
    induction ps with
    | nil => rfl
    | cons p ps ih =>
      obtain ⟨k, _ | v⟩ := p <;> simp_all [present, List.filterMap_cons]
  rw [e2] at key
  refine CloneOwn.ClonesLike.mono key ?_
  rintro ws t - ⟨os, rfl, h2, h3, h4⟩
  subst h4
  exact CloneOwn.sview_clone h h3 (by rw [h2, e])

/-- C99 for the owning iterators of the sparse maps, however far they got. -/
theorem C99_map_iters [DecidableEq K] (L : Lawful c I n) (cl : V → ρ → Option V × ρ) :
    (∀ sz, n * sz ≤ 2 ^ (c.bits - 1) - 1 →
      RunsLike (OMap.step c I sz) (MapSpec.step I n) (OMap.new V) (fun _ => none) (fun m s =>
        BehavesLike (MapIntoIter.it c I) (OMap.intoIter s) (pairs I n m) (fun rest it =>
          ClonesLike cl (rest.map (·.2)) (CloneOwn.mapIntoIter cl it) (fun ws it' =>
            BehavesLike (MapIntoIter.it c I) it' ((rest.map (·.1)).zip ws))))) ∧
    ∃ s, OrdinalArrayMap.new V I n = .ok s ∧
      RunsLike (OrdinalArrayMap.step c I) (MapSpec.step I n) s (fun _ => none) (fun m s =>
        BehavesLike (MapIntoIterArray.it c I) (OrdinalArrayMap.intoIter s) (pairs I n m) (fun rest it =>
          ClonesLike cl (rest.map (·.2)) (CloneOwn.mapIntoIterArray cl it) (fun ws it' =>
            BehavesLike (MapIntoIterArray.it c I) it' ((rest.map (·.1)).zip ws)))) := by
  constructor
  · intro sz hsz ops
    obtain ⟨s', h1, h2⟩ := OMap.runs_new L hsz ops
    refine ⟨s', h1, (MapIntoIter.behaves L (h2.sview L)).mono fun rest it h => ?_⟩
    refine CloneOwn.ClonesLike.mono (sview_clones cl h (fun r => CloneOwn.toVecLoop_eq _ _ [] r)) ?_
    intro ws t _ ht
    exact (MapIntoIter.behaves L ht).mono fun _ _ _ => trivial
  · refine ⟨_, OrdinalArrayMap.new_eq L, (OrdinalArrayMap.runs L _).mono ?_⟩
    rintro m s rfl
    have h : Stored I n true m (store I n m) := .inl ⟨rfl, rfl⟩
    refine (MapIntoIterArray.behaves L (h.sview L)).mono fun rest it h => ?_
    refine CloneOwn.ClonesLike.mono (sview_clones cl h (fun r => CloneOwn.arrayIntoIter_eq _ _ [] r)) ?_
    intro ws t _ ht
    exact (MapIntoIterArray.behaves L ht).mono fun _ _ _ => trivial

example : CloneOwn.mapIntoIter numberedClone ⟨1, [none, some 6]⟩ 0 = ⟨some ⟨1, [none, some 60]⟩, [], 1⟩ := rfl
example : CloneOwn.mapIntoIterArray numberedClone ⟨0, [some 5, some 6]⟩ 1 = ⟨none, [51], 2⟩ := rfl

example := C99_map_iters (ordering_lawful debug64).1 numberedClone

/-- C99 for the owning iterators of the total maps, however far they got. -/
theorem C99_total_iters (L : Lawful c I n) (cl : V → ρ → Option V × ρ) (vs : List V) (hvs : vs.length = n) :
    ∃ m0 : K → V, (∀ k, OrdinalTotalMap.get I vs k = .ok (m0 k)) ∧
      BehavesLike (TotalIntoIter.it c I) (OrdinalTotalMap.intoIter vs) (pairsT I n m0) (fun rest it =>
        ClonesLike cl (rest.map (·.2)) (CloneOwn.totalIntoIter cl it) (fun ws it' =>
          BehavesLike (TotalIntoIter.it c I) it' ((rest.map (·.1)).zip ws))) ∧
      BehavesLike (TotalIntoIterArray.it c I) (OrdinalTotalArrayMap.intoIter vs) (pairsT I n m0) (fun rest it =>
        ClonesLike cl (rest.map (·.2)) (CloneOwn.totalIntoIterArray cl it) (fun ws it' =>
          BehavesLike (TotalIntoIterArray.it c I) it' ((rest.map (·.1)).zip ws))) := by
  obtain ⟨m0, rfl⟩ := exists_store L vs hvs
  refine ⟨m0, OrdinalTotalMap_get L m0, ?_, ?_⟩
  · refine (TotalIntoIter.behaves L (fresh_view L m0)).mono fun rest it h => ?_
    refine CloneOwn.ClonesLike.mono (lview_clones cl h (fun r => CloneOwn.toVecLoop_eq _ _ [] r)) ?_
    intro ws t _ ht
    exact (TotalIntoIter.behaves L ht).mono fun _ _ _ => trivial
  · refine (TotalIntoIterArray.behaves L (fresh_view L m0)).mono fun rest it h => ?_
    refine CloneOwn.ClonesLike.mono (lview_clones cl h (fun r => CloneOwn.arrayIntoIter_eq _ _ [] r)) ?_
    intro ws t _ ht
    exact (TotalIntoIterArray.behaves L ht).mono fun _ _ _ => trivial

example : CloneOwn.totalIntoIter numberedClone ⟨1, [6, 7]⟩ 1 = ⟨none, [61], 2⟩ := rfl

example := C99_total_iters (ordering_lawful debug64).1 numberedClone [5, 6, 7] rfl

/-- For a `V::clone` that has no state and returns, these are the clones of C54. -/
theorem C99_agrees {cl : V → ρ → Option V × ρ} {f : V → V} (h : ∀ v r, cl v r = (some (f v), r)) (r : ρ) :
    (∀ s, CloneOwn.omap cl s r = ⟨some (OMap.clone f s), [], r⟩) ∧
    (∀ s, CloneOwn.arrayMap cl s r = ⟨some (OrdinalArrayMap.clone f s), [], r⟩) ∧
    (∀ s, CloneOwn.totalMap cl s r = ⟨some (OrdinalTotalMap.clone f s), [], r⟩) ∧
    (∀ s, CloneOwn.totalArrayMap cl s r = ⟨some (OrdinalTotalArrayMap.clone f s), [], r⟩) ∧
    (∀ s, CloneOwn.mapIntoIter cl s r = ⟨some (MapIntoIter.clone f s), [], r⟩) ∧
    (∀ s, CloneOwn.mapIntoIterArray cl s r = ⟨some (MapIntoIterArray.clone f s), [], r⟩) ∧
    (∀ s, CloneOwn.totalIntoIter cl s r = ⟨some (TotalIntoIter.clone f s), [], r⟩) ∧
    (∀ s, CloneOwn.totalIntoIterArray cl s r = ⟨some (TotalIntoIterArray.clone f s), [], r⟩) := by
  have ho := CloneOwn.option_pure h
  refine ⟨fun s => ?_, fun s => ?_, fun s => ?_, fun s => ?_, fun s => ?_, fun s => ?_, fun s => ?_, fun s => ?_⟩
  · simp [CloneOwn.omap, CloneOwn.boxedSlice, CloneOwn.toVecLoop_eq, CloneOwn.outcome_pure ho, CloneOwn.values, OMap.clone]
  · simp [CloneOwn.arrayMap, CloneOwn.totalArrayMap, CloneOwn.array_eq, CloneOwn.outcome_pure ho, CloneOwn.values,
      OrdinalArrayMap.clone, OrdinalTotalArrayMap.clone]
  · simp [CloneOwn.totalMap, CloneOwn.boxedSlice, CloneOwn.toVecLoop_eq, CloneOwn.outcome_pure h, OrdinalTotalMap.clone]
  · simp [CloneOwn.totalArrayMap, CloneOwn.array_eq, CloneOwn.outcome_pure h, OrdinalTotalArrayMap.clone]
  · simp [CloneOwn.mapIntoIter, CloneOwn.totalIntoIter, CloneOwn.vecIntoIter, CloneOwn.toVecLoop_eq,
      CloneOwn.outcome_pure ho, CloneOwn.values, CloneOwn.enumerate, MapIntoIter.clone, TotalIntoIter.clone, Enumerate.clone]
  · simp [CloneOwn.mapIntoIterArray, CloneOwn.totalIntoIterArray, CloneOwn.arrayIntoIter_eq, CloneOwn.outcome_pure ho,
      CloneOwn.values, CloneOwn.enumerate, MapIntoIterArray.clone, TotalIntoIterArray.clone, Enumerate.clone]
  · simp [CloneOwn.totalIntoIter, CloneOwn.vecIntoIter, CloneOwn.toVecLoop_eq, CloneOwn.outcome_pure h,
      CloneOwn.enumerate, TotalIntoIter.clone, Enumerate.clone]
  · simp [CloneOwn.totalIntoIterArray, CloneOwn.arrayIntoIter_eq, CloneOwn.outcome_pure h, CloneOwn.enumerate,
      TotalIntoIterArray.clone, Enumerate.clone]

example := C99_agrees (ρ := Nat) (cl := fun v r => (some (v + 100), r)) (f := fun v : Nat => v + 100) (fun _ _ => rfl) 0

end OrdinalMap.Props
