import Verif.Lemmas.MapMore
/-! # Array views of `OrdinalTotalArrayMap` -/

namespace OrdinalMap
variable {K V : Type} {c : Cfg} {I : OrdinalImpl K} {n : Nat}

theorem keyAt_eq (L : Lawful c I n) (i : Fin n) : ∃ k, keyAt I n i = some k ∧ ordOf I k = i.1 := by
  obtain ⟨a, h1, _, h2⟩ := values_getElem L i.1 i.2
  exact ⟨a, h1, h2⟩

theorem find_zip_store [DecidableEq K] (m : K → V) (k : K) : ∀ ks : List K,
    ((ks.zip (ks.map m)).find? fun p => p.1 = k) = if k ∈ ks then some (k, m k) else none
  | [] => rfl
  | a :: ks => by
    by_cases h : a = k
    · subst h; simp
    · simp [h, Ne.symm h, find_zip_store m k ks]

theorem ofArray_store [DecidableEq K] (L : Lawful c I n) (m m' : K → V) : ofArray I n (store I n m') m = m' := by
  funext k
  have hk : k ∈ OrdinalMap.values I n := List.mem_of_getElem? (values_ord L k)
  simp [ofArray, store, find_zip_store, hk]

theorem mapM_getIdx (l : List V) (g : Fin n → Nat) (hg : ∀ i, g i < l.length) : ∀ is : List (Fin n),
    is.mapM (fun i => getIdx l (g i)) = .ok (is.map fun i => l[g i]'(hg i))
  | [] => rfl
  | i :: is => by
    have h : getIdx l (g i) = .ok (l[g i]'(hg i)) := by simp [getIdx, hg i]
    simp [List.mapM_cons, h, mapM_getIdx l g hg is]

theorem asMut_writes [DecidableEq K] (L : Lawful c I n) : ∀ (ws : List (K × V)) (m : K → V),
    ws.foldlM (fun s w => do writeSlot s (← OrdinalTotalArrayMap.index I (store I n (ordOf I)) w.1) w.2)
      (store I n m) = .ok (store I n fun k => (lastValue ws k).getD (m k))
  | [], m => by simp [lastValue]
  | p :: ws, m => by
    have hi : OrdinalTotalArrayMap.index I (store I n (ordOf I)) p.1 = .ok (ordOf I p.1) := by
      simp only [OrdinalTotalArrayMap.index, L.ordinal_eq, ok_bind, getIdx_store L]
    have := asMut_writes L ws (updT m p.1 p.2)
    rw [List.foldlM_cons, hi]
    simp only [ok_bind, writeSlot_store L]
    rw [this]
    congr 2
    funext k
    have : lastValue (p :: ws) k = (lastValue ws k).or (if p.1 = k then some p.2 else none) := by
      simp only [lastValue, List.reverse_cons, List.find?_append]
      cases ws.reverse.find? fun q => q.1 = k with
      | some q => simp
      | none => by_cases e : p.1 = k <;> simp [e]
    rw [this]
    cases lastValue ws k with
    | some w => simp
    | none =>
      by_cases e : p.1 = k
      · simp [e, updT]
      · simp [e, updT, Ne.symm e]

theorem OrdinalTotalArrayMap.asRef_eq (L : Lawful c I n) (m : K → V) :
    asRef I n (store I n m) = .ok (store I n m) := by
  have hg : ∀ k, get I (store I n m) k = .ok (m k) := fun k => by
    simp only [OrdinalTotalArrayMap.get, L.ordinal_eq, ok_bind, getIdx_store L]
  simp only [asRef, hg, OrdinalTotalArrayMap.new_eq L, ok_bind]
  rw [initEach_pure m]
  rfl

theorem OrdinalTotalArrayMap.arrayStep_rel [DecidableEq K] (L : Lawful c I n) (m : K → V)
    (s : OrdinalTotalArrayMap V) (op : ArrayOp K V n) (h : s = store I n m) :
    ∃ s', arrayStep c I n s op = .ok ((ArraySpec.step I n m op).1, s') ∧
      s' = store I n (ArraySpec.step I n m op).2 := by
  subst h
  cases op with
  | total op => exact OrdinalTotalArrayMap.step_rel L m _ op rfl
  | readAt i =>
    obtain ⟨k, h1, h2⟩ := keyAt_eq L i
    exact ⟨_, by simp only [arrayStep, valuesArray, ArraySpec.step, h1, ← h2, getIdx_store L]; rfl, rfl⟩
  | writeAt i v =>
    obtain ⟨k, h1, h2⟩ := keyAt_eq L i
    refine ⟨store I n (updT m k v), ?_, ?_⟩
    · simp only [arrayStep, valuesArrayMut, ArraySpec.step, h1, ← h2, getIdx_store L, setIdx_store L]; rfl
    · simp only [ArraySpec.step, h1]; rfl
  | assign vs hv =>
    obtain ⟨m', rfl⟩ := exists_store L vs hv
    refine ⟨store I n m', ?_, ?_⟩
    · simp [arrayStep, valuesArrayMut, ArraySpec.step, store, Function.comp_def]
    · simp only [ArraySpec.step, ofArray_store L]
  | permute p =>
    have hl := store_length L m
    have e : ((List.finRange n).filterMap fun i => (keyAt I n (p i)).map m) =
        (List.finRange n).map fun i => (store I n m)[(p i).1]'(by rw [hl]; exact (p i).2) := by
      rw [← List.filterMap_eq_map]
      congr 1
      funext i
      obtain ⟨k, h1, h2⟩ := keyAt_eq L (p i)
      have h3 := store_get L m k
      rw [h2] at h3
      simp only [h1, Option.map_some, Function.comp]
      rw [← h3, List.getElem?_eq_getElem]
    obtain ⟨m', hm'⟩ := exists_store L ((List.finRange n).filterMap fun i => (keyAt I n (p i)).map m)
      (by rw [e]; simp)
    refine ⟨store I n m', ?_, ?_⟩
    · simp only [arrayStep, intoValues, fromArray, ArraySpec.step,
        mapM_getIdx (store I n m) (fun i => (p i).1) (fun i => by rw [hl]; exact (p i).2), ok_bind]
      rw [← e, hm']
    · simp only [ArraySpec.step, hm', ofArray_store L]
  | asMut ws =>
    have hr : List.range n = store I n (ordOf I) := (values_ords L).symm
    refine ⟨_, ?_, rfl⟩
    simp only [arrayStep, asMut, arrayAsMut_eq, ok_bind, fromArray, hr, asMut_writes L, ArraySpec.step]
  | asRef k =>
    refine ⟨_, ?_, rfl⟩
    have hg : get I (store I n m) k = .ok (m k) := by
      simp only [OrdinalTotalArrayMap.get, L.ordinal_eq, ok_bind, getIdx_store L]
    simp only [arrayStep, asRef_eq L, ok_bind, hg, ArraySpec.step]

end OrdinalMap
