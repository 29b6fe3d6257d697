import Verif.Text.TotalHist
/-!
# The two types of total maps, and their constructors with closures of the client
-/

namespace OrdinalMap.Text
open OrdinalMap.Props

variable {P : Nat → Type} {c : Cfg} {J : (p : Nat) → OrdinalImpl (P p)} {S n : Nat} {U : UserFns P} {h : Heap P}

/-! ## The functions of the model at values -/

section
variable {V W K : Type} {I : OrdinalImpl K}

theorem slotOf_map (e : V → W) (s : List V) (i : Nat) : OrdinalTotalMap.slotOf (List.map e s) i = OrdinalTotalMap.slotOf s i := by
  simp [OrdinalTotalMap.slotOf]

theorem totalGet_map (e : V → W) (s : List V) (k : K) :
    OrdinalTotalMap.get I (s.map e) k = e <$> OrdinalTotalMap.get I s k := by
  simp only [OrdinalTotalMap.get]
  cases I.ordinal k with
  | error f => rfl
  | ok i => simp only [ok_bind, getIdx, List.getElem?_map]; cases s[i]? <;> rfl

theorem totalArrGet_map (e : V → W) (s : List V) (k : K) :
    OrdinalTotalArrayMap.get I (s.map e) k = e <$> OrdinalTotalArrayMap.get I s k := by
  simp only [OrdinalTotalArrayMap.get]
  cases I.ordinal k with
  | error f => rfl
  | ok i => simp only [ok_bind, getIdx, List.getElem?_map]; cases s[i]? <;> rfl

theorem totalArrIndex_map (e : V → W) (s : List V) (k : K) :
    OrdinalTotalArrayMap.index I (s.map e) k = e <$> OrdinalTotalArrayMap.index I s k := by
  simp only [OrdinalTotalArrayMap.index]
  cases I.ordinal k with
  | error f => rfl
  | ok i => simp only [ok_bind, getIdx, List.getElem?_map]; cases s[i]? <;> rfl

theorem totalInsert_map (e : V → W) (s : List V) (k : K) (v : V) :
    OrdinalTotalMap.insert I (List.map e s) k (e v) = (fun r => (e r.1, List.map e r.2)) <$> OrdinalTotalMap.insert I s k v := by
  simp only [OrdinalTotalMap.insert]
  cases I.ordinal k with
  | error f => rfl
  | ok i =>
    simp only [ok_bind, getIdx, setIdx, List.getElem?_map, List.length_map]
    by_cases hi : i < s.length
    · simp [hi, List.map_set]
    · simp [hi]

theorem totalArrInsert_map (e : V → W) (s : List V) (k : K) (v : V) :
    OrdinalTotalArrayMap.insert I (List.map e s) k (e v) = (fun r => (e r.1, List.map e r.2)) <$> OrdinalTotalArrayMap.insert I s k v :=
  totalInsert_map e s k v

theorem slotOf_lt {s : List V} {k : K} {i : Nat} (h : (do OrdinalTotalMap.slotOf s (← I.ordinal k)) = .ok i) : i < s.length := by
  cases hk : I.ordinal k with
  | error f => simp [hk] at h
  | ok j =>
    simp only [hk, ok_bind, OrdinalTotalMap.slotOf] at h
    split at h
    · cases h; assumption
    · simp at h

end

/-! ## `OrdinalTotalMap` -/

/-- `OrdinalTotalMap` at run time -/
def boxMapVal (s : List (P 1)) : Val P := totalMapVal (ofV s)

theorem totalMap_text : TotalText J (mapCall c J S maps U) (.con "OrdinalTotalMap") boxMapVal [.field "map"] (boxFns (J 0)) where
  place s h := (place_var (by simp [boxMapVal]) : Place (boxMapVal s :: h) 0 [] (totalMapVal (ofV s))).totalMap
  put s s' h := by
    have := (place_var (by simp [boxMapVal]) : Place (boxMapVal s :: h) 0 [] (totalMapVal (ofV s))).put_totalMap (ofV s')
    exact this.trans (put_var (by simp))
  get s k := by
    refine (totalMap_get 7 (ofV s) k).trans ?_
    rw [ofV, totalGet_map]
    simp only [boxFns]
    cases OrdinalTotalMap.get (J 0) s k <;> rfl
  index s k := by
    refine (totalMap_index 6 (ofV s) k).trans ?_
    simp only [OrdinalTotalMap.index]
    rw [ofV, totalGet_map]
    simp only [boxFns, OrdinalTotalMap.index]
    cases OrdinalTotalMap.get (J 0) s k <;> rfl
  getMut s k := by
    refine (totalMap_getMut (vs := ofV s) 7 k (place_var (by simp [boxMapVal]))).trans ?_
    simp only [OrdinalTotalMap.getMut, boxFns, ofV, slotOf_map]
    rfl
  getMut_lt s k i h := slotOf_lt h
  indexMut s k := by
    refine (totalMap_indexMut (vs := ofV s) 6 k (place_var (by simp [boxMapVal]))).trans ?_
    simp only [OrdinalTotalMap.indexMut, OrdinalTotalMap.getMut, boxFns, ofV, slotOf_map]
    rfl
  indexMut_lt s k i h := slotOf_lt h
  insert s k v := by
    refine (totalMap_insert (vs := ofV s) 7 k (.usr 1 v) (place_var (by simp [boxMapVal]))).trans ?_
    rw [ofV, totalInsert_map]
    simp only [boxFns]
    cases OrdinalTotalMap.insert (J 0) s k v with
    | error f => rfl
    | ok r => simp only [ok_map, put_only]; rfl
  len s := totalMap_len 7 (ofV s)
  isEmpty s := totalMap_isEmpty 6 (ofV s)
  iter s := totalMap_iter 5 (ofV s)
  keys s := totalMap_keys 5 (ofV s)
  intoKeys s := totalMap_intoKeys 5 (ofV s)
  values s := totalMap_values 8 (ofV s)
  intoValues s := totalMap_intoValues 8 (ofV s)
  iterMut s := by
    refine (totalMap_iterMut (vs := ofV s) 5 (place_var (by simp [boxMapVal]))).trans ?_
    simp [ofV]
  valuesMut s := by
    refine (totalMap_valuesMut (vs := ofV s) 8 (place_var (by simp [boxMapVal]))).trans ?_
    simp [ofV]

/-! ## `OrdinalTotalArrayMap` -/

/-- `OrdinalTotalArrayMap` at run time -/
def arrayMapVal (s : List (P 1)) : Val P := totalArrVal (ofV s)

theorem totalArr_text : TotalText J (mapCall c J S maps U) (.con "OrdinalTotalArrayMap") arrayMapVal [.field "map"] (arrayFns (J 0) S) where
  place s h := (place_var (by simp [arrayMapVal]) : Place (arrayMapVal s :: h) 0 [] (totalArrVal (ofV s))).totalArr
  put s s' h := by
    have := (place_var (by simp [arrayMapVal]) : Place (arrayMapVal s :: h) 0 [] (totalArrVal (ofV s))).put_totalArr (ofV s')
    exact this.trans (put_var (by simp))
  get s k := by
    refine (totalArr_get 7 (ofV s) k).trans ?_
    rw [ofV, totalArrGet_map]
    simp only [arrayFns]
    cases OrdinalTotalArrayMap.get (J 0) s k <;> rfl
  index s k := by
    refine (totalArr_index 7 (ofV s) k).trans ?_
    rw [ofV, totalArrIndex_map]
    simp only [arrayFns]
    cases OrdinalTotalArrayMap.index (J 0) s k <;> rfl
  getMut s k := by
    refine (totalArr_getMut (vs := ofV s) 7 k (place_var (by simp [arrayMapVal]))).trans ?_
    simp only [OrdinalTotalArrayMap.getMut, arrayFns, ofV, slotOf_map]
    rfl
  getMut_lt s k i h := slotOf_lt h
  indexMut s k := by
    refine (totalArr_indexMut (vs := ofV s) 7 k (place_var (by simp [arrayMapVal]))).trans ?_
    simp only [OrdinalTotalArrayMap.indexMut, arrayFns, ofV, slotOf_map]
    rfl
  indexMut_lt s k i h := slotOf_lt h
  insert s k v := by
    refine (totalArr_insert (vs := ofV s) 7 k (.usr 1 v) (place_var (by simp [arrayMapVal]))).trans ?_
    rw [ofV, totalArrInsert_map]
    simp only [arrayFns]
    cases OrdinalTotalArrayMap.insert (J 0) s k v with
    | error f => rfl
    | ok r => simp only [ok_map, put_only]; rfl
  len s := totalArr_len 8 (ofV s)
  isEmpty s := totalArr_isEmpty 7 (ofV s)
  iter s := totalArr_iter 5 (ofV s)
  keys s := totalArr_keys 5 (ofV s)
  intoKeys s := totalArr_intoKeys 4 (ofV s)
  values s := totalArr_values 8 (ofV s)
  intoValues s := totalArr_intoValues 8 (ofV s)
  iterMut s := by
    refine (totalArr_iterMut (vs := ofV s) 5 (place_var (by simp [arrayMapVal]))).trans ?_
    simp [ofV]
  valuesMut s := by
    refine (totalArr_valuesMut (vs := ofV s) 8 (place_var (by simp [arrayMapVal]))).trans ?_
    simp [ofV]

/-! ## Iterators -/

theorem valuesM_len (n : Nat) (s : OrdinalValues) : (outM c J S U (n + 1)).call (.con "OrdinalValues") "len" [.ref (valuesVal s)] h =
    .ok (.uint .size (OrdinalValues.len s), h) := by
  refine (outside_call (d := valuesFn3_0) n _ _ rfl rfl).trans ?_
  runs [valuesFn3_0, valuesVal, OrdinalValues.len, range_len]

theorem valuesM_sizeHint (n : Nat) (s : OrdinalValues) : (outM c J S U (n + 1)).call (.con "OrdinalValues") "size_hint" [.ref (valuesVal s)] h =
    .ok (hintVal (OrdinalValues.sizeHint s), h) := by
  refine (outside_call (d := valuesFn2_1) n _ _ rfl rfl).trans ?_
  runs [valuesFn2_1, valuesVal, hintVal, OrdinalValues.sizeHint, range_len]

theorem values_exact {s : OrdinalValues} {k : Nat} (hk : OrdinalValues.len s = k) :
    ExactLen (mapCall c J S maps U) "OrdinalValues" k (valuesVal s) := by
  subst hk
  exact ⟨valuesM_len 8 s, valuesM_sizeHint 8 s⟩

theorem total_exact {x : String} (hx : maps.fn (.con x) "len" = some totalIterFn3_0) (hy : maps.fn (.con x) "size_hint" = some totalIterFn2_1)
    {e : P 1 → Val P} {s : TotalIter (P 1)} {k : Nat} (hk : TotalIter.len s = k) :
    ExactLen (mapCall c J S maps U) x k (wrapVal x (enumVal (encEnum e s))) := by
  subst hk
  refine ⟨(total_len 7 hx _).trans ?_, (total_sizeHint 7 hy _).trans ?_⟩
  · simp [Enumerate.len, encEnum, listIter, TotalIter.len]
  · simp [Enumerate.sizeHint, encEnum, listIter, TotalIter.len, Enumerate.len]

section
variable {t : RT} {enc : List (P 1) → Val P} {path : List Proj} {F : TFns (P 0) (P 1)} [DecidableEq (P 0)]

theorem TotalText.iterates (T : TotalText J (mapCall c J S maps U) t enc path F) (L : Lawful c (J 0) n) (m : P 0 → P 1) :
    TotalIterates (mapCall c J S maps U) t (enc (store (J 0) n m)) (pairsT (J 0) n m) := by
  obtain ⟨h1, ⟨it, h2, h3⟩, _⟩ := totalIterGood_of L (OrdinalTotalMap_get L) m
  have hk : (pairsT (J 0) n m).map (·.1) = OrdinalMap.values (J 0) n := by simp [pairsT, Function.comp_def]
  have h0 : wrapVal "total::Iter" (enumVal ⟨0, (ofV (store (J 0) n m)).map .ref⟩) = totalIterVal (P := P) (TotalIter.new (store (J 0) n m) 0) := by
    simp [totalIterVal, encEnum, TotalIter.new, Enumerate.new, ofV, Function.comp_def]
  refine ⟨?_, ?_, ?_, ?_, ?_⟩
  · refine iterates_of (Inv := fun _ : TotalIter (P 1) => True) (enc := totalIterVal) ((T.iter _).trans (by rw [h0]))
      (fun s d _ => textTotalIter_step s d) (fun _ _ _ _ _ => trivial) trivial (fun l s h => ⟨total_exact rfl rfl h, ?_⟩) h1
    have := totalIter_clone (c := c) (J := J) (S := S) (U := U) (h := []) 6 (Enumerate.next s) (ofV (Enumerate.iter s))
    simp only [ofV, List.map_map, Function.comp_def] at this
    exact this
  · rw [hk]
    exact iterates_of (Inv := fun _ : OrdinalValues => True) (enc := valuesVal) ((T.keys _).trans (by rw [h2]; rfl))
      (fun s d _ => textValuesM_step s d) (fun _ _ _ _ _ => trivial) trivial (fun l s h => values_exact h) h3
  · rw [hk]
    exact iterates_of (Inv := fun _ : OrdinalValues => True) (enc := valuesVal) ((T.intoKeys _).trans (by rw [h2]; rfl))
      (fun s d _ => textValuesM_step s d) (fun _ _ _ _ _ => trivial) trivial (fun l s h => values_exact h) h3
  · rw [T.values]; simp [ofV, store, pairsT, Function.comp_def]
  · rw [T.intoValues]; simp [ofV, store, pairsT, Function.comp_def]

end

/-! ## Closures -/

theorem initFn_calls (init : P 0 → P 2 → R (P 1 × P 2)) (n : Nat) :
    CallsFn (outM c J S (initFn init) (n + 1)) (.ufn 0) (fun r => [.usr 2 r]) init (.usr 1 ·) where
  len _ _ := rfl
  apply k r xs := by
    rw [outM, outside_ufn]
    simp only [initFn, stateFn, List.cons_append, List.nil_append]
    cases init k r <;> rfl

theorem tryInitFn_calls (init : P 0 → P 2 → R (Except (P 3) (P 1) × P 2)) (n : Nat) :
    CallsFn (outM c J S (tryInitFn init) (n + 1)) (.ufn 0) (fun r => [.usr 2 r]) init (resultVal (.usr 1 ·) (.usr 3 ·)) where
  len _ _ := rfl
  apply k r xs := by
    rw [outM, outside_ufn]
    simp only [tryInitFn, stateFn, List.cons_append, List.nil_append]
    cases init k r with
    | error f => rfl
    | ok p => obtain ⟨o, r⟩ := p; cases o <;> rfl

end OrdinalMap.Text
