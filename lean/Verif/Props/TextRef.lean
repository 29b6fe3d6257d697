import Verif.SpecTextRef
import Verif.Props.TextArrayMap
import Verif.Props.TextTotal
/-!
# C111: `for (k, v) in &map`, lexed, parsed and run from the source text
-/

namespace OrdinalMap.Props
open OrdinalMap OrdinalMap.Text

variable {P : Nat → Type} (c : Cfg) (J : (p : Nat) → OrdinalImpl (P p)) (S : Nat) {n : Nat}

theorem map_refInto (U : UserFns P) (s : OMap (P 1)) (h : Heap P) :
    refCall c J S maps U "OrdinalMap" "into_iter" [.ref (mapVal s)] h = .ok (mapIterVal (OMap.iter s), h) := by
  have h1 := map_iter (c := c) (J := J) (S := S) (U := U) (h := h ++ [.ref (mapVal s)]) 5 s
  simp only [mapVal, phantom] at h1
  simp only [refCall, show maps.refFn "OrdinalMap" "into_iter" = some mapFn7_0 from rfl]
  runs [mapFn7_0, mapVal, h1]

theorem arrMap_refInto (U : UserFns P) (s : OrdinalArrayMap (P 1)) (h : Heap P) :
    refCall c J S maps U "OrdinalArrayMap" "into_iter" [.ref (arrMapVal s)] h = .ok (mapIterVal (OrdinalArrayMap.iter s), h) := by
  have h1 := arrMap_iter (c := c) (J := J) (S := S) (U := U) (h := h ++ [.ref (arrMapVal s)]) 4 s
  simp only [arrMapVal, phantom] at h1
  simp only [refCall, show maps.refFn "OrdinalArrayMap" "into_iter" = some mapArrayMapFn7_0 from rfl]
  runs [mapArrayMapFn7_0, arrMapVal, h1]

theorem totalMap_refInto (U : UserFns P) (vs : List (Val P)) (h : Heap P) :
    refCall c J S maps U "OrdinalTotalMap" "into_iter" [.ref (totalMapVal vs)] h = .ok (wrapVal "total::Iter" (enumVal ⟨0, vs.map .ref⟩), h) := by
  have h1 := totalMap_iter (c := c) (J := J) (S := S) (U := U) (h := h ++ [.ref (totalMapVal vs)]) 5 vs
  simp only [totalMapVal, phantom] at h1
  simp only [refCall, show maps.refFn "OrdinalTotalMap" "into_iter" = some totalMapFn8_0 from rfl]
  runs [totalMapFn8_0, totalMapVal, h1]

theorem totalArr_refInto (U : UserFns P) (vs : List (Val P)) (h : Heap P) :
    refCall c J S maps U "OrdinalTotalArrayMap" "into_iter" [.ref (totalArrVal vs)] h = .ok (wrapVal "total::Iter" (enumVal ⟨0, vs.map .ref⟩), h) := by
  have h1 := totalArr_iter (c := c) (J := J) (S := S) (U := U) (h := h ++ [.ref (totalArrVal vs)]) 5 vs
  simp only [totalArrVal, phantom] at h1
  simp only [refCall, show maps.refFn "OrdinalTotalArrayMap" "into_iter" = some totalArrayMapFn8_0 from rfl]
  runs [totalArrayMapFn8_0, totalArrVal, h1]

theorem iteratesRef_of {call : Machine P} {t : RT} {x : String} {v it : Val P} {ps : List (P 0 × P 1)} {obs : Nat → Val P → Prop}
    {into : List (Val P) → Heap P → R (Val P × Heap P)} (h : Iterates call t "iter" x (.ref v) readPairRef ps obs)
    (h1 : call t "iter" [.ref v] [] = .ok (it, [])) (h2 : into [.ref v] [] = .ok (it, [])) : IteratesRef call into x v ps obs := by
  obtain ⟨it', h3, h4⟩ := h
  rw [h1] at h3
  cases h3
  exact ⟨it, h2, h4⟩

/-- C111: after every history from `new()`, the text of `into_iter` of a reference to an `OrdinalMap` makes an iterator that behaves like
a deque of references to the pairs in the map, in ordinal order. -/
theorem C111_ordinal_map [DecidableEq (P 0)] (L : Lawful c (J 0) n) : MapSources fun prog =>
    let call := mapCall c J S prog
    let t := RT.con "OrdinalMap"
    ∃ v, call t "new" [] [] = .ok (v, []) ∧ RunsLike (textMapStep call t) (MapSpec.step (J 0) n) v (fun _ => none) fun m v =>
      IteratesRef call (refCall c J S prog noFns "OrdinalMap" "into_iter") "Iter" v (pairs (J 0) n m)
        fun k it => HintRight call "Iter" k it ∧ ClonesSame call "Iter" it := by
  have hz : ∀ z, (J 0).size = .ok z → z < c.M := fun z h => by rw [L.size] at h; cases h; exact L.fits
  have hsz : n * 0 ≤ 2 ^ (c.bits - 1) - 1 := by omega
  refine .of ⟨mapVal (OMap.new (P 1)), map_new 7, ?_⟩
  have hl : List.length (OMap.new (P 1)) < c.M := by
    have := L.fits
    simp only [OMap.new, List.length_nil]
    omega
  have hb : RunsLike ((OMap.fns c (J 0) 0).step c (J 0)) (MapSpec.step (J 0) n) (OMap.new (P 1)) (fun _ => none)
      (fun m s => ∃ b, Stored (J 0) n b m s) := by
    intro ops
    obtain ⟨s', h1, h2⟩ := OMap.runs (b := false) L hsz (.inr ⟨rfl, rfl, rfl⟩) ops
    rw [show (OMap.fns (V := P 1) c (J 0) 0).step c (J 0) = OMap.step c (J 0) 0 from by funext s op; exact (OMap.step_fns c (J 0) 0 s op).symm]
    exact ⟨s', h1, _, h2⟩
  refine (ordinalMap_text hz).runsLike hl ?_ hb
  rintro m s hs ⟨b, h⟩
  exact iteratesRef_of ((ordinalMap_text hz).iterates hs (iterGood_of L h)).1 (map_iter 5 s) (map_refInto c J S _ s [])

example := C111_ordinal_map debug64 (twoImpls orderingImpl boolImpl) 1 (ordering_lawful debug64).1
example := C111_ordinal_map release32 (twoImpls (u8Impl release32) boolImpl) 5 (u8_lawful release32).1

/-- C111 for `OrdinalArrayMap`, with `S` the number of keys. -/
theorem C111_ordinal_array_map [DecidableEq (P 0)] (L : Lawful c (J 0) n) : MapSources fun prog =>
    let call := mapCall c J n prog
    let t := RT.con "OrdinalArrayMap"
    ∃ v, call t "new" [] [] = .ok (v, []) ∧ RunsLike (textMapStep call t) (MapSpec.step (J 0) n) v (fun _ => none) fun m v =>
      IteratesRef call (refCall c J n prog noFns "OrdinalArrayMap" "into_iter") "Iter" v (pairs (J 0) n m)
        fun k it => HintRight call "Iter" k it ∧ ClonesSame call "Iter" it := by
  refine .of ⟨arrMapVal (store (J 0) n fun _ => none), ?_, ?_⟩
  · rw [mapCall, show outside c J (mapTys n) maps 9 = outM c J n noFns 9 from rfl, arrMap_new (h := []) 3 L.fits, OrdinalArrayMap.new_eq L]
    rfl
  have hl : List.length (store (J 0) n (fun _ => (none : Option (P 1)))) < c.M := by
    have := (Stored.length (b := true) (m := fun _ => (none : Option (P 1))) L (.inl ⟨rfl, rfl⟩) : List.length (store (J 0) n _) = _)
    have := L.fits
    simp_all
  have hb := OrdinalArrayMap.runs (V := P 1) L (fun _ => none)
  rw [show OrdinalArrayMap.step c (J 0) = (OrdinalArrayMap.fns (V := P 1) c (J 0)).step c (J 0) from by
    funext s op; exact OrdinalArrayMap.step_fns c (J 0) s op] at hb
  refine arrMap_text.runsLike hl ?_ hb
  rintro m s hs rfl
  exact iteratesRef_of (arrMap_text.iterates hs (iterGood_of L (b := true) (.inl ⟨rfl, rfl⟩))).1 (arrMap_iter 4 _) (arrMap_refInto c J n _ _ [])

example := C111_ordinal_array_map debug64 (twoImpls orderingImpl boolImpl) (ordering_lawful debug64).1

/-- C111 for `OrdinalTotalMap`, made by `new` with any closure. -/
theorem C111_total_map [DecidableEq (P 0)] (L : Lawful c (J 0) n) (init : P 0 → P 2 → R (P 1 × P 2)) : MapSources fun prog =>
    let call := mapCall c J S prog (initFn init)
    let t := RT.con "OrdinalTotalMap"
    TextNew (fun r => call t "new" [.ufn 0] [.usr 2 r]) (fun v m =>
      RunsLike (textTotalStep call t) (TotalSpec.step (J 0) n) v m fun m v =>
        IteratesRef call (refCall c J S prog (initFn init) "OrdinalTotalMap" "into_iter") "total::Iter" v (pairsT (J 0) n m)
          fun k it => ExactLen call "total::Iter" k it ∧ ClonesSame call "total::Iter" it) (values (J 0) n) init := by
  have hz : ∀ z, (J 0).size = .ok z → z < c.M := fun z h => by rw [L.size] at h; cases h; exact L.fits
  refine .of fun r => ?_
  have h1 := totalMap_new (c := c) (J := J) (S := S) 4 (initFn_calls init 5) hz r
  rw [OrdinalTotalMap.new_eq L (by simp)] at h1
  refine ⟨fun f hf => h1.trans (by rw [hf]; rfl), fun vs r' hv => ?_⟩
  obtain ⟨m, rfl⟩ := exists_store L vs (by rw [initEach_length _ _ _ _ _ hv, values_length L])
  refine ⟨_, m, h1.trans (by rw [hv]; rfl), rfl, ?_⟩
  have hb := totalMap_runs L m
  rw [show OrdinalTotalMap.step c (J 0) = (boxFns (V := P 1) (J 0)).step c (J 0) from by
    funext s op; exact OrdinalTotalMap.step_fns c (J 0) s op] at hb
  refine totalMap_text.runsLike ?_ hb
  rintro m s rfl
  exact iteratesRef_of (totalMap_text.iterates L m).1 (totalMap_iter 5 _) (totalMap_refInto c J S _ _ [])

example := C111_total_map debug64 (twoImpls orderingImpl boolImpl) 1 (ordering_lawful debug64).1 fun _ r => .ok (true, r)

/-- C111 for `OrdinalTotalArrayMap`, made by `from_array` of any array. -/
theorem C111_total_array_map [DecidableEq (P 0)] (L : Lawful c (J 0) n) (vs : List (P 1)) (hv : vs.length = n) : MapSources fun prog =>
    let call := mapCall c J n prog
    let t := RT.con "OrdinalTotalArrayMap"
    ∃ v m, call t "from_array" [.arr (vs.map (.usr 1))] [] = .ok (v, []) ∧ (values (J 0) n).map m = vs ∧
      RunsLike (textTotalStep call t) (TotalSpec.step (J 0) n) v m fun m v =>
        IteratesRef call (refCall c J n prog noFns "OrdinalTotalArrayMap" "into_iter") "total::Iter" v (pairsT (J 0) n m)
          fun k it => ExactLen call "total::Iter" k it ∧ ClonesSame call "total::Iter" it := by
  obtain ⟨m, rfl⟩ := exists_store L vs hv
  refine .of ⟨_, m, totalArr_fromArray 7 _, rfl, ?_⟩
  have hb := totalArrayMap_runs L m
  rw [show OrdinalTotalArrayMap.step c (J 0) n = (arrayFns (V := P 1) (J 0) n).step c (J 0) from by
    funext s op; exact OrdinalTotalArrayMap.step_fns c (J 0) n s op] at hb
  refine totalArr_text.runsLike ?_ hb
  rintro m s rfl
  exact iteratesRef_of (totalArr_text.iterates L m).1 (totalArr_iter 5 _) (totalArr_refInto c J n _ _ [])

example := C111_total_array_map debug64 (twoImpls orderingImpl boolImpl) (ordering_lawful debug64).1 [true, false, true] rfl

/-- C111: with every impl, lawful or not, and whatever the values, `into_iter` of a reference to a map returns what `iter` does. -/
theorem C111_is_iter (U : UserFns P) : MapSources fun prog =>
    let call := mapCall c J S prog U
    let same (x : String) (v : Val P) := ∃ it, call (.con x) "iter" [.ref v] [] = .ok (it, []) ∧
      refCall c J S prog U x "into_iter" [.ref v] [] = .ok (it, [])
    (∀ s : OMap (P 1), same "OrdinalMap" (mapVal s)) ∧ (∀ s : OrdinalArrayMap (P 1), same "OrdinalArrayMap" (arrMapVal s)) ∧
    (∀ vs : List (Val P), same "OrdinalTotalMap" (totalMapVal vs)) ∧ ∀ vs : List (Val P), same "OrdinalTotalArrayMap" (totalArrVal vs) :=
  .of ⟨fun s => ⟨_, map_iter 5 s, map_refInto c J S U s []⟩, fun s => ⟨_, arrMap_iter 4 s, arrMap_refInto c J S U s []⟩,
    fun vs => ⟨_, totalMap_iter 5 vs, totalMap_refInto c J S U vs []⟩, fun vs => ⟨_, totalArr_iter 5 vs, totalArr_refInto c J S U vs []⟩⟩

/-- With a wrong impl. -/
example := C111_is_iter debug64 (twoImpls bogusImpl boolImpl) 3 noFns

end OrdinalMap.Props
