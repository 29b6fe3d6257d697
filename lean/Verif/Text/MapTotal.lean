import Verif.Text.MapHist
/-!
# `map/total/map.rs` and `map/total/array_map.rs`, run from their texts

The values of a map are any values at run time, so that what is shown here applies to maps of `V` and of `Option<V>`.
-/

namespace OrdinalMap.Text

variable {P : Nat → Type} {c : Cfg} {J : (p : Nat) → OrdinalImpl (P p)} {S : Nat} {h xs : Heap P} {a b : Nat} {ps qs : List Proj} {U : UserFns P}

/-! ## `values.rs` in this program -/

@[text] theorem struct_valuesM : (outM c J S U (n + 1)).struct "OrdinalValues" =
    some [("range", .path ["Range"] (.cons (.path ["usize"] .nil) .nil)),
      ("_phantom", .path ["PhantomData"] (.cons (.path ["T"] .nil) .nil))] := rfl

theorem valuesM_new (n : Nat) : (outM c J S U (n + 2)).call (.con "OrdinalValues") "new" [] h =
    (fun s => (valuesVal s, h)) <$> OrdinalValues.new (J 0) := by
  refine (outside_call (d := valuesFn1_0) (n + 1) _ _ rfl rfl).trans ?_
  cases hs : (J 0).size <;> runs [valuesFn1_0, outside_par_const, OrdinalValues.new, hs, valuesVal]

theorem valuesM_next (n : Nat) {s : OrdinalValues} (hp : Place h a ps (valuesVal s)) :
    (outM c J S U (n + 2)).call (.con "OrdinalValues") "next" [.mref a ps] h =
      (fun r => (optVal r.1, put h a ps (valuesVal r.2))) <$> OrdinalValues.next (J 0) s := by
  refine (outside_call (d := valuesFn2_0) (n + 1) _ _ rfl rfl).trans ?_
  have hl := hp.lt
  obtain ⟨i, j⟩ := s
  by_cases hi : i < j
  · cases hf : (J 0).fromOrdinal i with
    | error f => runs [valuesFn2_0, outside_par_from, OrdinalValues.next, Range.next, hi, hf, hl, hp.get, hp.set, hp.len, get_append, set_append, valuesVal]
    | ok o => cases o <;> runs [valuesFn2_0, outside_par_from, OrdinalValues.next, Range.next, hi, hf, hl, hp.get, hp.set, hp.len, get_append, set_append, valuesVal, optVal]
  · runs [valuesFn2_0, outside_par_from, OrdinalValues.next, Range.next, hi, hl, hp.get, hp.set, hp.len, get_append, set_append, valuesVal, optVal]

theorem valuesM_nextBack (n : Nat) {s : OrdinalValues} (hp : Place h a ps (valuesVal s)) :
    (outM c J S U (n + 2)).call (.con "OrdinalValues") "next_back" [.mref a ps] h =
      (fun r => (optVal r.1, put h a ps (valuesVal r.2))) <$> OrdinalValues.nextBack (J 0) s := by
  refine (outside_call (d := valuesFn4_0) (n + 1) _ _ rfl rfl).trans ?_
  have hl := hp.lt
  obtain ⟨i, j⟩ := s
  by_cases hi : i < j
  · cases hf : (J 0).fromOrdinal (j - 1) with
    | error f => runs [valuesFn4_0, outside_par_from, OrdinalValues.nextBack, Range.nextBack, hi, hf, hl, hp.get, hp.set, hp.len, get_append, set_append, valuesVal]
    | ok o => cases o <;> runs [valuesFn4_0, outside_par_from, OrdinalValues.nextBack, Range.nextBack, hi, hf, hl, hp.get, hp.set, hp.len, get_append, set_append, valuesVal, optVal]
  · runs [valuesFn4_0, outside_par_from, OrdinalValues.nextBack, Range.nextBack, hi, hl, hp.get, hp.set, hp.len, get_append, set_append, valuesVal, optVal]

theorem allM_values (n : Nat) : (outM c J S U (n + 3)).call (.par 0) "all_values" [] h =
    (fun s => (valuesVal s, h)) <$> OrdinalValues.new (J 0) := by
  refine (outside_par_dflt (d := ordinalTraitsFn0_0) (n + 2) _ _ _ rfl rfl).trans ?_
  cases hm : OrdinalValues.new (J 0) <;> runs [ordinalTraitsFn0_0, valuesM_new, hm]

/-! ## `OrdinalTotalArrayMap` -/

/-- `OrdinalTotalArrayMap<K, V, S>` -/
def totalArrVal (vs : List (Val P)) : Val P := .obj "OrdinalTotalArrayMap" [("map", .arr vs), phantom]

@[text] theorem struct_totalArr : (outM c J S U (n + 1)).struct "OrdinalTotalArrayMap" =
    some [("map", .arr (.path ["V"] .nil) "S"), ("_phantom", .path ["PhantomData"] (.cons (.path ["K"] .nil) .nil))] := rfl

@[text] theorem self_totalArr_get : (outM c J S U (n + 1)).self (.con "OrdinalTotalArrayMap") "get" = some .ref := rfl
@[text] theorem self_totalArr_getMut : (outM c J S U (n + 1)).self (.con "OrdinalTotalArrayMap") "get_mut" = some .refMut := rfl
@[text] theorem self_totalArr_iter : (outM c J S U (n + 1)).self (.con "OrdinalTotalArrayMap") "iter" = some .ref := rfl
@[text] theorem self_totalArr_iterMut : (outM c J S U (n + 1)).self (.con "OrdinalTotalArrayMap") "iter_mut" = some .refMut := rfl
@[text] theorem self_totalArr_intoIter : (outM c J S U (n + 1)).self (.con "OrdinalTotalArrayMap") "into_iter" = some .value := rfl
@[text] theorem self_totalArr_len : (outM c J S U (n + 1)).self (.con "OrdinalTotalArrayMap") "len" = some .ref := rfl
@[text] theorem self_totalArr_keys : (outM c J S U (n + 1)).self (.con "OrdinalTotalArrayMap") "keys" = some .ref := rfl

theorem Place.totalArr {vs : List (Val P)} (hp : Place h a ps (totalArrVal vs)) : Place h a (ps ++ [.field "map"]) (.arr vs) :=
  hp.sub rfl (by simp)

theorem Place.put_totalArr {vs : List (Val P)} (hp : Place h a ps (totalArrVal vs)) (vs' : List (Val P)) :
    put h a (ps ++ [.field "map"]) (.arr vs') = put h a ps (totalArrVal vs') :=
  hp.put_sub rfl

/-- `ASSERT` -/
theorem totalArr_assert (n : Nat) : (outM c J S U (n + 2)).const (.con "OrdinalTotalArrayMap") "ASSERT" =
    (fun _ => .unit) <$> OrdinalTotalArrayMap.assertS (J 0) S := by
  refine (outside_const (n + 1) (e := totalArrayMapConst1_0) rfl rfl).trans ?_
  cases hz : (J 0).size with
  | error f => runs [totalArrayMapConst1_0, outside_par_const, OrdinalTotalArrayMap.assertS, hz]
  | ok z =>
    by_cases hS : z = S <;> runs [totalArrayMapConst1_0, outside_par_const, OrdinalTotalArrayMap.assertS, constAssert, hz, hS, eval]

theorem totalArr_len (n : Nat) (vs : List (Val P)) :
    (outM c J S U (n + 1)).call (.con "OrdinalTotalArrayMap") "len" [.ref (totalArrVal vs)] h = .ok (.uint .size S, h) := by
  refine (outside_call (d := totalArrayMapFn1_3) n _ _ rfl rfl).trans ?_
  runs [totalArrayMapFn1_3, totalArrVal, Res.out, Loc.get, coerce]

theorem totalArr_isEmpty (n : Nat) (vs : List (Val P)) :
    (outM c J S U (n + 2)).call (.con "OrdinalTotalArrayMap") "is_empty" [.ref (totalArrVal vs)] h = .ok (.bool (S == 0), h) := by
  refine (outside_call (d := totalArrayMapFn1_4) (n + 1) _ _ rfl rfl).trans ?_
  have := totalArr_len (c := c) (J := J) (S := S) (U := U) (h := h ++ [.ref (totalArrVal vs)]) n vs
  simp only [totalArrVal, phantom] at this
  runs [totalArrayMapFn1_4, totalArrVal, this]

theorem totalArr_get (n : Nat) (vs : List (Val P)) (k : P 0) :
    (outM c J S U (n + 2)).call (.con "OrdinalTotalArrayMap") "get" [.ref (totalArrVal vs), .ref (.usr 0 k)] h =
      (fun v => (.ref v, h)) <$> OrdinalTotalArrayMap.get (J 0) vs k := by
  refine (outside_call (d := totalArrayMapFn1_5) (n + 1) _ _ rfl rfl).trans ?_
  cases hk : (J 0).ordinal k with
  | error e => runs [totalArrayMapFn1_5, totalArrVal, OrdinalTotalArrayMap.get, hk, outside_par_ordinal, outside_par_self]
  | ok i =>
    cases hs : vs[i]? <;> runs [totalArrayMapFn1_5, totalArrVal, OrdinalTotalArrayMap.get, hk, outside_par_ordinal, outside_par_self, getIdx, hs]

theorem totalArr_index (n : Nat) (vs : List (Val P)) (k : P 0) :
    (outM c J S U (n + 2)).call (.con "OrdinalTotalArrayMap") "index" [.ref (totalArrVal vs), .ref (.usr 0 k)] h =
      (fun v => (.ref v, h)) <$> OrdinalTotalArrayMap.index (J 0) vs k := by
  refine (outside_call (d := totalArrayMapFn2_0) (n + 1) _ _ rfl rfl).trans ?_
  cases hk : (J 0).ordinal k with
  | error e => runs [totalArrayMapFn2_0, totalArrVal, OrdinalTotalArrayMap.index, hk, outside_par_ordinal, outside_par_self]
  | ok i =>
    cases hs : vs[i]? <;> runs [totalArrayMapFn2_0, totalArrVal, OrdinalTotalArrayMap.index, hk, outside_par_ordinal, outside_par_self, getIdx, hs]

theorem totalArr_getMut (n : Nat) {vs : List (Val P)} (k : P 0) (hp : Place h a ps (totalArrVal vs)) :
    (outM c J S U (n + 2)).call (.con "OrdinalTotalArrayMap") "get_mut" [.mref a ps, .ref (.usr 0 k)] h =
      (fun i => (.mref a (ps ++ [.field "map"] ++ [.idx i]), h)) <$> OrdinalTotalArrayMap.getMut (J 0) vs k := by
  refine (outside_call (d := totalArrayMapFn1_6) (n + 1) _ _ rfl rfl).trans ?_
  have hl := hp.lt
  have hg := hp.get
  simp only [totalArrVal, phantom] at hg
  cases hk : (J 0).ordinal k with
  | error e => runs [totalArrayMapFn1_6, OrdinalTotalArrayMap.getMut, hk, outside_par_ordinal, outside_par_self, hl, hg, get_append]
  | ok i =>
    by_cases hi : i < vs.length <;>
    runs [totalArrayMapFn1_6, OrdinalTotalArrayMap.getMut, OrdinalTotalMap.slotOf, hk, outside_par_ordinal, outside_par_self, hl, hg, get_append, hi]

theorem totalArr_indexMut (n : Nat) {vs : List (Val P)} (k : P 0) (hp : Place h a ps (totalArrVal vs)) :
    (outM c J S U (n + 2)).call (.con "OrdinalTotalArrayMap") "index_mut" [.mref a ps, .ref (.usr 0 k)] h =
      (fun i => (.mref a (ps ++ [.field "map"] ++ [.idx i]), h)) <$> OrdinalTotalArrayMap.indexMut (J 0) vs k := by
  refine (outside_call (d := totalArrayMapFn3_0) (n + 1) _ _ rfl rfl).trans ?_
  have hl := hp.lt
  have hg := hp.get
  simp only [totalArrVal, phantom] at hg
  cases hk : (J 0).ordinal k with
  | error e => runs [totalArrayMapFn3_0, OrdinalTotalArrayMap.indexMut, hk, outside_par_ordinal, outside_par_self, hl, hg, get_append]
  | ok i =>
    by_cases hi : i < vs.length <;>
    runs [totalArrayMapFn3_0, OrdinalTotalArrayMap.indexMut, OrdinalTotalMap.slotOf, hk, outside_par_ordinal, outside_par_self, hl, hg, get_append, hi]

theorem arr_set {vs : List (Val P)} (hm : Place h a qs (.arr vs)) {i : Nat} (hi : i < vs.length) (w : Val P) :
    Loc.set .run h w (.heap a (qs ++ [.idx i])) = .ok (put h a qs (.arr (vs.set i w))) := by
  have hp : Place h a (qs ++ [.idx i]) vs[i] := hm.sub (by simp [getPath, part, hi]) (by simp)
  rw [hp.set]
  exact congrArg Except.ok (hm.put_sub (by simp [setPath, part, setPart, hi]))

theorem totalArr_insert (n : Nat) {vs : List (Val P)} (k : P 0) (w : Val P) (hp : Place h a ps (totalArrVal vs)) :
    (outM c J S U (n + 2)).call (.con "OrdinalTotalArrayMap") "insert" [.mref a ps, .usr 0 k, w] h =
      (fun r => (r.1, put h a ps (totalArrVal r.2))) <$> OrdinalTotalArrayMap.insert (J 0) vs k w := by
  refine (outside_call (d := totalArrayMapFn1_21) (n + 1) _ _ rfl rfl).trans ?_
  have hl := hp.lt
  have hg := hp.get
  simp only [totalArrVal, phantom] at hg
  cases hk : (J 0).ordinal k with
  | error e => runs [totalArrayMapFn1_21, OrdinalTotalArrayMap.insert, hk, outside_par_ordinal, outside_par_self, hl, hg, get_append]
  | ok i =>
    by_cases hi : i < vs.length
    · have hset := arr_set hp.totalArr hi w
      rw [hp.put_totalArr] at hset
      simp only [List.append_assoc, List.cons_append, List.nil_append] at hset
      have hln := hp.len (totalArrVal (vs.set i w))
      generalize hh : put h a ps (totalArrVal (vs.set i w)) = h' at *
      runs [totalArrayMapFn1_21, OrdinalTotalArrayMap.insert, hk, outside_par_ordinal, outside_par_self, hl, hg, get_append, hi, getIdx, setIdx, hset, hh, hln]
    · runs [totalArrayMapFn1_21, OrdinalTotalArrayMap.insert, hk, outside_par_ordinal, outside_par_self, hl, hg, get_append, hi, getIdx, setIdx]

theorem totalArr_iter (n : Nat) (vs : List (Val P)) :
    (outM c J S U (n + 4)).call (.con "OrdinalTotalArrayMap") "iter" [.ref (totalArrVal vs)] h =
      .ok (wrapVal "total::Iter" (enumVal ⟨0, vs.map .ref⟩), h) := by
  refine (outside_call (d := totalArrayMapFn1_12) (n + 3) _ _ rfl rfl).trans ?_
  have h1 (i : Nat) (us : List (Val P)) := totalIter_new (c := c) (J := J) (S := S) (U := U) (h := h ++ [.ref (totalArrVal vs)]) n i us
  simp only [totalArrVal, phantom, wrapVal, enumVal, Enumerate.new] at h1
  runs [totalArrayMapFn1_12, totalArrVal, h1, wrapVal, enumVal]

theorem totalArr_iterMut (n : Nat) {vs : List (Val P)} (hp : Place h a ps (totalArrVal vs)) :
    (outM c J S U (n + 4)).call (.con "OrdinalTotalArrayMap") "iter_mut" [.mref a ps] h =
      .ok (wrapVal "total::IterMut" (enumVal ⟨0, (List.range vs.length).map fun i => .mref a (ps ++ [.field "map"] ++ [.idx i])⟩), h) := by
  refine (outside_call (d := totalArrayMapFn1_13) (n + 3) _ _ rfl rfl).trans ?_
  have hl := hp.lt
  have hg := hp.get
  have h1 (us : List (Val P)) := totalIterMut_new (c := c) (J := J) (S := S) (U := U) (h := h ++ [.mref a ps]) n us
  simp only [totalArrVal, phantom] at hg
  simp only [wrapVal, enumVal, phantom, Enumerate.new] at h1
  runs [totalArrayMapFn1_13, hl, hg, get_append, h1, wrapVal, enumVal]

theorem totalArr_values (n : Nat) (vs : List (Val P)) :
    (outM c J S U (n + 1)).call (.con "OrdinalTotalArrayMap") "values" [.ref (totalArrVal vs)] h = .ok (.it (vs.map .ref), h) := by
  refine (outside_call (d := totalArrayMapFn1_16) n _ _ rfl rfl).trans ?_
  runs [totalArrayMapFn1_16, totalArrVal]

theorem totalArr_valuesMut (n : Nat) {vs : List (Val P)} (hp : Place h a ps (totalArrVal vs)) :
    (outM c J S U (n + 1)).call (.con "OrdinalTotalArrayMap") "values_mut" [.mref a ps] h =
      .ok (.it ((List.range vs.length).map fun i => .mref a (ps ++ [.field "map"] ++ [.idx i])), h) := by
  refine (outside_call (d := totalArrayMapFn1_18) n _ _ rfl rfl).trans ?_
  have hl := hp.lt
  have hg := hp.get
  simp only [totalArrVal, phantom] at hg
  runs [totalArrayMapFn1_18, hl, hg, get_append]

theorem totalArr_valuesArray (n : Nat) (vs : List (Val P)) :
    (outM c J S U (n + 1)).call (.con "OrdinalTotalArrayMap") "values_array" [.ref (totalArrVal vs)] h = .ok (.ref (.arr vs), h) := by
  refine (outside_call (d := totalArrayMapFn1_17) n _ _ rfl rfl).trans ?_
  runs [totalArrayMapFn1_17, totalArrVal]

theorem totalArr_valuesArrayMut (n : Nat) {vs : List (Val P)} (hp : Place h a ps (totalArrVal vs)) :
    (outM c J S U (n + 1)).call (.con "OrdinalTotalArrayMap") "values_array_mut" [.mref a ps] h =
      .ok (.mref a (ps ++ [.field "map"]), h) := by
  refine (outside_call (d := totalArrayMapFn1_19) n _ _ rfl rfl).trans ?_
  have hl := hp.lt
  have hg := hp.get
  simp only [totalArrVal, phantom] at hg
  runs [totalArrayMapFn1_19, hl, hg, get_append]

theorem totalArr_intoValues (n : Nat) (vs : List (Val P)) :
    (outM c J S U (n + 1)).call (.con "OrdinalTotalArrayMap") "into_values" [totalArrVal vs] h = .ok (.arr vs, h) := by
  refine (outside_call (d := totalArrayMapFn1_20) n _ _ rfl rfl).trans ?_
  runs [totalArrayMapFn1_20, totalArrVal, get_cons]

theorem totalArr_fromArray (n : Nat) (vs : List (Val P)) :
    (outM c J S U (n + 2)).call (.con "OrdinalTotalArrayMap") "from_array" [.arr vs] h = .ok (totalArrVal vs, h) := by
  refine (outside_call (d := totalArrayMapFn1_2) (n + 1) _ _ rfl rfl).trans ?_
  runs [totalArrayMapFn1_2, totalArrVal]

theorem totalArr_keys (n : Nat) (vs : List (Val P)) :
    (outM c J S U (n + 4)).call (.con "OrdinalTotalArrayMap") "keys" [.ref (totalArrVal vs)] h =
      (fun s => (valuesVal s, h)) <$> OrdinalValues.new (J 0) := by
  refine (outside_call (d := totalArrayMapFn1_14) (n + 3) _ _ rfl rfl).trans ?_
  cases hm : OrdinalValues.new (J 0) <;> runs [totalArrayMapFn1_14, totalArrVal, allM_values, hm, valuesVal]

theorem totalArr_intoKeys (n : Nat) (vs : List (Val P)) :
    (outM c J S U (n + 5)).call (.con "OrdinalTotalArrayMap") "into_keys" [totalArrVal vs] h =
      (fun s => (valuesVal s, h)) <$> OrdinalValues.new (J 0) := by
  refine (outside_call (d := totalArrayMapFn1_15) (n + 4) _ _ rfl rfl).trans ?_
  have := totalArr_keys (c := c) (J := J) (S := S) (U := U) (h := h ++ [totalArrVal vs]) n vs
  simp only [totalArrVal, phantom] at this
  cases hm : OrdinalValues.new (J 0) <;> runs [totalArrayMapFn1_15, totalArrVal, this, hm, valuesVal]

theorem totalArr_intoIter (n : Nat) (vs : List (Val P)) :
    (outM c J S U (n + 4)).call (.con "OrdinalTotalArrayMap") "into_iter" [totalArrVal vs] h =
      .ok (wrapVal "total::IntoIterArray" (enumVal ⟨0, vs⟩), h) := by
  refine (outside_call (d := totalArrayMapFn7_0) (n + 3) _ _ rfl rfl).trans ?_
  have h1 (us : List (Val P)) := totalIntoIterArray_new (c := c) (J := J) (S := S) (U := U) (h := h ++ [totalArrVal vs]) n us
  simp only [totalArrVal, phantom, wrapVal, enumVal, Enumerate.new] at h1
  runs [totalArrayMapFn7_0, totalArrVal, h1, get_cons, wrapVal, enumVal]

end OrdinalMap.Text
