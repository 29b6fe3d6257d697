import Verif.Text.MapNew
/-!
# `map/total/map.rs`, run from its text
-/

namespace OrdinalMap.Text

variable {P : Nat → Type} {c : Cfg} {J : (p : Nat) → OrdinalImpl (P p)} {S : Nat} {h xs : Heap P} {a b : Nat} {ps qs : List Proj} {U : UserFns P}

/-- `OrdinalTotalMap<K, V>` -/
def totalMapVal (vs : List (Val P)) : Val P := .obj "OrdinalTotalMap" [("map", .arr vs), phantom]

@[text] theorem struct_totalMap : (outM c J S U (n + 1)).struct "OrdinalTotalMap" =
    some [("map", .path ["Box"] (.cons (.slice (.path ["V"] .nil)) .nil)), ("_phantom", .path ["PhantomData"] (.cons (.path ["T"] .nil) .nil))] := rfl

@[text] theorem self_totalMap_get : (outM c J S U (n + 1)).self (.con "OrdinalTotalMap") "get" = some .ref := rfl
@[text] theorem self_totalMap_getMut : (outM c J S U (n + 1)).self (.con "OrdinalTotalMap") "get_mut" = some .refMut := rfl
@[text] theorem self_totalMap_iter : (outM c J S U (n + 1)).self (.con "OrdinalTotalMap") "iter" = some .ref := rfl
@[text] theorem self_totalMap_iterMut : (outM c J S U (n + 1)).self (.con "OrdinalTotalMap") "iter_mut" = some .refMut := rfl
@[text] theorem self_totalMap_intoIter : (outM c J S U (n + 1)).self (.con "OrdinalTotalMap") "into_iter" = some .value := rfl
@[text] theorem self_totalMap_len : (outM c J S U (n + 1)).self (.con "OrdinalTotalMap") "len" = some .ref := rfl
@[text] theorem self_totalMap_keys : (outM c J S U (n + 1)).self (.con "OrdinalTotalMap") "keys" = some .ref := rfl

theorem Place.totalMap {vs : List (Val P)} (hp : Place h a ps (totalMapVal vs)) : Place h a (ps ++ [.field "map"]) (.arr vs) :=
  hp.sub rfl (by simp)

theorem Place.put_totalMap {vs : List (Val P)} (hp : Place h a ps (totalMapVal vs)) (vs' : List (Val P)) :
    put h a (ps ++ [.field "map"]) (.arr vs') = put h a ps (totalMapVal vs') :=
  hp.put_sub rfl

theorem totalMap_get (n : Nat) (vs : List (Val P)) (k : P 0) :
    (outM c J S U (n + 2)).call (.con "OrdinalTotalMap") "get" [.ref (totalMapVal vs), .ref (.usr 0 k)] h =
      (fun v => (.ref v, h)) <$> OrdinalTotalMap.get (J 0) vs k := by
  refine (outside_call (d := totalMapFn1_4) (n + 1) _ _ rfl rfl).trans ?_
  cases hk : (J 0).ordinal k with
  | error e => runs [totalMapFn1_4, totalMapVal, OrdinalTotalMap.get, hk, outside_par_ordinal, outside_par_self]
  | ok i =>
    cases hs : vs[i]? <;> runs [totalMapFn1_4, totalMapVal, OrdinalTotalMap.get, hk, outside_par_ordinal, outside_par_self, getIdx, hs]

theorem totalMap_index (n : Nat) (vs : List (Val P)) (k : P 0) :
    (outM c J S U (n + 3)).call (.con "OrdinalTotalMap") "index" [.ref (totalMapVal vs), .ref (.usr 0 k)] h =
      (fun v => (.ref v, h)) <$> OrdinalTotalMap.index (J 0) vs k := by
  refine (outside_call (d := totalMapFn3_0) (n + 2) _ _ rfl rfl).trans ?_
  have h1 (h : Heap P) := totalMap_get (c := c) (J := J) (S := S) (U := U) (h := h) n vs k
  simp only [totalMapVal, phantom] at h1
  rw [OrdinalTotalMap.index]
  cases hk : OrdinalTotalMap.get (J 0) vs k <;> runs [totalMapFn3_0, totalMapVal, h1, hk]

theorem totalMap_getMut (n : Nat) {vs : List (Val P)} (k : P 0) (hp : Place h a ps (totalMapVal vs)) :
    (outM c J S U (n + 2)).call (.con "OrdinalTotalMap") "get_mut" [.mref a ps, .ref (.usr 0 k)] h =
      (fun i => (.mref a (ps ++ [.field "map"] ++ [.idx i]), h)) <$> OrdinalTotalMap.getMut (J 0) vs k := by
  refine (outside_call (d := totalMapFn1_5) (n + 1) _ _ rfl rfl).trans ?_
  have hl := hp.lt
  have hg := hp.get
  simp only [totalMapVal, phantom] at hg
  cases hk : (J 0).ordinal k with
  | error e => runs [totalMapFn1_5, OrdinalTotalMap.getMut, hk, outside_par_ordinal, outside_par_self, hl, hg, get_append]
  | ok i =>
    by_cases hi : i < vs.length <;>
    runs [totalMapFn1_5, OrdinalTotalMap.getMut, OrdinalTotalMap.slotOf, hk, outside_par_ordinal, outside_par_self, hl, hg, get_append, hi]

theorem totalMap_indexMut (n : Nat) {vs : List (Val P)} (k : P 0) (hp : Place h a ps (totalMapVal vs)) :
    (outM c J S U (n + 3)).call (.con "OrdinalTotalMap") "index_mut" [.mref a ps, .ref (.usr 0 k)] h =
      (fun i => (.mref a (ps ++ [.field "map"] ++ [.idx i]), h)) <$> OrdinalTotalMap.indexMut (J 0) vs k := by
  refine (outside_call (d := totalMapFn4_0) (n + 2) _ _ rfl rfl).trans ?_
  have hl := hp.lt
  have hg := hp.get
  have h1 := totalMap_getMut (c := c) (J := J) (S := S) (U := U) n k (hp.append [.mref a ps, .ref (.usr 0 k)])
  simp only [totalMapVal, phantom, List.append_assoc, List.cons_append, List.nil_append] at hg h1
  rw [OrdinalTotalMap.indexMut]
  cases hk : OrdinalTotalMap.getMut (J 0) vs k <;> runs [totalMapFn4_0, hl, hg, get_append, h1, hk]

theorem totalMap_insert (n : Nat) {vs : List (Val P)} (k : P 0) (w : Val P) (hp : Place h a ps (totalMapVal vs)) :
    (outM c J S U (n + 2)).call (.con "OrdinalTotalMap") "insert" [.mref a ps, .usr 0 k, w] h =
      (fun r => (r.1, put h a ps (totalMapVal r.2))) <$> OrdinalTotalMap.insert (J 0) vs k w := by
  refine (outside_call (d := totalMapFn1_13) (n + 1) _ _ rfl rfl).trans ?_
  have hl := hp.lt
  have hg := hp.get
  simp only [totalMapVal, phantom] at hg
  cases hk : (J 0).ordinal k with
  | error e => runs [totalMapFn1_13, OrdinalTotalMap.insert, hk, outside_par_ordinal, outside_par_self, hl, hg, get_append]
  | ok i =>
    by_cases hi : i < vs.length
    · have hset := arr_set hp.totalMap hi w
      rw [hp.put_totalMap] at hset
      simp only [List.append_assoc, List.cons_append, List.nil_append] at hset
      have hln := hp.len (totalMapVal (vs.set i w))
      generalize hh : put h a ps (totalMapVal (vs.set i w)) = h' at *
      runs [totalMapFn1_13, OrdinalTotalMap.insert, hk, outside_par_ordinal, outside_par_self, hl, hg, get_append, hi, getIdx, setIdx, hset, hh, hln]
    · runs [totalMapFn1_13, OrdinalTotalMap.insert, hk, outside_par_ordinal, outside_par_self, hl, hg, get_append, hi, getIdx, setIdx]

theorem totalMap_iter (n : Nat) (vs : List (Val P)) :
    (outM c J S U (n + 4)).call (.con "OrdinalTotalMap") "iter" [.ref (totalMapVal vs)] h =
      .ok (wrapVal "total::Iter" (enumVal ⟨0, vs.map .ref⟩), h) := by
  refine (outside_call (d := totalMapFn1_11) (n + 3) _ _ rfl rfl).trans ?_
  have h1 (i : Nat) (us : List (Val P)) := totalIter_new (c := c) (J := J) (S := S) (U := U) (h := h ++ [.ref (totalMapVal vs)]) n i us
  simp only [totalMapVal, phantom, wrapVal, enumVal, Enumerate.new] at h1
  runs [totalMapFn1_11, totalMapVal, h1, wrapVal, enumVal]

theorem totalMap_iterMut (n : Nat) {vs : List (Val P)} (hp : Place h a ps (totalMapVal vs)) :
    (outM c J S U (n + 4)).call (.con "OrdinalTotalMap") "iter_mut" [.mref a ps] h =
      .ok (wrapVal "total::IterMut" (enumVal ⟨0, (List.range vs.length).map fun i => .mref a (ps ++ [.field "map"] ++ [.idx i])⟩), h) := by
  refine (outside_call (d := totalMapFn1_12) (n + 3) _ _ rfl rfl).trans ?_
  have hl := hp.lt
  have hg := hp.get
  have h1 (us : List (Val P)) := totalIterMut_new (c := c) (J := J) (S := S) (U := U) (h := h ++ [.mref a ps]) n us
  simp only [totalMapVal, phantom] at hg
  simp only [wrapVal, enumVal, phantom, Enumerate.new] at h1
  runs [totalMapFn1_12, hl, hg, get_append, h1, wrapVal, enumVal]

theorem totalMap_values (n : Nat) (vs : List (Val P)) :
    (outM c J S U (n + 1)).call (.con "OrdinalTotalMap") "values" [.ref (totalMapVal vs)] h = .ok (.it (vs.map .ref), h) := by
  refine (outside_call (d := totalMapFn1_8) n _ _ rfl rfl).trans ?_
  runs [totalMapFn1_8, totalMapVal]

theorem totalMap_valuesMut (n : Nat) {vs : List (Val P)} (hp : Place h a ps (totalMapVal vs)) :
    (outM c J S U (n + 1)).call (.con "OrdinalTotalMap") "values_mut" [.mref a ps] h =
      .ok (.it ((List.range vs.length).map fun i => .mref a (ps ++ [.field "map"] ++ [.idx i])), h) := by
  refine (outside_call (d := totalMapFn1_9) n _ _ rfl rfl).trans ?_
  have hl := hp.lt
  have hg := hp.get
  simp only [totalMapVal, phantom] at hg
  runs [totalMapFn1_9, hl, hg, get_append]

theorem totalMap_intoValues (n : Nat) (vs : List (Val P)) :
    (outM c J S U (n + 1)).call (.con "OrdinalTotalMap") "into_values" [totalMapVal vs] h = .ok (.arr vs, h) := by
  refine (outside_call (d := totalMapFn1_10) n _ _ rfl rfl).trans ?_
  runs [totalMapFn1_10, totalMapVal, get_cons]

theorem totalMap_keys (n : Nat) (vs : List (Val P)) :
    (outM c J S U (n + 4)).call (.con "OrdinalTotalMap") "keys" [.ref (totalMapVal vs)] h =
      (fun s => (valuesVal s, h)) <$> OrdinalValues.new (J 0) := by
  refine (outside_call (d := totalMapFn1_6) (n + 3) _ _ rfl rfl).trans ?_
  cases hm : OrdinalValues.new (J 0) <;> runs [totalMapFn1_6, totalMapVal, allM_values, hm, valuesVal]

theorem totalMap_intoKeys (n : Nat) (vs : List (Val P)) :
    (outM c J S U (n + 4)).call (.con "OrdinalTotalMap") "into_keys" [totalMapVal vs] h =
      (fun s => (valuesVal s, h)) <$> OrdinalValues.new (J 0) := by
  refine (outside_call (d := totalMapFn1_7) (n + 3) _ _ rfl rfl).trans ?_
  cases hm : OrdinalValues.new (J 0) <;> runs [totalMapFn1_7, totalMapVal, allM_values, hm, valuesVal]

theorem totalMap_len (n : Nat) (vs : List (Val P)) :
    (outM c J S U (n + 2)).call (.con "OrdinalTotalMap") "len" [.ref (totalMapVal vs)] h =
      (fun z => (.uint .size z, h)) <$> OrdinalTotalMap.len (J 0) vs := by
  refine (outside_call (d := totalMapFn1_2) (n + 1) _ _ rfl rfl).trans ?_
  cases hz : (J 0).size <;> runs [totalMapFn1_2, totalMapVal, outside_par_const, OrdinalTotalMap.len, hz]

theorem totalMap_isEmpty (n : Nat) (vs : List (Val P)) :
    (outM c J S U (n + 3)).call (.con "OrdinalTotalMap") "is_empty" [.ref (totalMapVal vs)] h =
      (fun b => (.bool b, h)) <$> OrdinalTotalMap.isEmpty (J 0) vs := by
  refine (outside_call (d := totalMapFn1_3) (n + 2) _ _ rfl rfl).trans ?_
  have := totalMap_len (c := c) (J := J) (S := S) (U := U) (h := h ++ [.ref (totalMapVal vs)]) n vs
  simp only [totalMapVal, phantom] at this
  rw [OrdinalTotalMap.isEmpty]
  cases hz : OrdinalTotalMap.len (J 0) vs <;> runs [totalMapFn1_3, totalMapVal, this, hz]

theorem totalMap_intoIter (n : Nat) (vs : List (Val P)) :
    (outM c J S U (n + 4)).call (.con "OrdinalTotalMap") "into_iter" [totalMapVal vs] h =
      .ok (wrapVal "total::IntoIter" (enumVal ⟨0, vs⟩), h) := by
  refine (outside_call (d := totalMapFn7_0) (n + 3) _ _ rfl rfl).trans ?_
  have h1 (us : List (Val P)) := totalIntoIter_new (c := c) (J := J) (S := S) (U := U) (h := h ++ [totalMapVal vs]) n us
  simp only [totalMapVal, phantom, wrapVal, enumVal, Enumerate.new] at h1
  runs [totalMapFn7_0, totalMapVal, h1, get_cons, wrapVal, enumVal]

/-- `push` is not one of the methods that leave their `self` as it is. -/
theorem stdMethod_push (md : Mode) (vs : List (Val P)) (v : Val P) : stdMethod c md (.arr vs) "push" [v] = none := by
  cases v with
  | uint w i => cases w <;> rfl
  | _ => rfl

/-- The loop of `try_new`, when `ORDINAL_SIZE` is a `usize`. -/
theorem totalMap_tryNew (n : Nat) {g : Val P} {st : ρ → Heap P} {init : P 0 → ρ → R (Except E V × ρ)} {enc : V → Val P}
    {encE : E → Val P} (hc : CallsFn (outM c J S U (n + 3)) g st init (resultVal enc encE)) (hz : ∀ z, (J 0).size = .ok z → z < c.M) (r : ρ) :
    (outM c J S U (n + 4)).call (.con "OrdinalTotalMap") "try_new" [g] (st r) =
      (fun p => (resultVal (fun vs => totalMapVal (List.map enc vs)) encE p.1, st p.2)) <$> OrdinalTotalMap.tryNew c (J 0) 0 init r := by
  refine (outside_call (d := totalMapFn1_0) (n + 3) _ _ rfl rfl).trans ?_
  rw [OrdinalTotalMap.tryNew]
  cases hs : (J 0).size with
  | error f => runs [totalMapFn1_0, outside_par_const, hs]
  | ok z =>
    have hzM := hz z hs
    have hv (h : Heap P) := allM_values (c := c) (J := J) (S := S) (U := U) (h := h) n
    simp only [OrdinalValues.new, hs, ok_bind, ok_map] at hv
    have hln := fun r' => hc.len r' r
    have hl := tryNew_loop (encE := encE) (mk := tryHeap st g .arr enc) (B := z) (init := init)
      (body := forBody c (("Self", .con "OrdinalTotalMap") :: mapTys S) (outside c J (mapTys S) maps (n + 3) U) .run
        [("map", (st r).length + 1), ("init", (st r).length)] (.path ["v"])
        (.semi (.method (.path [⟨"map", .nil⟩]) "push" .nil (.cons (.try (.call (.path [⟨"init", .nil⟩]) (.cons (.path [⟨"v", .nil⟩]) .nil))) .nil)) .nil))
      (tryHeap_next (c := c) (J := J) (S := S) (U := U) (n + 1) hc r .arr enc) (fun r' vs it k hb => by
        have ha := hc.apply k r' [g, .arr (vs.map enc), valuesVal it, .usr 0 k]
        simp only [valuesVal, phantom] at ha
        have hl' := hln r'
        cases hk : init k r' with
        | error f => runs [forBody, tryHeap, valuesVal, ha, hk, hl']
        | ok p =>
          obtain ⟨o, r''⟩ := p
          have hl'' := hln r''
          cases o <;> runs [forBody, tryHeap, valuesVal, ha, hk, hl', hl'', resultVal, hb, ↓stdMethod_push])
      c.M ⟨0, z⟩ [] r (by simp [OrdinalValues.len, range_len]; omega) (by simp [OrdinalValues.len, range_len])
    simp only [OrdinalValues.len, range_len, Nat.sub_zero] at hl
    simp only [tryHeap, valuesVal, List.map_nil, phantom, Cfg.M, Nat.add_assoc n, Nat.reduceAdd] at hl
    have hw : withCapacity c 0 z = .ok () := by simp [withCapacity]
    simp only [hw, OrdinalValues.new, hs, ok_bind, OrdinalValues.len, range_len, Nat.sub_zero]
    cases hm : OrdinalTotalMap.tryNewLoop (J 0) init (z + 1) ⟨0, z⟩ [] r with
    | error f =>
      rw [hm] at hl
      simp only [LoopEnds] at hl
      runs [totalMapFn1_0, outside_par_const, hs, hv, valuesVal, hl, hm]
    | ok p =>
      rw [hm] at hl
      obtain ⟨o, r'⟩ := p
      have hl' := hln r'
      cases o with
      | error e =>
        obtain ⟨vs, it, hl⟩ := hl
        runs [totalMapFn1_0, outside_par_const, hs, hv, valuesVal, hl, hm, hl', resultVal, tryHeap, take_fresh2]
      | ok vs =>
        obtain ⟨it, hl⟩ := hl
        runs [totalMapFn1_0, outside_par_const, hs, hv, valuesVal, hl, hm, hl', resultVal, totalMapVal, tryHeap, take_fresh2]

theorem totalMap_new (n : Nat) {g : Val P} {st : ρ → Heap P} {init : P 0 → ρ → R (V × ρ)} {enc : V → Val P}
    (hc : CallsFn (outM c J S U (n + 2)) g st init enc) (hz : ∀ z, (J 0).size = .ok z → z < c.M) (r : ρ) :
    (outM c J S U (n + 5)).call (.con "OrdinalTotalMap") "new" [g] (st r) =
      (fun p => (totalMapVal (List.map enc p.1), st p.2)) <$> OrdinalTotalMap.new c (J 0) 0 init r := by
  refine (outside_call (d := totalMapFn1_1) (n + 4) _ _ rfl rfl).trans ?_
  have h2 := totalMap_tryNew n (okInit_calls (n + 1) hc (("Self", .con "OrdinalTotalMap") :: mapTys S)
    (ts := .cons .infer (.cons (.path ["Infallible"] .nil) .nil)) r) hz r
  have : okInit init = fun k r => (do
      let (v, r) ← init k r
      .ok (.ok v, r)) := rfl
  rw [OrdinalTotalMap.new, ← this]
  cases ht : OrdinalTotalMap.tryNew c (J 0) 0 (okInit init) r with
  | error f =>
    rw [ht] at h2
    runs [totalMapFn1_1, h2]
  | ok p =>
    obtain ⟨o, r'⟩ := p
    cases o with
    | error e => exact nomatch e
    | ok m =>
      have hl' := hc.len r' r
      rw [ht] at h2
      runs [totalMapFn1_1, h2, resultVal, totalMapVal, hl']

end OrdinalMap.Text
