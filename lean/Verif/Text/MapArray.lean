import Verif.Text.MapNew
/-!
# `map/array_map.rs`, run from its text
-/

namespace OrdinalMap.Text

variable {P : Nat → Type} {c : Cfg} {J : (p : Nat) → OrdinalImpl (P p)} {S : Nat} {h xs : Heap P} {a b : Nat} {ps qs : List Proj} {U : UserFns P}

/-- `OrdinalArrayMap<K, V, S>` -/
def arrMapVal (s : List (Option (P 1))) : Val P := .obj "OrdinalArrayMap" [("map", totalArrVal (s.map slotVal))]

@[text] theorem struct_arrMap : (outM c J S U (n + 1)).struct "OrdinalArrayMap" = some [("map", .path ["OrdinalTotalArrayMap"]
    (.cons (.path ["K"] .nil) (.cons (.path ["Option"] (.cons (.path ["V"] .nil) .nil)) (.cons (.path ["S"] .nil) .nil))))] := rfl

theorem Place.arrTotal {s : List (Option (P 1))} (hp : Place h a ps (arrMapVal s)) :
    Place h a (ps ++ [.field "map"]) (totalArrVal (s.map slotVal)) :=
  hp.sub rfl (by simp)

theorem Place.arrMap {s : List (Option (P 1))} (hp : Place h a ps (arrMapVal s)) :
    Place h a (ps ++ [.field "map"] ++ [.field "map"]) (slotsVal s) :=
  hp.arrTotal.totalArr

theorem Place.put_arrMap {s : List (Option (P 1))} (hp : Place h a ps (arrMapVal s)) (s' : List (Option (P 1))) :
    put h a (ps ++ [.field "map"] ++ [.field "map"]) (slotsVal s') = put h a ps (arrMapVal s') := by
  rw [slotsVal, hp.arrTotal.put_totalArr]
  exact hp.put_sub rfl

/-! ## The functions of the total map at slots -/

theorem getMut_slots (I : OrdinalImpl (P 0)) (s : List (Option (P 1))) (k : P 0) :
    OrdinalTotalArrayMap.getMut I (s.map (slotVal (P := P))) k = OrdinalTotalArrayMap.getMut I s k := by
  simp [OrdinalTotalArrayMap.getMut, OrdinalTotalMap.slotOf]

theorem indexMut_slots (I : OrdinalImpl (P 0)) (s : List (Option (P 1))) (k : P 0) :
    OrdinalTotalArrayMap.indexMut I (s.map (slotVal (P := P))) k = OrdinalTotalArrayMap.indexMut I s k := by
  simp [OrdinalTotalArrayMap.indexMut, OrdinalTotalMap.slotOf]

theorem get_slots (I : OrdinalImpl (P 0)) (s : List (Option (P 1))) (k : P 0) :
    OrdinalTotalArrayMap.get I (s.map (slotVal (P := P))) k = slotVal <$> OrdinalTotalArrayMap.get I s k := by
  simp only [OrdinalTotalArrayMap.get]
  cases I.ordinal k with
  | error f => rfl
  | ok i => simp only [ok_bind, getIdx, List.getElem?_map]; cases s[i]? <;> rfl

theorem getMut_lt {I : OrdinalImpl (P 0)} {s : List (Option (P 1))} {k : P 0} {i : Nat} (h : OrdinalTotalArrayMap.getMut I s k = .ok i) :
    i < s.length := by
  simp only [OrdinalTotalArrayMap.getMut, OrdinalTotalMap.slotOf] at h
  cases hk : I.ordinal k with
  | error f => simp [hk] at h
  | ok j =>
    simp only [hk, ok_bind] at h
    split at h
    · cases h; assumption
    · simp at h

/-! ## `OrdinalArrayMap` -/

theorem arrMap_get (n : Nat) (s : List (Option (P 1))) (k : P 0) :
    (outM c J S U (n + 3)).call (.con "OrdinalArrayMap") "get" [.ref (arrMapVal s), .ref (.usr 0 k)] h =
      (fun o => (.opt (o.map fun v => .ref (.usr 1 v)), h)) <$> OrdinalArrayMap.get (J 0) s k := by
  refine (outside_call (d := mapArrayMapFn1_3) (n + 2) _ _ rfl rfl).trans ?_
  have h1 (h : Heap P) := totalArr_get (c := c) (J := J) (S := S) (U := U) (h := h) n (s.map slotVal) k
  simp only [get_slots] at h1
  simp only [totalArrVal, phantom] at h1
  cases hm : OrdinalTotalArrayMap.get (J 0) s k with
  | error e => rw [hm] at h1; runs [mapArrayMapFn1_3, arrMapVal, totalArrVal, OrdinalArrayMap.get, hm, h1]
  | ok o => rw [hm] at h1; cases o <;> runs [mapArrayMapFn1_3, arrMapVal, totalArrVal, slotVal, OrdinalArrayMap.get, hm, h1]

@[text] theorem self_arrMap_get : (outM c J S U (n + 1)).self (.con "OrdinalArrayMap") "get" = some .ref := rfl
@[text] theorem self_arrMap_iter : (outM c J S U (n + 1)).self (.con "OrdinalArrayMap") "iter" = some .ref := rfl
@[text] theorem self_arrMap_iterMut : (outM c J S U (n + 1)).self (.con "OrdinalArrayMap") "iter_mut" = some .refMut := rfl
@[text] theorem self_arrMap_drain : (outM c J S U (n + 1)).self (.con "OrdinalArrayMap") "drain" = some .refMut := rfl
@[text] theorem self_arrMap_insert : (outM c J S U (n + 1)).self (.con "OrdinalArrayMap") "insert" = some .refMut := rfl

theorem arrMap_containsKey (n : Nat) (s : List (Option (P 1))) (k : P 0) :
    (outM c J S U (n + 4)).call (.con "OrdinalArrayMap") "contains_key" [.ref (arrMapVal s), .ref (.usr 0 k)] h =
      (fun b => (.bool b, h)) <$> OrdinalArrayMap.containsKey (J 0) s k := by
  refine (outside_call (d := mapArrayMapFn1_5) (n + 3) _ _ rfl rfl).trans ?_
  have h1 (h : Heap P) := arrMap_get (c := c) (J := J) (S := S) (U := U) (h := h) n s k
  simp only [arrMapVal, totalArrVal, phantom] at h1
  cases hm : OrdinalArrayMap.get (J 0) s k with
  | error e => rw [hm] at h1; runs [mapArrayMapFn1_5, arrMapVal, totalArrVal, OrdinalArrayMap.containsKey, hm, h1]
  | ok o => rw [hm] at h1; cases o <;> runs [mapArrayMapFn1_5, arrMapVal, totalArrVal, OrdinalArrayMap.containsKey, hm, h1]

theorem arrMap_getMut (n : Nat) {s : List (Option (P 1))} (k : P 0) (hp : Place h a ps (arrMapVal s)) :
    (outM c J S U (n + 3)).call (.con "OrdinalArrayMap") "get_mut" [.mref a ps, .ref (.usr 0 k)] h =
      (fun o => (.opt (o.map fun i => .mref a (ps ++ [.field "map"] ++ [.field "map"] ++ [.idx i] ++ [.idx 0])), h)) <$>
        OrdinalArrayMap.getMut (J 0) s k := by
  refine (outside_call (d := mapArrayMapFn1_4) (n + 2) _ _ rfl rfl).trans ?_
  have hl := hp.lt
  have hg := hp.get
  have hgt := hp.arrTotal.get
  have h1 := totalArr_getMut (c := c) (J := J) (S := S) (U := U) n k (hp.arrTotal.append [.mref a ps, .ref (.usr 0 k)])
  rw [getMut_slots] at h1
  simp only [arrMapVal, totalArrVal, phantom] at hg hgt
  cases hm : OrdinalTotalArrayMap.getMut (J 0) s k with
  | error e => rw [hm] at h1; runs [mapArrayMapFn1_4, OrdinalArrayMap.getMut, hm, h1, hl, hg, hgt, get_append]
  | ok i =>
    rw [hm] at h1
    have hs := List.getElem?_eq_getElem (getMut_lt hm)
    have hgs := (hp.arrMap.slot hs).get
    generalize s[i]'(getMut_lt hm) = o at *
    simp only [List.append_assoc, List.cons_append, List.nil_append] at h1 hgs
    cases o <;> simp only [slotVal, Option.map_none, Option.map_some, Val.opt, Val.some, Val.none] at hgs <;>
    runs [mapArrayMapFn1_4, OrdinalArrayMap.getMut, readSlot, hs, hm, h1, hl, hg, hgt, hgs, get_append, slotVal]

theorem arrMap_insert (n : Nat) {s : List (Option (P 1))} (k : P 0) (v : P 1) (hp : Place h a ps (arrMapVal s)) :
    (outM c J S U (n + 3)).call (.con "OrdinalArrayMap") "insert" [.mref a ps, .usr 0 k, .usr 1 v] h =
      (fun r => (slotVal r.1, put h a ps (arrMapVal r.2))) <$> OrdinalArrayMap.insert (J 0) s k v := by
  refine (outside_call (d := mapArrayMapFn1_6) (n + 2) _ _ rfl rfl).trans ?_
  have hl := hp.lt
  have hg := hp.get
  have hgt := hp.arrTotal.get
  have h1 := totalArr_getMut (c := c) (J := J) (S := S) (U := U) n k (hp.arrTotal.append [.mref a ps, .usr 0 k, .usr 1 v])
  rw [getMut_slots] at h1
  simp only [arrMapVal, totalArrVal, phantom] at hg hgt
  cases hm : OrdinalTotalArrayMap.getMut (J 0) s k with
  | error e => rw [hm] at h1; runs [mapArrayMapFn1_6, OrdinalArrayMap.insert, hm, h1, hl, hg, hgt, get_append]
  | ok i =>
    rw [hm] at h1
    have hi := getMut_lt hm
    have hs := List.getElem?_eq_getElem hi
    have hgs := (hp.arrMap.slot hs).get
    have hset := slots_set hp.arrMap hs (some v)
    rw [hp.put_arrMap] at hset
    have hln := hp.len (arrMapVal (s.set i (some v)))
    obtain ⟨o, he⟩ : ∃ o, s[i] = o := ⟨_, rfl⟩
    rw [he] at hs hgs
    simp only [List.append_assoc, List.cons_append, List.nil_append] at h1 hgs hset
    simp only [slotVal, Option.map_some, Val.opt, Val.some] at hset
    generalize hh : put h a ps (arrMapVal (s.set i (some v))) = h' at *
    cases o <;> simp only [slotVal, Option.map_none, Option.map_some, Val.opt, Val.some, Val.none] at hgs <;>
    runs [mapArrayMapFn1_6, OrdinalArrayMap.insert, readSlot, writeSlot, hi, he, hm, h1, hl, hg, hgt, hgs, get_append, hset, hh, hln, slotVal]

theorem arrMap_remove (n : Nat) {s : List (Option (P 1))} (k : P 0) (hp : Place h a ps (arrMapVal s)) :
    (outM c J S U (n + 3)).call (.con "OrdinalArrayMap") "remove" [.mref a ps, .ref (.usr 0 k)] h =
      (fun r => (slotVal r.1, put h a ps (arrMapVal r.2))) <$> OrdinalArrayMap.remove (J 0) s k := by
  refine (outside_call (d := mapArrayMapFn1_8) (n + 2) _ _ rfl rfl).trans ?_
  have hl := hp.lt
  have hg := hp.get
  have hgt := hp.arrTotal.get
  have h1 := totalArr_getMut (c := c) (J := J) (S := S) (U := U) n k (hp.arrTotal.append [.mref a ps, .ref (.usr 0 k)])
  rw [getMut_slots] at h1
  simp only [arrMapVal, totalArrVal, phantom] at hg hgt
  cases hm : OrdinalTotalArrayMap.getMut (J 0) s k with
  | error e => rw [hm] at h1; runs [mapArrayMapFn1_8, OrdinalArrayMap.remove, hm, h1, hl, hg, hgt, get_append]
  | ok i =>
    rw [hm] at h1
    have hi := getMut_lt hm
    have hs := List.getElem?_eq_getElem hi
    have hgs := (hp.arrMap.slot hs).get
    have hset := slots_set hp.arrMap hs none
    rw [hp.put_arrMap] at hset
    have hln := hp.len (arrMapVal (s.set i none))
    obtain ⟨o, he⟩ : ∃ o, s[i] = o := ⟨_, rfl⟩
    rw [he] at hs hgs
    simp only [List.append_assoc, List.cons_append, List.nil_append] at h1 hgs hset
    simp only [slotVal, Option.map_none, Val.opt, Val.none] at hset
    generalize hh : put h a ps (arrMapVal (s.set i none)) = h' at *
    cases o <;> simp only [slotVal, Option.map_none, Option.map_some, Val.opt, Val.some, Val.none] at hgs <;>
    runs [mapArrayMapFn1_8, OrdinalArrayMap.remove, readSlot, writeSlot, hi, he, hm, h1, hl, hg, hgt, hgs, get_append, hset, hh, hln, slotVal]

theorem arrMap_entry (n : Nat) {s : List (Option (P 1))} (k : P 0) (hp : Place h a ps (arrMapVal s)) :
    (outM c J S U (n + 3)).call (.con "OrdinalArrayMap") "entry" [.mref a ps, .usr 0 k] h =
      (fun r => (entryVal a (ps ++ [.field "map"] ++ [.field "map"]) r.1, put h a ps (arrMapVal r.2))) <$>
        OrdinalArrayMap.entry (J 0) s k := by
  refine (outside_call (d := mapArrayMapFn1_7) (n + 2) _ _ rfl rfl).trans ?_
  have hl := hp.lt
  have hg := hp.get
  have hgt := hp.arrTotal.get
  have hps := hp.put_self
  have h1 := totalArr_indexMut (c := c) (J := J) (S := S) (U := U) n k (hp.arrTotal.append [.mref a ps, .usr 0 k])
  rw [indexMut_slots] at h1
  cases hm : OrdinalTotalArrayMap.indexMut (J 0) s k with
  | error e =>
    simp only [arrMapVal, totalArrVal, phantom] at hg hgt
    rw [hm] at h1; runs [mapArrayMapFn1_7, OrdinalArrayMap.entry, hm, h1, hl, hg, hgt, get_append]
  | ok i =>
    rw [hm] at h1
    have hi := getMut_lt hm
    have h2 := entry_new (c := c) (J := J) (S := S) (U := U) n k i
      (hp.append [.mref a ps, .usr 0 k, .mref a (ps ++ [.field "map"] ++ [.field "map"] ++ [.idx i])]).arrMap hi
    have hs := List.getElem?_eq_getElem hi
    have hgs := (hp.arrMap.slot hs).get
    generalize hh : arrMapVal s = mv at *
    cases hn : Entry.new s k i with
    | error e => simp [Entry.new, hs] at hn
    | ok e =>
    rw [hn] at h2
    generalize s[i] = o at *
    simp only [← hh, arrMapVal, totalArrVal, phantom] at hg hgt
    simp only [ok_map, List.append_assoc, List.cons_append, List.nil_append] at h1 h2 hgs
    cases o <;> simp only [slotVal, Option.map_none, Option.map_some, Val.opt, Val.some, Val.none] at hgs <;>
    runs [mapArrayMapFn1_7, OrdinalArrayMap.entry, hm, hn, h1, h2, hl, hg, hgt, hgs, get_append, hps, hh, hs, slotVal]

/-! ## Iterators -/

theorem arrMap_iter (n : Nat) (s : List (Option (P 1))) :
    (outM c J S U (n + 5)).call (.con "OrdinalArrayMap") "iter" [.ref (arrMapVal s)] h = .ok (mapIterVal (OrdinalArrayMap.iter s), h) := by
  refine (outside_call (d := mapArrayMapFn1_9) (n + 4) _ _ rfl rfl).trans ?_
  have h1 := totalArr_iter (c := c) (J := J) (S := S) (U := U) (h := h ++ [.ref (arrMapVal s)]) n (s.map slotVal)
  have h2 (i : Nat) (vs : List (Val P)) := mapIter_new (c := c) (J := J) (S := S) (U := U) (h := h ++ [.ref (arrMapVal s)]) (n + 2) ⟨i, vs⟩
  simp only [arrMapVal, totalArrVal, phantom, wrapVal, enumVal, iterVal] at h1 h2
  runs [mapArrayMapFn1_9, arrMapVal, totalArrVal, h1, h2, mapIterVal, OrdinalArrayMap.iter, OrdinalTotalArrayMap.iter, TotalIter.new, Enumerate.new, encEnum, iterVal, wrapVal, enumVal, Function.comp_def]

theorem arrMap_keys (n : Nat) (s : List (Option (P 1))) :
    (outM c J S U (n + 6)).call (.con "OrdinalArrayMap") "keys" [.ref (arrMapVal s)] h =
      .ok (wrapVal "Keys" (mapIterVal (OrdinalArrayMap.keys s)), h) := by
  refine (outside_call (d := mapArrayMapFn1_11) (n + 5) _ _ rfl rfl).trans ?_
  have h1 := arrMap_iter (c := c) (J := J) (S := S) (U := U) (h := h ++ [.ref (arrMapVal s)]) n s
  have h2 (v : Val P) := keys_new (c := c) (J := J) (S := S) (U := U) (h := h ++ [.ref (arrMapVal s)]) (n + 3) v
  simp only [arrMapVal, totalArrVal, phantom] at h1 h2
  runs [mapArrayMapFn1_11, arrMapVal, totalArrVal, h1, h2, OrdinalArrayMap.keys, wrapVal, mapIterVal, iterVal, enumVal]

theorem arrMap_values (n : Nat) (s : List (Option (P 1))) :
    (outM c J S U (n + 6)).call (.con "OrdinalArrayMap") "values" [.ref (arrMapVal s)] h =
      .ok (wrapVal "Values" (mapIterVal (OrdinalArrayMap.values s)), h) := by
  refine (outside_call (d := mapArrayMapFn1_12) (n + 5) _ _ rfl rfl).trans ?_
  have h1 := arrMap_iter (c := c) (J := J) (S := S) (U := U) (h := h ++ [.ref (arrMapVal s)]) n s
  have h2 (v : Val P) := mapValues_new (c := c) (J := J) (S := S) (U := U) (h := h ++ [.ref (arrMapVal s)]) (n + 3) v
  simp only [arrMapVal, totalArrVal, phantom] at h1 h2
  runs [mapArrayMapFn1_12, arrMapVal, totalArrVal, h1, h2, OrdinalArrayMap.values, wrapVal, mapIterVal, iterVal, enumVal]

theorem arrMap_iterMut (n : Nat) {s : List (Option (P 1))} (hp : Place h a ps (arrMapVal s)) :
    (outM c J S U (n + 5)).call (.con "OrdinalArrayMap") "iter_mut" [.mref a ps] h =
      .ok (iterMutVal a (ps ++ [.field "map"] ++ [.field "map"]) (TotalIterMut.it (OrdinalArrayMap.iterMut s)), h) := by
  refine (outside_call (d := mapArrayMapFn1_10) (n + 4) _ _ rfl rfl).trans ?_
  have hl := hp.lt
  have hg := hp.get
  have hgt := hp.arrTotal.get
  have h1 := totalArr_iterMut (c := c) (J := J) (S := S) (U := U) n (hp.arrTotal.append [.mref a ps])
  have h2 (v : Val P) := iterMut_new (c := c) (J := J) (S := S) (U := U) (h := h ++ [.mref a ps]) (n + 2) v
  have h3 := mutEnum_new a (ps ++ [.field "map"] ++ [.field "map"]) s
  rw [List.length_map, h3] at h1
  simp only [arrMapVal, totalArrVal, phantom] at hg hgt
  simp only [wrapVal, enumVal, phantom] at h1
  runs [mapArrayMapFn1_10, hl, hg, hgt, get_append, h1, h2, wrapVal, iterMutVal, iterVal, enumVal, OrdinalArrayMap.iterMut, OrdinalTotalArrayMap.iterMut]

theorem arrMap_valuesMut (n : Nat) {s : List (Option (P 1))} (hp : Place h a ps (arrMapVal s)) :
    (outM c J S U (n + 6)).call (.con "OrdinalArrayMap") "values_mut" [.mref a ps] h =
      .ok (wrapVal "ValuesMut" (iterMutVal a (ps ++ [.field "map"] ++ [.field "map"]) (TotalIterMut.it (OrdinalArrayMap.iterMut s))), h) := by
  refine (outside_call (d := mapArrayMapFn1_13) (n + 5) _ _ rfl rfl).trans ?_
  have hl := hp.lt
  have hg := hp.get
  have h1 := arrMap_iterMut (c := c) (J := J) (S := S) (U := U) n (hp.append [.mref a ps])
  have h2 (v : Val P) := valuesMut_new (c := c) (J := J) (S := S) (U := U) (h := h ++ [.mref a ps]) (n + 3) v
  simp only [arrMapVal, totalArrVal, phantom] at hg
  runs [mapArrayMapFn1_13, hl, hg, h1, h2, wrapVal, iterMutVal, iterVal, enumVal]

theorem arrMap_drain (n : Nat) {s : List (Option (P 1))} (hp : Place h a ps (arrMapVal s)) :
    (outM c J S U (n + 5)).call (.con "OrdinalArrayMap") "drain" [.mref a ps] h =
      .ok (drainVal a (ps ++ [.field "map"] ++ [.field "map"]) (TotalIterMut.it (OrdinalArrayMap.drain s)), h) := by
  refine (outside_call (d := mapArrayMapFn1_14) (n + 4) _ _ rfl rfl).trans ?_
  have hl := hp.lt
  have hg := hp.get
  have hgt := hp.arrTotal.get
  have h1 := totalArr_iterMut (c := c) (J := J) (S := S) (U := U) n (hp.arrTotal.append [.mref a ps])
  have h2 (v : Val P) := drain_new (c := c) (J := J) (S := S) (U := U) (h := h ++ [.mref a ps]) (n + 2) v
  have h3 := mutEnum_new a (ps ++ [.field "map"] ++ [.field "map"]) s
  rw [List.length_map, h3] at h1
  simp only [arrMapVal, totalArrVal, phantom] at hg hgt
  simp only [wrapVal, enumVal, phantom] at h1
  runs [mapArrayMapFn1_14, hl, hg, hgt, get_append, h1, h2, wrapVal, drainVal, iterVal, enumVal, OrdinalArrayMap.drain, Drain.new]

theorem arrMap_intoIter (n : Nat) (s : List (Option (P 1))) :
    (outM c J S U (n + 5)).call (.con "OrdinalArrayMap") "into_iter" [arrMapVal s] h =
      .ok (intoIterArrayVal (OrdinalArrayMap.intoIter s), h) := by
  refine (outside_call (d := mapArrayMapFn6_0) (n + 4) _ _ rfl rfl).trans ?_
  have h1 := totalArr_intoIter (c := c) (J := J) (S := S) (U := U) (h := h ++ [arrMapVal s]) n (s.map slotVal)
  have h2 (i : Nat) (vs : List (Val P)) := intoIterArray_new (c := c) (J := J) (S := S) (U := U) (h := h ++ [arrMapVal s]) (n + 2) ⟨i, vs⟩
  simp only [arrMapVal, totalArrVal, phantom, wrapVal, enumVal, iterWith] at h1 h2
  runs [mapArrayMapFn6_0, arrMapVal, totalArrVal, h1, h2, get_cons, intoIterArrayVal, OrdinalArrayMap.intoIter, OrdinalTotalArrayMap.intoIter, TotalIntoIterArray.new, Enumerate.new, encEnum, iterWith, wrapVal, enumVal, Function.comp_def]

theorem arrMap_isEmpty (n : Nat) (s : List (Option (P 1))) (hs : s.length ≤ c.M) :
    (outM c J S U (n + 6)).call (.con "OrdinalArrayMap") "is_empty" [.ref (arrMapVal s)] h =
      (fun b => (.bool b, h)) <$> OrdinalArrayMap.isEmpty c (J 0) s := by
  refine (outside_call (d := mapArrayMapFn1_2) (n + 5) _ _ rfl rfl).trans ?_
  have h1 := arrMap_iter (c := c) (J := J) (S := S) (U := U) (h := h ++ [.ref (arrMapVal s)]) n s
  have h2 := mapIter_next_var (c := c) (J := J) (S := S) (U := U) (h := h ++ [.ref (arrMapVal s)]) (n + 1) (OrdinalArrayMap.iter s) hs
  simp only [arrMapVal, totalArrVal, phantom, mapIterVal, iterVal, wrapVal, enumVal, List.append_assoc, List.cons_append, List.nil_append,
    List.length_append, List.length_cons, List.length_nil] at h1 h2
  generalize hit : OrdinalArrayMap.iter s = it at *
  cases hm : MapIter.next c (J 0) it with
  | error e =>
    rw [hm] at h2
    runs [mapArrayMapFn1_2, arrMapVal, totalArrVal, h1, h2, mapIterVal, iterVal, wrapVal, enumVal, OrdinalArrayMap.isEmpty, hit, hm]
  | ok r =>
    rw [hm] at h2
    obtain ⟨o, it'⟩ := r
    cases o <;> runs [mapArrayMapFn1_2, arrMapVal, totalArrVal, h1, h2, mapIterVal, iterVal, wrapVal, enumVal, OrdinalArrayMap.isEmpty, hit, hm]

theorem arrMap_len (n : Nat) (s : List (Option (P 1))) (hs : s.length < c.M) :
    (outM c J S U (n + 6)).call (.con "OrdinalArrayMap") "len" [.ref (arrMapVal s)] h =
      (fun k => (.uint .size k, h)) <$> OrdinalArrayMap.len c (J 0) s := by
  refine (outside_call (d := mapArrayMapFn1_1) (n + 5) _ _ rfl rfl).trans ?_
  have h1 := arrMap_iter (c := c) (J := J) (S := S) (U := U) (h := h ++ [.ref (arrMapVal s)]) n s
  have h2 := count_loop (c := c) (J := J) (S := S) (U := U) (h := h ++ [.ref (arrMapVal s)]) (n + 1) (c.M + 1) (s.length + 1) 0
    (OrdinalArrayMap.iter s) (by show s.length < _; omega) (by show s.length < _; omega) (by show 0 + s.length < _; omega)
  simp only [arrMapVal, totalArrVal, phantom, mapIterVal, iterVal, wrapVal, enumVal, List.append_assoc, List.cons_append, List.nil_append,
    List.length_append, List.length_cons, List.length_nil, Cfg.M] at h1 h2
  have hc : OrdinalArrayMap.len c (J 0) s = MapIter.countLoop c (J 0) (s.length + 1) (OrdinalArrayMap.iter s) 0 := rfl
  rw [hc]
  generalize OrdinalArrayMap.iter s = it at *
  obtain ⟨e, h3, h4⟩ | ⟨m, s', h3, h4⟩ := h2 <;>
  runs [mapArrayMapFn1_1, arrMapVal, totalArrVal, h1, h3, h4, mapIterVal, iterVal, wrapVal, enumVal]

theorem arrMap_clear (n : Nat) {s : List (Option (P 1))} (hp : Place h a ps (arrMapVal s)) (hs : s.length ≤ c.M) :
    (outM c J S U (n + 6)).call (.con "OrdinalArrayMap") "clear" [.mref a ps] h =
      (fun s' => (.unit, put h a ps (arrMapVal s'))) <$> OrdinalArrayMap.clear c (J 0) s := by
  refine (outside_call (d := mapArrayMapFn1_15) (n + 5) _ _ rfl rfl).trans ?_
  have hl := hp.lt
  have hg := hp.get
  have h1 := arrMap_drain (c := c) (J := J) (S := S) (U := U) n (hp.append [.mref a ps])
  have hp' := hp.append [.mref a ps, drainVal a (ps ++ [.field "map"] ++ [.field "map"]) (TotalIterMut.it (OrdinalArrayMap.drain s))]
  have h2 := drain_drop (c := c) (J := J) (S := S) (U := U) (s := OrdinalArrayMap.drain s) n (a := h.length + 1) (ps := [])
    (place_var (by simp)) hp'.arrMap (by omega) (by show s.length ≤ s.length; omega) (by rw [range_len]; show s.length - 0 ≤ _; omega)
  rw [show OrdinalArrayMap.clear c (J 0) s = TotalIterMut.mem <$> drainAll c (J 0) (TotalIterMut.len (OrdinalArrayMap.drain s) + 1) (OrdinalArrayMap.drain s) from
    (drainAll_mem c (J 0) _ _).symm]
  have hh (s') : (drainHeap (h ++ [.mref a ps, drainVal a (ps ++ [.field "map"] ++ [.field "map"]) (TotalIterMut.it (OrdinalArrayMap.drain s))]) (h.length + 1) [] a
      (ps ++ [.field "map"] ++ [.field "map"]) s').take (h.length + 1) = put h a ps (arrMapVal s'.mem) ++ [.mref a ps] := by
    have hp'' := hp.append [.mref a ps, drainVal a (ps ++ [.field "map"] ++ [.field "map"]) (TotalIterMut.it s')]
    have e (u w : Val P) : (h ++ [.mref a ps, u]).set (h.length + 1) w = h ++ [.mref a ps, w] := by simp
    rw [drainHeap, put_var (by simp), e, hp''.put_arrMap, hp.put_append]
    generalize drainVal a (ps ++ [.field "map"] ++ [.field "map"]) (TotalIterMut.it s') = u
    rw [show put h a ps (arrMapVal s'.mem) ++ [.mref a ps, u] = (put h a ps (arrMapVal s'.mem) ++ [.mref a ps]) ++ [u] by simp,
      List.take_left' (by simp [hp.len])]
  have hln (s') := hp.len (arrMapVal s')
  generalize ps ++ [.field "map"] ++ [.field "map"] = qs at *
  simp only [arrMapVal, totalArrVal, phantom] at hg
  simp only [drainVal, iterVal, wrapVal, enumVal, phantom] at h1 h2 hh
  cases hc : drainAll c (J 0) (TotalIterMut.len (OrdinalArrayMap.drain s) + 1) (OrdinalArrayMap.drain s) with
  | error e =>
    rw [hc] at h2
    runs [mapArrayMapFn1_15, hl, hg, h1, h2, drainVal, iterVal, wrapVal, enumVal]
  | ok s' =>
    rw [hc] at h2
    runs [mapArrayMapFn1_15, hl, hg, h1, h2, drainVal, iterVal, wrapVal, enumVal, hh, hln]

end OrdinalMap.Text
