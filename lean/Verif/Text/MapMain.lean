import Verif.Text.MapMut
import Verif.Model.Map
/-!
# `map/map.rs` and `map/entry.rs`, run from their texts
-/

namespace OrdinalMap.Text

variable {P : Nat → Type} {c : Cfg} {J : (p : Nat) → OrdinalImpl (P p)} {S : Nat} {h xs : Heap P} {a b : Nat} {ps qs : List Proj} {U : UserFns P}

@[text] theorem struct_map : (outM c J S U (n + 1)).struct "OrdinalMap" = some [("map", .path ["Box"] (.cons (.slice (.path ["Option"]
    (.cons (.path ["V"] .nil) .nil))) .nil)), ("_phantom", .path ["PhantomData"] (.cons (.path ["K"] .nil) .nil))] := rfl

/-- The slots of a map at a place. -/
theorem Place.map {s : OMap (P 1)} (hp : Place h a ps (mapVal s)) : Place h a (ps ++ [.field "map"]) (slotsVal s) :=
  hp.sub rfl (by simp)

theorem Place.put_map {s : OMap (P 1)} (hp : Place h a ps (mapVal s)) (s' : OMap (P 1)) :
    put h a (ps ++ [.field "map"]) (slotsVal s') = put h a ps (mapVal s') :=
  hp.put_sub rfl

/-- The slot of a map at a place. -/
theorem slot_get (s : OMap (P 1)) (i : Nat) : (s.map slotVal)[i]? = s[i]?.map (slotVal (P := P)) := List.getElem?_map

theorem map_new (n : Nat) : (outM c J S U (n + 2)).call (.con "OrdinalMap") "new" [] h = .ok (mapVal (OMap.new (P 1)), h) := by
  refine (outside_call (d := mapFn1_0) (n + 1) _ _ rfl rfl).trans ?_
  runs [mapFn1_0, mapVal, OMap.new, slotsVal]

theorem map_default (n : Nat) :
    (outM c J S U (n + 3)).call (.con "OrdinalMap") "default" [] h = .ok (mapVal (OMap.new (P 1)), h) := by
  refine (outside_call (d := mapFn2_0) (n + 2) _ _ rfl rfl).trans ?_
  runs [mapFn2_0, map_new]

theorem map_get (n : Nat) (s : OMap (P 1)) (k : P 0) :
    (outM c J S U (n + 2)).call (.con "OrdinalMap") "get" [.ref (mapVal s), .ref (.usr 0 k)] h =
      (fun o => (.opt (o.map fun v => .ref (.usr 1 v)), h)) <$> OMap.get (J 0) s k := by
  refine (outside_call (d := mapFn1_1) (n + 1) _ _ rfl rfl).trans ?_
  cases hk : (J 0).ordinal k with
  | error e => runs [mapFn1_1, mapVal, slotsVal, OMap.get, hk, outside_par_ordinal, outside_par_self]
  | ok i =>
    cases hs : s[i]? with
    | none => runs [mapFn1_1, mapVal, slotsVal, OMap.get, hk, outside_par_ordinal, outside_par_self, slot_get, hs]
    | some o => cases o <;> runs [mapFn1_1, mapVal, slotsVal, slotVal, OMap.get, hk, outside_par_ordinal, outside_par_self, slot_get, hs]

theorem map_containsKey (n : Nat) (s : OMap (P 1)) (k : P 0) :
    (outM c J S U (n + 2)).call (.con "OrdinalMap") "contains_key" [.ref (mapVal s), .ref (.usr 0 k)] h =
      (fun b => (.bool b, h)) <$> OMap.containsKey (J 0) s k := by
  refine (outside_call (d := mapFn1_3) (n + 1) _ _ rfl rfl).trans ?_
  cases hk : (J 0).ordinal k with
  | error e => runs [mapFn1_3, mapVal, slotsVal, OMap.containsKey, hk, outside_par_ordinal, outside_par_self]
  | ok i =>
    cases hs : s[i]? with
    | none => runs [mapFn1_3, mapVal, slotsVal, OMap.containsKey, hk, outside_par_ordinal, outside_par_self, slot_get, hs]
    | some o => runs [mapFn1_3, mapVal, slotsVal, OMap.containsKey, hk, outside_par_ordinal, outside_par_self, slot_get, hs]

theorem map_getMut (n : Nat) {s : OMap (P 1)} (k : P 0) (hp : Place h a ps (mapVal s)) :
    (outM c J S U (n + 2)).call (.con "OrdinalMap") "get_mut" [.mref a ps, .ref (.usr 0 k)] h =
      (fun o => (.opt (o.map fun i => .mref a (ps ++ [.field "map"] ++ [.idx i] ++ [.idx 0])), h)) <$> OMap.getMut (J 0) s k := by
  refine (outside_call (d := mapFn1_2) (n + 1) _ _ rfl rfl).trans ?_
  have hl := hp.lt
  have hg := hp.get
  simp only [mapVal, slotsVal, phantom] at hg
  cases hk : (J 0).ordinal k with
  | error e => runs [mapFn1_2, OMap.getMut, hk, outside_par_ordinal, outside_par_self, hl, hg, get_append]
  | ok i =>
    cases hs : s[i]? with
    | none =>
      have hi : ¬ i < List.length s := by have := List.getElem?_eq_none_iff.mp hs; omega
      runs [mapFn1_2, OMap.getMut, hk, outside_par_ordinal, outside_par_self, slot_get, hs, hl, hg, get_append, hi]
    | some o =>
      obtain ⟨hi, he⟩ := List.getElem?_eq_some_iff.mp hs
      cases o <;> runs [mapFn1_2, slotVal, OMap.getMut, hk, outside_par_ordinal, outside_par_self, slot_get, he, hl, hg, get_append, hi]

/-- The loop of `init_full_map`. -/
theorem push_loop {body : Val P → Heap P → Res P} {w : Val P}
    (hb : ∀ v vs, body v (h ++ [w, .arr vs]) = Res.val .unit (h ++ [w, .arr (vs ++ [.none])])) (l : List (Val P)) (vs : List (Val P)) :
    forLoop body l (h ++ [w, .arr vs]) = Res.val .unit (h ++ [w, .arr (vs ++ List.replicate l.length .none)]) := by
  induction l generalizing vs with
  | nil => simp [forLoop]
  | cons v l ih =>
    have := ih (vs ++ [.none])
    simp only [Res.val] at this
    simp only [forLoop, hb, Res.val]
    rw [this]
    simp [List.replicate_succ]

theorem map_initFullMap (n : Nat) {s : OMap (P 1)} (hp : Place h a ps (mapVal s)) :
    (outM c J S U (n + 2)).call (.con "OrdinalMap") "init_full_map" [.mref a ps] h =
      (fun s' => (.unit, put h a ps (mapVal s'))) <$> OMap.initFullMap c (J 0) 0 s := by
  refine (outside_call (d := mapFn1_6) (n + 1) _ _ rfl rfl).trans ?_
  have hl := hp.lt
  have hg := hp.get
  simp only [mapVal, slotsVal, phantom] at hg
  cases s with
  | cons o s => runs [mapFn1_6, OMap.initFullMap, hl, hg, hp.put_self, get_append]
  | nil =>
    cases hz : (J 0).size with
    | error e => runs [mapFn1_6, OMap.initFullMap, hl, hg, get_append, outside_par_const, hz]
    | ok z =>
      have hlp := push_loop (h := h) (w := .mref a ps)
        (body := forBody c (("Self", .con "OrdinalMap") :: mapTys S) (outside c J (mapTys S) maps (n + 1) U) .run
          [("map", h.length + 1), ("self", h.length)] .wild
          (.semi (.method (.path [⟨"map", .nil⟩]) "push" .nil (.cons (.path [⟨"None", .nil⟩]) .nil)) .nil))
        (fun v vs => by runs [forBody]) ((List.range' 0 z).map (.uint .size ·)) []
      have hps : Loc.set .run h (.arr (List.replicate z (.con "None" []))) (.heap a (ps ++ [.field "map"])) =
          .ok (put h a ps (mapVal (List.replicate z none))) := by
        rw [← hp.put_map]
        have := hp.map.set (slotsVal (List.replicate z none))
        simpa [slotsVal, slotVal, Val.opt, Val.none] using this
      have hln := hp.len (mapVal (List.replicate z none))
      simp only [List.length_map, List.length_range', List.nil_append, Val.none] at hlp
      generalize hh : put h a ps (mapVal (List.replicate z none)) = h' at *
      runs [hh, mapFn1_6, OMap.initFullMap, hl, hg, get_append, outside_par_const, hz, withCapacity, hlp, hps, hln]

@[text] theorem self_map_init : (outM c J S U (n + 1)).self (.con "OrdinalMap") "init_full_map" = some .refMut := rfl

theorem slots_set {s : OMap (P 1)} (hm : Place h a qs (slotsVal s)) {i : Nat} {o : Option (P 1)} (hs : s[i]? = some o) (v : Option (P 1)) :
    Loc.set .run h (slotVal v) (.heap a (qs ++ [.idx i])) = .ok (put h a qs (slotsVal (s.set i v))) := by
  rw [(hm.slot hs).set]
  exact congrArg Except.ok (hm.put_sub (by simp [slotsVal, setPath, part, setPart, hs, List.map_set]))

theorem map_insert (n : Nat) {s : OMap (P 1)} (k : P 0) (v : P 1) (hp : Place h a ps (mapVal s)) :
    (outM c J S U (n + 3)).call (.con "OrdinalMap") "insert" [.mref a ps, .usr 0 k, .usr 1 v] h =
      (fun r => (slotVal r.1, put h a ps (mapVal r.2))) <$> OMap.insert c (J 0) 0 s k v := by
  refine (outside_call (d := mapFn1_7) (n + 2) _ _ rfl rfl).trans ?_
  have hl := hp.lt
  have hg := hp.get
  simp only [mapVal, slotsVal, phantom] at hg
  have hi := map_initFullMap (c := c) (J := J) (S := S) (U := U) n (hp.append [.mref a ps, .usr 0 k, .usr 1 v])
  cases hm : OMap.initFullMap c (J 0) 0 s with
  | error e =>
    rw [hm] at hi
    simp only [error_map] at hi
    runs [mapFn1_7, OMap.insert, hm, hl, hg, get_append, hi]
  | ok s' =>
    rw [hm] at hi
    simp only [ok_map, hp.put_append] at hi
    have hp' := hp.put_at (mapVal s')
    have hln := hp.len (mapVal s')
    have hl' := hp'.lt
    have hg' := hp'.get
    have hpp (w) := hp.put_put (mapVal s') w
    generalize put h a ps (mapVal s') = h' at *
    simp only [mapVal, slotsVal, phantom] at hg'
    rw [hln] at hl'
    cases hk : (J 0).ordinal k with
    | error e => runs [mapFn1_7, OMap.insert, hm, hl, hg, hg', get_append, hi, hk, hln, outside_par_ordinal, outside_par_self]
    | ok i =>
      cases hs : s'[i]? with
      | none => runs [mapFn1_7, OMap.insert, hm, hl, hg, hg', get_append, hi, hk, hs, hln, getIdx, outside_par_ordinal, outside_par_self, slot_get]
      | some o =>
        have hset := slots_set hp'.map hs (some v)
        rw [hp'.put_map, hpp] at hset
        simp only [slotVal, Option.map_some, Val.opt, Val.some, List.append_assoc, List.cons_append, List.nil_append] at hset
        have hln' := hp.len (mapVal (s'.set i (some v)))
        generalize hh : put h a ps (mapVal (s'.set i (some v))) = h'' at *
        obtain ⟨hi', he⟩ := List.getElem?_eq_some_iff.mp hs
        cases o <;>
        runs [mapFn1_7, OMap.insert, hm, hl, hg, hg', get_append, hi, hk, he, hi', hln, hln', getIdx, setIdx, outside_par_ordinal, outside_par_self, slot_get, hset, hh, slotVal]

theorem map_remove (n : Nat) {s : OMap (P 1)} (k : P 0) (hp : Place h a ps (mapVal s)) :
    (outM c J S U (n + 2)).call (.con "OrdinalMap") "remove" [.mref a ps, .ref (.usr 0 k)] h =
      (fun r => (slotVal r.1, put h a ps (mapVal r.2))) <$> OMap.remove (J 0) s k := by
  refine (outside_call (d := mapFn1_9) (n + 1) _ _ rfl rfl).trans ?_
  have hl := hp.lt
  have hg := hp.get
  simp only [mapVal, slotsVal, phantom] at hg
  cases hk : (J 0).ordinal k with
  | error e => runs [mapFn1_9, OMap.remove, hk, outside_par_ordinal, outside_par_self, hl, hg, get_append]
  | ok i =>
    cases hs : s[i]? with
    | none =>
      have hi : ¬ i < List.length s := by have := List.getElem?_eq_none_iff.mp hs; omega
      runs [mapFn1_9, OMap.remove, hk, outside_par_ordinal, outside_par_self, slot_get, hs, hl, hg, get_append, hi, hp.put_self, slotVal]
    | some o =>
      have hset := slots_set hp.map hs none
      rw [hp.put_map] at hset
      simp only [slotVal, Option.map_none, Val.opt, Val.none, List.append_assoc, List.cons_append, List.nil_append] at hset
      have hln := hp.len (mapVal (s.set i none))
      generalize hh : put h a ps (mapVal (s.set i none)) = h' at *
      obtain ⟨hi, he⟩ := List.getElem?_eq_some_iff.mp hs
      cases o <;> runs [mapFn1_9, slotVal, OMap.remove, hk, outside_par_ordinal, outside_par_self, slot_get, he, hl, hg, get_append, hi, hset, hh, hln]

/-! ## Iterators -/

theorem map_iter (n : Nat) (s : OMap (P 1)) :
    (outM c J S U (n + 4)).call (.con "OrdinalMap") "iter" [.ref (mapVal s)] h = .ok (mapIterVal (OMap.iter s), h) := by
  refine (outside_call (d := mapFn1_10) (n + 3) _ _ rfl rfl).trans ?_
  have h1 (i : Nat) (vs : List (Val P)) := totalIter_new (c := c) (J := J) (S := S) (U := U) (h := h ++ [.ref (mapVal s)]) n i vs
  have h2 (i : Nat) (vs : List (Val P)) := mapIter_new (c := c) (J := J) (S := S) (U := U) (h := h ++ [.ref (mapVal s)]) (n + 1) ⟨i, vs⟩
  simp only [mapVal, slotsVal, phantom, wrapVal, enumVal, Enumerate.new, iterVal] at h1 h2
  runs [mapFn1_10, mapVal, slotsVal, h1, h2, mapIterVal, OMap.iter, TotalIter.new, Enumerate.new, encEnum, iterVal, wrapVal, enumVal, Function.comp_def]

@[text] theorem self_map_iter : (outM c J S U (n + 1)).self (.con "OrdinalMap") "iter" = some .ref := rfl
@[text] theorem self_map_iterMut : (outM c J S U (n + 1)).self (.con "OrdinalMap") "iter_mut" = some .refMut := rfl
@[text] theorem self_map_drain : (outM c J S U (n + 1)).self (.con "OrdinalMap") "drain" = some .refMut := rfl

theorem map_keys (n : Nat) (s : OMap (P 1)) :
    (outM c J S U (n + 5)).call (.con "OrdinalMap") "keys" [.ref (mapVal s)] h = .ok (wrapVal "Keys" (mapIterVal (OMap.keys s)), h) := by
  refine (outside_call (d := mapFn1_12) (n + 4) _ _ rfl rfl).trans ?_
  have h1 := map_iter (c := c) (J := J) (S := S) (U := U) (h := h ++ [.ref (mapVal s)]) n s
  have h2 (v : Val P) := keys_new (c := c) (J := J) (S := S) (U := U) (h := h ++ [.ref (mapVal s)]) (n + 2) v
  simp only [mapVal, slotsVal, phantom] at h1 h2
  runs [mapFn1_12, mapVal, slotsVal, h1, h2, OMap.keys, wrapVal, mapIterVal, iterVal, enumVal]

theorem map_values (n : Nat) (s : OMap (P 1)) :
    (outM c J S U (n + 5)).call (.con "OrdinalMap") "values" [.ref (mapVal s)] h = .ok (wrapVal "Values" (mapIterVal (OMap.values s)), h) := by
  refine (outside_call (d := mapFn1_13) (n + 4) _ _ rfl rfl).trans ?_
  have h1 := map_iter (c := c) (J := J) (S := S) (U := U) (h := h ++ [.ref (mapVal s)]) n s
  have h2 (v : Val P) := mapValues_new (c := c) (J := J) (S := S) (U := U) (h := h ++ [.ref (mapVal s)]) (n + 2) v
  simp only [mapVal, slotsVal, phantom] at h1 h2
  runs [mapFn1_13, mapVal, slotsVal, h1, h2, OMap.values, wrapVal, mapIterVal, iterVal, enumVal]

theorem mutEnum_new (b : Nat) (qs : List Proj) (s : List (Option (P 1))) :
    (⟨0, (List.range s.length).map fun i => .mref b (qs ++ [.idx i])⟩ : Enumerate (List (Val P))) = mutEnum b qs (TotalIterMut.new s).it := by
  simp [mutEnum, encEnum, rangeEnum, TotalIterMut.new, Enumerate.new, List.range_eq_range']

theorem map_iterMut (n : Nat) {s : OMap (P 1)} (hp : Place h a ps (mapVal s)) :
    (outM c J S U (n + 4)).call (.con "OrdinalMap") "iter_mut" [.mref a ps] h =
      .ok (iterMutVal a (ps ++ [.field "map"]) (TotalIterMut.it (OMap.iterMut s)), h) := by
  refine (outside_call (d := mapFn1_11) (n + 3) _ _ rfl rfl).trans ?_
  have hl := hp.lt
  have hg := hp.get
  have h1 (vs : List (Val P)) := totalIterMut_new (c := c) (J := J) (S := S) (U := U) (h := h ++ [.mref a ps]) n vs
  have h2 (v : Val P) := iterMut_new (c := c) (J := J) (S := S) (U := U) (h := h ++ [.mref a ps]) (n + 1) v
  have h3 := mutEnum_new a (ps ++ [.field "map"]) s
  simp only [mapVal, slotsVal, phantom] at hg
  simp only [wrapVal, enumVal, phantom, Enumerate.new] at h1
  runs [mapFn1_11, hl, hg, get_append, h1, h2, wrapVal, iterMutVal, iterVal, enumVal, OMap.iterMut, ← h3]

theorem map_valuesMut (n : Nat) {s : OMap (P 1)} (hp : Place h a ps (mapVal s)) :
    (outM c J S U (n + 5)).call (.con "OrdinalMap") "values_mut" [.mref a ps] h =
      .ok (wrapVal "ValuesMut" (iterMutVal a (ps ++ [.field "map"]) (TotalIterMut.it (OMap.iterMut s))), h) := by
  refine (outside_call (d := mapFn1_14) (n + 4) _ _ rfl rfl).trans ?_
  have hl := hp.lt
  have hg := hp.get
  have h1 := map_iterMut (c := c) (J := J) (S := S) (U := U) n (hp.append [.mref a ps])
  have h2 (v : Val P) := valuesMut_new (c := c) (J := J) (S := S) (U := U) (h := h ++ [.mref a ps]) (n + 2) v
  simp only [mapVal, slotsVal, phantom] at hg
  runs [mapFn1_14, hl, hg, h1, h2, wrapVal, iterMutVal, iterVal, enumVal]

theorem map_drain (n : Nat) {s : OMap (P 1)} (hp : Place h a ps (mapVal s)) :
    (outM c J S U (n + 4)).call (.con "OrdinalMap") "drain" [.mref a ps] h =
      .ok (drainVal a (ps ++ [.field "map"]) (TotalIterMut.it (OMap.drain s)), h) := by
  refine (outside_call (d := mapFn1_15) (n + 3) _ _ rfl rfl).trans ?_
  have hl := hp.lt
  have hg := hp.get
  have h1 (vs : List (Val P)) := totalIterMut_new (c := c) (J := J) (S := S) (U := U) (h := h ++ [.mref a ps]) n vs
  have h2 (v : Val P) := drain_new (c := c) (J := J) (S := S) (U := U) (h := h ++ [.mref a ps]) (n + 1) v
  have h3 := mutEnum_new a (ps ++ [.field "map"]) s
  simp only [mapVal, slotsVal, phantom] at hg
  simp only [wrapVal, enumVal, phantom, Enumerate.new] at h1
  runs [mapFn1_15, hl, hg, get_append, h1, h2, wrapVal, drainVal, iterVal, enumVal, OMap.drain, Drain.new, ← h3]

theorem map_intoIter (n : Nat) (s : OMap (P 1)) :
    (outM c J S U (n + 4)).call (.con "OrdinalMap") "into_iter" [mapVal s] h = .ok (intoIterVal (OMap.intoIter s), h) := by
  refine (outside_call (d := mapFn6_0) (n + 3) _ _ rfl rfl).trans ?_
  have h1 (vs : List (Val P)) := totalIntoIter_new (c := c) (J := J) (S := S) (U := U) (h := h ++ [mapVal s]) n vs
  have h2 (i : Nat) (vs : List (Val P)) := intoIter_new (c := c) (J := J) (S := S) (U := U) (h := h ++ [mapVal s]) (n + 1) ⟨i, vs⟩
  simp only [mapVal, slotsVal, phantom, wrapVal, enumVal, Enumerate.new, iterVal] at h1 h2
  runs [mapFn6_0, mapVal, slotsVal, h1, h2, get_cons, intoIterVal, OMap.intoIter, TotalIntoIter.new, Enumerate.new, encEnum, iterVal, wrapVal, enumVal, Function.comp_def]

@[text] theorem self_mapIter_next : (outM c J S U (n + 1)).self (.con "Iter") "next" = some .refMut := rfl
@[text] theorem self_mapIter_count : (outM c J S U (n + 1)).self (.con "Iter") "count" = none := rfl
@[text] theorem self_drain_drop : (outM c J S U (n + 1)).self (.con "Drain") "drop" = some .refMut := rfl

/-- `next` of an iterator in a variable. -/
theorem mapIter_next_var (n : Nat) (s : MapIter (P 1)) (hs : s.iter.length ≤ c.M) :
    (outM c J S U (n + 4)).call (.con "Iter") "next" [.mref h.length []] (h ++ [mapIterVal s]) =
      (fun r => (.opt (r.1.map pairRef), h ++ [mapIterVal r.2])) <$> MapIter.next c (J 0) s := by
  rw [mapIter_next n (place_var (by simp)) hs]
  have (v : Val P) : put (h ++ [mapIterVal s]) h.length [] v = h ++ [v] := by rw [put_var (by simp)]; simp
  simp only [this]

theorem map_isEmpty (n : Nat) (s : OMap (P 1)) (hs : List.length s ≤ c.M) :
    (outM c J S U (n + 5)).call (.con "OrdinalMap") "is_empty" [.ref (mapVal s)] h =
      (fun b => (.bool b, h)) <$> OMap.isEmpty c (J 0) s := by
  refine (outside_call (d := mapFn1_5) (n + 4) _ _ rfl rfl).trans ?_
  have h1 := map_iter (c := c) (J := J) (S := S) (U := U) (h := h ++ [.ref (mapVal s)]) n s
  have h2 := mapIter_next_var (c := c) (J := J) (S := S) (U := U) (h := h ++ [.ref (mapVal s)]) n (OMap.iter s) hs
  simp only [mapVal, slotsVal, phantom, mapIterVal, iterVal, wrapVal, enumVal, List.append_assoc, List.cons_append, List.nil_append,
    List.length_append, List.length_cons, List.length_nil] at h1 h2
  generalize hit : OMap.iter s = it at *
  cases hm : MapIter.next c (J 0) it with
  | error e =>
    rw [hm] at h2
    runs [mapFn1_5, mapVal, slotsVal, h1, h2, mapIterVal, iterVal, wrapVal, enumVal, OMap.isEmpty, hit, hm]
  | ok r =>
    rw [hm] at h2
    obtain ⟨o, it'⟩ := r
    cases o <;> runs [mapFn1_5, mapVal, slotsVal, h1, h2, mapIterVal, iterVal, wrapVal, enumVal, OMap.isEmpty, hit, hm]

/-- A loop that does not make its iterator longer. -/
theorem skipLoop_left {σ α β : Type} {step : σ → R (Option α × σ)} {bd : α → σ → R (Option β × σ)} {len : σ → Nat}
    (hs : ∀ s r, step s = .ok r → len r.2 ≤ len s ∧ (r.1.isSome → len r.2 < len s))
    (hb : ∀ x s r, bd x s = .ok r → len r.2 = len s) (k : Nat) :
    ∀ s r, skipLoop step bd k s = .ok r → len r.2 ≤ len s ∧ (r.1.isSome → len r.2 < len s) := by
  induction k with
  | zero => intro s r hr; exact absurd hr (by simp [skipLoop])
  | succ k ih =>
    intro s r hr
    simp only [skipLoop] at hr
    cases hm : step s with
    | error e => rw [hm] at hr; exact absurd hr (by simp)
    | ok q =>
      obtain ⟨o, s'⟩ := q
      rw [hm] at hr
      have hq := hs _ _ hm
      cases o with
      | none =>
        simp only [ok_bind, Except.ok.injEq] at hr
        subst hr
        exact ⟨hq.1, fun h => absurd h (by simp)⟩
      | some x =>
        have hq' := hq.2 rfl
        simp only [ok_bind] at hr
        cases hd : bd x s' with
        | error e => rw [hd] at hr; exact absurd hr (by simp)
        | ok q =>
          obtain ⟨o, s''⟩ := q
          rw [hd] at hr
          have hl := hb _ _ _ hd
          simp only at hl hq'
          cases o with
          | some y =>
            simp only [ok_bind, Except.ok.injEq] at hr
            subst hr
            simp only
            exact ⟨by omega, fun _ => by omega⟩
          | none =>
            simp only [ok_bind] at hr
            have := ih _ _ hr
            exact ⟨by omega, fun h => by have := this.2 h; omega⟩

theorem nextItem_left {α : Type} {s : Enumerate (List α)} {r} (hr : s.nextItem c (J 0) (listIter α) = .ok r) :
    r.2.iter.length ≤ s.iter.length ∧ (r.1.isSome → r.2.iter.length < s.iter.length) := by
  obtain ⟨i, vs⟩ := s
  cases vs with
  | nil =>
    simp only [Enumerate.nextItem, listIter, List.head?_nil, List.tail_nil, Except.ok.injEq] at hr
    subst hr
    simp
  | cons w vs =>
    simp only [Enumerate.nextItem, listIter, List.head?_cons, List.tail_cons] at hr
    cases hf : (J 0).fromOrdinal i with
    | error f => rw [hf] at hr; exact absurd hr (by simp)
    | ok o => cases o with
      | none => rw [hf] at hr; exact absurd hr (by simp [unwrap])
      | some k' =>
        rw [hf] at hr
        simp only [ok_bind, unwrap] at hr
        cases ha : addU c i 1 with
        | error f => rw [ha] at hr; exact absurd hr (by simp)
        | ok j =>
          rw [ha] at hr
          simp only [ok_bind, Except.ok.injEq] at hr
          subst hr
          simp

theorem nextBackItem_left {α : Type} {s : Enumerate (List α)} {r} (hr : s.nextBackItem c (J 0) (listIter α) = .ok r) :
    r.2.iter.length ≤ s.iter.length ∧ (r.1.isSome → r.2.iter.length < s.iter.length) := by
  obtain ⟨i, vs⟩ := s
  simp only [Enumerate.nextBackItem, listIter] at hr
  cases hv : vs.getLast? with
  | none =>
    have : vs = [] := by simpa using hv
    subst this
    simp only [List.getLast?_nil, List.dropLast_nil, Except.ok.injEq] at hr
    subst hr
    simp
  | some w =>
    have hp : 0 < vs.length := List.length_pos_iff.mpr (by rintro rfl; simp at hv)
    simp only [hv] at hr
    cases ha : addU c i vs.dropLast.length with
    | error f => rw [ha] at hr; exact absurd hr (by simp)
    | ok j =>
      rw [ha] at hr
      simp only [ok_bind] at hr
      cases hf : (J 0).fromOrdinal j with
      | error f => rw [hf] at hr; exact absurd hr (by simp)
      | ok o => cases o with
        | none => rw [hf] at hr; exact absurd hr (by simp [unwrap])
        | some k' =>
          rw [hf] at hr
          simp only [ok_bind, unwrap, Except.ok.injEq] at hr
          subst hr
          simp only [List.length_dropLast]
          exact ⟨by omega, fun _ => by omega⟩

theorem mapIter_left {s : MapIter (P 1)} {r} (hr : MapIter.next c (J 0) s = .ok r) :
    r.2.iter.length ≤ s.iter.length ∧ (r.1.isSome → r.2.iter.length < s.iter.length) := by
  refine skipLoop_left (len := fun s : MapIter (P 1) => (Enumerate.iter s).length) (fun s r hr => ?_) (fun x s r hr => ?_) _ _ _ hr
  · exact nextItem_left hr
  · obtain ⟨k, o⟩ := x
    cases o <;> simp only [MapIter.body, Except.ok.injEq] at hr <;> subst hr <;> rfl

theorem count_loop (n : Nat) (k : Nat) : ∀ j acc (s : MapIter (P 1)), s.iter.length < k → s.iter.length < j → acc + s.iter.length < c.M →
    ((∃ e, MapIter.countLoop c (J 0) j s acc = .error e ∧
      countLoop ((outM c J S U (n + 4)).call (.con "Iter") "next" [.mref h.length []]) k acc (h ++ [mapIterVal s]) = .error e) ∨
    ∃ m s', MapIter.countLoop c (J 0) j s acc = .ok m ∧
      countLoop ((outM c J S U (n + 4)).call (.con "Iter") "next" [.mref h.length []]) k acc (h ++ [mapIterVal s]) =
        .ok (m, h ++ [mapIterVal s'])) := by
  induction k with
  | zero => intro j acc s h1; exact absurd h1 (by omega)
  | succ k ih =>
    intro j acc s h1 h2 h3
    obtain ⟨j, rfl⟩ : ∃ i, j = i + 1 := ⟨j - 1, by omega⟩
    rw [countLoop, mapIter_next_var n s (by omega), MapIter.countLoop]
    cases hm : MapIter.next c (J 0) s with
    | error e => exact .inl ⟨e, rfl, rfl⟩
    | ok r =>
      obtain ⟨o, s'⟩ := r
      have hl := mapIter_left hm
      cases o with
      | none => exact .inr ⟨acc, s', rfl, rfl⟩
      | some p =>
        have hl' := hl.2 rfl
        simp only at hl'
        have := ih j (acc + 1) s' (by omega) (by omega) (by omega)
        have ha : addU c acc 1 = .ok (acc + 1) := addU_ok (by omega)
        simp only [ok_map, ok_bind, ha, Option.map_some, Val.opt, Val.some]
        exact this

theorem map_len (n : Nat) (s : OMap (P 1)) (hs : List.length s < c.M) :
    (outM c J S U (n + 5)).call (.con "OrdinalMap") "len" [.ref (mapVal s)] h =
      (fun k => (.uint .size k, h)) <$> OMap.len c (J 0) s := by
  refine (outside_call (d := mapFn1_4) (n + 4) _ _ rfl rfl).trans ?_
  have h1 := map_iter (c := c) (J := J) (S := S) (U := U) (h := h ++ [.ref (mapVal s)]) n s
  have h2 := count_loop (c := c) (J := J) (S := S) (U := U) (h := h ++ [.ref (mapVal s)]) n (c.M + 1) (List.length s + 1) 0 (OMap.iter s)
    (by show List.length s < _; omega) (by show List.length s < _; omega) (by show 0 + List.length s < _; omega)
  simp only [mapVal, slotsVal, phantom, mapIterVal, iterVal, wrapVal, enumVal, List.append_assoc, List.cons_append, List.nil_append,
    List.length_append, List.length_cons, List.length_nil, Cfg.M] at h1 h2
  have hc : OMap.len c (J 0) s = MapIter.countLoop c (J 0) (List.length s + 1) (OMap.iter s) 0 := rfl
  rw [hc]
  generalize OMap.iter s = it at *
  obtain ⟨e, h3, h4⟩ | ⟨m, s', h3, h4⟩ := h2 <;>
  runs [mapFn1_4, mapVal, slotsVal, h1, h3, h4, mapIterVal, iterVal, wrapVal, enumVal]

theorem map_clear (n : Nat) {s : OMap (P 1)} (hp : Place h a ps (mapVal s)) (hs : List.length s ≤ c.M) :
    (outM c J S U (n + 6)).call (.con "OrdinalMap") "clear" [.mref a ps] h =
      (fun s' => (.unit, put h a ps (mapVal s'))) <$> OMap.clear c (J 0) s := by
  refine (outside_call (d := mapFn1_16) (n + 5) _ _ rfl rfl).trans ?_
  have hl := hp.lt
  have hg := hp.get
  have h1 := map_drain (c := c) (J := J) (S := S) (U := U) (n + 1) (hp.append [.mref a ps])
  have hp' := hp.append [.mref a ps, drainVal a (ps ++ [.field "map"]) (TotalIterMut.it (OMap.drain s))]
  have h2 := drain_drop (c := c) (J := J) (S := S) (U := U) (s := OMap.drain s) n (a := h.length + 1) (ps := [])
    (place_var (by simp)) hp'.map (by omega) (by show List.length s ≤ List.length s; omega) (by rw [range_len]; show List.length s - 0 ≤ _; omega)
  rw [show OMap.clear c (J 0) s = TotalIterMut.mem <$> drainAll c (J 0) (TotalIterMut.len (OMap.drain s) + 1) (OMap.drain s) from
    (drainAll_mem c (J 0) _ _).symm]
  have hh (s') : (drainHeap (h ++ [.mref a ps, drainVal a (ps ++ [.field "map"]) (TotalIterMut.it (OMap.drain s))]) (h.length + 1) [] a
      (ps ++ [.field "map"]) s').take (h.length + 1) = put h a ps (mapVal s'.mem) ++ [.mref a ps] := by
    have hp'' := hp.append [.mref a ps, drainVal a (ps ++ [.field "map"]) (TotalIterMut.it s')]
    have e (u w : Val P) : (h ++ [.mref a ps, u]).set (h.length + 1) w = h ++ [.mref a ps, w] := by simp
    rw [drainHeap, put_var (by simp), e, hp''.put_map, hp.put_append]
    generalize drainVal a (ps ++ [.field "map"]) (TotalIterMut.it s') = u
    rw [show put h a ps (mapVal s'.mem) ++ [.mref a ps, u] = (put h a ps (mapVal s'.mem) ++ [.mref a ps]) ++ [u] by simp,
      List.take_left' (by simp [hp.len])]
  have hln (s') := hp.len (mapVal s')
  simp only [mapVal, slotsVal, phantom] at hg
  simp only [drainVal, iterVal, wrapVal, enumVal, phantom] at h1 h2 hh
  cases hc : drainAll c (J 0) (TotalIterMut.len (OMap.drain s) + 1) (OMap.drain s) with
  | error e =>
    rw [hc] at h2
    runs [mapFn1_16, hl, hg, h1, h2, drainVal, iterVal, wrapVal, enumVal]
  | ok s' =>
    rw [hc] at h2
    runs [mapFn1_16, hl, hg, h1, h2, drainVal, iterVal, wrapVal, enumVal, hh, hln]

/-! ## Entries -/

@[text] theorem struct_occupied : (outM c J S U (n + 1)).struct "OccupiedEntry" = some [("key", .path ["K"] .nil), ("entry",
    .ref true (.path ["Option"] (.cons (.path ["V"] .nil) .nil)))] := rfl
@[text] theorem struct_vacant : (outM c J S U (n + 1)).struct "VacantEntry" = some [("key", .path ["K"] .nil), ("entry",
    .ref true (.path ["Option"] (.cons (.path ["V"] .nil) .nil)))] := rfl
@[text] theorem variant_occupied : (outM c J S U (n + 1)).variant "Entry" "Occupied" = some (.cons (.path ["OccupiedEntry"] (.cons
    (.path ["K"] .nil) (.cons (.path ["V"] .nil) .nil))) .nil) := rfl
@[text] theorem variant_vacant : (outM c J S U (n + 1)).variant "Entry" "Vacant" = some (.cons (.path ["VacantEntry"] (.cons
    (.path ["K"] .nil) (.cons (.path ["V"] .nil) .nil))) .nil) := rfl

/-- `OccupiedEntry<'_, K, V>` for the slot at `b`, `qs` -/
def occupiedVal (k : P 0) (b : Nat) (qs : List Proj) : Val P := .obj "OccupiedEntry" [("key", .usr 0 k), ("entry", .mref b qs)]

/-- `VacantEntry<'_, K, V>` for the slot at `b`, `qs` -/
def vacantVal (k : P 0) (b : Nat) (qs : List Proj) : Val P := .obj "VacantEntry" [("key", .usr 0 k), ("entry", .mref b qs)]

/-- `Entry<'_, K, V>` for the slice at `b`, `qs` -/
def entryVal (b : Nat) (qs : List Proj) : Entry (P 0) → Val P
  | .occupied k i => .con "Occupied" [occupiedVal k b (qs ++ [.idx i])]
  | .vacant k i => .con "Vacant" [vacantVal k b (qs ++ [.idx i])]

theorem entry_new (n : Nat) {s : List (Option (P 1))} (k : P 0) (i : Nat) (hm : Place h b qs (slotsVal s)) (hi : i < s.length) :
    (outM c J S U (n + 2)).call (.con "Entry") "new" [.usr 0 k, .mref b (qs ++ [.idx i])] h =
      (fun e => (entryVal b qs e, h)) <$> Entry.new s k i := by
  refine (outside_call (d := mapEntryFn5_0) (n + 1) _ _ rfl rfl).trans ?_
  have hs := List.getElem?_eq_getElem hi
  have hg := (hm.slot hs).get
  have hl := hm.lt
  simp only [Entry.new, hs]
  generalize s[i] = o at *
  simp only [slotVal, entryVal] at hg ⊢
  generalize hq : qs ++ [.idx i] = qi at *
  cases o <;> simp only [Option.map_none, Option.map_some, Val.opt, Val.some, Val.none] at hg <;>
  runs [mapEntryFn5_0, hg, hl, hq, occupiedVal, vacantVal, entryVal]

theorem map_entry (n : Nat) {s : OMap (P 1)} (k : P 0) (hp : Place h a ps (mapVal s)) :
    (outM c J S U (n + 3)).call (.con "OrdinalMap") "entry" [.mref a ps, .usr 0 k] h =
      (fun r => (entryVal a (ps ++ [.field "map"]) r.1, put h a ps (mapVal r.2))) <$> OMap.entry c (J 0) 0 s k := by
  refine (outside_call (d := mapFn1_8) (n + 2) _ _ rfl rfl).trans ?_
  have hl := hp.lt
  have hg := hp.get
  simp only [mapVal, slotsVal, phantom] at hg
  have hi := map_initFullMap (c := c) (J := J) (S := S) (U := U) n (hp.append [.mref a ps, .usr 0 k])
  cases hm : OMap.initFullMap c (J 0) 0 s with
  | error e =>
    rw [hm] at hi
    simp only [error_map] at hi
    runs [mapFn1_8, OMap.entry, hm, hl, hg, get_append, hi]
  | ok s' =>
    rw [hm] at hi
    simp only [ok_map, hp.put_append] at hi
    have hp' := hp.put_at (mapVal s')
    have hln := hp.len (mapVal s')
    have hl' := hp'.lt
    have hg' := hp'.get
    generalize hh : put h a ps (mapVal s') = h' at *
    simp only [mapVal, slotsVal, phantom] at hg'
    rw [hln] at hl'
    cases hk : (J 0).ordinal k with
    | error e => runs [mapFn1_8, OMap.entry, hm, hl, hg, hg', get_append, hi, hk, hln, outside_par_ordinal, outside_par_self]
    | ok i =>
      by_cases hi' : i < List.length s'
      · obtain ⟨o, hs⟩ : ∃ o, s'[i]? = some o := ⟨_, List.getElem?_eq_getElem hi'⟩
        have h1 := entry_new (c := c) (J := J) (S := S) (U := U) n k i
          (hp'.append [.mref a ps, .usr 0 k, .mref a (ps ++ [.field "map"] ++ [.idx i])]).map hi'
        obtain ⟨_, he⟩ := List.getElem?_eq_some_iff.mp hs
        cases hn : Entry.new s' k i with
        | error e => simp [Entry.new, hs] at hn
        | ok e =>
        rw [hn] at h1
        simp only [ok_map, List.append_assoc, List.cons_append, List.nil_append] at h1
        cases o <;>
        runs [mapFn1_8, OMap.entry, OrdinalTotalMap.slotOf, hm, hl, hg, hg', get_append, hi, hk, he, hi', hln, h1, hn, outside_par_ordinal, outside_par_self, slot_get, slotVal, hh]
      · have hs : s'[i]? = none := List.getElem?_eq_none_iff.mpr (by omega)
        runs [mapFn1_8, OMap.entry, OrdinalTotalMap.slotOf, hm, hl, hg, hg', get_append, hi, hk, hs, hi', hln, outside_par_ordinal, outside_par_self, slot_get]

theorem occupied_key (n : Nat) (k : P 0) (b : Nat) (qs : List Proj) :
    (outM c J S U (n + 1)).call (.con "OccupiedEntry") "key" [.ref (occupiedVal k b qs)] h = .ok (.ref (.usr 0 k), h) := by
  refine (outside_call (d := mapEntryFn3_0) n _ _ rfl rfl).trans ?_
  runs [mapEntryFn3_0, occupiedVal]

theorem vacant_key (n : Nat) (k : P 0) (b : Nat) (qs : List Proj) :
    (outM c J S U (n + 1)).call (.con "VacantEntry") "key" [.ref (vacantVal k b qs)] h = .ok (.ref (.usr 0 k), h) := by
  refine (outside_call (d := mapEntryFn4_0) n _ _ rfl rfl).trans ?_
  runs [mapEntryFn4_0, vacantVal]

@[text] theorem self_occupied_key : (outM c J S U (n + 1)).self (.con "OccupiedEntry") "key" = some .ref := rfl
@[text] theorem self_vacant_key : (outM c J S U (n + 1)).self (.con "VacantEntry") "key" = some .ref := rfl

theorem entry_key (n : Nat) (b : Nat) (qs : List Proj) (e : Entry (P 0)) :
    (outM c J S U (n + 2)).call (.con "Entry") "key" [.ref (entryVal b qs e)] h = .ok (.ref (.usr 0 e.key), h) := by
  refine (outside_call (d := mapEntryFn5_1) (n + 1) _ _ rfl rfl).trans ?_
  have h1 (h : Heap P) (k b qs) := occupied_key (c := c) (J := J) (S := S) (U := U) (h := h) n k b qs
  have h2 (h : Heap P) (k b qs) := vacant_key (c := c) (J := J) (S := S) (U := U) (h := h) n k b qs
  simp only [occupiedVal, vacantVal] at h1 h2
  cases e <;> runs [mapEntryFn5_1, entryVal, occupiedVal, vacantVal, Entry.key, h1, h2]

theorem occupied_get (n : Nat) {s : List (Option (P 1))} (k : P 0) (i : Nat) (hm : Place h b qs (slotsVal s)) (hi : i < s.length) :
    (outM c J S U (n + 1)).call (.con "OccupiedEntry") "get" [.ref (occupiedVal k b (qs ++ [.idx i]))] h =
      (fun v => (.ref (.usr 1 v), h)) <$> Entry.occupiedGet s i := by
  refine (outside_call (d := mapEntryFn3_1) n _ _ rfl rfl).trans ?_
  have hs := List.getElem?_eq_getElem hi
  have hg := (hm.slot hs).get
  have hl := hm.lt
  simp only [Entry.occupiedGet, hs]
  generalize s[i] = o at *
  simp only [slotVal] at hg ⊢
  generalize hq : qs ++ [.idx i] = qi at *
  cases o <;> simp only [Option.map_none, Option.map_some, Val.opt, Val.some, Val.none] at hg <;>
  runs [mapEntryFn3_1, hg, hl, hq, occupiedVal]

theorem occupied_getMut (n : Nat) {s : List (Option (P 1))} (k : P 0) (i : Nat) (hp : Place h a ps (occupiedVal k b (qs ++ [.idx i])))
    (hm : Place h b qs (slotsVal s)) (hi : i < s.length) :
    (outM c J S U (n + 1)).call (.con "OccupiedEntry") "get_mut" [.mref a ps] h =
      (fun i => (.mref b (qs ++ [.idx i] ++ [.idx 0]), h)) <$> Entry.occupiedGetMut s i := by
  refine (outside_call (d := mapEntryFn3_2) n _ _ rfl rfl).trans ?_
  have hs := List.getElem?_eq_getElem hi
  have hg := (hm.slot hs).get
  have hl := hm.lt
  have hg' := hp.get
  have hl' := hp.lt
  simp only [Entry.occupiedGetMut, hs]
  generalize s[i] = o at *
  simp only [slotVal, occupiedVal] at hg hg' ⊢
  generalize hq : qs ++ [.idx i] = qi at *
  cases o <;> simp only [Option.map_none, Option.map_some, Val.opt, Val.some, Val.none] at hg <;>
  runs [mapEntryFn3_2, hg, hl, hg', hl', hq, get_append]
  all_goals simp [← hq]

theorem vacant_insert (n : Nat) {s : List (Option (P 1))} (k : P 0) (i : Nat) (v : P 1) (hm : Place h b qs (slotsVal s)) (hi : i < s.length) :
    (outM c J S U (n + 1)).call (.con "VacantEntry") "insert" [vacantVal k b (qs ++ [.idx i]), .usr 1 v] h =
      (fun s' => (.unit, put h b qs (slotsVal s'))) <$> Entry.vacantInsert s i v := by
  refine (outside_call (d := mapEntryFn4_1) n _ _ rfl rfl).trans ?_
  have hs := List.getElem?_eq_getElem hi
  have hset := slots_set hm hs (some v)
  have hl := hm.lt
  have hln := hm.len (slotsVal (s.set i (some v)))
  simp only [Entry.vacantInsert, writeSlot, hi, if_true]
  simp only [slotVal, Option.map_some, Val.opt, Val.some] at hset
  generalize hh : put h b qs (slotsVal (s.set i (some v))) = h' at *
  generalize hq : qs ++ [.idx i] = qi at *
  runs [mapEntryFn4_1, hset, hl, hq, vacantVal, hln, hh, get_cons]

theorem entry_orInsert (n : Nat) {s : List (Option (P 1))} (e : Entry (P 0)) (v : P 1) (hm : Place h b qs (slotsVal s))
    (hi : (match e with | .occupied _ i => i | .vacant _ i => i) < s.length) :
    (outM c J S U (n + 1)).call (.con "Entry") "or_insert" [entryVal b qs e, .usr 1 v] h =
      (fun r => (.mref b (qs ++ [.idx r.1] ++ [.idx 0]), put h b qs (slotsVal r.2))) <$> Entry.orInsert s e v := by
  refine (outside_call (d := mapEntryFn5_2) n _ _ rfl rfl).trans ?_
  have hl := hm.lt
  cases e with
  | occupied k i =>
    have hs := List.getElem?_eq_getElem hi
    have hg := (hm.slot hs).get
    have hps := hm.put_self
    simp only [Entry.orInsert, Entry.occupiedGetMut, hs]
    simp only at hg
    generalize s[i] = o at *
    simp only [slotVal, entryVal, occupiedVal] at hg ⊢
    cases o <;> simp only [Option.map_none, Option.map_some, Val.opt, Val.some, Val.none] at hg <;>
    (generalize hq : qs ++ [.idx i] = qi at *
     runs [mapEntryFn5_2, hg, hl, hq, get_cons, hps]
     all_goals simp [← hq])
  | vacant k i =>
    have hs := List.getElem?_eq_getElem hi
    have hset := slots_set hm hs (some v)
    have hg := (hm.slot hs).get
    have hln := hm.len (slotsVal (s.set i (some v)))
    simp only at hi
    simp only [Entry.orInsert, writeSlot, hi, if_true, entryVal, vacantVal]
    simp only [slotVal, Option.map_some, Val.opt, Val.some] at hset
    generalize hh : put h b qs (slotsVal (s.set i (some v))) = h' at *
    simp only at hg
    generalize s[i] = o at *
    cases o <;> simp only [slotVal, Option.map_none, Option.map_some, Val.opt, Val.some, Val.none] at hg <;>
    (generalize hq : qs ++ [.idx i] = qi at *
     runs [mapEntryFn5_2, hset, hg, hl, hq, hln, hh, get_cons]
     all_goals simp [← hq])

end OrdinalMap.Text
