import Verif.Text.MapRetain
import Verif.Text.TotalAsMut
import Verif.Props.TextArrayMap
import Verif.Props.TextTotal
import Verif.Props.TotalMap
/-!
# C105: the functions that take closures or combine maps, lexed, parsed and run from their source text

`zip`, `as_ref`, `as_mut`, `map` and `map_values` of `OrdinalTotalArrayMap` (with `array_from_iter` and `array_as_mut`), and `retain` of `OrdinalArrayMap`.
`P 0` is the type of keys, `P 1` of values, `P 2` of states of closures, and `P 4` of what `map` makes.
-/

namespace OrdinalMap.Props
open OrdinalMap OrdinalMap.Text

variable {P : Nat → Type} (c : Cfg) (J : (p : Nat) → OrdinalImpl (P p)) (S : Nat) {n : Nat}

theorem holdsAt (L : Lawful c (J 0) n) (U : UserFns P) (m : P 0 → Val P) :
    HoldsAt (mapCall c J n maps U) (.con "OrdinalTotalArrayMap") (values (J 0) n) (totalArrVal (store (J 0) n m)) m := by
  refine ⟨fun k => (totalArr_get (c := c) (J := J) (S := n) (U := U) (h := []) 7 _ k).trans ?_, totalArr_intoValues 8 _⟩
  rw [OrdinalTotalArrayMap_get L]
  rfl

theorem ofStore {I : OrdinalImpl (P 0)} {α : Type} (m : P 0 → α) (e : α → Val P) : List.map e (store I n m) = store I n fun k => e (m k) := by
  simp [store, Function.comp_def]

/-- C105, `zip`: of maps made from two arrays of any types, at each key the pair of their values. -/
theorem C105_zip (L : Lawful c (J 0) n) (vs ws : List (Val P)) (hv : vs.length = n) (hw : ws.length = n) : MapSources fun prog =>
    let call := mapCall c J n prog
    let t := RT.con "OrdinalTotalArrayMap"
    let holds := HoldsAt call t (values (J 0) n)
    ∃ a b z m m', call t "from_array" [.arr vs] [] = .ok (a, []) ∧ call t "from_array" [.arr ws] [] = .ok (b, []) ∧
      (values (J 0) n).map m = vs ∧ (values (J 0) n).map m' = ws ∧
      call t "zip" [a, b] [] = .ok (z, []) ∧ holds z fun k => .con "()" [m k, m' k] := by
  obtain ⟨m, rfl⟩ := exists_store L vs hv
  obtain ⟨m', rfl⟩ := exists_store L ws hw
  refine .of ⟨_, _, totalArrVal (store (J 0) n fun k => .con "()" [m k, m' k]), m, m', totalArr_fromArray 7 _, totalArr_fromArray 7 _, rfl, rfl,
    (totalArr_zip 6 _ _ hv hw).trans ?_, holdsAt c J L _ _⟩
  simp [zipVals, store, List.zipWith_map, List.zipWith_self]

example := C105_zip debug64 (twoImpls orderingImpl boolImpl) (ordering_lawful debug64).1 [.usr 1 true, .usr 1 false, .usr 1 true]
  [.unit, .bool true, .uint .size 5] rfl rfl

/-- C105, `as_ref`: at each key a reference to the value. -/
theorem C105_as_ref (L : Lawful c (J 0) n) (vs : List (Val P)) (hv : vs.length = n) : MapSources fun prog =>
    let call := mapCall c J n prog
    let t := RT.con "OrdinalTotalArrayMap"
    ∃ a z m, call t "from_array" [.arr vs] [] = .ok (a, []) ∧ (values (J 0) n).map m = vs ∧
      call t "as_ref" [.ref a] [] = .ok (z, []) ∧ HoldsAt call t (values (J 0) n) z fun k => .ref (m k) := by
  obtain ⟨m, rfl⟩ := exists_store L vs hv
  refine .of ⟨_, totalArrVal (store (J 0) n fun k => .ref (m k)), m, totalArr_fromArray 7 _, rfl, (totalArr_asRef 2 _ L.fits).trans ?_, holdsAt c J L _ _⟩
  simp only [OrdinalTotalArrayMap.asRef, OrdinalTotalArrayMap_get L, OrdinalTotalArrayMap.new_eq L, ok_bind]
  rw [initEach_pure m]
  exact congrArg (fun l => Except.ok (totalArrVal l, [])) (ofStore m _)

example := C105_as_ref debug64 (twoImpls orderingImpl boolImpl) (ordering_lawful debug64).1 [.usr 1 true, .usr 1 false, .usr 1 true] rfl

/-- Writes through the references that `as_mut` hands out. -/
theorem writeAll_store [DecidableEq (P 0)] (L : Lawful c (J 0) n) (ws : List (P 0 × Val P)) : ∀ m : P 0 → Val P,
    writeAll (fun k => .mref 0 [.field "map", .idx (ordOf (J 0) k)]) ws [totalArrVal (store (J 0) n m)] =
      .ok [totalArrVal (store (J 0) n (updateAll ws m))] := by
  induction ws with
  | nil => intro m; rfl
  | cons p ws ih =>
    intro m
    have hp : Place [totalArrVal (store (J 0) n m)] 0 [] (totalArrVal (store (J 0) n m)) := ⟨rfl, by simp⟩
    have h1 := arr_set hp.totalArr (i := ordOf (J 0) p.1) (by rw [store_length L]; exact L.ord_lt p.1) p.2
    rw [hp.put_totalArr, store_set L] at h1
    have h2 : assign [totalArrVal (store (J 0) n m)] p.2 (.mref 0 [.field "map", .idx (ordOf (J 0) p.1)]) =
      .ok [totalArrVal (store (J 0) n (updT m p.1 p.2))] := h1
    rw [writeAll, h2, ok_bind, ih]
    rfl

/-- C105, `as_mut`: at each key a mutable reference to the value.  What is written through these references, in any order, is what the
references read afterwards and, when they are gone, what the map holds. -/
theorem C105_as_mut [DecidableEq (P 0)] (L : Lawful c (J 0) n) (vs : List (Val P)) (hv : vs.length = n) : MapSources fun prog =>
    let call := mapCall c J n prog
    let t := RT.con "OrdinalTotalArrayMap"
    let holds := HoldsAt call t (values (J 0) n)
    ∃ a z m place, call t "from_array" [.arr vs] [] = .ok (a, []) ∧ (values (J 0) n).map m = vs ∧
      call t "as_mut" [.mref 0 []] [a] = .ok (z, [a]) ∧ holds z place ∧
      ∀ ws, ∃ a', writeAll place ws [a] = .ok [a'] ∧ (∀ k, deref [a'] (place k) = .ok (updateAll ws m k)) ∧ holds a' (updateAll ws m) := by
  obtain ⟨m, rfl⟩ := exists_store L vs hv
  refine .of ⟨_, totalArrVal (store (J 0) n fun k => .mref 0 [.field "map", .idx (ordOf (J 0) k)]), m, _, totalArr_fromArray 7 _, rfl,
    (totalArr_asMut 6 hv L.fits (a := 0) (ps := []) ⟨rfl, by simp⟩).trans ?_, holdsAt c J L _ _, fun ws =>
    ⟨_, writeAll_store c J L ws m, fun k => ?_, holdsAt c J L _ _⟩⟩
  · refine congrArg (fun l => Except.ok (totalArrVal l, _)) (List.ext_getElem? fun i => ?_)
    rcases Nat.lt_or_ge i n with hi | hi
    · obtain ⟨k, _, _, rfl⟩ := values_getElem L i hi
      rw [store_get L]
      simp [elemRefs, hi]
    · rw [List.getElem?_eq_none (by simp [elemRefs, hi]), List.getElem?_eq_none (by rw [store_length L]; exact hi)]
  · have := store_get L (updateAll ws m) k
    simp [deref, Loc.get, getPath, part, totalArrVal, findField, this]

example := C105_as_mut debug64 (twoImpls orderingImpl boolImpl) (ordering_lawful debug64).1 [.usr 1 true, .usr 1 false, .usr 1 true] rfl

/-- Two writes to one key and one to another. -/
example : (values orderingImpl 3).map (updateAll [(.eq, 7), (.gt, 8), (.eq, 9)] fun _ => 0) = [0, 9, 8] := by decide

/-- C105: `as_mut` of the text computes what the modelled `array_as_mut` computes, with every impl, lawful or not. -/
theorem C105_agrees_as_mut (hS : S < c.M) (vs : List (Val P)) (hv : vs.length = S) : MapSources fun prog =>
    mapCall c J S prog noFns (.con "OrdinalTotalArrayMap") "as_mut" [.mref 0 []] [totalArrVal vs] =
      (fun is => (totalArrVal (is.map fun i => .mref 0 [.field "map", .idx i]), [totalArrVal vs])) <$> arrayAsMut S := by
  refine .of ((totalArr_asMut 6 hv hS (a := 0) (ps := []) ⟨rfl, by simp⟩).trans ?_)
  rw [arrayAsMut_eq]
  rfl

example := C105_agrees_as_mut (P := two Bool Bool) debug64 (twoImpls bogusImpl boolImpl) 2 (by decide) [.usr 1 true, .usr 1 false] rfl

/-- C105: `array_from_iter` of an iterator that yields `us` returns exactly these items, and panics unless there are `S` of them; this is what
the modelled function computes. -/
theorem C105_array_from_iter (us : List (Val P)) (h : Heap P) : MapSources fun prog =>
    let res := (outside c J (mapTys S) prog 9).free "array_from_iter" [.it us] h
    (us.length = S → res = .ok (.arr us, h)) ∧ (us.length ≠ S → res = .error .panic) ∧
    res = (fun ws => (.arr ws, h)) <$> arrayFromIter S us :=
  .of ⟨fun hu => (fromIter_any 7 us).trans (by rw [arrayFromIter_ok hu]; rfl), fun hu => (fromIter_any 7 us).trans (by rw [arrayFromIter_panic hu]; rfl),
    fromIter_any 7 us⟩

example := C105_array_from_iter (P := two Bool Bool) debug64 (twoImpls bogusImpl boolImpl) 2 [.usr 1 true, .usr 1 false] []
example := (C105_array_from_iter (P := two Bool Bool) debug64 (twoImpls bogusImpl boolImpl) 2 [.usr 1 true, .usr 1 false, .usr 1 false] []).imp
  fun _ h => h.2.2.1 (by decide)

/-- What a function that maps a total map must do: call the closure `f` on the pairs in ordinal order, and make the map of the answers. -/
def TextMaps (res : R (Val P × Heap P)) (holds : Val P → (P 0 → Val P) → Prop) (ks : List (P 0)) (ps : List (P 0 × P 1))
    (f : P 0 → P 1 → P 2 → R (P 4 × P 2)) (r : P 2) : Prop :=
  (∀ e, mapAll f ps r = .error e → res = .error e) ∧
  ∀ ws r', mapAll f ps r = .ok (ws, r') → ∃ z m, res = .ok (z, [.usr 2 r']) ∧ ks.map m = ws ∧ holds z fun k => .usr 4 (m k)

theorem textMaps (L : Lawful c (J 0) n) (U : UserFns P) (m : P 0 → P 1) (f : P 0 → P 1 → P 2 → R (P 4 × P 2)) (r : P 2)
    {res : R (Val P × Heap P)} (h : res = (fun p => (totalArrVal (List.map (.usr 4 ·) p.1), [.usr 2 p.2])) <$> OrdinalTotalArrayMap.map c (J 0) n (store (J 0) n m) f r) :
    TextMaps res (HoldsAt (mapCall c J n maps U) (.con "OrdinalTotalArrayMap") (values (J 0) n)) (values (J 0) n) (pairsT (J 0) n m) f r := by
  rw [OrdinalTotalArrayMap.map_eq L] at h
  refine ⟨fun e he => by rw [h, he]; rfl, fun ws r' he => ?_⟩
  obtain ⟨m', rfl⟩ := exists_store L ws (by
    rw [mapAll_length f _ _ _ _ he]
    simp [pairsT, values_length L])
  refine ⟨_, m', by rw [h, he]; rfl, rfl, ?_⟩
  rw [ofStore]
  exact holdsAt c J L _ _

/-- C105, `map` and `map_values`, for every closure with state that may panic. -/
theorem C105_map (L : Lawful c (J 0) n) (vs : List (P 1)) (hv : vs.length = n) (r : P 2) : MapSources fun prog =>
    let t := RT.con "OrdinalTotalArrayMap"
    let holds := HoldsAt (mapCall c J n prog) t (values (J 0) n)
    ∃ a m, mapCall c J n prog noFns t "from_array" [.arr (vs.map (.usr 1))] [] = .ok (a, []) ∧ (values (J 0) n).map m = vs ∧
      (∀ f, TextMaps (mapCall c J n prog (mapFn f) t "map" [a, .ufn 0] [.usr 2 r]) holds (values (J 0) n) (pairsT (J 0) n m) f r) ∧
      ∀ f, TextMaps (mapCall c J n prog (mapValuesFn f) t "map_values" [a, .ufn 0] [.usr 2 r]) holds (values (J 0) n) (pairsT (J 0) n m)
        (fun _ => f) r := by
  obtain ⟨m, rfl⟩ := exists_store L vs hv
  exact .of ⟨_, m, totalArr_fromArray 7 _, rfl, fun f => textMaps c J L _ m f r (totalArr_map 4 (mapFn_calls f 5) _ hv L.fits r),
    fun f => textMaps c J L _ m _ r (totalArr_mapValues 3 (mapValuesFn_calls f 3) _ hv L.fits r)⟩

example := C105_map debug64 (twoImpls orderingImpl boolImpl) (ordering_lawful debug64).1 [true, false, true] rfl

/-- The map `v` answers every history as the partial function `m` does, as in C103. -/
def SparseLike [DecidableEq (P 0)] (call : Machine P) (I : OrdinalImpl (P 0)) (n : Nat) (v : Val P) (m : P 0 → Option (P 1)) : Prop :=
  let t := RT.con "OrdinalArrayMap"
  RunsLike (textMapStep call t) (MapSpec.step I n) v m fun m v =>
    (∀ k, call t "contains_key" [.ref v, .ref (.usr 0 k)] [] = .ok (.bool (m k).isSome, [])) ∧
    IteratesLike call t v (pairs I n m) ∧ Iterates call t "into_iter" "IntoIterArray" v readPair (pairs I n m) fun _ _ => True

theorem arrayMap_like [DecidableEq (P 0)] (L : Lawful c (J 0) n) (U : UserFns P) (m : P 0 → Option (P 1)) :
    SparseLike (mapCall c J n maps U) (J 0) n (arrMapVal (store (J 0) n m)) m := by
  have hl : List.length (store (J 0) n m) < c.M := by rw [store_length L]; exact L.fits
  have hb := OrdinalArrayMap.runs L m
  rw [show OrdinalArrayMap.step c (J 0) = (OrdinalArrayMap.fns (V := P 1) c (J 0)).step c (J 0) from by
    funext s op; exact OrdinalArrayMap.step_fns c (J 0) s op] at hb
  unfold SparseLike
  refine arrMap_text.runsLike hl ?_ hb
  rintro m s hs rfl
  refine ⟨fun k => ?_, arrMap_text.iterates hs (iterGood_of L (b := true) (.inl ⟨rfl, rfl⟩)),
    arrMap_intoIterates hs (MapIntoIterArray.behaves L (Stored.sview L (b := true) (.inl ⟨rfl, rfl⟩)))⟩
  rw [mapCall, show outside c J (mapTys n) maps 9 U = outM c J n U 9 from rfl, arrMap_containsKey (h := []) 5,
    OrdinalArrayMap.containsKey, OrdinalArrayMap.get_eq L]
  rfl

theorem retain_step [DecidableEq (P 0)] (L : Lawful c (J 0) n) (m : P 0 → Option (P 1)) (op : RetainOp (P 0) (P 1) (P 2)) :
    textRetainStep (fun U => mapCall c J n maps U) (.con "OrdinalArrayMap") (arrMapVal (store (J 0) n m)) op =
      (fun q => (q.1, arrMapVal (store (J 0) n q.2))) <$> retainOpSpec (J 0) n m op := by
  cases op with
  | op o =>
    have hl : List.length (store (J 0) n m) < c.M := by rw [store_length L]; exact L.fits
    have hb := OrdinalArrayMap.runs L m
    rw [show OrdinalArrayMap.step c (J 0) = (OrdinalArrayMap.fns (V := P 1) c (J 0)).step c (J 0) from by
      funext s op; exact OrdinalArrayMap.step_fns c (J 0) s op] at hb
    have h1 := arrMap_text.runsLike (S := n) (U := noFns) (obs' := fun m v => v = arrMapVal (store (J 0) n m)) hl
      (fun m s _ e => by rw [e]) hb
    obtain ⟨v, h1, h2⟩ := h1 [o]
    simp only [runOps, runSpec] at h1 h2
    rw [textRetainStep]
    cases ht : textMapStep (mapCall c J n maps noFns) (.con "OrdinalArrayMap") (arrMapVal (store (J 0) n m)) o with
    | error f => rw [ht] at h1; simp at h1
    | ok q =>
      rw [ht] at h1
      simp only [ok_bind, Except.ok.injEq, Prod.mk.injEq, List.cons.injEq, and_true] at h1
      simp only [ok_bind, retainOpSpec, ok_map, h1.1, h1.2, h2]
  | retain f r =>
    have hl : List.length (store (J 0) n m) < c.M := by rw [store_length L]; exact L.fits
    have h1 := arrMap_retain (c := c) (J := J) (S := n) f 4 (store (J 0) n m) hl r
    rw [OrdinalArrayMap.retain_eq L] at h1
    rw [textRetainStep, mapCall, h1, retainOpSpec]
    cases retainSpec f (values (J 0) n) m r <;> rfl

/-- C105, `retain`: in every history of operations on the map that `new` makes, in which `retain` is called with any closures, each with
its state: the answers are those of the partial function, on which `retain` is `retainSpec` of C37.  If a closure panics, so does `retain`.
After every such history the map answers as the partial function does. -/
theorem C105_retain [DecidableEq (P 0)] (L : Lawful c (J 0) n) : MapSources fun prog =>
    let call (U : UserFns P) := mapCall c J n prog U
    let t := RT.con "OrdinalArrayMap"
    ∃ v, call noFns t "new" [] [] = .ok (v, []) ∧ ∀ ops,
      (∀ e, runOps (retainOpSpec (J 0) n) (fun _ => none) ops = .error e → runOps (textRetainStep call t) v ops = .error e) ∧
      ∀ os m, runOps (retainOpSpec (J 0) n) (fun _ => none) ops = .ok (os, m) →
        ∃ v', runOps (textRetainStep call t) v ops = .ok (os, v') ∧ SparseLike (call noFns) (J 0) n v' m := by
  refine .of ⟨arrMapVal (store (J 0) n fun _ => none), ?_, fun ops => ?_⟩
  · refine (arrMap_new 3 L.fits).trans ?_
    rw [OrdinalArrayMap.new_eq L]
    rfl
  · have key : ∀ ops (m : P 0 → Option (P 1)), runOps (textRetainStep (fun U => mapCall c J n maps U) (.con "OrdinalArrayMap")) (arrMapVal (store (J 0) n m)) ops =
        (fun q => (q.1, arrMapVal (store (J 0) n q.2))) <$> runOps (retainOpSpec (J 0) n) m ops := by
      intro ops
      induction ops with
      | nil => intro m; rfl
      | cons op ops ih =>
        intro m
        rw [runOps, retain_step c J L, runOps]
        cases retainOpSpec (J 0) n m op with
        | error e => rfl
        | ok q =>
          simp only [ok_map, ok_bind, ih]
          cases runOps (retainOpSpec (J 0) n) q.2 ops <;> rfl
    rw [key]
    refine ⟨fun e he => by rw [he]; rfl, fun os m hm => ⟨_, by rw [hm]; rfl, arrayMap_like c J L _ m⟩⟩

example := C105_retain debug64 (twoImpls orderingImpl boolImpl) (ordering_lawful debug64).1

/-- C105: the text and the model compute the same, with every impl, lawful or not, including panics. -/
theorem C105_agrees (hS : S < c.M) : MapSources fun prog =>
    let t := RT.con "OrdinalTotalArrayMap"
    (∀ vs ws : List (Val P), vs.length = S → ws.length = S → mapCall c J S prog noFns t "zip" [totalArrVal vs, totalArrVal ws] [] =
      (fun s => (totalArrVal (List.map (fun p => .con "()" [p.1, p.2]) s), [])) <$> OrdinalTotalArrayMap.zip S vs ws) ∧
    (∀ vs : List (Val P), mapCall c J S prog noFns t "as_ref" [.ref (totalArrVal vs)] [] =
      (fun s => (totalArrVal (List.map Val.ref s), [])) <$> OrdinalTotalArrayMap.asRef (J 0) S vs) ∧
    (∀ (vs : List (P 1)) f r, vs.length = S → mapCall c J S prog (mapFn f) t "map" [totalArrVal (vs.map (.usr 1 ·)), .ufn 0] [.usr 2 r] =
      (fun p => (totalArrVal (List.map (.usr 4 ·) p.1), [.usr 2 p.2])) <$> OrdinalTotalArrayMap.map c (J 0) S vs f r) ∧
    (∀ (vs : List (P 1)) f r, vs.length = S → mapCall c J S prog (mapValuesFn f) t "map_values" [totalArrVal (vs.map (.usr 1 ·)), .ufn 0] [.usr 2 r] =
      (fun p => (totalArrVal (List.map (.usr 4 ·) p.1), [.usr 2 p.2])) <$> OrdinalTotalArrayMap.mapValues c (J 0) S vs f r) ∧
    ∀ (s : OrdinalArrayMap (P 1)) f r, List.length s < c.M →
      mapCall c J S prog (retainFn f) (.con "OrdinalArrayMap") "retain" [.mref 1 [], .ufn 0] [.usr 2 r, arrMapVal s] =
        (fun q => (.unit, [.usr 2 q.2, arrMapVal q.1])) <$> OrdinalArrayMap.retain c (J 0) s f r := by
  refine .of ⟨fun vs ws hv hw => (totalArr_zip 6 vs ws hv hw).trans ?_, fun vs => totalArr_asRef 2 vs hS,
    fun vs f r hv => totalArr_map 4 (mapFn_calls f 5) vs hv hS r, fun vs f r hv => totalArr_mapValues 3 (mapValuesFn_calls f 3) vs hv hS r,
    fun s f r hs => arrMap_retain f 4 s hs r⟩
  rw [OrdinalTotalArrayMap.zip, arrayFromIter_ok (by simp [hv, hw])]
  simp [zipVals, List.zip, List.map_zipWith]

/-- With the wrong impl `bogusImpl`. -/
example := C105_agrees (P := two Bool Bool) debug64 (twoImpls bogusImpl boolImpl) 2 (by decide)

end OrdinalMap.Props
