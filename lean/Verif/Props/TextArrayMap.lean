import Verif.Text.MapArrayHist
import Verif.Props.TextMap
/-!
# C103: `OrdinalArrayMap`, lexed, parsed and run from its source text

The types are as for C102.  `S` is the length of the array.
-/

namespace OrdinalMap.Props
open OrdinalMap OrdinalMap.Text

variable {P : Nat → Type} (c : Cfg) (J : (p : Nat) → OrdinalImpl (P p)) (S : Nat) {n : Nat}

/-- C103: with `S` the number of keys, the text of `new()`, `default()` and `from_iter` makes a map that answers every history of
operations as the partial function does.  After every history, `contains_key` says which keys have values, and the iterators behave
like deques of what the partial function holds. -/
theorem C103_ordinal_array_map [DecidableEq (P 0)] (L : Lawful c (J 0) n) : MapSources fun prog =>
    let call := mapCall c J n prog
    let t := RT.con "OrdinalArrayMap"
    let map (v : Val P) (m : P 0 → Option (P 1)) := RunsLike (textMapStep call t) (MapSpec.step (J 0) n) v m fun m v =>
      (∀ k, call t "contains_key" [.ref v, .ref (.usr 0 k)] [] = .ok (.bool (m k).isSome, [])) ∧
      IteratesLike call t v (pairs (J 0) n m) ∧
      Iterates call t "into_iter" "IntoIterArray" v readPair (pairs (J 0) n m) fun _ _ => True
    (∃ v, call t "new" [] [] = .ok (v, []) ∧ call t "default" [] [] = .ok (v, []) ∧ map v fun _ => none) ∧
    ∀ ps : List (P 0 × P 1), ∃ v, call t "from_iter" [.arr (ps.map pairOwn)] [] = .ok (v, []) ∧ map v (lastValue ps) := by
  refine .of ?_
  have key (m : P 0 → Option (P 1)) :
      RunsLike (textMapStep (mapCall c J n maps noFns) (.con "OrdinalArrayMap")) (MapSpec.step (J 0) n) (arrMapVal (store (J 0) n m)) m fun m v =>
        (∀ k, mapCall c J n maps noFns (.con "OrdinalArrayMap") "contains_key" [.ref v, .ref (.usr 0 k)] [] = .ok (.bool (m k).isSome, [])) ∧
        IteratesLike (mapCall c J n maps noFns) (.con "OrdinalArrayMap") v (pairs (J 0) n m) ∧
        Iterates (mapCall c J n maps noFns) (.con "OrdinalArrayMap") "into_iter" "IntoIterArray" v readPair (pairs (J 0) n m) fun _ _ => True := by
    have hl : List.length (store (J 0) n m) < c.M := by
      have := (Stored.length (b := true) L (.inl ⟨rfl, rfl⟩) : List.length (store (J 0) n m) = _)
      have := L.fits
      simp_all
    have hb := OrdinalArrayMap.runs L m
    rw [show OrdinalArrayMap.step c (J 0) = (OrdinalArrayMap.fns (V := P 1) c (J 0)).step c (J 0) from by
      funext s op; exact OrdinalArrayMap.step_fns c (J 0) s op] at hb
    refine arrMap_text.runsLike hl ?_ hb
    rintro m s hs rfl
    refine ⟨fun k => ?_, arrMap_text.iterates hs (iterGood_of L (b := true) (.inl ⟨rfl, rfl⟩)),
      arrMap_intoIterates hs (MapIntoIterArray.behaves L (Stored.sview L (b := true) (.inl ⟨rfl, rfl⟩)))⟩
    rw [mapCall, show outside c J (mapTys n) maps 9 = outM c J n noFns 9 from rfl, arrMap_containsKey (h := []) 5,
      OrdinalArrayMap.containsKey, OrdinalArrayMap.get_eq L]
    rfl
  refine ⟨⟨arrMapVal (store (J 0) n fun _ => none), ?_, ?_, key _⟩, fun ps => ⟨arrMapVal (store (J 0) n (lastValue ps)), ?_, key _⟩⟩
  · rw [mapCall, show outside c J (mapTys n) maps 9 = outM c J n noFns 9 from rfl, arrMap_new (h := []) 3 L.fits, OrdinalArrayMap.new_eq L]
    rfl
  · rw [mapCall, show outside c J (mapTys n) maps 9 = outM c J n noFns 9 from rfl, arrMap_default (h := []) 2 L.fits, OrdinalArrayMap.new_eq L]
    rfl
  · have e : inserted (fun _ => none) ps = lastValue ps := by
      funext k; rw [inserted_eq]; simp
    rw [mapCall, show outside c J (mapTys n) maps 9 = outM c J n noFns 9 from rfl, arrMap_fromIter (h := []) 2 L.fits,
      OrdinalArrayMap.fromIter, OrdinalArrayMap.new_eq L]
    simp only [ok_bind, OrdinalArrayMap.extendLoop_eq L, e]
    rfl

example := C103_ordinal_array_map debug64 (twoImpls orderingImpl boolImpl) (ordering_lawful debug64).1
example := C103_ordinal_array_map release32 (twoImpls (u8Impl release32) boolImpl) (u8_lawful release32).1

/-- C103: with any other `S`, the text of `new()`, `default()` and `from_iter` does not compile: the assertion on `S` fails. -/
theorem C103_wrong_size (L : Lawful c (J 0) n) (hS : S ≠ n) (hM : S < c.M) : MapSources fun prog =>
    let call := mapCall c J S prog
    let t := RT.con "OrdinalArrayMap"
    call t "new" [] [] = .error .compileError ∧ call t "default" [] [] = .error .compileError ∧
    ∀ ps : List (P 0 × P 1), call t "from_iter" [.arr (ps.map pairOwn)] [] = .error .compileError := by
  have hn : OrdinalArrayMap.new (P 1) (J 0) S = .error .compileError := by
    simp only [OrdinalArrayMap.new, OrdinalTotalArrayMap.new, OrdinalTotalArrayMap.assertS_wrong L hS]
    rfl
  refine .of ⟨?_, ?_, fun ps => ?_⟩
  · rw [mapCall, show outside c J (mapTys S) maps 9 = outM c J S noFns 9 from rfl, arrMap_new (h := []) 3 hM, hn]
    rfl
  · rw [mapCall, show outside c J (mapTys S) maps 9 = outM c J S noFns 9 from rfl, arrMap_default (h := []) 2 hM, hn]
    rfl
  · rw [mapCall, show outside c J (mapTys S) maps 9 = outM c J S noFns 9 from rfl, arrMap_fromIter (h := []) 2 hM,
      OrdinalArrayMap.fromIter, hn]
    rfl

example := C103_wrong_size debug64 (twoImpls orderingImpl boolImpl) 4 (ordering_lawful debug64).1 (by decide) (by decide)

/-- C103: the text and the model compute the same in every history on every map, with every impl, lawful or not, including panics. -/
theorem C103_agrees (hS : S < c.M) : MapSources fun prog =>
    let call := mapCall c J S prog
    let t := RT.con "OrdinalArrayMap"
    call t "new" [] [] = (fun s => (arrMapVal s, [])) <$> OrdinalArrayMap.new (P 1) (J 0) S ∧
    call t "default" [] [] = (fun s => (arrMapVal s, [])) <$> OrdinalArrayMap.new (P 1) (J 0) S ∧
    (∀ ps : List (P 0 × P 1), call t "from_iter" [.arr (ps.map pairOwn)] [] =
      (fun s => (arrMapVal s, [])) <$> OrdinalArrayMap.fromIter (J 0) S ps) ∧
    ∀ s : OrdinalArrayMap (P 1), List.length s < c.M →
      (∀ ops, runOps (textMapStep call t) (arrMapVal s) ops = (fun r => (r.1, arrMapVal r.2)) <$> runOps (OrdinalArrayMap.step c (J 0)) s ops) ∧
      (∀ k, call t "contains_key" [.ref (arrMapVal s), .ref (.usr 0 k)] [] = (fun b => (.bool b, [])) <$> OrdinalArrayMap.containsKey (J 0) s k) ∧
      call t "into_iter" [arrMapVal s] [] = .ok (intoIterArrayVal (OrdinalArrayMap.intoIter s), []) := by
  refine .of ⟨arrMap_new 3 hS, arrMap_default 2 hS, arrMap_fromIter 2 hS, fun s hs => ⟨fun ops => ?_, arrMap_containsKey 5 s, arrMap_intoIter 4 s⟩⟩
  rw [arrMap_text.run ops s hs, show (OrdinalArrayMap.fns (V := P 1) c (J 0)).step c (J 0) = OrdinalArrayMap.step c (J 0) from by
    funext s op; exact (OrdinalArrayMap.step_fns c (J 0) s op).symm]

/-- With the wrong impl `bogusImpl`. -/
example := C103_agrees (P := two Bool Bool) debug64 (twoImpls bogusImpl boolImpl) 2 (by decide)

variable {h : Heap P} {a : Nat} {ps : List Proj}

/-- C103, the text and the model on every heap, with the map at every place. -/
theorem C103_agrees_map (hS : S < c.M) : MapSources fun prog =>
    let call := mapCall c J S prog
    let t := RT.con "OrdinalArrayMap"
    let slots := ps ++ [.field "map"] ++ [.field "map"]
    call t "new" [] h = (fun s => (arrMapVal s, h)) <$> OrdinalArrayMap.new (P 1) (J 0) S ∧
    (∀ ps : List (P 0 × P 1), call t "from_iter" [.arr (ps.map pairOwn)] h = (fun s => (arrMapVal s, h)) <$> OrdinalArrayMap.fromIter (J 0) S ps) ∧
    ∀ s : List (Option (P 1)),
      (∀ k, call t "get" [.ref (arrMapVal s), .ref (.usr 0 k)] h =
        (fun o => (.opt (o.map fun v => .ref (.usr 1 v)), h)) <$> OrdinalArrayMap.get (J 0) s k) ∧
      (∀ k, call t "contains_key" [.ref (arrMapVal s), .ref (.usr 0 k)] h = (fun b => (.bool b, h)) <$> OrdinalArrayMap.containsKey (J 0) s k) ∧
      (s.length < c.M → call t "len" [.ref (arrMapVal s)] h = (fun n => (.uint .size n, h)) <$> OrdinalArrayMap.len c (J 0) s) ∧
      (s.length ≤ c.M → call t "is_empty" [.ref (arrMapVal s)] h = (fun b => (.bool b, h)) <$> OrdinalArrayMap.isEmpty c (J 0) s) ∧
      call t "iter" [.ref (arrMapVal s)] h = .ok (mapIterVal (OrdinalArrayMap.iter s), h) ∧
      call t "keys" [.ref (arrMapVal s)] h = .ok (wrapVal "Keys" (mapIterVal (OrdinalArrayMap.keys s)), h) ∧
      call t "values" [.ref (arrMapVal s)] h = .ok (wrapVal "Values" (mapIterVal (OrdinalArrayMap.values s)), h) ∧
      call t "into_iter" [arrMapVal s] h = .ok (intoIterArrayVal (OrdinalArrayMap.intoIter s), h) ∧
      (Place h a ps (arrMapVal s) →
        (∀ k, call t "get_mut" [.mref a ps, .ref (.usr 0 k)] h =
          (fun o => (.opt (o.map fun i => .mref a (slots ++ [.idx i] ++ [.idx 0])), h)) <$> OrdinalArrayMap.getMut (J 0) s k) ∧
        (∀ k v, call t "insert" [.mref a ps, .usr 0 k, .usr 1 v] h =
          (fun r => (slotVal r.1, put h a ps (arrMapVal r.2))) <$> OrdinalArrayMap.insert (J 0) s k v) ∧
        (∀ k, call t "remove" [.mref a ps, .ref (.usr 0 k)] h =
          (fun r => (slotVal r.1, put h a ps (arrMapVal r.2))) <$> OrdinalArrayMap.remove (J 0) s k) ∧
        (∀ k, call t "entry" [.mref a ps, .usr 0 k] h =
          (fun r => (entryVal a slots r.1, put h a ps (arrMapVal r.2))) <$> OrdinalArrayMap.entry (J 0) s k) ∧
        call t "iter_mut" [.mref a ps] h = .ok (iterMutVal a slots (TotalIterMut.it (OrdinalArrayMap.iterMut s)), h) ∧
        call t "values_mut" [.mref a ps] h = .ok (wrapVal "ValuesMut" (iterMutVal a slots (TotalIterMut.it (OrdinalArrayMap.iterMut s))), h) ∧
        call t "drain" [.mref a ps] h = .ok (drainVal a slots (TotalIterMut.it (OrdinalArrayMap.drain s)), h) ∧
        (s.length ≤ c.M → call t "clear" [.mref a ps] h = (fun s => (.unit, put h a ps (arrMapVal s))) <$> OrdinalArrayMap.clear c (J 0) s)) :=
  .of ⟨arrMap_new 3 hS, arrMap_fromIter 2 hS, fun s => ⟨arrMap_get 6 s, arrMap_containsKey 5 s, arrMap_len 3 s, arrMap_isEmpty 3 s,
    arrMap_iter 4 s, arrMap_keys 3 s, arrMap_values 3 s, arrMap_intoIter 4 s, fun hp => ⟨fun k => arrMap_getMut 6 k hp,
    fun k v => arrMap_insert 6 k v hp, fun k => arrMap_remove 6 k hp, fun k => arrMap_entry 6 k hp, arrMap_iterMut 4 hp,
    arrMap_valuesMut 3 hp, arrMap_drain 4 hp, arrMap_clear 3 hp⟩⟩⟩

example := C103_agrees_map (P := two Bool Bool) debug64 (twoImpls bogusImpl boolImpl) 2
  (h := [.bool true, .obj "Owner" [("cache", arrMapVal [none, some true])]]) (a := 1) (ps := [.field "cache"]) (by decide)
example : Place (P := two Bool Bool) [.bool true, .obj "Owner" [("cache", arrMapVal [none, some true])]] 1 [.field "cache"]
    (arrMapVal [none, some true]) := ⟨rfl, by simp⟩

end OrdinalMap.Props
