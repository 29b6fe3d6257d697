import Verif.Text.MapObs
import Verif.Props.TextSet
import Verif.SpecSound
/-!
# C102: `OrdinalMap`, its entries and its iterators, lexed, parsed and run from their source text

`MapSources Q` says that the texts in `Verif.Text.FilesMap` are accepted by the parser and that the program they make up has the
property `Q`.  `textMapStep call t` is the API of the map type `t` of such a program: every call evaluates the body of the
function in the text, and references are followed into the variables they point at.  The type parameter `K` is an arbitrary type
`P 0` with an arbitrary impl `J 0`, and `V` is an arbitrary type `P 1`.
-/

namespace OrdinalMap.Props
open OrdinalMap OrdinalMap.Text

variable {P : Nat → Type} (c : Cfg) (J : (p : Nat) → OrdinalImpl (P p)) (S : Nat) {n : Nat}

/-- C102: the text of `new()`, `default()` and `from_iter` makes a map that answers every history of operations as the partial
function does.  After every history, the iterators behave like deques of what the partial function holds. -/
theorem C102_ordinal_map [DecidableEq (P 0)] (L : Lawful c (J 0) n) : MapSources fun prog =>
    let call := mapCall c J S prog
    let t := RT.con "OrdinalMap"
    let map (v : Val P) (m : P 0 → Option (P 1)) := RunsLike (textMapStep call t) (MapSpec.step (J 0) n) v m fun m v =>
      IteratesLike call t v (pairs (J 0) n m) ∧
      Iterates call t "into_iter" "IntoIter" v readPair (pairs (J 0) n m) (HintRight call "IntoIter")
    (∃ v, call t "new" [] [] = .ok (v, []) ∧ call t "default" [] [] = .ok (v, []) ∧ map v fun _ => none) ∧
    ∀ ps : List (P 0 × P 1), ∃ v, call t "from_iter" [.arr (ps.map pairOwn)] [] = .ok (v, []) ∧ map v (lastValue ps) := by
  refine .of ?_
  have hz : ∀ z, (J 0).size = .ok z → z < c.M := by
    intro z hz; rw [L.size] at hz; cases hz; exact L.fits
  have hsz : n * 0 ≤ 2 ^ (c.bits - 1) - 1 := by omega
  have key (s : OMap (P 1)) (m : P 0 → Option (P 1)) (b : Bool) (h : Stored (J 0) n b m s) :
      RunsLike (textMapStep (mapCall c J S maps) (.con "OrdinalMap")) (MapSpec.step (J 0) n) (mapVal s) m fun m v =>
        IteratesLike (mapCall c J S maps) (.con "OrdinalMap") v (pairs (J 0) n m) ∧
        Iterates (mapCall c J S maps) (.con "OrdinalMap") "into_iter" "IntoIter" v readPair (pairs (J 0) n m)
          (HintRight (mapCall c J S maps) "IntoIter") := by
    have hl : List.length s < c.M := by
      have := h.length L
      have := L.fits
      cases b <;> simp_all <;> omega
    have hb : RunsLike ((OMap.fns c (J 0) 0).step c (J 0)) (MapSpec.step (J 0) n) s m
        (fun m s => ∃ b, Stored (J 0) n b m s) := by
      intro ops
      obtain ⟨s', h1, h2⟩ := OMap.runs L hsz h ops
      rw [show (OMap.fns (V := P 1) c (J 0) 0).step c (J 0) = OMap.step c (J 0) 0 from by funext s op; exact (OMap.step_fns c (J 0) 0 s op).symm]
      exact ⟨s', h1, _, h2⟩
    refine (ordinalMap_text hz).runsLike hl ?_ hb
    rintro m s hs ⟨b, h⟩
    exact ⟨(ordinalMap_text hz).iterates hs (iterGood_of L h),
      map_intoIterates hs ((MapIntoIter.behaves L (h.sview L)).mono fun _ _ h => sview_brackets h)⟩
  refine ⟨⟨mapVal (OMap.new (P 1)), map_new 7, map_default 6, key _ _ false (.inr ⟨rfl, rfl, rfl⟩)⟩, fun ps => ?_⟩
  have e : inserted (fun _ => none) ps = lastValue ps := by
    funext k; rw [inserted_eq]; simp
  obtain ⟨s, h1, h2⟩ := OMap.extendLoop_eq L hsz ps false (fun _ => none) (OMap.new (P 1)) (.inr ⟨rfl, rfl, rfl⟩)
  rw [e] at h2
  refine ⟨mapVal s, ?_, key s _ _ h2⟩
  rw [mapCall, show outside c J (mapTys S) maps 9 = outM c J S noFns 9 from rfl, map_fromIter (h := []) 5 ps, OMap.fromIter, h1]
  rfl

example := C102_ordinal_map debug64 (twoImpls orderingImpl boolImpl) 1 (ordering_lawful debug64).1
example := C102_ordinal_map release32 (twoImpls (u8Impl release32) boolImpl) 1 (u8_lawful release32).1

/-- C102, the finding C28 in the text: `contains_key` says `true` of every key once `insert` or `entry` has been called with any key,
and `false` before. -/
theorem C102_contains_key [DecidableEq (P 0)] (L : Lawful c (J 0) n) (ops : List (MapOp (P 0) (P 1))) : MapSources fun prog =>
    let call := mapCall c J S prog
    let t := RT.con "OrdinalMap"
    ∃ v os v', call t "new" [] [] = .ok (v, []) ∧ runOps (textMapStep call t) v ops = .ok (os, v') ∧
      ∀ k, call t "contains_key" [.ref v', .ref (.usr 0 k)] [] = .ok (.bool (ops.any MapOp.allocates), []) := by
  have hz : ∀ z, (J 0).size = .ok z → z < c.M := by
    intro z hz; rw [L.size] at hz; cases hz; exact L.fits
  obtain ⟨os, s, h1, h2⟩ := C28_exact (V := P 1) L (sz := 0) (by omega) ops
  refine .of ⟨mapVal (OMap.new (P 1)), os, mapVal s, map_new 7, ?_, fun k => ?_⟩
  · rw [(ordinalMap_text hz).run ops (OMap.new (P 1)) (Nat.lt_of_le_of_lt (Nat.zero_le _) L.fits),
      show (OMap.fns (V := P 1) c (J 0) 0).step c (J 0) = OMap.step c (J 0) 0 from by funext s op; exact (OMap.step_fns c (J 0) 0 s op).symm, h1]
    rfl
  · rw [mapCall, show outside c J (mapTys S) maps 9 = outM c J S noFns 9 from rfl, map_containsKey (h := []) 7, h2 k]
    rfl

example := C102_contains_key debug64 (twoImpls orderingImpl boolImpl) 1 (ordering_lawful debug64).1 [.insert .eq true, .remove .eq, .get .lt]

/-- C102: the text and the model compute the same in every history on every map, with every impl, lawful or not, including panics. -/
theorem C102_agrees (hz : ∀ z, (J 0).size = .ok z → z < c.M) : MapSources fun prog =>
    let call := mapCall c J S prog
    let t := RT.con "OrdinalMap"
    (call t "new" [] [] = .ok (mapVal (OMap.new (P 1)), [])) ∧
    (∀ ps : List (P 0 × P 1), call t "from_iter" [.arr (ps.map pairOwn)] [] = (fun s => (mapVal s, [])) <$> OMap.fromIter c (J 0) 0 ps) ∧
    ∀ s : OMap (P 1), List.length s < c.M →
      (∀ ops, runOps (textMapStep call t) (mapVal s) ops = (fun r => (r.1, mapVal r.2)) <$> runOps (OMap.step c (J 0) 0) s ops) ∧
      ∀ k, call t "contains_key" [.ref (mapVal s), .ref (.usr 0 k)] [] = (fun b => (.bool b, [])) <$> OMap.containsKey (J 0) s k := by
  refine .of ⟨map_new 7, fun ps => map_fromIter 5 ps, fun s hs => ⟨fun ops => ?_, fun k => map_containsKey 7 s k⟩⟩
  rw [(ordinalMap_text hz).run ops s hs,
    show (OMap.fns (V := P 1) c (J 0) 0).step c (J 0) = OMap.step c (J 0) 0 from by funext s op; exact (OMap.step_fns c (J 0) 0 s op).symm]

/-- With the wrong impl `bogusImpl`. -/
example := C102_agrees (P := two Bool Bool) debug64 (twoImpls bogusImpl boolImpl) 1 (by intro z h; cases h; decide)

variable {h : Heap P} {a b : Nat} {ps qs : List Proj}

/-- C102, the text and the model on every heap, with the map at every place: the functions of `OrdinalMap`. -/
theorem C102_agrees_map : MapSources fun prog =>
    let call := mapCall c J S prog
    let t := RT.con "OrdinalMap"
    call t "new" [] h = .ok (mapVal (OMap.new (P 1)), h) ∧
    call t "default" [] h = .ok (mapVal (OMap.new (P 1)), h) ∧
    (∀ ps : List (P 0 × P 1), call t "from_iter" [.arr (ps.map pairOwn)] h = (fun s => (mapVal s, h)) <$> OMap.fromIter c (J 0) 0 ps) ∧
    ∀ s : OMap (P 1),
      (∀ k, call t "get" [.ref (mapVal s), .ref (.usr 0 k)] h =
        (fun o => (.opt (o.map fun v => .ref (.usr 1 v)), h)) <$> OMap.get (J 0) s k) ∧
      (∀ k, call t "contains_key" [.ref (mapVal s), .ref (.usr 0 k)] h = (fun b => (.bool b, h)) <$> OMap.containsKey (J 0) s k) ∧
      (List.length s < c.M → call t "len" [.ref (mapVal s)] h = (fun n => (.uint .size n, h)) <$> OMap.len c (J 0) s) ∧
      (List.length s ≤ c.M → call t "is_empty" [.ref (mapVal s)] h = (fun b => (.bool b, h)) <$> OMap.isEmpty c (J 0) s) ∧
      call t "iter" [.ref (mapVal s)] h = .ok (mapIterVal (OMap.iter s), h) ∧
      call t "keys" [.ref (mapVal s)] h = .ok (wrapVal "Keys" (mapIterVal (OMap.keys s)), h) ∧
      call t "values" [.ref (mapVal s)] h = .ok (wrapVal "Values" (mapIterVal (OMap.values s)), h) ∧
      call t "into_iter" [mapVal s] h = .ok (intoIterVal (OMap.intoIter s), h) ∧
      (Place h a ps (mapVal s) →
        (∀ k, call t "get_mut" [.mref a ps, .ref (.usr 0 k)] h =
          (fun o => (.opt (o.map fun i => .mref a (ps ++ [.field "map"] ++ [.idx i] ++ [.idx 0])), h)) <$> OMap.getMut (J 0) s k) ∧
        (∀ k v, call t "insert" [.mref a ps, .usr 0 k, .usr 1 v] h =
          (fun r => (slotVal r.1, put h a ps (mapVal r.2))) <$> OMap.insert c (J 0) 0 s k v) ∧
        (∀ k, call t "remove" [.mref a ps, .ref (.usr 0 k)] h =
          (fun r => (slotVal r.1, put h a ps (mapVal r.2))) <$> OMap.remove (J 0) s k) ∧
        (∀ k, call t "entry" [.mref a ps, .usr 0 k] h =
          (fun r => (entryVal a (ps ++ [.field "map"]) r.1, put h a ps (mapVal r.2))) <$> OMap.entry c (J 0) 0 s k) ∧
        call t "iter_mut" [.mref a ps] h = .ok (iterMutVal a (ps ++ [.field "map"]) (OMap.iterMut s).it, h) ∧
        call t "values_mut" [.mref a ps] h = .ok (wrapVal "ValuesMut" (iterMutVal a (ps ++ [.field "map"]) (OMap.iterMut s).it), h) ∧
        call t "drain" [.mref a ps] h = .ok (drainVal a (ps ++ [.field "map"]) (TotalIterMut.it (OMap.drain s)), h) ∧
        (List.length s ≤ c.M → call t "clear" [.mref a ps] h = (fun s => (.unit, put h a ps (mapVal s))) <$> OMap.clear c (J 0) s)) :=
  .of ⟨map_new 7, map_default 6, map_fromIter 5, fun s => ⟨map_get 7 s, map_containsKey 7 s, map_len 4 s, map_isEmpty 4 s, map_iter 5 s,
    map_keys 4 s, map_values 4 s, map_intoIter 5 s, fun hp => ⟨fun k => map_getMut 7 k hp, fun k v => map_insert 6 k v hp,
    fun k => map_remove 7 k hp, fun k => map_entry 6 k hp, map_iterMut 5 hp, map_valuesMut 4 hp, map_drain 5 hp, map_clear 3 hp⟩⟩⟩

/-- A variable with the map in a field. -/
def owner : Heap (two Bool Bool) := [.bool true, .obj "Owner" [("cache", mapVal [none, some true])]]

example : Place owner 1 [.field "cache"] (mapVal [none, some true]) := ⟨rfl, by simp⟩

/-- C102, the text and the model on every heap: the entries.  The slots of the map are at `b`, `qs`. -/
theorem C102_agrees_entry (s : List (Option (P 1))) (hm : Place h b qs (slotsVal s)) (k : P 0) (i : Nat) (hi : i < s.length) :
    MapSources fun prog =>
    let call := mapCall c J S prog
    call (.con "Entry") "new" [.usr 0 k, .mref b (qs ++ [.idx i])] h = (fun e => (entryVal b qs e, h)) <$> Entry.new s k i ∧
    (∀ e, call (.con "Entry") "key" [.ref (entryVal b qs e)] h = .ok (.ref (.usr 0 e.key), h)) ∧
    (∀ v, call (.con "Entry") "or_insert" [entryVal b qs (.occupied k i), .usr 1 v] h =
      (fun r => (.mref b (qs ++ [.idx r.1] ++ [.idx 0]), put h b qs (slotsVal r.2))) <$> Entry.orInsert s (.occupied k i) v) ∧
    (∀ v, call (.con "Entry") "or_insert" [entryVal b qs (.vacant k i), .usr 1 v] h =
      (fun r => (.mref b (qs ++ [.idx r.1] ++ [.idx 0]), put h b qs (slotsVal r.2))) <$> Entry.orInsert s (.vacant k i) v) ∧
    call (.con "OccupiedEntry") "key" [.ref (occupiedVal k b (qs ++ [.idx i]))] h = .ok (.ref (.usr 0 k), h) ∧
    call (.con "OccupiedEntry") "get" [.ref (occupiedVal k b (qs ++ [.idx i]))] h =
      (fun v => (.ref (.usr 1 v), h)) <$> Entry.occupiedGet s i ∧
    (Place h a ps (occupiedVal k b (qs ++ [.idx i])) →
      call (.con "OccupiedEntry") "get_mut" [.mref a ps] h =
        (fun i => (.mref b (qs ++ [.idx i] ++ [.idx 0]), h)) <$> Entry.occupiedGetMut s i) ∧
    call (.con "VacantEntry") "key" [.ref (vacantVal k b (qs ++ [.idx i]))] h = .ok (.ref (.usr 0 k), h) ∧
    ∀ v, call (.con "VacantEntry") "insert" [vacantVal k b (qs ++ [.idx i]), .usr 1 v] h =
      (fun s' => (.unit, put h b qs (slotsVal s'))) <$> Entry.vacantInsert s i v :=
  .of ⟨entry_new 7 k i hm hi, entry_key 7 b qs, fun v => entry_orInsert 8 _ v hm hi, fun v => entry_orInsert 8 _ v hm hi,
    occupied_key 8 k b _, occupied_get 8 k i hm hi, fun hp => occupied_getMut 8 k i hp hm hi, vacant_key 8 k b _,
    fun v => vacant_insert 8 k i v hm hi⟩

example := C102_agrees_entry (a := 0) (ps := []) debug64 (twoImpls bogusImpl boolImpl) 1 (h := owner) (b := 1) (qs := [.field "cache", .field "map"])
  [none, some true] ⟨rfl, by simp⟩ true 1 (by decide)

/-- C102, the text and the model on every heap: the iterators that own or share the slots. -/
theorem C102_agrees_iter : MapSources fun prog =>
    let call := mapCall c J S prog
    (∀ s : MapIter (P 1), s.iter.length ≤ c.M →
      (Place h a ps (mapIterVal s) →
        call (.con "Iter") "next" [.mref a ps] h =
          (fun r => (.opt (r.1.map pairRef), put h a ps (mapIterVal r.2))) <$> MapIter.next c (J 0) s ∧
        call (.con "Iter") "next_back" [.mref a ps] h =
          (fun r => (.opt (r.1.map pairRef), put h a ps (mapIterVal r.2))) <$> MapIter.nextBack c (J 0) s) ∧
      (Place h a ps (wrapVal "Keys" (mapIterVal s)) →
        call (.con "Keys") "next" [.mref a ps] h =
          (fun r => (.opt (r.1.map (.usr 0 ·)), put h a ps (wrapVal "Keys" (mapIterVal r.2)))) <$> Keys.next c (J 0) s ∧
        call (.con "Keys") "next_back" [.mref a ps] h =
          (fun r => (.opt (r.1.map (.usr 0 ·)), put h a ps (wrapVal "Keys" (mapIterVal r.2)))) <$> Keys.nextBack c (J 0) s) ∧
      (Place h a ps (wrapVal "Values" (mapIterVal s)) →
        call (.con "Values") "next" [.mref a ps] h =
          (fun r => (.opt (r.1.map fun v => .ref (.usr 1 v)), put h a ps (wrapVal "Values" (mapIterVal r.2)))) <$> Values.next c (J 0) s ∧
        call (.con "Values") "next_back" [.mref a ps] h =
          (fun r => (.opt (r.1.map fun v => .ref (.usr 1 v)), put h a ps (wrapVal "Values" (mapIterVal r.2)))) <$>
            Values.nextBack c (J 0) s)) ∧
    (∀ s : MapIntoIter (P 1), (Enumerate.iter s).length ≤ c.M → Place h a ps (intoIterVal s) →
      call (.con "IntoIter") "next" [.mref a ps] h =
        (fun r => (.opt (r.1.map pairOwn), put h a ps (intoIterVal r.2))) <$> MapIntoIter.next c (J 0) s ∧
      call (.con "IntoIter") "next_back" [.mref a ps] h =
        (fun r => (.opt (r.1.map pairOwn), put h a ps (intoIterVal r.2))) <$> MapIntoIter.nextBack c (J 0) s) ∧
    (∀ s : MapIter (P 1),
      call (.con "Iter") "size_hint" [.ref (mapIterVal s)] h = .ok (hintVal (MapIter.sizeHint s), h) ∧
      call (.con "Iter") "clone" [.ref (mapIterVal s)] h = .ok (mapIterVal s, h)) ∧
    ∀ s : MapIntoIter (P 1), call (.con "IntoIter") "size_hint" [.ref (intoIterVal s)] h = .ok (hintVal (MapIntoIter.sizeHint s), h) :=
  .of ⟨fun _ hs => ⟨fun hp => ⟨mapIter_next 5 hp hs, mapIter_nextBack 5 hp hs⟩, fun hp => ⟨keys_next 4 hp hs, keys_nextBack 4 hp hs⟩,
    fun hp => ⟨mapValues_next 4 hp hs, mapValues_nextBack 4 hp hs⟩⟩, fun _ hs hp => ⟨intoIter_next 5 hp hs, intoIter_nextBack 5 hp hs⟩,
    fun s => ⟨mapIter_sizeHint 6 s, mapIter_clone 5 s⟩, intoIter_sizeHint 6⟩

/-- C102, the text and the model on every heap: the iterators that write.  The slots are at `b`, `qs`, apart from the iterator. -/
theorem C102_agrees_iter_mut (hn : a ≠ b) : MapSources fun prog =>
    let call := mapCall c J S prog
    ∀ s : TotalIterMut (Option (P 1)), s.it.iter.stop ≤ s.mem.length → s.it.iter.len ≤ c.M → Place h b qs (slotsVal s.mem) →
      (Place h a ps (iterMutVal b qs s.it) →
        call (.con "IterMut") "next" [.mref a ps] h =
          (fun r => (.opt (r.1.map (pairSlot b qs)), put h a ps (iterMutVal b qs r.2.it))) <$> MapIterMut.next c (J 0) s ∧
        call (.con "IterMut") "next_back" [.mref a ps] h =
          (fun r => (.opt (r.1.map (pairSlot b qs)), put h a ps (iterMutVal b qs r.2.it))) <$> MapIterMut.nextBack c (J 0) s ∧
        call (.con "IterMut") "size_hint" [.ref (iterMutVal b qs s.it)] h = .ok (hintVal (MapIterMut.sizeHint s), h)) ∧
      (Place h a ps (drainVal b qs s.it) →
        call (.con "Drain") "next" [.mref a ps] h = (fun r => (.opt (r.1.map pairOwn),
          put (put h a ps (drainVal b qs (TotalIterMut.it r.2))) b qs (slotsVal r.2.mem))) <$> Drain.next c (J 0) s ∧
        call (.con "Drain") "next_back" [.mref a ps] h = (fun r => (.opt (r.1.map pairOwn),
          put (put h a ps (drainVal b qs (TotalIterMut.it r.2))) b qs (slotsVal r.2.mem))) <$> Drain.nextBack c (J 0) s ∧
        call (.con "Drain") "size_hint" [.ref (drainVal b qs s.it)] h = .ok (hintVal (Drain.sizeHint s), h)) :=
  .of fun s hr hs hm => ⟨fun hp => ⟨iterMut_next 5 hp hm hn hr hs, iterMut_nextBack 5 hp hm hn hr hs, iterMut_sizeHint 6 s⟩,
    fun hp => ⟨drain_next 5 hp hm hn hr hs, drain_nextBack 5 hp hm hn hr hs, drain_sizeHint 6 s⟩⟩

example := C102_agrees_iter_mut (ps := []) debug64 (twoImpls bogusImpl boolImpl) 1
  (h := owner ++ [iterMutVal 1 [.field "cache", .field "map"] ⟨0, ⟨0, 2⟩⟩]) (a := 2) (b := 1) (qs := [.field "cache", .field "map"]) (by decide)
example : Place (owner ++ [iterMutVal 1 [.field "cache", .field "map"] ⟨0, ⟨0, 2⟩⟩]) 2 [] (iterMutVal 1 [.field "cache", .field "map"] ⟨0, ⟨0, 2⟩⟩) ∧
    Place (owner ++ [iterMutVal 1 [.field "cache", .field "map"] ⟨0, ⟨0, 2⟩⟩]) 1 [.field "cache", .field "map"] (slotsVal [none, some true]) :=
  ⟨⟨rfl, by simp⟩, ⟨rfl, by simp⟩⟩

end OrdinalMap.Props
