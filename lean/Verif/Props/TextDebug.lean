import Verif.Text.DebugObs
import Verif.Text.DebugMut
import Verif.Props.TextTotal
import Verif.Props.Debug
/-!
# C109: the `Debug` impls, lexed, parsed and run from their source text

`fmtText … t v r` runs the text of `fmt` of the type `t` on the value `v`, in the state `r` of the world.  `D` is an arbitrary `core::fmt`:
its functions change the state of the world, and may panic; `D.print f items` makes a builder with `f`, passes it the items in order, and
finishes it.
-/

namespace OrdinalMap.Props
open OrdinalMap OrdinalMap.Text

variable {P : Nat → Type} (c : Cfg) (J : (p : Nat) → OrdinalImpl (P p)) (S : Nat) {n : Nat}

theorem printsMap {D : Printer P} [DecidableEq (P 0)] (L : Lawful c (J 0) n) {t into : String} {enc : List (Option (P 1)) → Val P}
    {path : List Proj} {F : Fns (P 0) (P 1)} (T : MapText c J (mapCall c J S maps noFns) (.con t) enc path F)
    (hf : ∀ s r, s.length ≤ c.M → fmtText c J (mapTys S) maps D t (enc s) r =
      D.printFrom "debug_map" (MapIter.next c (J 0)) pairRef (c.M + 1) (TotalIter.new s 0) r)
    (hi : ∀ (s : List (Option (P 1))) (ps : List (P 0 × P 1)), s.length ≤ c.M → SView (J 0) n ps (TotalIter.new s 0) → ps.length ≤ c.M →
      PrintsRest (mapCall c J S maps noFns) (fmtText c J (mapTys S) maps D) (D.print "debug_list") (.con t) "into_iter" into (enc s) readPair pairRef ps)
    {s : List (Option (P 1))} (hs : s.length < c.M) {m : P 0 → Option (P 1)} {b : Bool} (h : Stored (J 0) n b m s) :
    PrintsMap D (mapCall c J S maps noFns) (fmtText c J (mapTys S) maps D) t into (enc s) (pairs (J 0) n m) := by
  obtain ⟨h1, h2, h3⟩ := iterGood_of L h
  have hl : (pairs (J 0) n m).length ≤ c.M := by
    have := (h.sview L).len_le
    have e : Enumerate.len (listIter (Option (P 1))) (TotalIter.new s 0) = s.length := rfl
    omega
  refine ⟨fun r => ?_, ?_, ?_, ?_, hi s _ (Nat.le_of_lt hs) (h.sview L) hl⟩
  · rw [hf s r (Nat.le_of_lt hs)]
    exact printFrom_eq (it := MapIter.it c (J 0)) _ _ h1 (by omega) r
  · exact printsRest (Inv := fun s : MapIter (P 1) => s.iter.length ≤ c.M) (enc := mapIterVal) (T.iter s) (fun s d h => textIter_step s d h)
      (fun s d r h1 h2 => Nat.le_trans (mapIter_step_left (J := J) h2) h1) (Nat.le_of_lt hs) (fun s r h => mapIter_fmt s h r) h1 hl
  · exact printsRest (Inv := fun s : Keys (P 1) => s.iter.length ≤ c.M) (enc := fun s => wrapVal "Keys" (mapIterVal s)) (T.keys s)
      (fun s d h => textKeys_step s d h) (fun s d r h1 h2 => Nat.le_trans (keys_step_left (J := J) h2) h1) (Nat.le_of_lt hs)
      (fun s r h => keys_fmt s h r) h2 (by simpa)
  · exact printsRest (Inv := fun s : Values (P 1) => s.iter.length ≤ c.M) (enc := fun s => wrapVal "Values" (mapIterVal s)) (T.values s)
      (fun s d h => textMapValues_step s d h) (fun s d r h1 h2 => Nat.le_trans (values_step_left (J := J) h2) h1) (Nat.le_of_lt hs)
      (fun s r h => mapValues_fmt s h r) h3 (by simpa)

theorem laters_map {ι : Type} (f g : ι → Val P) (h : ∀ i, (f i).later = g i) (l : List ι) : laters (l.map f) = l.map g := by
  induction l with
  | nil => rfl
  | cons x l ih => simp [laters, ih, h]

theorem mutEnum_later (path : List Proj) (s : Enumerate Range) : (enumVal (mutEnum (P := P) 0 path s)).later = enumVal (mutEnum 1 path s) := by
  simp only [enumVal, mutEnum, encEnum, phantom, Val.later, laterFields]
  rw [laters_map _ (fun i => .mref 1 (path ++ [.idx i])) (fun i => rfl)]
  rfl

theorem runSpec_told {μ ω ο τ : Type} (step : μ → ω → Option ο × μ) (told : ο → τ) (m : μ) (ops : List ω) :
    runSpec (fun m op => ((step m op).1.map told, (step m op).2)) m ops = ((runSpec step m ops).1.map (Option.map told), (runSpec step m ops).2) := by
  induction ops generalizing m with
  | nil => rfl
  | cons op ops ih => simp [runSpec, ih]

theorem restPairs_length (L : Lawful c (J 0) n) {b : Bool} {sp : MutSpec (P 0) (P 1)} {cl : MutClient (P 1)} (h : SRel (J 0) n b sp cl)
    (hw : Within c cl.it) : (leftPairs sp).length ≤ c.M := by
  have h1 := (srel_sview L h).len_le
  have h2 : Enumerate.len (listIter (Option (P 1))) (TotalIterMut.iter cl.it) ≤ cl.it.it.iter.len := rest_length _ _
  exact Nat.le_trans h1 (Nat.le_trans h2 hw.2)

theorem printsMuts {D : Printer P} [DecidableEq (P 0)] (L : Lawful c (J 0) n) {t : String} {enc : List (Option (P 1)) → Val P}
    {path : List Proj} {F : Fns (P 0) (P 1)} (T : MapText c J (mapCall c J S maps noFns) (.con t) enc path F)
    {s : List (Option (P 1))} (hs : s.length < c.M) {m : P 0 → Option (P 1)} {b : Bool} (h : Stored (J 0) n b m s) :
    PrintsMuts D (mapCall c J S maps noFns) (fmtAt c J (mapTys S) maps D) t (enc s) (presentKeys (J 0) n m) m := by
  refine ⟨⟨_, T.iterMut s, fun ops => ?_⟩, ⟨_, T.valuesMut s, fun ops => ?_⟩⟩
  · obtain ⟨cl, h1, h2⟩ := SRel.runs L h ops
    have h3 := runOps_keeps (fun s op r h1 h2 => handed_step (J := J) h1 h2) ops _ _ (handed_new hs) h1
    have h4 := runOps_enc (enc := encClient enc path id) (Inv := Handed c s.length)
      (fun s op h => T.iterMut_client s op h) (fun s op r h1 h2 => handed_step (J := J) h1 h2) ops _ (handed_new hs)
    rw [h1] at h4
    rw [runSpec_told]
    refine ⟨encClient enc path id cl, h4.trans (by simp), _, _, rfl, fun r => ?_⟩
    have e : (id (iterMutVal (P := P) 0 path cl.it.it)).later = iterMutVal 1 path cl.it.it := by
      simp [iterMutVal, iterVal, wrapVal, Val.later, laterFields, mutEnum_later]
    rw [e]
    exact (iterMut_fmt (s := cl.it) (T.place _ []) h3.1.1 h3.1.2 r).trans (congrArg (_ <$> ·) (printFrom_eq (it := MapIter.it c (J 0)) _ _
      (MapIter.behaves L (srel_sview L h2)) (Nat.lt_succ_of_le (restPairs_length c J L h2 h3.1)) r))
  · obtain ⟨cl, h1, h2⟩ := SRel.runsV L h ops
    have h3 := runOps_keeps (fun s op r h1 h2 => handed_stepV (J := J) h1 h2) ops _ _ (handed_new hs) h1
    have h4 := runOps_enc (enc := encClient enc path (wrapVal "ValuesMut")) (Inv := Handed c s.length)
      (fun s op h => T.valuesMut_client s op h) (fun s op r h1 h2 => handed_stepV (J := J) h1 h2) ops _ (handed_new hs)
    rw [h1] at h4
    rw [runSpec_told]
    refine ⟨encClient enc path (wrapVal "ValuesMut") cl, h4, _, _, rfl, fun r => ?_⟩
    have e : (wrapVal "ValuesMut" (iterMutVal (P := P) 0 path cl.it.it)).later = wrapVal "ValuesMut" (iterMutVal 1 path cl.it.it) := by
      simp [iterMutVal, iterVal, wrapVal, Val.later, laterFields, mutEnum_later]
    have hp := printFrom_eq (D := D) (it := Values.it c (J 0)) "debug_list" (fun v => .ref (.usr 1 v)) (Values.behaves L ⟨_, srel_sview L h2, rfl⟩)
      (fuel := c.M + 1) (by have := restPairs_length c J L h2 h3.1; rw [List.length_map]; exact Nat.lt_succ_of_le this) r
    rw [List.map_map] at hp
    rw [e]
    exact (valuesMut_fmt (s := cl.it) (T.place _ []) h3.1.1 h3.1.2 r).trans (congrArg (_ <$> ·) hp)

theorem sview_nil (L : Lawful c (J 0) n) {it : DEIter (Enumerate (List (Option (P 1)))) (P 0 × P 1)} {l : List (P 0 × P 1)}
    {s : Enumerate (List (Option (P 1)))} (h : BehavesLike it s l (SView (J 0) n)) :
    ∃ obs, BehavesLike (MapIter.it c (J 0)) s (l.map id) obs := by
  obtain ⟨s', h1, h2⟩ := h []
  cases h1
  rw [List.map_id]
  exact ⟨_, MapIter.behaves L h2⟩

theorem prints_intoIter {D : Printer P} (L : Lawful c (J 0) n) (s : List (Option (P 1))) (ps : List (P 0 × P 1)) (hs : s.length ≤ c.M)
    (h : SView (J 0) n ps (TotalIter.new s 0)) (hl : ps.length ≤ c.M) :
    PrintsRest (mapCall c J S maps noFns) (fmtText c J (mapTys S) maps D) (D.print "debug_list") (.con "OrdinalMap") "into_iter" "IntoIter"
      (mapVal s) readPair pairRef ps :=
  printsRest_of (view := id) (g := id) (Inv := fun s : MapIntoIter (P 1) => (Enumerate.iter s).length ≤ c.M) (enc := intoIterVal)
    (it := MapIntoIter.it c (J 0)) (it' := MapIter.it c (J 0)) (s := OMap.intoIter s) (val' := pairRef)
    (map_intoIter 5 s) (fun s d h => textIntoIter_step s d h) (fun _ _ _ h1 h2 => Nat.le_trans (intoIter_step_left (J := J) h2) h1) hs
    (fun s r h => mapIntoIter_fmt s h r) (fun _ => rfl) (fun _ _ h => sview_nil c J L h) (MapIntoIter.behaves L h) hl

theorem prints_intoIterArray {D : Printer P} (L : Lawful c (J 0) n) (s : List (Option (P 1))) (ps : List (P 0 × P 1)) (hs : s.length ≤ c.M)
    (h : SView (J 0) n ps (TotalIter.new s 0)) (hl : ps.length ≤ c.M) :
    PrintsRest (mapCall c J S maps noFns) (fmtText c J (mapTys S) maps D) (D.print "debug_list") (.con "OrdinalArrayMap") "into_iter" "IntoIterArray"
      (arrMapVal s) readPair pairRef ps :=
  printsRest_of (view := id) (g := id) (Inv := fun s : MapIntoIterArray (P 1) => (Enumerate.iter s).length ≤ c.M) (enc := intoIterArrayVal)
    (it := MapIntoIterArray.it c (J 0)) (it' := MapIter.it c (J 0)) (s := OrdinalArrayMap.intoIter s) (val' := pairRef)
    (arrMap_intoIter 4 s) (fun s d h => textIntoIterArray_step s d h) (fun _ _ _ h1 h2 => Nat.le_trans (intoIterArray_step_left (J := J) h2) h1) hs
    (fun s r h => mapIntoIterArray_fmt s h r) (fun _ => rfl) (fun _ _ h => sview_nil c J L h) (MapIntoIterArray.behaves L h) hl

/-- C109 for `OrdinalMap`: after every history, the text of `fmt` makes a map builder, passes it exactly the entries in ordinal order, and
finishes it; a panic of the writer or of an entry ends it there.  The iterators print the items that are left, after any calls.  (`Keys` has `Debug`
only if the bounds of its impl hold; bounds are not checked here.) -/
theorem C109_ordinal_map [DecidableEq (P 0)] (L : Lawful c (J 0) n) (D : Printer P) : MapSources fun prog =>
    let call := mapCall c J S prog
    let t := RT.con "OrdinalMap"
    let map (v : Val P) (m : P 0 → Option (P 1)) := RunsLike (textMapStep call t) (MapSpec.step (J 0) n) v m fun m v =>
      PrintsMap D call (fmtText c J (mapTys S) prog D) "OrdinalMap" "IntoIter" v (pairs (J 0) n m) ∧
      PrintsMuts D call (fmtAt c J (mapTys S) prog D) "OrdinalMap" v (presentKeys (J 0) n m) m
    (∃ v, call t "new" [] [] = .ok (v, []) ∧ map v fun _ => none) ∧
    ∀ ps : List (P 0 × P 1), ∃ v, call t "from_iter" [.arr (ps.map pairOwn)] [] = .ok (v, []) ∧ map v (lastValue ps) := by
  refine .of ?_
  have hz : ∀ z, (J 0).size = .ok z → z < c.M := by
    intro z hz; rw [L.size] at hz; cases hz; exact L.fits
  have hsz : n * 0 ≤ 2 ^ (c.bits - 1) - 1 := by omega
  have key (s : OMap (P 1)) (m : P 0 → Option (P 1)) (b : Bool) (h : Stored (J 0) n b m s) :
      RunsLike (textMapStep (mapCall c J S maps) (.con "OrdinalMap")) (MapSpec.step (J 0) n) (mapVal s) m fun m v =>
        PrintsMap D (mapCall c J S maps) (fmtText c J (mapTys S) maps D) "OrdinalMap" "IntoIter" v (pairs (J 0) n m) ∧
        PrintsMuts D (mapCall c J S maps) (fmtAt c J (mapTys S) maps D) "OrdinalMap" v (presentKeys (J 0) n m) m := by
    have hl : List.length s < c.M := by
      have := h.length L
      have := L.fits
      cases b <;> simp_all <;> omega
    have hb : RunsLike ((OMap.fns c (J 0) 0).step c (J 0)) (MapSpec.step (J 0) n) s m
        (fun m s => ∃ b, Stored (J 0) n b m s) := by
      intro ops
      obtain ⟨s', h1, h2⟩ := OMap.runs L hsz h ops
      rw [show (OMap.fns (V := P 1) c (J 0) 0).step c (J 0) = OMap.step c (J 0) 0 from by funext s op; exact (OMap.step_fns c (J 0) 0 s op).symm]
      exact ⟨s', h1, _, h2⟩
    refine (ordinalMap_text hz).runsLike hl ?_ hb
    rintro m s hs ⟨b, h⟩
    exact ⟨printsMap c J S L (ordinalMap_text hz) (fun s r h => map_fmt s h r) (prints_intoIter c J S L) hs h,
      printsMuts c J S L (ordinalMap_text hz) hs h⟩
  refine ⟨⟨mapVal (OMap.new (P 1)), map_new 7, key _ _ false (.inr ⟨rfl, rfl, rfl⟩)⟩, fun ps => ?_⟩
  have e : inserted (fun _ => none) ps = lastValue ps := by
    funext k; rw [inserted_eq]; simp
  obtain ⟨s, h1, h2⟩ := OMap.extendLoop_eq L hsz ps false (fun _ => none) (OMap.new (P 1)) (.inr ⟨rfl, rfl, rfl⟩)
  rw [e] at h2
  refine ⟨mapVal s, ?_, key s _ _ h2⟩
  rw [mapCall, show outside c J (mapTys S) maps 9 = outM c J S noFns 9 from rfl, map_fromIter (h := []) 5 ps, OMap.fromIter, h1]
  rfl

/-- A printer of keys of type `Ordering` and values of type `Bool`. -/
def orderingPrinter : Printer (printTypes Ordering Bool) :=
  textPrinter false (fun | .lt => "Less" | .eq => "Equal" | .gt => "Greater") (fun b => if b then "true" else "false")

/-- Impls for these types. -/
def printImpls : (p : Nat) → OrdinalImpl (printTypes Ordering Bool p)
  | 0 => orderingImpl
  | 1 => boolImpl
  | _ => ⟨.error .panic, fun _ => .error .panic, fun _ => .error .panic⟩

instance : DecidableEq (printTypes Ordering Bool 0) := inferInstanceAs (DecidableEq Ordering)

example := C109_ordinal_map debug64 printImpls 1 (ordering_lawful debug64).1 orderingPrinter
/-- What is printed of two entries. -/
example : (do printed (← orderingPrinter.print "debug_map" ([(Ordering.lt, true), (Ordering.gt, false)].map (pairRef (P := printTypes Ordering Bool))) ([], ""))) = .ok "{Less: true, Greater: false}" := rfl

/-- C109 for `OrdinalArrayMap`. -/
theorem C109_ordinal_array_map [DecidableEq (P 0)] (L : Lawful c (J 0) n) (D : Printer P) : MapSources fun prog =>
    let call := mapCall c J n prog
    let t := RT.con "OrdinalArrayMap"
    let map (v : Val P) (m : P 0 → Option (P 1)) := RunsLike (textMapStep call t) (MapSpec.step (J 0) n) v m fun m v =>
      PrintsMap D call (fmtText c J (mapTys n) prog D) "OrdinalArrayMap" "IntoIterArray" v (pairs (J 0) n m) ∧
      PrintsMuts D call (fmtAt c J (mapTys n) prog D) "OrdinalArrayMap" v (presentKeys (J 0) n m) m
    (∃ v, call t "new" [] [] = .ok (v, []) ∧ map v fun _ => none) ∧
    ∀ ps : List (P 0 × P 1), ∃ v, call t "from_iter" [.arr (ps.map pairOwn)] [] = .ok (v, []) ∧ map v (lastValue ps) := by
  refine .of ?_
  have key (m : P 0 → Option (P 1)) :
      RunsLike (textMapStep (mapCall c J n maps noFns) (.con "OrdinalArrayMap")) (MapSpec.step (J 0) n) (arrMapVal (store (J 0) n m)) m fun m v =>
        PrintsMap D (mapCall c J n maps) (fmtText c J (mapTys n) maps D) "OrdinalArrayMap" "IntoIterArray" v (pairs (J 0) n m) ∧
        PrintsMuts D (mapCall c J n maps) (fmtAt c J (mapTys n) maps D) "OrdinalArrayMap" v (presentKeys (J 0) n m) m := by
    have hl : List.length (store (J 0) n m) < c.M := by
      have := (Stored.length (b := true) L (.inl ⟨rfl, rfl⟩) : List.length (store (J 0) n m) = _)
      have := L.fits
      simp_all
    have hb := OrdinalArrayMap.runs L m
    rw [show OrdinalArrayMap.step c (J 0) = (OrdinalArrayMap.fns (V := P 1) c (J 0)).step c (J 0) from by
      funext s op; exact OrdinalArrayMap.step_fns c (J 0) s op] at hb
    refine arrMap_text.runsLike hl ?_ hb
    rintro m s hs rfl
    exact ⟨printsMap c J n L arrMap_text (fun s r h => arrMap_fmt s h r) (prints_intoIterArray c J n L) hs (b := true) (.inl ⟨rfl, rfl⟩),
      printsMuts c J n L arrMap_text hs (b := true) (.inl ⟨rfl, rfl⟩)⟩
  refine ⟨⟨arrMapVal (store (J 0) n fun _ => none), ?_, key _⟩, fun ps => ⟨arrMapVal (store (J 0) n (lastValue ps)), ?_, key _⟩⟩
  · rw [mapCall, show outside c J (mapTys n) maps 9 = outM c J n noFns 9 from rfl, arrMap_new (h := []) 3 L.fits, OrdinalArrayMap.new_eq L]
    rfl
  · have e : inserted (fun _ => none) ps = lastValue ps := by
      funext k; rw [inserted_eq]; simp
    rw [mapCall, show outside c J (mapTys n) maps 9 = outM c J n noFns 9 from rfl, arrMap_fromIter (h := []) 2 L.fits,
      OrdinalArrayMap.fromIter, OrdinalArrayMap.new_eq L]
    simp only [ok_bind, OrdinalArrayMap.extendLoop_eq L, e]
    rfl

example := C109_ordinal_array_map debug64 printImpls (ordering_lawful debug64).1 orderingPrinter

theorem printsTotal {D : Printer P} [DecidableEq (P 0)] (L : Lawful c (J 0) n) {U : UserFns P} {t into : String} {enc : List (P 1) → Val P} {path : List Proj}
    {F : TFns (P 0) (P 1)} (T : TotalText J (mapCall c J S maps U) (.con t) enc path F)
    (hf : ∀ s r, fmtText c J (mapTys S) maps D t (enc s) r =
      D.printFrom "debug_map" (TotalIter.next c (J 0)) pairRef (c.M + 1) (TotalIter.new s 0) r)
    (hx : into = "total::IntoIter" ∨ into = "total::IntoIterArray")
    (hi : ∀ s, mapCall c J S maps U (.con t) "into_iter" [enc s] [] = .ok (totalIntoVal into (TotalIter.new s 0), [])) (m : P 0 → P 1) :
    PrintsTotal D (mapCall c J S maps U) (fmtText c J (mapTys S) maps D) t into (enc (store (J 0) n m)) (pairsT (J 0) n m) := by
  have h1 := TotalIter.behaves L (fresh_view L m)
  have hl : (pairsT (J 0) n m).length ≤ c.M := by
    have := L.fits
    simp [pairsT, values_length L]; omega
  have he : wrapVal "total::Iter" (enumVal ⟨0, (ofV (store (J 0) n m)).map .ref⟩) = totalIterVal (TotalIter.new (store (J 0) n m) 0) := by
    simp [totalIterVal, encEnum, Function.comp_def, ofV, TotalIter.new, Enumerate.new]
  refine ⟨fun r => ?_, ?_, ?_⟩
  · rw [hf]
    exact printFrom_eq (it := TotalIter.it c (J 0)) _ _ h1 (by omega) r
  · exact printsRest (Inv := fun _ : TotalIter (P 1) => True) (enc := totalIterVal) (it := TotalIter.it c (J 0)) ((T.iter _).trans (by rw [he]; rfl))
      (fun s d _ => textTotalIter_step s d) (fun _ _ _ _ _ => trivial) trivial (fun s r _ => totalIter_fmt s r) h1 hl
  · exact printsRest (Inv := fun _ : TotalIter (P 1) => True) (enc := totalIntoVal into) (it := TotalIter.it c (J 0)) (hi _)
      (fun s d _ => by rcases hx with rfl | rfl <;> exact textTotalInto_step rfl rfl s d) (fun _ _ _ _ _ => trivial) trivial
      (fun s r _ => totalInto_fmt hx s r) h1 hl

theorem printsTotalMut {D : Printer P} [DecidableEq (P 0)] (L : Lawful c (J 0) n) {U : UserFns P} {t : String} {enc : List (P 1) → Val P}
    {path : List Proj} {F : TFns (P 0) (P 1)} (T : TotalText J (mapCall c J S maps U) (.con t) enc path F) (m : P 0 → P 1) :
    PrintsMut (mapCall c J S maps U) (fmtAt c J (mapTys S) maps D) (D.print "debug_list") (.con t) "iter_mut" "total::IterMut" (enc (store (J 0) n m))
      splitPair id pairRef (values (J 0) n) fun k => some (m k) := by
  refine ⟨_, T.iterMut _, fun ops => ?_⟩
  obtain ⟨cl, h1, h2⟩ := TRel.runs L m ops
  have h0 : HandedT (P := P) ⟨TotalIterMut.new (store (J 0) n m), []⟩ := ⟨by simp [TotalIterMut.new, Enumerate.new], by simp⟩
  have h3 := runOps_keeps (fun s op r h1 h2 => handedT_step (J := J) h1 h2) ops _ _ h0 h1
  have h4 := runOps_enc (enc := encClientT enc path) (Inv := HandedT)
    (fun s op h => T.iterMut_client s op h) (fun s op r h1 h2 => handedT_step (J := J) h1 h2) ops _ h0
  have e0 : ([enc (store (J 0) n m), wrapVal "total::IterMut" (enumVal ⟨0, (List.range (store (J 0) n m).length).map fun i => .mref 0 (path ++ [.idx i])⟩)],
      ([] : List (Val P))) = encClientT enc path ⟨TotalIterMut.new (store (J 0) n m), []⟩ := by
    simp [encClientT, TotalIterMut.new, Enumerate.new, mutEnum, rangeEnum, encEnum, List.range_eq_range']
  rw [h1] at h4
  rw [runSpec_told]
  refine ⟨encClientT enc path cl, (by rw [e0]; exact h4.trans (by simp)), _, _, rfl, fun r => ?_⟩
  obtain ⟨ps, m', k1, k2, k3, k4, k5⟩ := h2
  have e : (wrapVal "total::IterMut" (enumVal (mutEnum (P := P) 0 path cl.it.it))).later = wrapVal "total::IterMut" (enumVal (mutEnum 1 path cl.it.it)) := by
    simp [wrapVal, Val.later, laterFields, mutEnum_later]
  have el : leftPairs (runSpec MutSpec.step ⟨values (J 0) n, [], fun k => some (m k)⟩ ops).2 = ps.map fun p => (p.1, m' p.1) := by
    rw [leftPairs, k2, k5, List.filterMap_map]
    simp [Function.comp_def]
  have hv := mv_iter L m' k1 k4
  have hM := L.fits
  have hl : ps.length ≤ n := by
    have h := k1.1.2.1
    omega
  rw [e, el]
  exact (totalIterMut_fmt (s := cl.it) (T.place _ []) h3.1 r).trans (congrArg (_ <$> ·) (printFrom_eq (it := TotalIter.it c (J 0)) _ _
    (TotalIter.behaves L hv) (by simp; omega) r))

/-- C109 for `OrdinalTotalMap`, made by `new` with any closure. -/
theorem C109_total_map [DecidableEq (P 0)] (L : Lawful c (J 0) n) (D : Printer P) (init) : MapSources fun prog =>
    let t := RT.con "OrdinalTotalMap"
    let call := mapCall c J S prog (initFn init)
    TextNew (fun r => call t "new" [.ufn 0] [.usr 2 r])
      (fun v m => RunsLike (textTotalStep call t) (TotalSpec.step (J 0) n) v m fun m v =>
        PrintsTotal D call (fmtText c J (mapTys S) prog D) "OrdinalTotalMap" "total::IntoIter" v (pairsT (J 0) n m) ∧
        PrintsMut call (fmtAt c J (mapTys S) prog D) (D.print "debug_list") t "iter_mut" "total::IterMut" v splitPair id pairRef
          (values (J 0) n) fun k => some (m k)) (values (J 0) n) init := by
  have hz : ∀ z, (J 0).size = .ok z → z < c.M := fun z h => by rw [L.size] at h; cases h; exact L.fits
  refine .of fun r => ?_
  have h1 := totalMap_new (c := c) (J := J) (S := S) 4 (initFn_calls init 5) hz r
  rw [OrdinalTotalMap.new_eq L (by simp)] at h1
  refine ⟨fun f hf => h1.trans (by rw [hf]; rfl), fun vs r' hv => ?_⟩
  obtain ⟨m, rfl⟩ := exists_store L vs (by rw [initEach_length _ _ _ _ _ hv, values_length L])
  refine ⟨_, m, h1.trans (by rw [hv]; rfl), rfl, ?_⟩
  have hb := totalMap_runs L m
  rw [show OrdinalTotalMap.step c (J 0) = (boxFns (V := P 1) (J 0)).step c (J 0) from by
    funext s op; exact OrdinalTotalMap.step_fns c (J 0) s op] at hb
  refine totalMap_text.runsLike ?_ hb
  rintro m s rfl
  exact ⟨printsTotal c J S L totalMap_text (fun s r => totalMap_fmt s r) (.inl rfl) (fun s => totalMap_intoIter 5 _) m,
    printsTotalMut c J S L totalMap_text m⟩

example := C109_total_map debug64 printImpls 1 (ordering_lawful debug64).1 orderingPrinter fun _ r => .ok (true, r)

/-- C109 for `OrdinalTotalArrayMap`, made by `from_array` of any array. -/
theorem C109_total_array_map [DecidableEq (P 0)] (L : Lawful c (J 0) n) (D : Printer P) (vs : List (P 1)) (hv : vs.length = n) :
    MapSources fun prog =>
    let t := RT.con "OrdinalTotalArrayMap"
    let call := mapCall c J n prog
    ∃ v m, call t "from_array" [.arr (vs.map (.usr 1))] [] = .ok (v, []) ∧ (values (J 0) n).map m = vs ∧
      RunsLike (textTotalStep call t) (TotalSpec.step (J 0) n) v m fun m v =>
        PrintsTotal D call (fmtText c J (mapTys n) prog D) "OrdinalTotalArrayMap" "total::IntoIterArray" v (pairsT (J 0) n m) ∧
        PrintsMut call (fmtAt c J (mapTys n) prog D) (D.print "debug_list") t "iter_mut" "total::IterMut" v splitPair id pairRef
          (values (J 0) n) fun k => some (m k) := by
  obtain ⟨m, rfl⟩ := exists_store L vs hv
  refine .of ⟨_, m, totalArr_fromArray 7 _, rfl, ?_⟩
  have hb := totalArrayMap_runs L m
  rw [show OrdinalTotalArrayMap.step c (J 0) n = (arrayFns (V := P 1) (J 0) n).step c (J 0) from by
    funext s op; exact OrdinalTotalArrayMap.step_fns c (J 0) n s op] at hb
  refine totalArr_text.runsLike ?_ hb
  rintro m s rfl
  exact ⟨printsTotal c J n L totalArr_text (fun s r => totalArr_fmt s r) (.inr rfl) (fun s => totalArr_intoIter 5 _) m,
    printsTotalMut c J n L totalArr_text m⟩

example := C109_total_array_map debug64 printImpls (ordering_lawful debug64).1 orderingPrinter [true, false, true] rfl

/-! ## Sets -/

/-- C109 for `OrdinalValues`, made by `all_values()`: after any calls, the text of `fmt` writes `[]` if nothing is left; the first item and `..`
if no item has been taken from the back; otherwise the first item, and the last one if there is another. -/
theorem C109_values [DecidableEq (P 0)] (L : Lawful c (J 0) n) (D : Printer P) : SetSources fun prog =>
    ∃ v, setFn c J S prog (.par 0) "all_values" [] = .ok v ∧
      BehavesLike (textIter c J S prog (.con "OrdinalValues")) v (values (J 0) n) fun rest v =>
        ∀ r, fmtText c J (setTys S) prog D "OrdinalValues" v r = D.printValues (.usr 0) (values (J 0) n) rest r := by
  obtain ⟨s, h1, h2⟩ := OrdinalValues.new_view L
  refine .of ⟨valuesVal s, ?_, ?_⟩
  · rw [setFn, setCall, all_values (h := []) 4, h1]; rfl
  · refine iterBehaves_enc (Inv := fun _ => True) (fun s d _ => textValues_step s d) (fun _ _ _ _ _ => trivial) trivial ?_ (OrdinalValues.behaves L h2)
    intro l s h r
    rw [values_fmt, writeValues]
    obtain ⟨s', k1, k2, -⟩ := OrdinalValues.next_view L s l h
    cases l with
    | nil => simp only [k1, ok_bind, List.head?_nil, Printer.printValues]
    | cons x l =>
      obtain ⟨s'', k3, -⟩ := OrdinalValues.nextBack_view L s' l k2
      have k4 := OrdinalValues.stop_iff L h (by simp)
      simp only [k1, ok_bind, List.head?_cons, L.size, k3, Printer.printValues, k4]
      split
      · rfl
      · cases l.getLast? <;> rfl

example := C109_values debug64 printImpls 1 (ordering_lawful debug64).1 orderingPrinter
/-- What is written after one call of `next`, and after one of `next_back`. -/
example : (do printed (← orderingPrinter.printValues (.usr 0) [.lt, .eq, .gt] [Ordering.eq, .gt] ([], ""))) = .ok "[Equal..]" ∧
    (do printed (← orderingPrinter.printValues (.usr 0) [.lt, .eq, .gt] [Ordering.lt, .eq] ([], ""))) = .ok "[Less..=Equal]" := ⟨rfl, rfl⟩

/-- The text of `fmt` of a set, from the words. -/
theorem setText_eq {D : Printer P} [DecidableEq (P 0)] (L : Lawful c (J 0) n) {ws : SetRef} {m : P 0 → Bool} (h : Bits (J 0) m ws) (r : P 2) :
    D.printFrom "debug_set" (SetIter.next c (J 0)) (.usr 0) (c.M + 1) (⟨⟨0, n⟩, ws⟩ : SetIter) r =
      D.print "debug_set" ((elements (J 0) n m).map (.usr 0)) r := by
  obtain ⟨it, h1, h2⟩ := SetIter.new_view L h
  have he : it = ⟨⟨0, n⟩, ws⟩ := by
    simp [SetIter.new, OrdinalValues.new, L.size] at h1
    exact h1.symm
  subst he
  have hl : (elements (J 0) n m).length ≤ n := Nat.le_trans (List.length_filter_le _ _) (Nat.le_of_eq (values_length L))
  have := L.fits
  exact printFrom_eq (it := SetIter.it c (J 0)) _ _ (SetIter.behaves L h2) (by omega) r

/-- C109 for `OrdinalSet`, collected from any items: after every history, the text of `fmt` makes a set builder, passes it exactly the elements
in ordinal order, and finishes it; the iterator prints the elements that are left.  An uninhabited type in a build with debug assertions is the
finding `C109_finding`. -/
theorem C109_ordinal_set [DecidableEq (P 0)] (L : Lawful c (J 0) n) (hpos : 0 < n ∨ c.debugAssertions = false) (hfit : n + 64 < c.M)
    (D : Printer P) (xs : List (P 0)) : SetSources fun prog =>
    let fmt := fmtText c J (setTys S) prog D
    ∃ v, setFn c J S prog (.con "OrdinalSet") "from_iter" [.arr (xs.map (.usr 0 ·))] = .ok v ∧
      SetBehavesLike (textSet c J S prog (.con "OrdinalSet")) v (fun x => decide (x ∈ xs)) fun m v =>
        (∀ r, fmt "OrdinalSet" v r = D.print "debug_set" ((elements (J 0) n m).map (.usr 0)) r) ∧
        ∃ it, setFn c J S prog (.con "OrdinalSet") "iter" [.ref v] = .ok it ∧
          BehavesLike (textIter c J S prog (.con "Iter")) it (elements (J 0) n m) fun rest it =>
            ∀ r, fmt "Iter" it r = D.print "debug_list" (rest.map (.usr 0)) r := by
  have hM := L.fits
  obtain ⟨s, h1, h2⟩ := OrdinalSet.fromIter_view L hfit xs
  refine .of ⟨setVal s, ?_, behaves_enc (textSet_contains L.size) (textSet_insert L.size) ?_ (OrdinalSet.behaves L hfit h2)⟩
  · rw [setFn, setCall, set_fromIter (h := []) 0 xs L.size, h1]; rfl
  intro m s h
  obtain ⟨ws, h3, h4⟩ := OrdinalSet.asRef_view L h hpos
  obtain ⟨ws', it, h5, h6⟩ := OrdinalSet.iter_view L h hpos
  have hl : (elements (J 0) n m).length ≤ n := Nat.le_trans (List.length_filter_le _ _) (Nat.le_of_eq (values_length L))
  have hlen : it.iter.len ≤ c.M := by
    simp [OrdinalSet.iter, h3, SetRef.iter, SetIter.new, OrdinalValues.new, L.size] at h5
    subst h5
    simp only [OrdinalValues.len, range_len]
    omega
  refine ⟨fun r => ?_, setIterVal it, ?_, ?_⟩
  · rw [set_fmt s L.size (by omega), h3]
    exact setText_eq c J L h4 r
  · rw [setFn, setCall, set_iter (h := []) 1 s L.size, h5]; rfl
  · refine iterBehaves_enc (Inv := fun it : SetIter => it.iter.len ≤ c.M) (fun s d h => textSetIter_step s d h)
      (fun s d r h1 h2 => Nat.le_trans (setIter_step_len h2) h1) hlen ?_
      (stillBehaves_inv (Inv := fun it : SetIter => it.iter.len ≤ c.M) (fun s d r h1 h2 => Nat.le_trans (setIter_step_len h2) h1) hlen
        (SetIter.behaves L h6))
    intro l s h r
    rw [setIter_fmt s h.1 r]
    exact printFrom_eq (it := SetIter.it c (J 0)) _ _ h.2.2 (by omega) r

example := C109_ordinal_set debug64 printImpls 1 (ordering_lawful debug64).1 (.inl (by decide)) (by decide) orderingPrinter [.gt, .lt, .gt]
example : (do printed (← orderingPrinter.print "debug_set" ([Ordering.lt, Ordering.gt].map (.usr 0)) ([], ""))) = .ok "{Less, Greater}" := rfl

/-- C109 for `OrdinalArraySet` with the right number of words. -/
theorem C109_ordinal_array_set [DecidableEq (P 0)] (L : Lawful c (J 0) n) (hS : S = (n + 63) / 64) (D : Printer P) (xs : List (P 0)) :
    SetSources fun prog =>
    ∃ v, setFn c J S prog (.con "OrdinalArraySet") "from_iter" [.arr (xs.map (.usr 0 ·))] = .ok v ∧
      SetBehavesLike (textSet c J S prog (.con "OrdinalArraySet")) v (fun x => decide (x ∈ xs)) fun m v =>
        ∀ r, fmtText c J (setTys S) prog D "OrdinalArraySet" v r = D.print "debug_set" ((elements (J 0) n m).map (.usr 0)) r := by
  have hd : S = divCeil n 64 := by
    rw [hS]
    simp only [divCeil]
    split <;> omega
  subst hd
  obtain ⟨s, h1, h2⟩ := OrdinalArraySet.fromIter_view L xs
  refine .of ⟨arraySetVal s, ?_, behaves_enc (textArraySet_contains L.size) (textArraySet_insert L.size) ?_ (OrdinalArraySet.behaves L h2)⟩
  · rw [setFn, setCall, arraySet_fromIter (h := []) 0 xs L.size, h1]; rfl
  intro m s h r
  obtain ⟨ws, h3, h4⟩ := OrdinalArraySet.asRef_view L h
  rw [arraySet_fmt s L.size (Nat.le_of_lt L.fits), h3]
  exact setText_eq c J L h4 r

example := C109_ordinal_array_set debug64 printImpls 1 (ordering_lawful debug64).1 (by decide) orderingPrinter [.gt, .lt, .gt]

/-- C109 for `OrdinalSet64` with at most 64 values. -/
theorem C109_ordinal_set64 [DecidableEq (P 0)] (L : Lawful c (J 0) n) (h64 : n ≤ 64) (hpos : 0 < n ∨ c.debugAssertions = false)
    (D : Printer P) (xs : List (P 0)) : SetSources fun prog =>
    let fmt := fmtText c J (setTys S) prog D
    ∃ v, setFn c J S prog (.con "OrdinalSet64") "from_iter" [.arr (xs.map (.usr 0 ·))] = .ok v ∧
      SetBehavesLike (textSet c J S prog (.con "OrdinalSet64")) v (fun x => decide (x ∈ xs)) fun m v =>
        (∀ r, fmt "OrdinalSet64" v r = D.print "debug_set" ((elements (J 0) n m).map (.usr 0)) r) ∧
        ∃ it, setFn c J S prog (.con "OrdinalSet64") "iter" [.ref v] = .ok it ∧
          BehavesLike (textIter c J S prog (.con "Iter64")) it (elements (J 0) n m) fun rest it =>
            ∀ r, fmt "Iter64" it r = D.print "debug_list" (rest.map (.usr 0)) r := by
  have hM := L.fits
  obtain ⟨s, h1, h2⟩ := OrdinalSet64.fromIter_view L h64 xs
  refine .of ⟨set64Val s, ?_, behaves_enc textSet64_contains textSet64_insert ?_ (OrdinalSet64.behaves L h64 h2)⟩
  · rw [setFn, setCall, set64_fromIter (h := []) 3, h1]; rfl
  intro m s h
  have hl : (elements (J 0) n m).length ≤ n := Nat.le_trans (List.length_filter_le _ _) (Nat.le_of_eq (values_length L))
  have h3 : OrdinalSet64.asRef c (J 0) s = .ok [s] := by
    unfold OrdinalSet64.asRef SetRef.new
    simp only [arraySetS_eq L, ok_bind]
    rcases hpos with hp | hp
    · have : divCeil n 64 = 1 := by have := divCeil_spec n; omega
      simp [this, debugAssert]
    · simp [debugAssert, hp]
  have h4 : Bits (J 0) m [s] := fun a => by
    have : ordOf (J 0) a < 64 := by have := L.ord_lt a; omega
    rw [← h.1 a]
    simp [wbit, Nat.div_eq_of_lt this, Nat.mod_eq_of_lt this]
  refine ⟨fun r => ?_, iter64Val s, ?_, ?_⟩
  · rw [set64_fmt s L.size (by omega), h3]
    exact setText_eq c J L h4 r
  · rw [setFn, setCall, set64_iter (h := []) 4, OrdinalSet64.iter, OrdinalSet64.assert64_ok L h64]; rfl
  · refine iterBehaves_enc (Inv := fun _ => True) (fun s d _ => textIter64_step s d) (fun _ _ _ _ _ => trivial) trivial ?_
      (stillBehaves (Iter64.behaves L h64 (Iter64.view_of_set h)))
    intro l s h r
    rw [iter64_fmt s r]
    exact printFrom_eq (it := Iter64.it c (J 0)) _ _ h.2 (by omega) r

example := C109_ordinal_set64 debug64 printImpls 1 (ordering_lawful debug64).1 (by decide) (.inl (by decide)) orderingPrinter [.gt, .lt, .gt]

/-- C109, the finding C52 in the text: with debug assertions, the text of `fmt` of an empty set of an uninhabited type panics. -/
theorem C109_finding (L : Lawful c (J 0) 0) (hd : c.debugAssertions = true) (D : Printer P) (r : P 2) : SetSources fun prog =>
    (∃ v, setFn c J S prog (.con "OrdinalSet") "new" [] = .ok v ∧ fmtText c J (setTys S) prog D "OrdinalSet" v r = .error .panic) ∧
    ∃ v, setFn c J S prog (.con "OrdinalSet64") "new" [] = .ok v ∧ fmtText c J (setTys S) prog D "OrdinalSet64" v r = .error .panic := by
  refine .of ⟨⟨setVal (.small 0), ?_, ?_⟩, set64Val 0, ?_, ?_⟩
  · rw [setFn, setCall, set_new (h := []) 4]; simp [OrdinalSet.new, OrdinalSet.isSmall, L.size]
  · rw [set_fmt _ L.size (Nat.zero_le _)]
    simp [OrdinalSet.asRef, OrdinalSet.isSmall, L.size, SetRef.new, arraySetS_eq L, debugAssert, hd, divCeil]
  · rw [setFn, setCall, set64_new (h := []) 4]; simp [OrdinalSet64.new, OrdinalSet64.assert64_ok L (Nat.zero_le _)]
  · rw [set64_fmt _ L.size (Nat.zero_le _)]
    simp [OrdinalSet64.asRef, SetRef.new, arraySetS_eq L, debugAssert, hd, divCeil]

example := C109_finding debug64 (twoImpls (infallibleImpl) boolImpl) 1 (infallible_lawful debug64).1 rfl

/-! ## With every impl -/

/-- C109: the texts of `fmt` of the maps pass the builder what the iterators of the model yield, with every impl, lawful or not, including panics. -/
theorem C109_agrees_maps (D : Printer P) (r : P 2) : MapSources fun prog =>
    let fmt x v := fmtText c J (mapTys S) prog D x v r
    (∀ s : OMap (P 1), List.length s ≤ c.M →
      fmt "OrdinalMap" (mapVal s) = D.printFrom "debug_map" (MapIter.next c (J 0)) pairRef (c.M + 1) (OMap.iter s) r) ∧
    (∀ s : List (Option (P 1)), s.length ≤ c.M →
      fmt "OrdinalArrayMap" (arrMapVal s) = D.printFrom "debug_map" (MapIter.next c (J 0)) pairRef (c.M + 1) (OrdinalArrayMap.iter s) r) ∧
    (∀ s : MapIter (P 1), s.iter.length ≤ c.M →
      fmt "Iter" (mapIterVal s) = D.printFrom "debug_list" (MapIter.next c (J 0)) pairRef (c.M + 1) s r ∧
      fmt "Keys" (wrapVal "Keys" (mapIterVal s)) = D.printFrom "debug_list" (Keys.next c (J 0)) (.usr 0) (c.M + 1) s r ∧
      fmt "Values" (wrapVal "Values" (mapIterVal s)) = D.printFrom "debug_list" (Values.next c (J 0)) (fun v => .ref (.usr 1 v)) (c.M + 1) s r ∧
      fmt "IntoIter" (intoIterVal s) = D.printFrom "debug_list" (MapIter.next c (J 0)) pairRef (c.M + 1) s r ∧
      fmt "IntoIterArray" (intoIterArrayVal s) = D.printFrom "debug_list" (MapIter.next c (J 0)) pairRef (c.M + 1) s r) ∧
    (∀ s : TotalIter (P 1), fmt "total::Iter" (totalIterVal s) = D.printFrom "debug_list" (TotalIter.next c (J 0)) pairRef (c.M + 1) s r ∧
      ∀ x, x = "total::IntoIter" ∨ x = "total::IntoIterArray" →
        fmt x (totalIntoVal x s) = D.printFrom "debug_list" (TotalIter.next c (J 0)) pairRef (c.M + 1) s r) ∧
    ∀ s : List (P 1),
      fmt "OrdinalTotalMap" (boxMapVal s) = D.printFrom "debug_map" (TotalIter.next c (J 0)) pairRef (c.M + 1) (OrdinalTotalMap.iter s) r ∧
      fmt "OrdinalTotalArrayMap" (arrayMapVal s) =
        D.printFrom "debug_map" (TotalIter.next c (J 0)) pairRef (c.M + 1) (OrdinalTotalArrayMap.iter s) r :=
  .of ⟨fun s h => map_fmt s h r, fun s h => arrMap_fmt s h r, fun s h => ⟨mapIter_fmt s h r, keys_fmt s h r, mapValues_fmt s h r,
      mapIntoIter_fmt s h r, mapIntoIterArray_fmt s h r⟩,
    fun s => ⟨totalIter_fmt s r, fun x hx => totalInto_fmt hx s r⟩, fun s => ⟨totalMap_fmt s r, totalArr_fmt s r⟩⟩

/-- With the wrong impl `bogusImpl`. -/
example (D : Printer (two Bool Bool)) := C109_agrees_maps debug64 (twoImpls bogusImpl boolImpl) 2 D

/-- C109: the same for the mutable iterators, wherever the values are: the texts of `fmt` print the items left, with the values as they are now,
and change no variable. -/
theorem C109_agrees_iter_mut (D : Printer P) (h : Heap P) (b : Nat) (qs : List Proj) (r : P 2) : MapSources fun prog =>
    let fmt x v := fmtAt c J (mapTys S) prog D x v h r
    (∀ s : MapIterMut (P 1), Place h b qs (slotsVal s.mem) → s.it.iter.stop ≤ s.mem.length → s.it.iter.len ≤ c.M →
      fmt "IterMut" (iterMutVal (b + 1) qs s.it) =
        (fun x => (x, h)) <$> D.printFrom "debug_list" (MapIter.next c (J 0)) pairRef (c.M + 1) (MapIterMut.iter s) r ∧
      fmt "ValuesMut" (wrapVal "ValuesMut" (iterMutVal (b + 1) qs s.it)) =
        (fun x => (x, h)) <$> D.printFrom "debug_list" (Values.next c (J 0)) (fun v => .ref (.usr 1 v)) (c.M + 1) (MapIterMut.iter s) r) ∧
    ∀ s : TotalIterMut (P 1), Place h b qs (.arr (ofV s.mem)) → s.it.iter.stop ≤ s.mem.length →
      fmt "total::IterMut" (wrapVal "total::IterMut" (enumVal (mutEnum (b + 1) qs s.it))) =
        (fun x => (x, h)) <$> D.printFrom "debug_list" (TotalIter.next c (J 0)) pairRef (c.M + 1) (TotalIterMut.iter s) r :=
  .of ⟨fun _ h1 h2 h3 => ⟨iterMut_fmt h1 h2 h3 r, valuesMut_fmt h1 h2 h3 r⟩, fun _ h1 h2 => totalIterMut_fmt h1 h2 r⟩

/-- The hypotheses hold for a mutable iterator over three slots, of which the last has been taken. -/
example : Place (P := printTypes Ordering Bool) [arrMapVal [some true, none, some false]] 0 [.field "map", .field "map"] (slotsVal [some true, none, some false]) ∧
    (⟨0, 2⟩ : Range).stop ≤ [some true, none, some false].length ∧ (⟨0, 2⟩ : Range).len ≤ debug64.M :=
  ⟨(arrMap_text (c := debug64) (J := printImpls) (S := 3) (U := noFns)).place _ _, by decide, by decide⟩
example := C109_agrees_iter_mut debug64 printImpls 3 orderingPrinter

/-- C109: the same for the sets, with every impl whose `ORDINAL_SIZE` can be evaluated. -/
theorem C109_agrees_sets {m : Nat} (hz : (J 0).size = .ok m) (hm : m ≤ c.M) (D : Printer P) (r : P 2) : SetSources fun prog =>
    let fmt x v := fmtText c J (setTys S) prog D x v r
    let words (ws : SetRef) := D.printFrom "debug_set" (SetIter.next c (J 0)) (.usr 0) (c.M + 1) (⟨⟨0, m⟩, ws⟩ : SetIter) r
    (∀ s, fmt "OrdinalSet" (setVal s) = (do words (← OrdinalSet.asRef c (J 0) s))) ∧
    (∀ s, fmt "OrdinalArraySet" (arraySetVal s) = (do words (← OrdinalArraySet.asRef c (J 0) S s))) ∧
    (∀ s, fmt "OrdinalSet64" (set64Val s) = (do words (← OrdinalSet64.asRef c (J 0) s))) ∧
    (∀ ws, fmt "OrdinalSetRef" (setRefVal ws) = words ws) ∧
    (∀ s : SetIter, s.iter.len ≤ c.M → fmt "Iter" (setIterVal s) = D.printFrom "debug_list" (SetIter.next c (J 0)) (.usr 0) (c.M + 1) s r) ∧
    (∀ s, fmt "Iter64" (iter64Val s) = D.printFrom "debug_list" (Iter64.next c (J 0)) (.usr 0) (c.M + 1) s r) ∧
    ∀ s, fmt "OrdinalValues" (valuesVal s) = writeValues D (J 0) s r := by
  refine .of ⟨fun s => set_fmt s hz hm r, fun s => arraySet_fmt s hz hm r, fun s => set64_fmt s hz hm r, fun ws => ?_,
    fun s h => setIter_fmt s h r, fun s => iter64_fmt s r, fun s => values_fmt s r⟩
  refine fmtText_eq (m := D.printFrom _ _ _ _ _) (setRef_fmt 3 ?_ ?_ [] r)
  · simp [SetRef.iter, SetIter.new, OrdinalValues.new, hz]
  · simpa [OrdinalValues.len, range_len] using hm

example (D : Printer (two Bool Bool)) := C109_agrees_sets debug64 (twoImpls bogusImpl boolImpl) 2 rfl (by decide) D

/-! ## The characters -/

variable {K V : Type}

theorem foldlM_items {A W ι : Type} (entry : A → W → R W) (val : ι → A) (st : List String → W) (text : ι → String)
    (ht : ∀ x ts, entry (val x) (st ts) = .ok (st (ts ++ [text x]))) : ∀ (l : List ι) (ts : List String),
    (l.map val).foldlM (fun r v => entry v r) (st ts) = .ok (st (ts ++ l.map text))
  | [], ts => by simp
  | x :: l, ts => by
    simp only [List.map_cons, List.foldlM_cons, ht, ok_bind]
    rw [foldlM_items entry val st text ht l]
    simp

/-- C109: with a `core::fmt` that puts brackets around its entries, what `print` prints is what C52 says. -/
theorem C109_text (alt : Bool) (key : K → String) (value : V → String) :
    let print (f : String) (items : List (Val (printTypes K V))) := do printed (← (textPrinter alt key value).print f items ([], ""))
    (∀ ps : List (K × V), print "debug_map" (ps.map pairRef) = .ok (mapText alt key value ps)) ∧
    (∀ ps : List (K × V), print "debug_list" (ps.map pairRef) = .ok (listText alt (pairText alt key value) ps)) ∧
    (∀ ks : List K, print "debug_list" (ks.map (.usr 0)) = .ok (listText alt key ks)) ∧
    (∀ vs : List V, print "debug_list" (vs.map fun v => .ref (.usr 1 v)) = .ok (listText alt value vs)) ∧
    ∀ ks : List K, print "debug_set" (ks.map (.usr 0)) = .ok (setText alt key ks) := by
  have go {ι : Type} (val : ι → Val (printTypes K V)) (f : String) (text : ι → String) (ht : ∀ x, itemText alt key value f (val x) = .ok (text x))
      (l : List ι) : (do printed (← (textPrinter alt key value).print f (l.map val) ([], ""))) =
        .ok (if f = "debug_list" then seqText "[" "]" alt (l.map text) else seqText "{" "}" alt (l.map text)) := by
    have := foldlM_items (textPrinter alt key value).entry val (fun ts => ((ts, f) : List String × String)) text
      (fun x ts => by simp [textPrinter, ht]) l []
    simp only [Printer.print]
    show (do let r ← (do let r ← List.foldlM _ _ _; (textPrinter alt key value).finish r); printed r) = _
    rw [this]
    rfl
  exact ⟨fun ps => go pairRef _ (fun p => key p.1 ++ ": " ++ value p.2) (fun _ => rfl) ps, fun ps => go pairRef _ (pairText alt key value) (fun _ => rfl) ps,
    fun ks => go (.usr 0) _ key (fun _ => rfl) ks, fun vs => go (fun v => .ref (.usr 1 v)) _ value (fun _ => rfl) vs,
    fun ks => go (.usr 0) _ key (fun _ => rfl) ks⟩

example := C109_text true (fun b : Bool => if b then "T" else "F") (toString (α := Nat))
example : mapText false (fun b => if b then "T" else "F") (toString (α := Nat)) [(true, 1), (false, 2)] = "{T: 1, F: 2}" := by decide

end OrdinalMap.Props
