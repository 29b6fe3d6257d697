import Verif.Text.CloneRun
import Verif.Props.TextDebug
import Verif.Props.CloneOwn
/-!
# C110: the `Clone` impls, lexed, parsed and run from their source text

`cloneText … t v r` runs the text of `clone` of the type `t` on the value `v`, in the state `r` of the world.  `C` is an arbitrary `V::clone`:
it changes the state of the world, and may panic.  `cloneEach C vs r` calls it on the values `vs` in order.
-/

namespace OrdinalMap.Props
open OrdinalMap OrdinalMap.Text

variable {P : Nat → Type} (c : Cfg) (J : (p : Nat) → OrdinalImpl (P p)) (S : Nat) {n : Nat} (C : Cloner P)

theorem zipWith_fst {α β : Type} (ps : List (α × β)) (ws : List β) : List.zipWith (fun p w => (p.1, w)) ps ws = (ps.map (·.1)).zip ws := by
  induction ps generalizing ws with
  | nil => rfl
  | cons p ps ih => cases ws <;> simp [ih]

/-- What is returned by a `clone` of slots. -/
theorem clonesSlots {t : String} {v : Val P} {s : List (Option (P 1))} {g : List (Option (P 1)) → Val P} {copy : List (P 1) → Val P → Prop}
    {vs : List (P 1)} (hvs : s.filterMap id = vs) (hc : ∀ r, cloneText c J (mapTys S) maps C t v r = (fun x => (g x.1, x.2)) <$> cloneSlots C s r)
    (hg : ∀ os, os.map Option.isSome = s.map Option.isSome → copy (os.filterMap id) (g os)) :
    ClonesText C vs (cloneText c J (mapTys S) maps C t v) copy := by
  subst hvs
  intro r
  obtain ⟨h1, h2⟩ := cloneSlots_each (C := C) s r
  refine ⟨fun f hf => ?_, fun ws r' hw => ?_⟩
  · rw [hc, h1 f hf]; rfl
  · obtain ⟨os, h3, rfl, h5⟩ := h2 ws r' hw
    exact ⟨g os, by rw [hc, h3]; rfl, hg os h5⟩

theorem clonesStored [DecidableEq (P 0)] (L : Lawful c (J 0) n) {t : String} {v : Val P} {b : Bool} {m : P 0 → Option (P 1)}
    {s : List (Option (P 1))} (h : Stored (J 0) n b m s) {g : List (Option (P 1)) → Val P} {q : (P 0 → Option (P 1)) → Val P → Prop}
    (hc : ∀ r, cloneText c J (mapTys S) maps C t v r = (fun x => (g x.1, x.2)) <$> cloneSlots C s r)
    (hg : ∀ m' t, Stored (J 0) n b m' t → q m' (g t)) :
    ClonesText C ((pairs (J 0) n m).map (·.2)) (cloneText c J (mapTys S) maps C t v) fun ws v =>
      ∃ m', pairs (J 0) n m' = ((pairs (J 0) n m).map (·.1)).zip ws ∧ q m' v := by
  rcases h with ⟨rfl, rfl⟩ | ⟨rfl, rfl, rfl⟩
  · refine clonesSlots c J S C (CloneOwn.store_filterMap m) hc fun os ho => ?_
    obtain ⟨m', rfl, h3⟩ := CloneOwn.store_clone L m ho
    exact ⟨m', h3, hg _ _ (.inl ⟨rfl, rfl⟩)⟩
  · refine clonesSlots c J S C (by rw [pairs_none]; rfl) hc fun os ho => ?_
    obtain rfl : os = [] := by simpa using ho
    exact ⟨fun _ => none, by simp [pairs_none], hg _ _ (.inr ⟨rfl, rfl, rfl⟩)⟩

/-- An iterator over the slots, whose clone has slots of the same shape. -/
theorem clonesInto (L : Lawful c (J 0) n) {t : RT} {x : String} {arg : Val P} {enc : Enumerate (List (Option (P 1))) → Val P}
    {it : DEIter (Enumerate (List (Option (P 1)))) (P 0 × P 1)} {ps : List (P 0 × P 1)} {s : Enumerate (List (Option (P 1)))}
    (hi : mapCall c J S maps noFns t "into_iter" [arg] [] = .ok (enc s, []))
    (hs : ∀ s d, (Enumerate.iter s).length ≤ c.M → (textMapIter (mapCall c J S maps noFns) x readPair 0).step [enc s] d =
      (fun r => (r.1, [enc r.2])) <$> it.step s d)
    (hv : ∀ s d r, (Enumerate.iter s).length ≤ c.M → it.step s d = .ok r → (Enumerate.iter r.2).length ≤ c.M)
    (hI : (Enumerate.iter s).length ≤ c.M)
    (hc : ∀ s r, cloneText c J (mapTys S) maps C x (enc s) r = (fun y => (enc ⟨s.next, y.1⟩, y.2)) <$> cloneSlots C s.iter r)
    (hb : ∀ l s, SView (J 0) n l s → BehavesLike it s l (SView (J 0) n)) (h : SView (J 0) n ps s) :
    ClonesRest (mapCall c J S maps noFns) (cloneText c J (mapTys S) maps C) C t "into_iter" x arg readPair (·.2) (fun p w => (p.1, w)) ps := by
  refine ⟨enc s, hi, iterBehaves_enc (enc := fun s => [enc s]) hs hv hI ?_ (stillBehaves_inv hv hI (hb _ _ h))⟩
  rintro l s ⟨hI, -, hl⟩
  refine ⟨_, rfl, ?_⟩
  obtain ⟨s', h1, h2⟩ := hl []
  cases h1
  obtain ⟨qs, h3, rfl⟩ := h2
  have e : s.iter = qs.map (·.2) := h3.1
  have e2 : s.iter.filterMap id = (qs.filterMap present).map (·.2) := by
    rw [e]
    clear h3 e hl
    induction qs with
    | nil => rfl
    | cons p qs ih => obtain ⟨k, _ | v⟩ := p <;> simp_all [present, List.filterMap_cons]
  refine clonesSlots c J S C (g := fun os => enc ⟨s.next, os⟩) e2 (hc s) fun os ho => ?_
  have hv2 := CloneOwn.sview_clone (t := (⟨s.next, os⟩ : Enumerate (List (Option (P 1))))) h3 rfl (by rw [← e]; exact ho)
  have hl2 : os.length ≤ c.M := by
    have := congrArg List.length ho
    simp only [List.length_map] at this
    omega
  rw [zipWith_fst]
  exact iterBehaves_enc (enc := fun s => [enc s]) hs hv hl2 (fun _ _ _ => trivial) (hb _ _ hv2)

theorem map_cloneText (s : List (Option (P 1))) (r : P 2) :
    cloneText c J (mapTys S) maps C "OrdinalMap" (mapVal s) r = (fun x => (mapVal x.1, x.2)) <$> cloneSlots C s r := by
  refine (cloneText_of (g := fun x => .obj "OrdinalMap" [("map", .arr x), phantom]) (map_cloneC (h := []) 7 s r)).trans ?_
  rw [cloneItems_slots]
  cases cloneSlots C s r <;> rfl

theorem arrMap_cloneText (s : List (Option (P 1))) (r : P 2) :
    cloneText c J (mapTys S) maps C "OrdinalArrayMap" (arrMapVal s) r = (fun x => (arrMapVal x.1, x.2)) <$> cloneSlots C s r := by
  refine (cloneText_of (g := fun x => .obj "OrdinalArrayMap" [("map", totalArrVal x)]) (arrMap_cloneC (h := []) 6 s r)).trans ?_
  rw [cloneItems_slots]
  cases cloneSlots C s r <;> rfl

theorem intoIter_cloneText (s : Enumerate (List (Option (P 1)))) (r : P 2) :
    cloneText c J (mapTys S) maps C "IntoIter" (intoIterVal s) r = (fun y => (intoIterVal ⟨s.next, y.1⟩, y.2)) <$> cloneSlots C s.iter r := by
  refine (cloneText_of (g := fun x => iterVal "IntoIter" "total::IntoIter" ⟨s.next, x⟩) (intoIter_cloneC (h := []) 5 (encEnum slotVal s) (noRefs_slots _) r)).trans ?_
  simp only [encEnum, cloneItems_slots]
  cases cloneSlots C s.iter r <;> rfl

theorem intoIterArray_cloneText (s : Enumerate (List (Option (P 1)))) (r : P 2) :
    cloneText c J (mapTys S) maps C "IntoIterArray" (intoIterArrayVal s) r =
      (fun y => (intoIterArrayVal ⟨s.next, y.1⟩, y.2)) <$> cloneSlots C s.iter r := by
  refine (cloneText_of (g := fun x => iterWith "IntoIterArray" [phantom] "total::IntoIterArray" ⟨s.next, x⟩) (intoIterArray_cloneC (h := []) 5 (encEnum slotVal s) (noRefs_slots _) r)).trans ?_
  simp only [encEnum, cloneItems_slots]
  cases cloneSlots C s.iter r <;> rfl

/-- C110 for `OrdinalMap`: after every history, the text of `clone` calls `V::clone` once on each value, in ordinal order, and on nothing else,
and a panic in it ends it there; if there is none, it returns a map with the same keys and the cloned values, which answers every history like
one.  The clone of `into_iter()`, after any calls, has the keys that are left and clones of their values. -/
theorem C110_ordinal_map [DecidableEq (P 0)] (L : Lawful c (J 0) n) : MapSources fun prog =>
    let call := mapCall c J S prog
    let t := RT.con "OrdinalMap"
    let clone := cloneText c J (mapTys S) prog C
    let map (v : Val P) (m : P 0 → Option (P 1)) := RunsLike (textMapStep call t) (MapSpec.step (J 0) n) v m fun m v =>
      (ClonesText C ((pairs (J 0) n m).map (·.2)) (clone "OrdinalMap" v) fun ws v => ∃ m' : P 0 → Option (P 1),
        pairs (J 0) n m' = ((pairs (J 0) n m).map (·.1)).zip ws ∧ RunsLike (textMapStep call t) (MapSpec.step (J 0) n) v m') ∧
      ClonesRest call clone C t "into_iter" "IntoIter" v readPair (·.2) (fun p w => (p.1, w)) (pairs (J 0) n m)
    (∃ v, call t "new" [] [] = .ok (v, []) ∧ map v fun _ => none) ∧
    ∀ ps : List (P 0 × P 1), ∃ v, call t "from_iter" [.arr (ps.map pairOwn)] [] = .ok (v, []) ∧ map v (lastValue ps) := by
  refine .of ?_
  have hz : ∀ z, (J 0).size = .ok z → z < c.M := by
    intro z hz; rw [L.size] at hz; cases hz; exact L.fits
  have hsz : n * 0 ≤ 2 ^ (c.bits - 1) - 1 := by omega
  have hlen {b : Bool} {m : P 0 → Option (P 1)} {s : OMap (P 1)} (h : Stored (J 0) n b m s) : List.length s < c.M := by
    have := h.length L
    have := L.fits
    cases b <;> simp_all <;> omega
  have hb {b : Bool} {m : P 0 → Option (P 1)} {s : OMap (P 1)} (h : Stored (J 0) n b m s) :
      RunsLike ((OMap.fns c (J 0) 0).step c (J 0)) (MapSpec.step (J 0) n) s m (fun m s => ∃ b, Stored (J 0) n b m s) := by
    intro ops
    obtain ⟨s', h1, h2⟩ := OMap.runs L hsz h ops
    rw [show (OMap.fns (V := P 1) c (J 0) 0).step c (J 0) = OMap.step c (J 0) 0 from by funext s op; exact (OMap.step_fns c (J 0) 0 s op).symm]
    exact ⟨s', h1, _, h2⟩
  have key (s : OMap (P 1)) (m : P 0 → Option (P 1)) (b : Bool) (h : Stored (J 0) n b m s) :
      RunsLike (textMapStep (mapCall c J S maps) (.con "OrdinalMap")) (MapSpec.step (J 0) n) (mapVal s) m fun m v =>
        (ClonesText C ((pairs (J 0) n m).map (·.2)) (cloneText c J (mapTys S) maps C "OrdinalMap" v) fun ws v => ∃ m' : P 0 → Option (P 1),
          pairs (J 0) n m' = ((pairs (J 0) n m).map (·.1)).zip ws ∧
          RunsLike (textMapStep (mapCall c J S maps) (.con "OrdinalMap")) (MapSpec.step (J 0) n) v m') ∧
        ClonesRest (mapCall c J S maps) (cloneText c J (mapTys S) maps C) C (.con "OrdinalMap") "into_iter" "IntoIter" v readPair (·.2)
          (fun p w => (p.1, w)) (pairs (J 0) n m) := by
    refine (ordinalMap_text hz).runsLike (hlen h) ?_ (hb h)
    rintro m s hs ⟨b, h⟩
    refine ⟨clonesStored c J S C L h (map_cloneText c J S C s) fun m' t ht => ?_, ?_⟩
    · exact (ordinalMap_text hz).runsLike (hlen ht) (fun _ _ _ _ => trivial) (hb ht)
    · exact clonesInto c J S C L (s := OMap.intoIter s) (map_intoIter 5 s) (fun s d h => textIntoIter_step s d h)
        (fun _ _ _ h1 h2 => Nat.le_trans (intoIter_step_left (J := J) h2) h1) (Nat.le_of_lt hs) (intoIter_cloneText c J S C)
        (fun _ _ h => MapIntoIter.behaves L h) (h.sview L)
  refine ⟨⟨mapVal (OMap.new (P 1)), map_new 7, key _ _ false (.inr ⟨rfl, rfl, rfl⟩)⟩, fun ps => ?_⟩
  have e : inserted (fun _ => none) ps = lastValue ps := by
    funext k; rw [inserted_eq]; simp
  obtain ⟨s, h1, h2⟩ := OMap.extendLoop_eq L hsz ps false (fun _ => none) (OMap.new (P 1)) (.inr ⟨rfl, rfl, rfl⟩)
  rw [e] at h2
  refine ⟨mapVal s, ?_, key s _ _ h2⟩
  rw [mapCall, show outside c J (mapTys S) maps 9 = outM c J S noFns 9 from rfl, map_fromIter (h := []) 5 ps, OMap.fromIter, h1]
  rfl

/-- Keys of type `Ordering`, numbers as values, and a count of the clones as the world. -/
def cloneTypes : Nat → Type
  | 0 => Ordering
  | 1 => Nat
  | 2 => Nat
  | _ => Unit

/-- Impls for these types. -/
def cloneImpls : (p : Nat) → OrdinalImpl (cloneTypes p)
  | 0 => orderingImpl
  | _ => ⟨.error .panic, fun _ => .error .panic, fun _ => .error .panic⟩

instance : DecidableEq (cloneTypes 0) := inferInstanceAs (DecidableEq Ordering)

/-- A `V::clone` that numbers the clones and panics at the third. -/
def numberingCloner : Cloner cloneTypes := fun (v : Nat) (i : Nat) => if i = 2 then .error .panic else .ok ((10 * v + i : Nat), (i + 1 : Nat))

example := C110_ordinal_map debug64 cloneImpls 1 numberingCloner (ordering_lawful debug64).1
/-- Two values are cloned; of three values the third panics. -/
example : cloneEach numberingCloner [(5 : Nat), (6 : Nat)] (0 : Nat) = .ok ([(50 : Nat), (61 : Nat)], (2 : Nat)) ∧
    cloneEach numberingCloner [(5 : Nat), (6 : Nat), (7 : Nat)] (0 : Nat) = .error .panic := ⟨rfl, rfl⟩

/-- C110 for `OrdinalArrayMap`. -/
theorem C110_ordinal_array_map [DecidableEq (P 0)] (L : Lawful c (J 0) n) : MapSources fun prog =>
    let call := mapCall c J n prog
    let t := RT.con "OrdinalArrayMap"
    let clone := cloneText c J (mapTys n) prog C
    let map (v : Val P) (m : P 0 → Option (P 1)) := RunsLike (textMapStep call t) (MapSpec.step (J 0) n) v m fun m v =>
      (ClonesText C ((pairs (J 0) n m).map (·.2)) (clone "OrdinalArrayMap" v) fun ws v => ∃ m' : P 0 → Option (P 1),
        pairs (J 0) n m' = ((pairs (J 0) n m).map (·.1)).zip ws ∧ RunsLike (textMapStep call t) (MapSpec.step (J 0) n) v m') ∧
      ClonesRest call clone C t "into_iter" "IntoIterArray" v readPair (·.2) (fun p w => (p.1, w)) (pairs (J 0) n m)
    (∃ v, call t "new" [] [] = .ok (v, []) ∧ map v fun _ => none) ∧
    ∀ ps : List (P 0 × P 1), ∃ v, call t "from_iter" [.arr (ps.map pairOwn)] [] = .ok (v, []) ∧ map v (lastValue ps) := by
  refine .of ?_
  have hlen (m : P 0 → Option (P 1)) : List.length (store (J 0) n m) < c.M := by
    have := (Stored.length (b := true) L (.inl ⟨rfl, rfl⟩) : List.length (store (J 0) n m) = _)
    have := L.fits
    simp_all
  have hb (m : P 0 → Option (P 1)) := OrdinalArrayMap.runs L m
  rw [show OrdinalArrayMap.step c (J 0) = (OrdinalArrayMap.fns (V := P 1) c (J 0)).step c (J 0) from by
    funext s op; exact OrdinalArrayMap.step_fns c (J 0) s op] at hb
  have key (m : P 0 → Option (P 1)) :
      RunsLike (textMapStep (mapCall c J n maps noFns) (.con "OrdinalArrayMap")) (MapSpec.step (J 0) n) (arrMapVal (store (J 0) n m)) m fun m v =>
        (ClonesText C ((pairs (J 0) n m).map (·.2)) (cloneText c J (mapTys n) maps C "OrdinalArrayMap" v) fun ws v => ∃ m' : P 0 → Option (P 1),
          pairs (J 0) n m' = ((pairs (J 0) n m).map (·.1)).zip ws ∧
          RunsLike (textMapStep (mapCall c J n maps) (.con "OrdinalArrayMap")) (MapSpec.step (J 0) n) v m') ∧
        ClonesRest (mapCall c J n maps) (cloneText c J (mapTys n) maps C) C (.con "OrdinalArrayMap") "into_iter" "IntoIterArray" v readPair (·.2)
          (fun p w => (p.1, w)) (pairs (J 0) n m) := by
    refine arrMap_text.runsLike (hlen m) ?_ (hb m)
    rintro m s hs rfl
    have h : Stored (J 0) n true m (store (J 0) n m) := .inl ⟨rfl, rfl⟩
    refine ⟨clonesStored c J n C L h (arrMap_cloneText c J n C _) fun m' t ht => ?_, ?_⟩
    · obtain ⟨-, rfl⟩ | ⟨h, -⟩ := ht
      · exact arrMap_text.runsLike (hlen m') (fun _ _ _ _ => trivial) (hb m')
      · cases h
    · exact clonesInto c J n C L (s := OrdinalArrayMap.intoIter (store (J 0) n m)) (arrMap_intoIter 4 _) (fun s d h => textIntoIterArray_step s d h)
        (fun _ _ _ h1 h2 => Nat.le_trans (intoIterArray_step_left (J := J) h2) h1) (Nat.le_of_lt hs) (intoIterArray_cloneText c J n C)
        (fun _ _ h => MapIntoIterArray.behaves L h) (h.sview L)
  refine ⟨⟨arrMapVal (store (J 0) n fun _ => none), ?_, key _⟩, fun ps => ⟨arrMapVal (store (J 0) n (lastValue ps)), ?_, key _⟩⟩
  · rw [mapCall, show outside c J (mapTys n) maps 9 = outM c J n noFns 9 from rfl, arrMap_new (h := []) 3 L.fits, OrdinalArrayMap.new_eq L]
    rfl
  · have e : inserted (fun _ => none) ps = lastValue ps := by
      funext k; rw [inserted_eq]; simp
    rw [mapCall, show outside c J (mapTys n) maps 9 = outM c J n noFns 9 from rfl, arrMap_fromIter (h := []) 2 L.fits,
      OrdinalArrayMap.fromIter, OrdinalArrayMap.new_eq L]
    simp only [ok_bind, OrdinalArrayMap.extendLoop_eq L, e]
    rfl

example := C110_ordinal_array_map debug64 cloneImpls numberingCloner (ordering_lawful debug64).1

/-! ## The total maps -/

theorem total_cloneText (s : List (P 1)) (r : P 2) :
    cloneText c J (mapTys S) maps C "OrdinalTotalMap" (boxMapVal s) r = (fun x => (boxMapVal x.1, x.2)) <$> cloneEach C s r := by
  refine (cloneText_of (total_cloneC (h := []) 7 (ofV s) r)).trans ?_
  rw [ofV, cloneItems_ofV]
  cases cloneEach C s r <;> rfl

theorem totalArr_cloneText (s : List (P 1)) (r : P 2) :
    cloneText c J (mapTys S) maps C "OrdinalTotalArrayMap" (arrayMapVal s) r = (fun x => (arrayMapVal x.1, x.2)) <$> cloneEach C s r := by
  refine (cloneText_of (totalArr_cloneC (h := []) 7 (ofV s) r)).trans ?_
  rw [ofV, cloneItems_ofV]
  cases cloneEach C s r <;> rfl

theorem totalInto_cloneText {x : String} (hx : x = "total::IntoIter" ∨ x = "total::IntoIterArray") (s : TotalIter (P 1)) (r : P 2) :
    cloneText c J (mapTys S) maps C x (totalIntoVal x s) r = (fun y => (totalIntoVal x ⟨Enumerate.next s, y.1⟩, y.2)) <$> cloneEach C (Enumerate.iter s) r := by
  refine (cloneText_of (g := fun y => wrapVal x (enumVal ⟨Enumerate.next s, y⟩)) (totalInto_cloneC (h := []) 6 hx (encEnum (.usr 1) s) (noRefs_ofV _) r)).trans ?_
  simp only [encEnum, cloneItems_ofV]
  cases cloneEach C (Enumerate.iter s) r <;> rfl

/-- What is returned by a `clone` of values. -/
theorem clonesValues {t : String} {v : Val P} {s : List (P 1)} {g : List (P 1) → Val P} {copy : List (P 1) → Val P → Prop}
    {vs : List (P 1)} (hvs : s = vs) (hc : ∀ r, cloneText c J (mapTys S) maps C t v r = (fun x => (g x.1, x.2)) <$> cloneEach C s r)
    (hg : ∀ ws, ws.length = s.length → copy ws (g ws)) :
    ClonesText C vs (cloneText c J (mapTys S) maps C t v) copy := by
  subst hvs
  intro r
  refine ⟨fun f hf => by rw [hc, hf]; rfl, fun ws r' hw => ⟨g ws, by rw [hc, hw]; rfl, hg ws (cloneEach_length hw)⟩⟩

theorem clonesStore (L : Lawful c (J 0) n) {t : String} {enc : List (P 1) → Val P}
    (hc : ∀ s r, cloneText c J (mapTys S) maps C t (enc s) r = (fun x => (enc x.1, x.2)) <$> cloneEach C s r) (m : P 0 → P 1)
    {q : (P 0 → P 1) → Val P → Prop} (hg : ∀ m', q m' (enc (store (J 0) n m'))) :
    ClonesText C ((pairsT (J 0) n m).map (·.2)) (cloneText c J (mapTys S) maps C t (enc (store (J 0) n m))) fun ws v =>
      ∃ m', pairsT (J 0) n m' = (values (J 0) n).zip ws ∧ q m' v := by
  refine clonesValues c J S C (by simp [pairsT, Function.comp_def]) (hc _) fun ws hl => ?_
  obtain ⟨m', rfl⟩ := exists_store L ws (by rw [hl]; simp [values_length L])
  refine ⟨m', ?_, hg m'⟩
  unfold pairsT store
  induction values (J 0) n with
  | nil => rfl
  | cons k ks ih => simp [ih]

theorem clonesTotalInto (L : Lawful c (J 0) n) {U : UserFns P} {t : RT} {x : String} (hx : x = "total::IntoIter" ∨ x = "total::IntoIterArray") {arg : Val P} (m : P 0 → P 1)
    (hi : mapCall c J S maps U t "into_iter" [arg] [] = .ok (totalIntoVal x (TotalIter.new (store (J 0) n m) 0), [])) :
    ClonesRest (mapCall c J S maps U) (cloneText c J (mapTys S) maps C) C t "into_iter" x arg readPair (·.2) (fun p w => (p.1, w)) (pairsT (J 0) n m) := by
  have hs (s : TotalIter (P 1)) (d : Dir) (_ : True) : (textMapIter (mapCall c J S maps U) x readPair 0).step [totalIntoVal x s] d =
      (fun r => (r.1, [totalIntoVal x r.2])) <$> (TotalIter.it c (J 0)).step s d := by
    rcases hx with rfl | rfl <;> exact textTotalInto_step rfl rfl s d
  refine ⟨_, hi, iterBehaves_enc (enc := fun s => [totalIntoVal x s]) hs (fun _ _ _ _ _ => trivial) trivial ?_ (TotalIter.behaves L (fresh_view L m))⟩
  intro l s h
  have e : Enumerate.iter s = l.map (·.2) := h.1
  refine ⟨_, rfl, clonesValues c J S C (g := fun ws => totalIntoVal x ⟨Enumerate.next s, ws⟩) e (totalInto_cloneText c J S C hx s) fun ws hl => ?_⟩
  have hv := CloneOwn.lview_clone (t := (⟨Enumerate.next s, ws⟩ : Enumerate (List (P 1)))) h rfl (by rw [hl, e]; simp)
  rw [zipWith_fst]
  exact iterBehaves_enc (enc := fun s => [totalIntoVal x s]) hs (fun _ _ _ _ _ => trivial) trivial (fun _ _ _ => trivial) (TotalIter.behaves L hv)

/-- C110 for `OrdinalTotalMap`, made by `new` with any closure. -/
theorem C110_total_map [DecidableEq (P 0)] (L : Lawful c (J 0) n) (init) : MapSources fun prog =>
    let t := RT.con "OrdinalTotalMap"
    let call := mapCall c J S prog (initFn init)
    let clone := cloneText c J (mapTys S) prog C
    TextNew (fun r => call t "new" [.ufn 0] [.usr 2 r])
      (fun v m => RunsLike (textTotalStep call t) (TotalSpec.step (J 0) n) v m fun m v =>
        (ClonesText C ((pairsT (J 0) n m).map (·.2)) (clone "OrdinalTotalMap" v) fun ws v => ∃ m' : P 0 → P 1,
          pairsT (J 0) n m' = (values (J 0) n).zip ws ∧ RunsLike (textTotalStep call t) (TotalSpec.step (J 0) n) v m') ∧
        ClonesRest call clone C t "into_iter" "total::IntoIter" v readPair (·.2) (fun p w => (p.1, w)) (pairsT (J 0) n m))
      (values (J 0) n) init := by
  have hz : ∀ z, (J 0).size = .ok z → z < c.M := fun z h => by rw [L.size] at h; cases h; exact L.fits
  refine .of fun r => ?_
  have h1 := totalMap_new (c := c) (J := J) (S := S) 4 (initFn_calls init 5) hz r
  rw [OrdinalTotalMap.new_eq L (by simp)] at h1
  refine ⟨fun f hf => h1.trans (by rw [hf]; rfl), fun vs r' hv => ?_⟩
  obtain ⟨m, rfl⟩ := exists_store L vs (by rw [initEach_length _ _ _ _ _ hv, values_length L])
  refine ⟨_, m, h1.trans (by rw [hv]; rfl), rfl, ?_⟩
  have hb (m : P 0 → P 1) := totalMap_runs L m
  rw [show OrdinalTotalMap.step c (J 0) = (boxFns (V := P 1) (J 0)).step c (J 0) from by
    funext s op; exact OrdinalTotalMap.step_fns c (J 0) s op] at hb
  refine totalMap_text.runsLike ?_ (hb m)
  rintro m s rfl
  exact ⟨clonesStore c J S C L (total_cloneText c J S C) m fun m' => totalMap_text.runsLike (fun _ _ _ => trivial) (hb m'),
    clonesTotalInto c J S C L (.inl rfl) m (totalMap_intoIter 5 _)⟩

example := C110_total_map debug64 cloneImpls 1 numberingCloner (ordering_lawful debug64).1 fun _ (r : Nat) => .ok ((r : Nat), (r + 1 : Nat))

/-- C110 for `OrdinalTotalArrayMap`, made by `from_array` of any array. -/
theorem C110_total_array_map [DecidableEq (P 0)] (L : Lawful c (J 0) n) (vs : List (P 1)) (hv : vs.length = n) : MapSources fun prog =>
    let t := RT.con "OrdinalTotalArrayMap"
    let call := mapCall c J n prog
    let clone := cloneText c J (mapTys n) prog C
    ∃ v m, call t "from_array" [.arr (vs.map (.usr 1))] [] = .ok (v, []) ∧ (values (J 0) n).map m = vs ∧
      RunsLike (textTotalStep call t) (TotalSpec.step (J 0) n) v m fun m v =>
        (ClonesText C ((pairsT (J 0) n m).map (·.2)) (clone "OrdinalTotalArrayMap" v) fun ws v => ∃ m' : P 0 → P 1,
          pairsT (J 0) n m' = (values (J 0) n).zip ws ∧ RunsLike (textTotalStep call t) (TotalSpec.step (J 0) n) v m') ∧
        ClonesRest call clone C t "into_iter" "total::IntoIterArray" v readPair (·.2) (fun p w => (p.1, w)) (pairsT (J 0) n m) := by
  obtain ⟨m, rfl⟩ := exists_store L vs hv
  refine .of ⟨_, m, totalArr_fromArray 7 _, rfl, ?_⟩
  have hb (m : P 0 → P 1) := totalArrayMap_runs L m
  rw [show OrdinalTotalArrayMap.step c (J 0) n = (arrayFns (V := P 1) (J 0) n).step c (J 0) from by
    funext s op; exact OrdinalTotalArrayMap.step_fns c (J 0) n s op] at hb
  refine totalArr_text.runsLike ?_ (hb m)
  rintro m s rfl
  exact ⟨clonesStore c J n C L (totalArr_cloneText c J n C) m fun m' => totalArr_text.runsLike (fun _ _ _ => trivial) (hb m'),
    clonesTotalInto c J n C L (.inr rfl) m (totalArr_intoIter 5 _)⟩

example := C110_total_array_map debug64 cloneImpls numberingCloner (ordering_lawful debug64).1 [(5 : Nat), (6 : Nat), (7 : Nat)] rfl

/-- C110 for the iterators over references, in any state and with every impl, lawful or not: the text of `clone` returns an iterator in the same
state, over the same references, and does not call `V::clone` (it is not among what these calls can reach). -/
theorem C110_agrees_shared (h : Heap P) : MapSources fun prog =>
    let call := mapCall c J S prog
    (∀ s : MapIter (P 1), call (.con "Iter") "clone" [.ref (mapIterVal s)] h = .ok (mapIterVal s, h)) ∧
    (∀ s : Keys (P 1), call (.con "Keys") "clone" [.ref (wrapVal "Keys" (mapIterVal s))] h = .ok (wrapVal "Keys" (mapIterVal s), h)) ∧
    (∀ s : Values (P 1), call (.con "Values") "clone" [.ref (wrapVal "Values" (mapIterVal s))] h = .ok (wrapVal "Values" (mapIterVal s), h)) ∧
    ∀ s : TotalIter (P 1), call (.con "total::Iter") "clone" [.ref (totalIterVal s)] h = .ok (totalIterVal s, h) := by
  refine .of ⟨mapIter_clone 5, keys_clone 4, mapValues_clone 4, fun s => ?_⟩
  have h1 := totalIter_clone (c := c) (J := J) (S := S) (U := noFns) (h := h) 6 (Enumerate.next s) (ofV (Enumerate.iter s))
  simp only [ofV, List.map_map] at h1
  exact h1

example := C110_agrees_shared debug64 cloneImpls 1 []

/-- C110 for the iterators that own the values, in any state and with every impl: what the text of `clone` does. -/
theorem C110_agrees_into (r : P 2) : MapSources fun prog =>
    let clone := cloneText c J (mapTys S) prog C
    (∀ s : MapIntoIter (P 1), clone "IntoIter" (intoIterVal s) r = (fun y => (intoIterVal ⟨Enumerate.next s, y.1⟩, y.2)) <$> cloneSlots C (Enumerate.iter s) r) ∧
    (∀ s : MapIntoIterArray (P 1), clone "IntoIterArray" (intoIterArrayVal s) r =
      (fun y => (intoIterArrayVal ⟨Enumerate.next s, y.1⟩, y.2)) <$> cloneSlots C (Enumerate.iter s) r) ∧
    ∀ x, x = "total::IntoIter" ∨ x = "total::IntoIterArray" → ∀ s : TotalIter (P 1), clone x (totalIntoVal x s) r =
      (fun y => (totalIntoVal x ⟨Enumerate.next s, y.1⟩, y.2)) <$> cloneEach C (Enumerate.iter s) r :=
  .of ⟨fun s => intoIter_cloneText c J S C s r, fun s => intoIterArray_cloneText c J S C s r, fun _ hx s => totalInto_cloneText c J S C hx s r⟩

example := C110_agrees_into debug64 cloneImpls 1 numberingCloner (1 : Nat)
/-- Three slots, two of which hold a value. -/
example : cloneSlots numberingCloner [some (5 : Nat), none, some (6 : Nat)] (0 : Nat) = .ok ([some (50 : Nat), none, some (61 : Nat)], (2 : Nat)) := rfl

end OrdinalMap.Props
