import Verif.Lemmas.Map
import Verif.Lemmas.ArrayBuilder
/-! # Constructors, `from_iter`, `retain`, `map` -/

namespace OrdinalMap
variable {K V W E ρ : Type} {c : Cfg} {I : OrdinalImpl K} {n : Nat}

/-! ## Total map constructors -/

theorem OrdinalTotalMap.tryNewLoop_view (L : Lawful c I n) (init : K → ρ → R (Except E V × ρ)) :
    ∀ (ks : List K) (fuel : Nat) (it : OrdinalValues) (acc : List V) (r : ρ),
      OrdinalValues.View I n ks it → ks.length < fuel →
      tryNewLoop I init fuel it acc r = (do
        match ← initAll init ks r with
        | (.error e, r) => .ok (.error e, r)
        | (.ok vs, r) => .ok (.ok (acc ++ vs), r)) := by
  intro ks
  induction ks with
  | nil =>
    intro fuel it acc r hv hf
    obtain ⟨fuel, rfl⟩ : ∃ k, fuel = k + 1 := ⟨fuel - 1, by omega⟩
    obtain ⟨it', h1, _, _⟩ := OrdinalValues.next_view L it [] hv
    simp [tryNewLoop, h1, initAll]
  | cons k ks ih =>
    intro fuel it acc r hv hf
    obtain ⟨fuel, rfl⟩ : ∃ k, fuel = k + 1 := ⟨fuel - 1, by omega⟩
    obtain ⟨it', h1, h2, _⟩ := OrdinalValues.next_view L it _ hv
    simp only [tryNewLoop, h1, ok_bind, List.head?_cons, initAll]
    cases hi : init k r with
    | error e => rfl
    | ok p =>
      obtain ⟨o, r'⟩ := p
      cases o with
      | error e => rfl
      | ok v =>
        simp only [ok_bind]
        rw [ih fuel it' (acc ++ [v]) r' h2 (by simp at hf; omega)]
        cases ha : initAll init ks r' with
        | error e => rfl
        | ok q =>
          obtain ⟨o, r''⟩ := q
          cases o with
          | error e => rfl
          | ok vs => simp

theorem initAll_length (init : K → ρ → R (Except E V × ρ)) : ∀ (ks : List K) (r r' : ρ) (vs : List V),
    initAll init ks r = .ok (.ok vs, r') → vs.length = ks.length := by
  intro ks
  induction ks with
  | nil => intro r r' vs h; simp [initAll] at h; rw [h.1]; rfl
  | cons k ks ih =>
    intro r r' vs h
    simp only [initAll] at h
    cases hi : init k r with
    | error e => rw [hi] at h; simp at h
    | ok p =>
      obtain ⟨o, r1⟩ := p
      rw [hi] at h
      cases o with
      | error e => simp at h
      | ok v =>
        simp only [ok_bind] at h
        cases ha : initAll init ks r1 with
        | error e => rw [ha] at h; simp at h
        | ok q =>
          obtain ⟨o, r2⟩ := q
          rw [ha] at h
          cases o with
          | error e => simp at h
          | ok ws =>
            simp only [ok_bind, Except.ok.injEq, Prod.mk.injEq] at h
            rw [← h.1]; simp [ih r1 r2 ws ha]

theorem OrdinalTotalMap.tryNew_eq (L : Lawful c I n) {sz : Nat} (hsz : n * sz ≤ 2 ^ (c.bits - 1) - 1)
    (init : K → ρ → R (Except E V × ρ)) (r : ρ) :
    tryNew c I sz init r = initAll init (OrdinalMap.values I n) r := by
  obtain ⟨it, h1, h2⟩ := OrdinalValues.new_view L
  simp only [tryNew, withCapacity, L.size, ok_bind, hsz, if_true, h1]
  rw [tryNewLoop_view L init (OrdinalMap.values I n) _ it [] r h2 (by rw [OrdinalValues.view_len L h2]; omega)]
  cases initAll init (OrdinalMap.values I n) r with
  | error e => rfl
  | ok p => obtain ⟨o, r'⟩ := p; cases o <;> rfl

open ArrayBuilder in
theorem OrdinalTotalArrayMap.tryNewLoop_view (L : Lawful c I n) (init : K → ρ → R (Except E V × ρ)) :
    ∀ (ks : List K) (fuel : Nat) (it : OrdinalValues) (acc : List V) (r : ρ),
      OrdinalValues.View I n ks it → ks.length < fuel → acc.length + ks.length = n →
      tryNewLoop I init fuel it (holding n acc) r = (do
        match ← initAll init ks r with
        | (.error e, r) => .ok (.error e, r)
        | (.ok vs, r) => .ok (.ok (acc ++ vs), r)) := by
  intro ks
  induction ks with
  | nil =>
    intro fuel it acc r hv hf hl
    obtain ⟨fuel, rfl⟩ : ∃ k, fuel = k + 1 := ⟨fuel - 1, by omega⟩
    obtain ⟨it', h1, _, _⟩ := OrdinalValues.next_view L it [] hv
    simp [tryNewLoop, h1, initAll, finish_full (show acc.length = n by simpa using hl)]
  | cons k ks ih =>
    intro fuel it acc r hv hf hl
    obtain ⟨fuel, rfl⟩ : ∃ k, fuel = k + 1 := ⟨fuel - 1, by omega⟩
    obtain ⟨it', h1, h2, _⟩ := OrdinalValues.next_view L it _ hv
    simp only [List.length_cons] at hl hf
    simp only [tryNewLoop, h1, ok_bind, List.head?_cons, initAll]
    cases hi : init k r with
    | error e => rfl
    | ok p =>
      obtain ⟨o, r'⟩ := p
      cases o with
      | error e => simp [drop_holding]
      | ok v =>
        simp only [ok_bind, push_holding v (show acc.length < n by omega)]
        rw [ih fuel it' (acc ++ [v]) r' h2 (by omega) (by simp; omega)]
        cases ha : initAll init ks r' with
        | error e => rfl
        | ok q =>
          obtain ⟨o, r''⟩ := q
          cases o with
          | error e => rfl
          | ok vs => simp

theorem OrdinalTotalArrayMap.assertS_ok (L : Lawful c I n) : assertS I n = .ok () := by
  simp [assertS, L.size, constAssert]

theorem OrdinalTotalArrayMap.assertS_wrong (L : Lawful c I n) {S : Nat} (h : S ≠ n) :
    assertS I S = .error .compileError := by
  simp [assertS, L.size, constAssert, Ne.symm h]

theorem OrdinalTotalArrayMap.tryNew_eq (L : Lawful c I n) (init : K → ρ → R (Except E V × ρ)) (r : ρ) :
    tryNew I n init r = initAll init (OrdinalMap.values I n) r := by
  obtain ⟨it, h1, h2⟩ := OrdinalValues.new_view L
  simp only [tryNew, assertS_ok L, ok_bind, h1, ArrayBuilder.new_eq]
  rw [tryNewLoop_view L init (OrdinalMap.values I n) _ it [] r h2 (by rw [OrdinalValues.view_len L h2]; omega)
    (by simp [values_length L])]
  cases initAll init (OrdinalMap.values I n) r with
  | error e => rfl
  | ok p => obtain ⟨o, r'⟩ := p; cases o <;> rfl

theorem initAll_infallible (init : K → ρ → R (V × ρ)) : ∀ (ks : List K) (r : ρ),
    initAll (E := Empty) (fun k r => do
      let (v, r) ← init k r
      .ok (.ok v, r)) ks r = (do
        let (vs, r) ← initEach init ks r
        .ok (.ok vs, r)) := by
  intro ks
  induction ks with
  | nil => intro r; rfl
  | cons k ks ih =>
    intro r
    simp only [initAll, initEach]
    cases init k r with
    | error e => rfl
    | ok p =>
      obtain ⟨v, r'⟩ := p
      simp only [ok_bind, ih r']
      cases initEach init ks r' <;> rfl

theorem initEach_length (init : K → ρ → R (V × ρ)) : ∀ (ks : List K) (r r' : ρ) (vs : List V),
    initEach init ks r = .ok (vs, r') → vs.length = ks.length := by
  intro ks
  induction ks with
  | nil => intro r r' vs h; simp [initEach] at h; rw [h.1]; rfl
  | cons k ks ih =>
    intro r r' vs h
    simp only [initEach] at h
    cases hi : init k r with
    | error e => rw [hi] at h; simp at h
    | ok p =>
      obtain ⟨v, r1⟩ := p
      rw [hi] at h
      simp only [ok_bind] at h
      cases ha : initEach init ks r1 with
      | error e => rw [ha] at h; simp at h
      | ok q =>
        obtain ⟨ws, r2⟩ := q
        rw [ha] at h
        simp only [ok_bind, Except.ok.injEq, Prod.mk.injEq] at h
        rw [← h.1]; simp [ih r1 r2 ws ha]

theorem OrdinalTotalMap.new_eq (L : Lawful c I n) {sz : Nat} (hsz : n * sz ≤ 2 ^ (c.bits - 1) - 1)
    (init : K → ρ → R (V × ρ)) (r : ρ) : new c I sz init r = initEach init (OrdinalMap.values I n) r := by
  simp only [new, tryNew_eq L hsz, initAll_infallible]
  cases initEach init (OrdinalMap.values I n) r <;> rfl

theorem OrdinalTotalArrayMap.new_eq (L : Lawful c I n) (init : K → ρ → R (V × ρ)) (r : ρ) :
    new I n init r = initEach init (OrdinalMap.values I n) r := by
  simp only [new, assertS_ok L, ok_bind, tryNew_eq L, initAll_infallible]
  cases initEach init (OrdinalMap.values I n) r <;> rfl

theorem initEach_pure (g : K → V) : ∀ ks : List K,
    initEach (fun k () => .ok (g k, ())) ks () = .ok (ks.map g, ()) := by
  intro ks
  induction ks with
  | nil => rfl
  | cons k ks ih => simp [initEach, ih]

theorem initEach_congr {f g : K → ρ → R (V × ρ)} : ∀ (ks : List K) (r : ρ), (∀ k ∈ ks, f k = g k) →
    initEach f ks r = initEach g ks r := by
  intro ks
  induction ks with
  | nil => intro r _; rfl
  | cons k ks ih =>
    intro r h
    simp only [initEach, h k (by simp)]
    cases g k r with
    | error e => rfl
    | ok p =>
      simp only [ok_bind]
      rw [ih p.2 fun k hk => h k (List.mem_cons_of_mem _ hk)]

theorem OrdinalArrayMap.new_eq (L : Lawful c I n) : OrdinalArrayMap.new V I n = .ok (store I n fun _ => none) := by
  simp only [OrdinalArrayMap.new, OrdinalTotalArrayMap.new_eq L]
  rw [initEach_pure (fun _ => (none : Option V))]
  rfl

/-! ## `map` -/

open ArrayBuilder in
theorem OrdinalTotalArrayMap.mapLoop_view (L : Lawful c I n) (f : K → V → ρ → R (W × ρ)) :
    ∀ (ps : List (K × V)) (fuel : Nat) (it : TotalIntoIterArray V) (acc : List W) (r : ρ),
      LView I n ps it → ps.length < fuel → acc.length + ps.length = n →
      mapLoop c I f fuel it (holding n acc) r = (do
        let (ws, r) ← mapAll f ps r
        .ok (acc ++ ws, r)) := by
  intro ps
  induction ps with
  | nil =>
    intro fuel it acc r hv hf hl
    obtain ⟨fuel, rfl⟩ : ∃ k, fuel = k + 1 := ⟨fuel - 1, by omega⟩
    obtain ⟨it', h1, _⟩ := EView.next L (listIter_views V) it [] hv
    simp [mapLoop, TotalIntoIterArray.next, h1, mapAll, finish_full (show acc.length = n by simpa using hl)]
  | cons p ps ih =>
    intro fuel it acc r hv hf hl
    obtain ⟨k, v⟩ := p
    obtain ⟨fuel, rfl⟩ : ∃ k, fuel = k + 1 := ⟨fuel - 1, by omega⟩
    obtain ⟨it', h1, h2⟩ := EView.next L (listIter_views V) it _ hv
    simp only [List.length_cons] at hl hf
    simp only [mapLoop, TotalIntoIterArray.next, h1, ok_bind, List.head?_cons, mapAll]
    cases f k v r with
    | error e => rfl
    | ok q =>
      obtain ⟨w, r'⟩ := q
      simp only [ok_bind, push_holding w (show acc.length < n by omega)]
      rw [ih fuel it' (acc ++ [w]) r' h2 (by omega) (by simp; omega)]
      cases mapAll f ps r' with
      | error e => rfl
      | ok q => simp

theorem OrdinalTotalArrayMap.map_eq (L : Lawful c I n) (m : K → V) (f : K → V → ρ → R (W × ρ)) (r : ρ) :
    OrdinalTotalArrayMap.map c I n (store I n m) f r = mapAll f (pairsT I n m) r := by
  have hv := fresh_view L m
  have hl : (pairsT I n m).length = n := by simp [pairsT, values_length L]
  simp only [OrdinalTotalArrayMap.map, OrdinalTotalArrayMap.intoIter, TotalIntoIterArray.new, ArrayBuilder.new_eq]
  rw [mapLoop_view L f _ _ _ [] r hv (by rw [TotalIntoIterArray.len, hv.len (listIter_views V)]; omega)
    (by simp [hl])]
  cases mapAll f (pairsT I n m) r <;> rfl

theorem mapAll_length (f : K → V → ρ → R (W × ρ)) : ∀ (ps : List (K × V)) (r r' : ρ) (ws : List W),
    mapAll f ps r = .ok (ws, r') → ws.length = ps.length := by
  intro ps
  induction ps with
  | nil => intro r r' vs h; simp [mapAll] at h; rw [h.1]; rfl
  | cons p ps ih =>
    intro r r' vs h
    obtain ⟨k, v⟩ := p
    simp only [mapAll] at h
    cases hi : f k v r with
    | error e => rw [hi] at h; simp at h
    | ok q =>
      obtain ⟨w, r1⟩ := q
      rw [hi] at h
      simp only [ok_bind] at h
      cases ha : mapAll f ps r1 with
      | error e => rw [ha] at h; simp at h
      | ok q =>
        obtain ⟨ws, r2⟩ := q
        rw [ha] at h
        simp only [ok_bind, Except.ok.injEq, Prod.mk.injEq] at h
        rw [← h.1]; simp [ih r1 r2 ws ha]

/-! ## `from_iter` -/

section
variable [DecidableEq K] {b : Bool}

/-- A map after inserting pairs one by one. -/
def inserted (m : K → Option V) (ps : List (K × V)) : K → Option V :=
  ps.foldl (fun m p => upd m p.1 (some p.2)) m

theorem inserted_eq (m : K → Option V) (ps : List (K × V)) (k : K) :
    inserted m ps k = (lastValue ps k).or (m k) := by
  induction ps generalizing m with
  | nil => simp [inserted, lastValue]
  | cons p ps ih =>
    have : inserted m (p :: ps) = inserted (upd m p.1 (some p.2)) ps := rfl
    rw [this, ih]
    simp only [lastValue, List.reverse_cons, List.find?_append]
    cases ps.reverse.find? fun q => q.1 = k with
    | some q => simp
    | none =>
      by_cases e : p.1 = k
      · simp [e, upd]
      · have e' : ¬ k = p.1 := fun h => e h.symm
        simp [e, upd, e']

theorem OMap.insert_eq (L : Lawful c I n) {sz : Nat} (hsz : n * sz ≤ 2 ^ (c.bits - 1) - 1)
    {m : K → Option V} {s : OMap V} (h : Stored I n b m s) (k : K) (v : V) :
    OMap.insert c I sz s k v = .ok (m k, store I n (upd m k (some v))) := by
  simp only [OMap.insert, OMap.initFullMap_eq L hsz h k, L.ordinal_eq, ok_bind, getIdx_store L,
    setIdx_store L, updT_eq_upd]

theorem OMap.extendLoop_eq (L : Lawful c I n) {sz : Nat} (hsz : n * sz ≤ 2 ^ (c.bits - 1) - 1) :
    ∀ (ps : List (K × V)) (b : Bool) (m : K → Option V) (s : OMap V), Stored I n b m s →
      ∃ s', OMap.extendLoop c I sz s ps = .ok s' ∧ Stored I n (b || !ps.isEmpty) (inserted m ps) s' := by
  intro ps
  induction ps with
  | nil => intro b m s h; exact ⟨s, rfl, by simpa [inserted] using h⟩
  | cons p ps ih =>
    intro b m s h
    obtain ⟨k, v⟩ := p
    obtain ⟨s', h1, h2⟩ := ih true (upd m k (some v)) _ (.inl ⟨rfl, rfl⟩)
    refine ⟨s', by simp only [OMap.extendLoop, OMap.insert_eq L hsz h k v, ok_bind, h1], ?_⟩
    simpa [inserted] using h2

theorem OrdinalArrayMap.insert_eq (L : Lawful c I n) (m : K → Option V) (k : K) (v : V) :
    OrdinalArrayMap.insert I (store I n m) k v = .ok (m k, store I n (upd m k (some v))) := by
  simp only [OrdinalArrayMap.insert, OrdinalTotalArrayMap.getMut, L.ordinal_eq, ok_bind,
    slotOf_store L, readSlot_store L, writeSlot_store L, updT_eq_upd]

theorem OrdinalArrayMap.extendLoop_eq (L : Lawful c I n) : ∀ (ps : List (K × V)) (m : K → Option V),
    OrdinalArrayMap.extendLoop I (store I n m) ps = .ok (store I n (inserted m ps)) := by
  intro ps
  induction ps with
  | nil => intro m; rfl
  | cons p ps ih =>
    intro m
    obtain ⟨k, v⟩ := p
    simp only [OrdinalArrayMap.extendLoop, OrdinalArrayMap.insert_eq L, ok_bind, ih]
    rfl

/-! ## `retain` -/

theorem OrdinalArrayMap.retainLoop_view (L : Lawful c I n) (f : K → V → ρ → R (Bool × V × ρ)) :
    ∀ (ps : List (K × Nat)) (fuel : Nat) (m : K → Option V) (it : Enumerate Range) (r : ρ),
      MV I n ps it → ps.length < fuel →
      OrdinalArrayMap.retainLoop c I f fuel ⟨store I n m, it⟩ r = (do
        let (m', r') ← retainSpec f (ps.map (·.1)) m r
        .ok (store I n m', r')) := by
  intro ps
  induction ps with
  | nil =>
    intro fuel m it r hv hf
    obtain ⟨fuel, rfl⟩ : ∃ k, fuel = k + 1 := ⟨fuel - 1, by omega⟩
    obtain ⟨it', h1, _⟩ := MV.next L it [] hv
    simp [OrdinalArrayMap.retainLoop, TotalIterMut.next, h1, retainSpec]
  | cons p ps ih =>
    intro fuel m it r hv hf
    obtain ⟨k, slot⟩ := p
    obtain rfl : slot = ordOf I k := hv.2 (k, slot) (by simp)
    obtain ⟨fuel, rfl⟩ : ∃ k, fuel = k + 1 := ⟨fuel - 1, by omega⟩
    obtain ⟨it', h1, h2⟩ := MV.next L it _ hv
    simp only [List.length_cons] at hf
    simp only [OrdinalArrayMap.retainLoop, TotalIterMut.next, h1, ok_bind, List.head?_cons, readSlot_store L,
      List.map_cons, retainSpec]
    cases hm : m k with
    | none => exact ih fuel m it' r h2 (by omega)
    | some v =>
      simp only
      cases f k v r with
      | error e => rfl
      | ok q =>
        obtain ⟨kp, v', r'⟩ := q
        have hs : (m k).isSome := by rw [hm]; rfl
        simp only [ok_bind, writeSome_store L m v' hs]
        cases kp with
        | true =>
          simp only [if_true]
          exact ih fuel _ it' r' h2 (by omega)
        | false =>
          simp only [Bool.false_eq_true, if_false, writeSlot_store L, ok_bind, updT_eq_upd, upd_upd]
          exact ih fuel _ it' r' h2 (by omega)

theorem OrdinalArrayMap.retain_eq (L : Lawful c I n) (m : K → Option V)
    (f : K → V → ρ → R (Bool × V × ρ)) (r : ρ) :
    OrdinalArrayMap.retain c I (store I n m) f r = (do
      let (m', r') ← retainSpec f (OrdinalMap.values I n) m r
      .ok (store I n m', r')) := by
  have hv := fresh_mv L
  have e : (slots I n).map (·.1) = OrdinalMap.values I n := by simp [slots, Function.comp_def]
  have hl : (slots I n).length = n := by simp [slots, values_length L]
  simp only [OrdinalArrayMap.retain, OrdinalArrayMap.iterMut, OrdinalTotalArrayMap.iterMut, TotalIterMut.new,
    store_length L]
  rw [OrdinalArrayMap.retainLoop_view L f (slots I n) _ m _ r hv (by
    rw [TotalIterMut.len, MV.len hv]; omega), e]

/-! ## Reachable maps -/

theorem runSpec_alloc (ops : List (MapOp K V)) (m : K → Option V) (b : Bool) :
    runSpec (specAlloc I n) (m, b) ops =
      ((runSpec (MapSpec.step I n) m ops).1, ((runSpec (MapSpec.step I n) m ops).2,
        b || ops.any MapOp.allocates)) := by
  induction ops generalizing m b with
  | nil => simp [runSpec]
  | cons op ops ih => simp [runSpec, specAlloc, ih, Bool.or_assoc]

theorem OMap.runs (L : Lawful c I n) {sz : Nat} (hsz : n * sz ≤ 2 ^ (c.bits - 1) - 1)
    {m : K → Option V} {s : OMap V} (h : Stored I n b m s) (ops : List (MapOp K V)) :
    ∃ s', runOps (OMap.step c I sz) s ops = .ok ((runSpec (MapSpec.step I n) m ops).1, s') ∧
      Stored I n (b || ops.any MapOp.allocates) (runSpec (MapSpec.step I n) m ops).2 s' := by
  have := runsLike_of (step := OMap.step c I sz) (spec := specAlloc I n)
    (fun p s => Stored I n p.2 p.1 s) (OMap.step_rel L hsz) (m := (m, b)) h ops
  rw [runSpec_alloc] at this
  exact this

theorem OMap.runs_new (L : Lawful c I n) {sz : Nat} (hsz : n * sz ≤ 2 ^ (c.bits - 1) - 1)
    (ops : List (MapOp K V)) :
    ∃ s', runOps (OMap.step c I sz) (OMap.new V) ops =
        .ok ((runSpec (MapSpec.step I n) (fun _ => none) ops).1, s') ∧
      Stored I n (ops.any MapOp.allocates) (runSpec (MapSpec.step I n) (fun _ => none) ops).2 s' := by
  simpa using OMap.runs L hsz (b := false) (m := fun _ => none) (s := OMap.new V) (.inr ⟨rfl, rfl, rfl⟩) ops

theorem OrdinalArrayMap.runs (L : Lawful c I n) (m : K → Option V) :
    RunsLike (OrdinalArrayMap.step c I) (MapSpec.step I n) (store I n m) m
      (fun m s => s = store I n m) :=
  runsLike_of (fun m s => s = store I n m) (OrdinalArrayMap.step_rel L) rfl

omit [DecidableEq K] in
theorem OMap.get_eq (L : Lawful c I n) {m : K → Option V} {s : OMap V} (h : Stored I n b m s) (k : K) :
    OMap.get I s k = .ok (m k) := by
  simp only [OMap.get, L.ordinal_eq, ok_bind, h.get L k]
  rcases h with ⟨rfl, rfl⟩ | ⟨rfl, rfl, rfl⟩ <;> rfl

omit [DecidableEq K] in
theorem OrdinalArrayMap.get_eq (L : Lawful c I n) (m : K → Option V) (k : K) :
    OrdinalArrayMap.get I (store I n m) k = .ok (m k) := by
  simp only [OrdinalArrayMap.get, OrdinalTotalArrayMap.get, L.ordinal_eq, ok_bind, getIdx_store L]

omit [DecidableEq K] in
theorem OMap.containsKey_eq (L : Lawful c I n) {m : K → Option V} {s : OMap V} (h : Stored I n b m s) (k : K) :
    OMap.containsKey I s k = .ok b := by
  simp only [OMap.containsKey, L.ordinal_eq, ok_bind, h.get L k]
  cases b <;> rfl

omit [DecidableEq K] in
theorem pairs_length (m : K → Option V) :
    (pairs I n m).length = ((OrdinalMap.values I n).filter fun k => (m k).isSome).length := by
  simp only [pairs]
  induction OrdinalMap.values I n with
  | nil => rfl
  | cons k ks ih =>
    cases h : m k with
    | none => simp [h, ih]
    | some v => simp [h, ih]

/-! ## The ideal mutable iterator -/

theorem MutSpec.inv (m : K → Option V) (ks : List K) (hks : ∀ k ∈ ks, (m k).isSome) :
    ∀ steps : List (MutStep V),
      let s := (runSpec MutSpec.step (⟨ks, [], m⟩ : MutSpec K V) steps).2
      (s.handed ++ s.rest).Perm ks ∧ (∀ k, (s.map k).isSome = (m k).isSome) ∧
        ∀ k, k ∉ s.handed → s.map k = m k := by
  have key : ∀ (steps : List (MutStep V)) (s0 : MutSpec K V),
      (s0.handed ++ s0.rest).Perm ks → (∀ k, (s0.map k).isSome = (m k).isSome) →
      (∀ k, k ∉ s0.handed → s0.map k = m k) →
      let s := (runSpec MutSpec.step s0 steps).2
      (s.handed ++ s.rest).Perm ks ∧ (∀ k, (s.map k).isSome = (m k).isSome) ∧
        ∀ k, k ∉ s.handed → s.map k = m k := by
    intro steps
    induction steps with
    | nil => intro s0 h1 h2 h3; exact ⟨h1, h2, h3⟩
    | cons op ops ih =>
      intro s0 h1 h2 h3
      obtain ⟨rest, handed, mp⟩ := s0
      have e : (runSpec MutSpec.step ⟨rest, handed, mp⟩ (op :: ops)).2 =
        (runSpec MutSpec.step (MutSpec.step ⟨rest, handed, mp⟩ op).2 ops).2 := rfl
      rw [e]
      simp only at h1 h2 h3
      cases op with
      | front =>
        cases rest with
        | nil => exact ih _ h1 h2 h3
        | cons k rest =>
          refine ih _ ?_ h2 ?_
          · simpa [MutSpec.step] using h1
          · intro k' hk'; simp only [MutSpec.step, List.mem_append, not_or] at hk'; exact h3 k' hk'.1
      | back =>
        simp only [MutSpec.step]
        cases hl : rest.getLast? with
        | none => exact ih _ h1 h2 h3
        | some k =>
          refine ih _ ?_ h2 ?_
          · refine List.Perm.trans ?_ h1
            obtain ⟨ks', rfl⟩ := List.getLast?_eq_some_iff.1 hl
            simp only [List.append_assoc, List.dropLast_concat]
            exact List.Perm.append_left _ List.perm_append_comm
          · intro k' hk'; simp only [List.mem_append, not_or] at hk'; exact h3 k' hk'.1
      | write j v =>
        simp only [MutSpec.step]
        cases hj : handed[j]? with
        | none => exact ih _ h1 h2 h3
        | some k =>
          have hm : k ∈ handed := List.mem_of_getElem? hj
          refine ih _ h1 ?_ ?_
          · intro k'
            simp only [upd]
            split
            · subst_vars
              have : k' ∈ ks := h1.subset (List.mem_append_left _ hm)
              simp [hks _ this]
            · exact h2 k'
          · intro k' hk'
            simp only [upd]
            rw [if_neg (fun e : k' = k => hk' (e ▸ hm))]
            exact h3 k' hk'
  intro steps
  exact key steps _ (by simp) (fun _ => rfl) (fun _ _ => rfl)

end

end OrdinalMap
