import Verif.Lemmas.MapMore
import Verif.Lemmas.Leaf
import Verif.Props.Values
import Verif.Props.Set
/-!
# C39–C45: total maps

`RunsLike` and `TotalSpec.step` are in SpecMap.lean: a total map is a function from keys to values.
For `OrdinalTotalMap`, `sz` is `size_of::<V>()`; the hypothesis `n * sz ≤ 2^(bits-1) - 1` says that
the storage fits in `isize::MAX` bytes.  A `[V; S]` is a list of length `S`.
-/

namespace OrdinalMap.Props
open OrdinalMap

variable {K V W E ρ : Type} {c : Cfg} {I : OrdinalImpl K} {n : Nat}

/-! ## Construction -/

/-- `get` finds at the `i`-th key the `i`-th value. -/
def Holds (I : OrdinalImpl K) (n : Nat) (get : K → R V) (vs : List V) : Prop :=
  ∀ (i : Nat) k, (values I n)[i]? = some k → ∃ v, vs[i]? = some v ∧ get k = .ok v

theorem holds_of (L : Lawful c I n) {get : List V → K → R V}
    (hget : ∀ (m : K → V) (k : K), get (store I n m) k = .ok (m k)) {vs : List V} (h : vs.length = n) :
    Holds I n (get vs) vs := by
  obtain ⟨m, rfl⟩ := exists_store L vs h
  intro i k hk
  exact ⟨m k, by simp [hk], hget m k⟩

theorem OrdinalTotalMap_get (L : Lawful c I n) (m : K → V) (k : K) :
    OrdinalTotalMap.get I (store I n m) k = .ok (m k) := by
  simp only [OrdinalTotalMap.get, L.ordinal_eq, ok_bind, getIdx_store L]

theorem OrdinalTotalArrayMap_get (L : Lawful c I n) (m : K → V) (k : K) :
    OrdinalTotalArrayMap.get I (store I n m) k = .ok (m k) := by
  simp only [OrdinalTotalArrayMap.get, L.ordinal_eq, ok_bind, getIdx_store L]

/-- What a `try_new` must do for the initialiser `init` in state `r`: run `init` on the keys in
ordinal order until the first error. -/
def TryNewGood (I : OrdinalImpl K) (n : Nat) (get : List V → K → R V) (init : K → ρ → R (Except E V × ρ)) (r : ρ)
    (res : R (Except E (List V) × ρ)) : Prop :=
  (∀ f, initAll init (values I n) r = .error f → res = .error f) ∧
  (∀ e r', initAll init (values I n) r = .ok (.error e, r') → res = .ok (.error e, r')) ∧
  ∀ vs r', initAll init (values I n) r = .ok (.ok vs, r') →
    ∃ s, res = .ok (.ok s, r') ∧ Holds I n (get s) vs

/-- What a `new` must do. -/
def NewGood (I : OrdinalImpl K) (n : Nat) (get : List V → K → R V) (init : K → ρ → R (V × ρ)) (r : ρ)
    (res : R (List V × ρ)) : Prop :=
  (∀ f, initEach init (values I n) r = .error f → res = .error f) ∧
  ∀ vs r', initEach init (values I n) r = .ok (vs, r') → ∃ s, res = .ok (s, r') ∧ Holds I n (get s) vs

/-- C39 for `OrdinalTotalMap`. -/
theorem C39_total_map (L : Lawful c I n) {sz : Nat} (hsz : n * sz ≤ 2 ^ (c.bits - 1) - 1) (r : ρ) :
    (∀ init : K → ρ → R (Except E V × ρ),
      TryNewGood I n (OrdinalTotalMap.get I) init r (OrdinalTotalMap.tryNew c I sz init r)) ∧
    (∀ init : K → ρ → R (V × ρ),
      NewGood I n (OrdinalTotalMap.get I) init r (OrdinalTotalMap.new c I sz init r)) ∧
    ∀ dflt : ρ → R (V × ρ),
      NewGood I n (OrdinalTotalMap.get I) (fun _ => dflt) r (OrdinalTotalMap.default c I sz dflt r) := by
  have hnew : ∀ init : K → ρ → R (V × ρ),
      NewGood I n (OrdinalTotalMap.get I) init r (OrdinalTotalMap.new c I sz init r) := by
    intro init
    rw [OrdinalTotalMap.new_eq L hsz]
    refine ⟨fun _ h => h, fun vs r' h => ⟨vs, h, holds_of L (OrdinalTotalMap_get L) ?_⟩⟩
    rw [initEach_length init _ _ _ _ h, values_length L]
  refine ⟨fun init => ?_, hnew, fun dflt => hnew _⟩
  rw [OrdinalTotalMap.tryNew_eq L hsz]
  refine ⟨fun _ h => h, fun _ _ h => h, fun vs r' h => ⟨vs, h, holds_of L (OrdinalTotalMap_get L) ?_⟩⟩
  rw [initAll_length init _ _ _ _ h, values_length L]

example := C39_total_map (V := Nat) (E := String) (ordering_lawful debug64).1 (sz := 4) (by decide) (0 : Nat)

/-- C39 for `OrdinalTotalArrayMap` with the right `S`. -/
theorem C39_total_array_map (L : Lawful c I n) (r : ρ) :
    (∀ init : K → ρ → R (Except E V × ρ),
      TryNewGood I n (OrdinalTotalArrayMap.get I) init r (OrdinalTotalArrayMap.tryNew I n init r)) ∧
    (∀ init : K → ρ → R (V × ρ),
      NewGood I n (OrdinalTotalArrayMap.get I) init r (OrdinalTotalArrayMap.new I n init r)) ∧
    ∀ dflt : ρ → R (V × ρ),
      NewGood I n (OrdinalTotalArrayMap.get I) (fun _ => dflt) r (OrdinalTotalArrayMap.default I n dflt r) := by
  have hnew : ∀ init : K → ρ → R (V × ρ),
      NewGood I n (OrdinalTotalArrayMap.get I) init r (OrdinalTotalArrayMap.new I n init r) := by
    intro init
    rw [OrdinalTotalArrayMap.new_eq L]
    refine ⟨fun _ h => h, fun vs r' h => ⟨vs, h, holds_of L (OrdinalTotalArrayMap_get L) ?_⟩⟩
    rw [initEach_length init _ _ _ _ h, values_length L]
  refine ⟨fun init => ?_, hnew, fun dflt => hnew _⟩
  rw [OrdinalTotalArrayMap.tryNew_eq L]
  refine ⟨fun _ h => h, fun _ _ h => h, fun vs r' h => ⟨vs, h, holds_of L (OrdinalTotalArrayMap_get L) ?_⟩⟩
  rw [initAll_length init _ _ _ _ h, values_length L]

example := C39_total_array_map (V := Nat) (E := String) (ordering_lawful debug64).1 (0 : Nat)

/-- C39: what `initAll` does, seen by an initialiser that records its calls.  If all of `ks` are fine
it is called on all of them; otherwise on the keys up to and including the first bad one. -/
theorem C39_spec_meaning (g : K → Except E V) (calls : List K) (ks : List K) :
    (∀ vs, ks.map g = vs.map .ok →
      initAll (fun k calls => .ok (g k, calls ++ [k])) ks calls = .ok (.ok vs, calls ++ ks)) ∧
    ∀ before k after e, ks = before ++ k :: after → (∀ k' ∈ before, ∃ v, g k' = .ok v) → g k = .error e →
      initAll (fun k calls => .ok (g k, calls ++ [k])) ks calls =
        .ok (.error e, calls ++ before ++ [k]) := by
  constructor
  · induction ks generalizing calls with
    | nil => intro vs h; cases vs <;> simp_all [initAll]
    | cons a ks ih =>
      intro vs h
      cases vs with
      | nil => simp at h
      | cons v vs =>
        simp only [List.map_cons, List.cons.injEq] at h
        have := ih (calls ++ [a]) vs h.2
        simp [initAll, h.1, this]
  · intro before
    induction before generalizing calls ks with
    | nil =>
      rintro k after e rfl _ h
      simp [initAll, h]
    | cons a before ih =>
      rintro k after e rfl hb h
      obtain ⟨v, hv⟩ := hb a (by simp)
      have := ih (calls ++ [a]) _ k after e rfl (fun k' hk' => hb k' (by simp [hk'])) h
      simp [initAll, hv, this]

example := C39_spec_meaning (fun b => if b then Except.error "no" else .ok 5) [] [false, true, false]

/-- C39, the size limit of `OrdinalTotalMap` is sharp: beyond it construction panics before the first
call of `init` (capacity overflow). -/
theorem C39_limit (L : Lawful c I n) {sz : Nat} (hsz : 2 ^ (c.bits - 1) - 1 < n * sz)
    (init : K → ρ → R (Except E V × ρ)) (r : ρ) :
    OrdinalTotalMap.tryNew c I sz init r = .error .panic := by
  have : ¬ n * sz ≤ 2 ^ (c.bits - 1) - 1 := by omega
  simp [OrdinalTotalMap.tryNew, withCapacity, L.size, this]

example := C39_limit (u8_lawful debug32).1 (sz := 2 ^ 30) (by decide)
  (fun _ r => .ok ((.ok 7 : Except String Nat), r)) (0 : Nat)

/-! ## Histories and iterators -/

/-- How the `new`/`try_new`/`default` constructors produce an `OrdinalTotalMap`. -/
inductive MadeTotal (c : Cfg) (I : OrdinalImpl K) (sz : Nat) : OrdinalTotalMap V → Prop
  | tryNew {ρ E : Type} (init : K → ρ → R (Except E V × ρ)) (r r' : ρ) {s : OrdinalTotalMap V}
      (h : OrdinalTotalMap.tryNew c I sz init r = .ok (.ok s, r')) : MadeTotal c I sz s
  | new {ρ : Type} (init : K → ρ → R (V × ρ)) (r r' : ρ) {s : OrdinalTotalMap V}
      (h : OrdinalTotalMap.new c I sz init r = .ok (s, r')) : MadeTotal c I sz s
  | default {ρ : Type} (dflt : ρ → R (V × ρ)) (r r' : ρ) {s : OrdinalTotalMap V}
      (h : OrdinalTotalMap.default c I sz dflt r = .ok (s, r')) : MadeTotal c I sz s

/-- How the constructors other than `from_array` produce an `OrdinalTotalArrayMap`. -/
inductive MadeArray (I : OrdinalImpl K) (S : Nat) : OrdinalTotalArrayMap V → Prop
  | tryNew {ρ E : Type} (init : K → ρ → R (Except E V × ρ)) (r r' : ρ) {s : OrdinalTotalArrayMap V}
      (h : OrdinalTotalArrayMap.tryNew I S init r = .ok (.ok s, r')) : MadeArray I S s
  | new {ρ : Type} (init : K → ρ → R (V × ρ)) (r r' : ρ) {s : OrdinalTotalArrayMap V}
      (h : OrdinalTotalArrayMap.new I S init r = .ok (s, r')) : MadeArray I S s
  | default {ρ : Type} (dflt : ρ → R (V × ρ)) (r r' : ρ) {s : OrdinalTotalArrayMap V}
      (h : OrdinalTotalArrayMap.default I S dflt r = .ok (s, r')) : MadeArray I S s

theorem madeTotal_length (L : Lawful c I n) {sz : Nat} {s : OrdinalTotalMap V} (h : MadeTotal c I sz s) :
    s.length = n := by
  have cap : ∀ {ρ E : Type} (init : K → ρ → R (Except E V × ρ)) (r : ρ) (x),
      OrdinalTotalMap.tryNew c I sz init r = .ok x → n * sz ≤ 2 ^ (c.bits - 1) - 1 := by
    intro ρ E init r x h
    by_cases hs : n * sz ≤ 2 ^ (c.bits - 1) - 1
    · exact hs
    · rw [C39_limit L (by omega)] at h; cases h
  have hnew : ∀ {ρ : Type} (init : K → ρ → R (V × ρ)) (r r' : ρ) (s : OrdinalTotalMap V),
      OrdinalTotalMap.new c I sz init r = .ok (s, r') → s.length = n := by
    intro ρ init r r' s h
    have hs : n * sz ≤ 2 ^ (c.bits - 1) - 1 := by
      by_cases hs : n * sz ≤ 2 ^ (c.bits - 1) - 1
      · exact hs
      · simp [OrdinalTotalMap.new, C39_limit L (Nat.lt_of_not_le hs)] at h
    rw [OrdinalTotalMap.new_eq L hs] at h
    rw [initEach_length init _ _ _ _ h, values_length L]
  cases h with
  | tryNew init r r' h =>
    rw [OrdinalTotalMap.tryNew_eq L (cap _ _ _ h)] at h
    rw [initAll_length init _ _ _ _ h, values_length L]
  | new init r r' h => exact hnew _ _ _ _ h
  | default dflt r r' h => exact hnew _ _ _ _ h

theorem madeArray_length (L : Lawful c I n) {S : Nat} {s : OrdinalTotalArrayMap V} (h : MadeArray I S s) :
    S = n ∧ s.length = n := by
  have hS : S = n := by
    refine Classical.byContradiction fun hS => ?_
    have ha := OrdinalTotalArrayMap.assertS_wrong L hS
    cases h with
    | tryNew init r r' h => simp [OrdinalTotalArrayMap.tryNew, ha] at h
    | new init r r' h => simp [OrdinalTotalArrayMap.new, ha] at h
    | default dflt r r' h => simp [OrdinalTotalArrayMap.default, OrdinalTotalArrayMap.new, ha] at h
  subst hS
  refine ⟨rfl, ?_⟩
  cases h with
  | tryNew init r r' h =>
    rw [OrdinalTotalArrayMap.tryNew_eq L] at h
    rw [initAll_length init _ _ _ _ h, values_length L]
  | new init r r' h =>
    rw [OrdinalTotalArrayMap.new_eq L] at h
    rw [initEach_length init _ _ _ _ h, values_length L]
  | default dflt r r' h =>
    rw [OrdinalTotalArrayMap.default, OrdinalTotalArrayMap.new_eq L] at h
    rw [initEach_length _ _ _ _ _ h, values_length L]

theorem totalMap_runs [DecidableEq K] (L : Lawful c I n) (m : K → V) :
    RunsLike (OrdinalTotalMap.step c I) (TotalSpec.step I n) (store I n m) m (fun m s => s = store I n m) :=
  runsLike_of (fun m s => s = store I n m) (OrdinalTotalMap.step_rel L) rfl

theorem totalArrayMap_runs [DecidableEq K] (L : Lawful c I n) (m : K → V) :
    RunsLike (OrdinalTotalArrayMap.step c I n) (TotalSpec.step I n) (store I n m) m
      (fun m s => s = store I n m) :=
  runsLike_of (fun m s => s = store I n m) (OrdinalTotalArrayMap.step_rel L) rfl

/-- C40 for `OrdinalTotalMap`: every constructed map behaves like a total function under every
history. -/
theorem C40_total_map [DecidableEq K] (L : Lawful c I n) {sz : Nat} {s : OrdinalTotalMap V}
    (h : MadeTotal c I sz s) :
    ∃ m : K → V, RunsLike (OrdinalTotalMap.step c I) (TotalSpec.step I n) s m (fun m s =>
      (∀ k, OrdinalTotalMap.get I s k = .ok (m k)) ∧ OrdinalTotalMap.len I s = .ok n) := by
  obtain ⟨m, rfl⟩ := exists_store L s (madeTotal_length L h)
  refine ⟨m, (totalMap_runs L m).mono ?_⟩
  rintro m s rfl
  exact ⟨OrdinalTotalMap_get L m, L.size⟩

example := C40_total_map (ordering_lawful debug64).1
  (.new (fun _ r => .ok (r * 10, r + 1)) 1 4 rfl : MadeTotal debug64 orderingImpl 4 [10, 20, 30])

/-- C40 for `OrdinalTotalArrayMap`. -/
theorem C40_total_array_map [DecidableEq K] (L : Lawful c I n) {S : Nat} {s : OrdinalTotalArrayMap V}
    (h : MadeArray I S s) :
    ∃ m : K → V, RunsLike (OrdinalTotalArrayMap.step c I S) (TotalSpec.step I n) s m (fun m s =>
      (∀ k, OrdinalTotalArrayMap.get I s k = .ok (m k)) ∧ OrdinalTotalArrayMap.len S s = n) := by
  obtain ⟨rfl, hl⟩ := madeArray_length L h
  obtain ⟨m, rfl⟩ := exists_store L s hl
  refine ⟨m, (totalArrayMap_runs L m).mono ?_⟩
  rintro m s rfl
  exact ⟨OrdinalTotalArrayMap_get L m, rfl⟩

example := C40_total_array_map (ordering_lawful debug64).1
  (.new (fun _ r => .ok (r * 10, r + 1)) 1 4 rfl : MadeArray orderingImpl 3 [10, 20, 30])

/-- What the iterators common to both total maps must do on a map that represents `m`. -/
def TotalIterGood [DecidableEq K] (c : Cfg) (I : OrdinalImpl K) (n : Nat) (get : List V → K → R V) (m : K → V)
    (iter : TotalIter V) (keys intoKeys : R OrdinalValues) (vals intoVals : List V) (iterMut : TotalIterMut V) :
    Prop :=
  BehavesLike (TotalIter.it c I) iter (pairsT I n m) (fun rest s => TotalIter.len s = rest.length) ∧
  (∃ it, keys = .ok it ∧ BehavesLike (OrdinalValues.iter I) it (values I n)
    (fun rest s => OrdinalValues.len s = rest.length)) ∧
  (∃ it, intoKeys = .ok it ∧ BehavesLike (OrdinalValues.iter I) it (values I n)
    (fun rest s => OrdinalValues.len s = rest.length)) ∧
  BehavesLike (listIter V).it vals ((values I n).map m) (fun rest s => (listIter V).len s = rest.length) ∧
  BehavesLike (listIter V).it intoVals ((values I n).map m) (fun rest s => (listIter V).len s = rest.length) ∧
  RunsLike (MutClientT.step c I) MutSpec.step ⟨iterMut, []⟩ ⟨values I n, [], fun k => some (m k)⟩
    (fun sp s => (∀ k v, sp.map k = some v → get s.it.mem k = .ok v) ∧
      TotalIterMut.len s.it = sp.rest.length)

theorem totalIterGood_of [DecidableEq K] (L : Lawful c I n) {get : List V → K → R V}
    (hget : ∀ (m : K → V) (k : K), get (store I n m) k = .ok (m k)) (m : K → V) :
    TotalIterGood c I n get m (TotalIter.new (store I n m) 0) (OrdinalValues.new I) (OrdinalValues.new I)
      (store I n m) (store I n m) (TotalIterMut.new (store I n m)) := by
  obtain ⟨v, h1, h2⟩ := OrdinalValues.new_view L
  refine ⟨(TotalIter.behaves L (fresh_view L m)).mono fun rest s h => h.len (listIter_views V),
    ⟨v, h1, (OrdinalValues.behaves L h2).mono fun rest s h => OrdinalValues.view_len L h⟩,
    ⟨v, h1, (OrdinalValues.behaves L h2).mono fun rest s h => OrdinalValues.view_len L h⟩,
    (std_behaves (listIter_views V) rfl).mono ?_, (std_behaves (listIter_views V) rfl).mono ?_,
    (TRel.runs L m).mono ?_⟩
  · rintro rest s rfl; rfl
  · rintro rest s rfl; rfl
  · rintro sp s ⟨ps, m', h3, h4, h5, h6, h7⟩
    refine ⟨fun k v hk => ?_, ?_⟩
    · rw [h7] at hk; simp only [Option.some.injEq] at hk
      rw [h6, hget, hk]
    · rw [TotalIterMut.len, h3.len, h4, List.length_map]

/-- C41 for `OrdinalTotalMap`: iteration over every reachable map. -/
theorem C41_total_map [DecidableEq K] (L : Lawful c I n) {sz : Nat} {s : OrdinalTotalMap V}
    (h : MadeTotal c I sz s) :
    ∃ m : K → V, RunsLike (OrdinalTotalMap.step c I) (TotalSpec.step I n) s m (fun m s =>
      TotalIterGood c I n (OrdinalTotalMap.get I) m (OrdinalTotalMap.iter s) (OrdinalTotalMap.keys I s)
        (OrdinalTotalMap.intoKeys I s) (OrdinalTotalMap.values s) (OrdinalTotalMap.intoValues s)
        (OrdinalTotalMap.iterMut s) ∧
      BehavesLike (TotalIntoIter.it c I) (OrdinalTotalMap.intoIter s) (pairsT I n m)
        (fun rest s => TotalIntoIter.len s = rest.length)) := by
  obtain ⟨m, rfl⟩ := exists_store L s (madeTotal_length L h)
  refine ⟨m, (totalMap_runs L m).mono ?_⟩
  rintro m s rfl
  exact ⟨totalIterGood_of L (OrdinalTotalMap_get L) m,
    (TotalIntoIter.behaves L (fresh_view L m)).mono fun rest s h => h.len (listIter_views V)⟩

example := C41_total_map (ordering_lawful debug64).1
  (.new (fun _ r => .ok (r * 10, r + 1)) 1 4 rfl : MadeTotal debug64 orderingImpl 4 [10, 20, 30])

/-- C41 for `OrdinalTotalArrayMap`. -/
theorem C41_total_array_map [DecidableEq K] (L : Lawful c I n) {S : Nat} {s : OrdinalTotalArrayMap V}
    (h : MadeArray I S s) :
    ∃ m : K → V, RunsLike (OrdinalTotalArrayMap.step c I S) (TotalSpec.step I n) s m (fun m s =>
      TotalIterGood c I n (OrdinalTotalArrayMap.get I) m (OrdinalTotalArrayMap.iter s)
        (OrdinalTotalArrayMap.keys I s) (OrdinalTotalArrayMap.intoKeys I s) (OrdinalTotalArrayMap.values s)
        (OrdinalTotalArrayMap.intoValues s) (OrdinalTotalArrayMap.iterMut s) ∧
      BehavesLike (TotalIntoIterArray.it c I) (OrdinalTotalArrayMap.intoIter s) (pairsT I n m)
        (fun rest s => TotalIntoIterArray.len s = rest.length)) := by
  obtain ⟨rfl, hl⟩ := madeArray_length L h
  obtain ⟨m, rfl⟩ := exists_store L s hl
  refine ⟨m, (totalArrayMap_runs L m).mono ?_⟩
  rintro m s rfl
  exact ⟨totalIterGood_of L (OrdinalTotalArrayMap_get L) m,
    (TotalIntoIterArray.behaves L (fresh_view L m)).mono fun rest s h => h.len (listIter_views V)⟩

example := C41_total_array_map (ordering_lawful debug64).1
  (.new (fun _ r => .ok (r * 10, r + 1)) 1 4 rfl : MadeArray orderingImpl 3 [10, 20, 30])

/-! ## Transformations -/

/-- C43, `zip`: for any two maps, i.e. arrays of length `S = ORDINAL_SIZE`. -/
theorem C43_zip (L : Lawful c I n) (a : OrdinalTotalArrayMap V) (b : OrdinalTotalArrayMap W)
    (ha : a.length = n) (hb : b.length = n) :
    ∃ z, OrdinalTotalArrayMap.zip n a b = .ok z ∧ ∀ k, ∃ v w, OrdinalTotalArrayMap.get I a k = .ok v ∧
      OrdinalTotalArrayMap.get I b k = .ok w ∧ OrdinalTotalArrayMap.get I z k = .ok (v, w) := by
  obtain ⟨m, rfl⟩ := exists_store L a ha
  obtain ⟨m', rfl⟩ := exists_store L b hb
  have e : List.zip (store I n m) (store I n m') = store I n fun k => (m k, m' k) := by
    rw [store, store, List.zip_map', store]
  refine ⟨_, arrayFromIter_ok (by rw [e, store_length L]), fun k => ⟨_, _, OrdinalTotalArrayMap_get L m k,
    OrdinalTotalArrayMap_get L m' k, ?_⟩⟩
  rw [e, OrdinalTotalArrayMap_get L]

example := C43_zip (bool_lawful debug64).1 [5, 6] ["a", "b"] rfl rfl

/-- C43, `map` and `map_values`: the closure is called on the pairs in ordinal order; if it panics so
does `map`, otherwise the value at each key is what it returned for that key. -/
theorem C43_map (L : Lawful c I n) (a : OrdinalTotalArrayMap V) (ha : a.length = n) (r : ρ) :
    ∃ m : K → V, (∀ k, OrdinalTotalArrayMap.get I a k = .ok (m k)) ∧
    ∀ (f : K → V → ρ → R (W × ρ)) (res : R (OrdinalTotalArrayMap W × ρ)),
      (res = OrdinalTotalArrayMap.map c I n a f r ∨
        ∃ g : V → ρ → R (W × ρ), f = (fun _ => g) ∧ res = OrdinalTotalArrayMap.mapValues c I n a g r) →
      (∀ e, mapAll f (pairsT I n m) r = .error e → res = .error e) ∧
      ∀ ws r', mapAll f (pairsT I n m) r = .ok (ws, r') →
        ∃ z, res = .ok (z, r') ∧ Holds I n (OrdinalTotalArrayMap.get I z) ws := by
  obtain ⟨m, rfl⟩ := exists_store L a ha
  refine ⟨m, OrdinalTotalArrayMap_get L m, fun f res hr => ?_⟩
  obtain rfl : res = OrdinalTotalArrayMap.map c I n (store I n m) f r := by
    rcases hr with rfl | ⟨g, rfl, rfl⟩ <;> rfl
  rw [OrdinalTotalArrayMap.map_eq L]
  refine ⟨fun e h => h, fun ws r' h => ⟨ws, h, holds_of L (OrdinalTotalArrayMap_get L) ?_⟩⟩
  rw [mapAll_length f _ _ _ _ h]
  simp [pairsT, values_length L]

example := C43_map (W := String) (bool_lawful debug64).1 [5, 6] rfl (0 : Nat)

/-- C43, what this means for a closure `g` that only records its calls: `map(g).get(k)` is
`g(k, get(k))`, and the calls are the pairs in ordinal order. -/
theorem C43_map_pure (L : Lawful c I n) (a : OrdinalTotalArrayMap V) (ha : a.length = n) (g : K → V → W) :
    ∃ (m : K → V) (z : OrdinalTotalArrayMap W), (∀ k, OrdinalTotalArrayMap.get I a k = .ok (m k)) ∧
      OrdinalTotalArrayMap.map c I n a (fun k v calls => .ok (g k v, calls ++ [(k, v)])) [] =
        .ok (z, pairsT I n m) ∧
      ∀ k, OrdinalTotalArrayMap.get I z k = .ok (g k (m k)) := by
  obtain ⟨m, rfl⟩ := exists_store L a ha
  have key : ∀ (ps calls : List (K × V)), mapAll (fun k v calls => .ok (g k v, calls ++ [(k, v)])) ps calls =
      .ok (ps.map fun p => g p.1 p.2, calls ++ ps) := by
    intro ps
    induction ps with
    | nil => intro calls; simp [mapAll]
    | cons p ps ih => intro calls; simp [mapAll, ih]
  refine ⟨m, store I n fun k => g k (m k), OrdinalTotalArrayMap_get L m, ?_, OrdinalTotalArrayMap_get L _⟩
  rw [OrdinalTotalArrayMap.map_eq L, key]
  simp [pairsT, Function.comp_def]

example := C43_map_pure (bool_lawful debug64).1 [5, 6] rfl fun k v => if k then v else 0

/-- C43, `as_ref` (the references are represented by what they point to). -/
theorem C43_as_ref (L : Lawful c I n) (a : OrdinalTotalArrayMap V) (ha : a.length = n) :
    ∃ z, OrdinalTotalArrayMap.asRef I n a = .ok z ∧
      ∀ k, OrdinalTotalArrayMap.get I z k = OrdinalTotalArrayMap.get I a k := by
  obtain ⟨m, rfl⟩ := exists_store L a ha
  refine ⟨store I n m, ?_, fun k => rfl⟩
  simp only [OrdinalTotalArrayMap.asRef, OrdinalTotalArrayMap_get L, OrdinalTotalArrayMap.new_eq L, ok_bind]
  rw [initEach_pure m]
  rfl

example := C43_as_ref (bool_lawful debug64).1 [5, 6] rfl

/-- C43, `as_mut`: the reference at `k` reads the value of `k`, and writing through the references in
any order leaves at each key the last value written there. -/
theorem C43_as_mut [DecidableEq K] (L : Lawful c I n) (a : OrdinalTotalArrayMap V) (ha : a.length = n) :
    ∃ refs, OrdinalTotalArrayMap.asMut n a = .ok refs ∧
      (∀ k, ∃ slot, OrdinalTotalArrayMap.get I refs k = .ok slot ∧
        readSlot a slot = OrdinalTotalArrayMap.get I a k) ∧
      ∀ ws : List (K × V), ∃ a', ws.foldlM (fun a p => do
          let slot ← OrdinalTotalArrayMap.get I refs p.1
          writeSlot a slot p.2) a = .ok a' ∧
        ∀ k, (∀ v, lastValue ws k = some v → OrdinalTotalArrayMap.get I a' k = .ok v) ∧
          (lastValue ws k = none → OrdinalTotalArrayMap.get I a' k = OrdinalTotalArrayMap.get I a k) := by
  have hr : List.range n = store I n (ordOf I) := (values_ords L).symm
  obtain ⟨m, rfl⟩ := exists_store L a ha
  refine ⟨store I n (ordOf I), ?_, fun k => ⟨ordOf I k, OrdinalTotalArrayMap_get L _ k, ?_⟩, ?_⟩
  · simp only [OrdinalTotalArrayMap.asMut, arrayAsMut_eq, ok_bind, OrdinalTotalArrayMap.fromArray, hr]
  · rw [readSlot_store L, OrdinalTotalArrayMap_get L]
  · intro ws
    have key : ∀ (ws : List (K × V)) (m : K → V), ws.foldlM (fun a p => do
          let slot ← OrdinalTotalArrayMap.get I (store I n (ordOf I)) p.1
          writeSlot a slot p.2) (store I n m) =
        .ok (store I n fun k => (inserted (fun k => some (m k)) ws k).getD (m k)) := by
      intro ws
      induction ws with
      | nil => intro m; simp [inserted]
      | cons p ws ih =>
        intro m
        have := ih (updT m p.1 p.2)
        simp only [OrdinalTotalArrayMap_get L, ok_bind] at this
        simp only [List.foldlM_cons, OrdinalTotalArrayMap_get L, ok_bind, writeSlot_store L, this]
        congr 2
        funext k
        rw [inserted_eq, inserted_eq]
        have : lastValue (p :: ws) k = (lastValue ws k).or (if p.1 = k then some p.2 else none) := by
          simp only [lastValue, List.reverse_cons, List.find?_append]
          cases ws.reverse.find? fun q => q.1 = k with
          | some q => simp
          | none => by_cases e : p.1 = k <;> simp [e]
        rw [this]
        cases lastValue ws k with
        | some w => simp
        | none =>
          by_cases e : p.1 = k
          · simp [e, updT]
          · simp [e, updT, Ne.symm e]
    refine ⟨_, key ws m, fun k => ?_⟩
    simp only [OrdinalTotalArrayMap_get L, inserted_eq]
    constructor
    · intro v h; simp [h]
    · intro h; simp [h]

example := C43_as_mut (bool_lawful debug64).1 [5, 6] rfl

/-! ## `from_array` -/

/-- C44: for an array of the right length, `get(k)` is the element at `k.ordinal()`, and
`into_values`, `values` and iteration give the array back in order. -/
theorem C44_from_array (L : Lawful c I n) (a : List V) (ha : a.length = n) :
    ∃ s, OrdinalTotalArrayMap.fromArray a = .ok s ∧
      (∀ k i, I.ordinal k = .ok i → ∃ v, a[i]? = some v ∧ OrdinalTotalArrayMap.get I s k = .ok v) ∧
      OrdinalTotalArrayMap.intoValues s = a ∧ OrdinalTotalArrayMap.values s = a ∧
      OrdinalTotalArrayMap.len n s = a.length ∧
      BehavesLike (TotalIntoIterArray.it c I) (OrdinalTotalArrayMap.intoIter s) (List.zip (values I n) a) := by
  obtain ⟨m, rfl⟩ := exists_store L a ha
  refine ⟨_, rfl, fun k i hi => ?_, rfl, rfl, ha.symm, ?_⟩
  · obtain rfl : ordOf I k = i := by have := L.ordinal_eq k; rw [hi] at this; cases this; rfl
    exact ⟨m k, store_get L m k, OrdinalTotalArrayMap_get L m k⟩
  · have : List.zip (values I n) (store I n m) = pairsT I n m := by
      rw [store, pairsT]
      conv => lhs; arg 1; rw [← List.map_id (values I n)]
      rw [List.zip_map']; rfl
    rw [this]
    exact (TotalIntoIterArray.behaves L (fresh_view L m)).mono fun _ _ _ => trivial

example := C44_from_array (bool_lawful debug64).1 [5, 6] rfl

/-- C44, the other way round. -/
theorem C44_into_values (s : OrdinalTotalArrayMap V) :
    OrdinalTotalArrayMap.fromArray (OrdinalTotalArrayMap.intoValues s) = .ok s := rfl

example := C44_into_values [5, 6]

/-! ## `len` -/

/-- C45 (partial): a wrong `S` does not compile with `new`, `try_new`, `default` or `as_ref`, so maps
made by these have `len() == ORDINAL_SIZE`.  Missing: `from_array`, for which it fails. -/
theorem C45_len_partial (L : Lawful c I n) {S : Nat} :
    (∀ s : OrdinalTotalArrayMap V, MadeArray I S s → OrdinalTotalArrayMap.len S s = n) ∧
    (S ≠ n → ∀ r : ρ,
      (∀ init : K → ρ → R (Except E V × ρ), OrdinalTotalArrayMap.tryNew I S init r = .error .compileError) ∧
      (∀ init : K → ρ → R (V × ρ), OrdinalTotalArrayMap.new I S init r = .error .compileError) ∧
      (∀ dflt : ρ → R (V × ρ), OrdinalTotalArrayMap.default I S dflt r = .error .compileError) ∧
      ∀ a : OrdinalTotalArrayMap V, OrdinalTotalArrayMap.asRef I S a = .error .compileError) := by
  refine ⟨fun s h => (madeArray_length L h).1, fun hS r => ?_⟩
  have ha := OrdinalTotalArrayMap.assertS_wrong L hS
  refine ⟨fun init => ?_, fun init => ?_, fun dflt => ?_, fun a => ?_⟩
  · simp only [OrdinalTotalArrayMap.tryNew, ha, error_bind]
  · simp only [OrdinalTotalArrayMap.new, ha, error_bind]
  · simp only [OrdinalTotalArrayMap.default, OrdinalTotalArrayMap.new, ha, error_bind]
  · simp only [OrdinalTotalArrayMap.asRef, OrdinalTotalArrayMap.new, ha, error_bind]

example := C45_len_partial (V := Nat) (E := String) (ρ := Nat) (bool_lawful debug64).1 (S := 3)

/-- C45 is false for `from_array`: any array length `S` compiles and `len()` is `S`.  If `S` is too
small, `get` panics on some key. -/
theorem C45_false_short (L : Lawful c I n) (a : List V) (ha : a.length < n) :
    ∃ s, OrdinalTotalArrayMap.fromArray a = .ok s ∧ OrdinalTotalArrayMap.len a.length s ≠ n ∧
      ∃ k, OrdinalTotalArrayMap.get I s k = .error .panic := by
  refine ⟨a, rfl, Nat.ne_of_lt ha, ?_⟩
  obtain ⟨k, _, hk⟩ := L.fromOrdinal a.length ha
  exact ⟨k, by simp [OrdinalTotalArrayMap.get, hk, getIdx]⟩

example := C45_false_short (bool_lawful debug64).1 [5] (by decide)

/-- C45 is false for `from_array`: if `S` is too large, `iter()` panics at the first `next_back`, and
at the `next` after all keys were yielded. -/
theorem C45_false_long (L : Lawful c I n) (St : Strict c I n) (a : List V) (ha : n < a.length)
    (hM : a.length < c.M) :
    ∃ s, OrdinalTotalArrayMap.fromArray a = .ok s ∧ OrdinalTotalArrayMap.len a.length s ≠ n ∧
      (TotalIter.it c I).run (OrdinalTotalArrayMap.iter s) [.back] = .error .panic ∧
      (TotalIter.it c I).run (OrdinalTotalArrayMap.iter s) (List.replicate (n + 1) .front) = .error .panic := by
  refine ⟨a, rfl, Nat.ne_of_gt ha, ?_, ?_⟩
  · have hne : a ≠ [] := by rintro rfl; simp at ha
    obtain ⟨qs, x, rfl⟩ := (List.eq_nil_or_concat a).resolve_left hne
    rw [List.concat_eq_append] at *
    simp only [List.length_append, List.length_singleton] at ha hM
    have hf := St qs.length (by omega) (by omega)
    simp [DEIter.run, DEIter.step, TotalIter.it, TotalIter.nextBack, OrdinalTotalArrayMap.iter, TotalIter.new, Enumerate.new,
      Enumerate.nextBackItem, listIter, addU_ok (show 0 + qs.length < c.M by omega), hf, unwrap]
  · have key : ∀ (d i : Nat) (l : List V), i + d = n → d < l.length →
        (TotalIter.it c I).run (⟨i, l⟩ : TotalIter V) (List.replicate (d + 1) .front) = .error .panic := by
      intro d
      induction d with
      | zero =>
        intro i l hi hl
        cases l with
        | nil => simp at hl
        | cons x l =>
          have hf := St i (by omega) (by have := L.fits; omega)
          simp [DEIter.run, DEIter.step, TotalIter.it, TotalIter.next, Enumerate.nextItem, listIter, hf, unwrap]
      | succ d ih =>
        intro i l hi hl
        cases l with
        | nil => simp at hl
        | cons x l =>
          obtain ⟨k, hk, _⟩ := L.fromOrdinal i (by omega)
          have := ih (i + 1) l (by omega) (by simpa using hl)
          have hadd := addU_ok (c := c) (a := i) (b := 1) (by have := L.fits; omega)
          rw [List.replicate_succ]
          have hstep : (TotalIter.it c I).step (⟨i, x :: l⟩ : TotalIter V) .front =
              .ok (some (k, x), ⟨i + 1, l⟩) := by
            simp [DEIter.step, TotalIter.it, TotalIter.next, Enumerate.nextItem, listIter, hk, hadd]
          simp only [DEIter.run, hstep, ok_bind, this, error_bind]
    exact key n 0 a (by omega) ha

example := C45_false_long (bool_lawful debug64).1 (bool_lawful debug64).2 [5, 6, 7] (by decide) (by decide)

/-! ## Concrete cases -/

/-- C39–C41: a map `Ordering → u32` whose initialiser numbers its calls; one whose initialiser fails
at the second key. -/
example : Lawful debug64 orderingImpl 3 ∧ 3 * 4 ≤ 2 ^ (debug64.bits - 1) - 1 ∧
    OrdinalTotalMap.new debug64 orderingImpl 4 (fun _ r => .ok (r * 10, r + 1)) 1 = .ok ([10, 20, 30], 4) ∧
    MadeTotal debug64 orderingImpl 4 [10, 20, 30] ∧ MadeArray orderingImpl 3 [10, 20, 30] ∧
    OrdinalTotalArrayMap.tryNew orderingImpl 3
      (fun k r => .ok (if k = .eq then .error "no" else .ok r, r + 1)) 1 = .ok (.error "no", 3) ∧
    (runOps (OrdinalTotalMap.step debug64 orderingImpl) [10, 20, 30]
      [.insert .eq 5, .getMut .gt 6, .iterMut [.back, .front, .write 0 7]]).map (·.2) = .ok [10, 5, 7] :=
  ⟨(ordering_lawful _).1, by decide, rfl, .new (fun _ r => .ok (r * 10, r + 1)) 1 4 rfl,
    .new (fun _ r => .ok (r * 10, r + 1)) 1 4 rfl, rfl, rfl⟩

/-- C43–C45. -/
example : Lawful debug64 boolImpl 2 ∧ Strict debug64 boolImpl 2 ∧ [5, 6].length = 2 ∧
    OrdinalTotalArrayMap.zip 2 [5, 6] ["a", "b"] = .ok [(5, "a"), (6, "b")] ∧
    OrdinalTotalArrayMap.map debug64 boolImpl 2 [5, 6] (fun k v r => .ok ((k, v), r + v)) 0 =
      .ok ([(false, 5), (true, 6)], 11) ∧
    OrdinalTotalArrayMap.asMut 2 [5, 6] = .ok [0, 1] ∧
    2 < [5, 6, 7].length ∧ [5, 6, 7].length < debug64.M ∧
    (TotalIter.it debug64 boolImpl).run (OrdinalTotalArrayMap.iter [5, 6, 7]) [.front, .front, .front] =
      .error .panic ∧
    OrdinalTotalArrayMap.get boolImpl [5] true = .error .panic :=
  ⟨(bool_lawful _).1, (bool_lawful _).2, rfl, rfl, rfl, rfl, by decide, by decide, rfl, rfl⟩

end OrdinalMap.Props
