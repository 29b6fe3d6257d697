import Verif.Lemmas.Debug
import Verif.Model.Atomic
import Verif.Props.Set
import Verif.Props.TotalMap
import Verif.Props.Atomic
/-!
# C52: `Debug`

The texts (`mapText`, `listText`, …) are in SpecDebug.lean.  Every statement is for both `{:?}`
(`alt = false`) and `{:#?}` (`alt = true`), and for any rendering of keys and values.
-/

namespace OrdinalMap.Props
open OrdinalMap

variable {K V τ : Type} [DecidableEq K] [DecidableEq τ] {c : Cfg} {I : OrdinalImpl K} {J : OrdinalImpl τ} {n : Nat}

/-! ## Collections -/

/-- C52 for the sparse maps: after any history. -/
theorem C52_maps (L : Lawful c I n) (alt : Bool) (key : K → String) (value : V → String) :
    (∀ sz, n * sz ≤ 2 ^ (c.bits - 1) - 1 →
      RunsLike (OMap.step c I sz) (MapSpec.step I n) (OMap.new V) (fun _ => none) (fun m s =>
        OMap.debug c I alt key value s = .ok (mapText alt key value (pairs I n m)))) ∧
    ∃ s, OrdinalArrayMap.new V I n = .ok s ∧
      RunsLike (OrdinalArrayMap.step c I) (MapSpec.step I n) s (fun _ => none) (fun m s =>
        OrdinalArrayMap.debug c I alt key value s = .ok (mapText alt key value (pairs I n m))) := by
  constructor
  · intro sz hsz ops
    obtain ⟨s', h1, h2⟩ := OMap.runs_new L hsz ops
    exact ⟨s', h1, debugSparse_map L alt key value (h2.sview L)⟩
  · refine ⟨_, OrdinalArrayMap.new_eq L, (OrdinalArrayMap.runs L _).mono ?_⟩
    rintro m s rfl
    have h : Stored I n true m (store I n m) := .inl ⟨rfl, rfl⟩
    exact debugSparse_map L alt key value (h.sview L)

example := C52_maps (bool_lawful debug64).1 true (fun b => if b then "true" else "false") (toString (α := Nat))

/-- C52 for the total maps: after any history from any contents. -/
theorem C52_total_maps (L : Lawful c I n) (alt : Bool) (key : K → String) (value : V → String) (vs : List V)
    (hvs : vs.length = n) :
    ∃ m0 : K → V,
      (∀ k, OrdinalTotalMap.get I vs k = .ok (m0 k)) ∧
      RunsLike (OrdinalTotalMap.step c I) (TotalSpec.step I n) vs m0 (fun m s =>
        OrdinalTotalMap.debug c I alt key value s = .ok (mapText alt key value (pairsT I n m))) ∧
      RunsLike (OrdinalTotalArrayMap.step c I n) (TotalSpec.step I n) vs m0 (fun m s =>
        OrdinalTotalArrayMap.debug c I alt key value s = .ok (mapText alt key value (pairsT I n m))) := by
  obtain ⟨m0, rfl⟩ := exists_store L vs hvs
  refine ⟨m0, OrdinalTotalMap_get L m0, (totalMap_runs L m0).mono ?_, (totalArrayMap_runs L m0).mono ?_⟩
  · rintro m s rfl
    exact debugTotal_map L alt key value (fresh_view L m)
  · rintro m s rfl
    exact debugTotal_map L alt key value (fresh_view L m)

example := C52_total_maps (bool_lawful debug64).1 false (fun b => if b then "true" else "false")
  (toString (α := Nat)) [5, 6] rfl

/-- C52 for the sets: after any history from any items.  Missing: `OrdinalSet` and `OrdinalSet64` of
an uninhabited type in builds with debug assertions, where it is false (`C52_false`). -/
theorem C52_sets_partial (L : Lawful c J n) (hp : 0 < n ∨ c.debugAssertions = false) (alt : Bool) (item : τ → String)
    (xs : List τ) :
    (n + 64 < c.M → ∃ s, OrdinalSet.fromIter c J xs = .ok s ∧
      SetBehavesLike (OrdinalSet.api c J) s (fun x => decide (x ∈ xs)) (fun m s =>
        OrdinalSet.debug c J alt item s = .ok (setText alt item (elements J n m)))) ∧
    (n ≤ 64 → ∃ s, OrdinalSet64.fromIter c J xs = .ok s ∧
      SetBehavesLike (OrdinalSet64.api c J) s (fun x => decide (x ∈ xs)) (fun m s =>
        OrdinalSet64.debug c J alt item s = .ok (setText alt item (elements J n m)))) := by
  constructor
  · intro hfit
    obtain ⟨s, h1, h2⟩ := OrdinalSet.fromIter_view L hfit xs
    refine ⟨s, h1, (OrdinalSet.behaves L hfit h2).mono fun m s h => ?_⟩
    obtain ⟨ws, h3, h4⟩ := OrdinalSet.asRef_view L h hp
    simp only [OrdinalSet.debug, h3, ok_bind, SetRef.debug_eq L alt item h4]
  · intro h64
    obtain ⟨s, h1, h2⟩ := OrdinalSet64.fromIter_view L h64 xs
    refine ⟨s, h1, (OrdinalSet64.behaves L h64 h2).mono fun m s h => ?_⟩
    have h3 : OrdinalSet64.asRef c J s = .ok [s] := by
      unfold OrdinalSet64.asRef SetRef.new
      simp only [arraySetS_eq L, ok_bind]
      rcases hp with hp | hp
      · have : divCeil n 64 = 1 := by have := divCeil_spec n; omega
        simp [this, debugAssert]
      · simp [debugAssert, hp]
    have h4 : Bits J m [s] := fun a => by
      have : ordOf J a < 64 := by have := L.ord_lt a; omega
      rw [← h.1 a]
      simp [wbit, Nat.div_eq_of_lt this, Nat.mod_eq_of_lt this]
    simp only [OrdinalSet64.debug, h3, ok_bind, SetRef.debug_eq L alt item h4]

example := C52_sets_partial (bool_lawful debug64).1 (.inl (by decide)) false
  (fun b => if b then "true" else "false") [true]

/-- C52 for `OrdinalArraySet`, without exception. -/
theorem C52_array_set (L : Lawful c J n) (alt : Bool) (item : τ → String) (xs : List τ) :
    ∃ S s, ordinalArraySetS J = .ok S ∧ OrdinalArraySet.fromIter c J S xs = .ok s ∧
      SetBehavesLike (OrdinalArraySet.api c J S) s (fun x => decide (x ∈ xs)) (fun m s =>
        OrdinalArraySet.debug c J S alt item s = .ok (setText alt item (elements J n m))) := by
  obtain ⟨s, h1, h2⟩ := OrdinalArraySet.fromIter_view L xs
  refine ⟨_, s, arraySetS_eq L, h1, (OrdinalArraySet.behaves L h2).mono fun m s h => ?_⟩
  obtain ⟨ws, h3, h4⟩ := OrdinalArraySet.asRef_view L h
  simp only [OrdinalArraySet.debug, h3, ok_bind, SetRef.debug_eq L alt item h4]

example := C52_array_set (u8_lawful debug64).1 false (fun b => toString b.1) [⟨200, by decide⟩, ⟨7, by decide⟩]

omit [DecidableEq τ] in
/-- C52 is false for sets of an uninhabited type in builds with debug assertions: printing the (empty)
`OrdinalSet` or `OrdinalSet64` panics. -/
theorem C52_false (L : Lawful c J 0) (hd : c.debugAssertions = true) (alt : Bool) (item : τ → String) :
    (∃ s, OrdinalSet.new J = .ok s ∧ OrdinalSet.debug c J alt item s = .error .panic) ∧
    ∃ s, OrdinalSet64.new J = .ok s ∧ OrdinalSet64.debug c J alt item s = .error .panic := by
  refine ⟨⟨.small 0, by simp [OrdinalSet.new, OrdinalSet.isSmall, L.size], ?_⟩,
    ⟨0, by simp [OrdinalSet64.new, OrdinalSet64.assert64_ok L (Nat.zero_le _)], ?_⟩⟩
  · simp [OrdinalSet.debug, OrdinalSet.asRef, OrdinalSet.isSmall, L.size, SetRef.new, arraySetS_eq L,
      debugAssert, hd, divCeil]
  · simp [OrdinalSet64.debug, OrdinalSet64.asRef, SetRef.new, arraySetS_eq L, debugAssert, hd, divCeil]

example := C52_false (infallible_lawful debug64).1 rfl false (fun _ => "")

/-! ## Iterators -/

/-- C52 for the iterators of the sparse maps, after any history on the map and any sequence of
`next`/`next_back` on the iterator: the remaining items.  (`Keys` has `Debug` only if `V = ()`.) -/
theorem C52_map_iters (L : Lawful c I n) (alt : Bool) (key : K → String) (value : V → String) :
    (∀ sz, n * sz ≤ 2 ^ (c.bits - 1) - 1 →
      RunsLike (OMap.step c I sz) (MapSpec.step I n) (OMap.new V) (fun _ => none) (fun m s =>
        BehavesLike (MapIter.it c I) (OMap.iter s) (pairs I n m) (fun rest it =>
          MapIter.debug c I alt key value it = .ok (listText alt (pairText alt key value) rest)) ∧
        BehavesLike (Values.it c I) (OMap.values s) ((pairs I n m).map (·.2)) (fun rest it =>
          Values.debug c I alt value it = .ok (listText alt value rest)) ∧
        BehavesLike (MapIntoIter.it c I) (OMap.intoIter s) (pairs I n m) (fun rest it =>
          MapIntoIter.debug c I alt key value it = .ok (listText alt (pairText alt key value) rest)))) ∧
    (∀ sz, n * sz ≤ 2 ^ (c.bits - 1) - 1 →
      RunsLike (OMap.step c I sz) (MapSpec.step I n) (OMap.new Unit) (fun _ => none) (fun m s =>
        BehavesLike (Keys.it c I) (OMap.keys s) ((pairs I n m).map (·.1)) (fun rest it =>
          Keys.debug c I alt key it = .ok (listText alt key rest)))) ∧
    (∃ s, OrdinalArrayMap.new V I n = .ok s ∧
      RunsLike (OrdinalArrayMap.step c I) (MapSpec.step I n) s (fun _ => none) (fun m s =>
        BehavesLike (MapIter.it c I) (OrdinalArrayMap.iter s) (pairs I n m) (fun rest it =>
          MapIter.debug c I alt key value it = .ok (listText alt (pairText alt key value) rest)) ∧
        BehavesLike (Values.it c I) (OrdinalArrayMap.values s) ((pairs I n m).map (·.2)) (fun rest it =>
          Values.debug c I alt value it = .ok (listText alt value rest)) ∧
        BehavesLike (MapIntoIterArray.it c I) (OrdinalArrayMap.intoIter s) (pairs I n m) (fun rest it =>
          MapIntoIterArray.debug c I alt key value it = .ok (listText alt (pairText alt key value) rest)))) ∧
    ∃ s, OrdinalArrayMap.new Unit I n = .ok s ∧
      RunsLike (OrdinalArrayMap.step c I) (MapSpec.step I n) s (fun _ => none) (fun m s =>
        BehavesLike (Keys.it c I) (OrdinalArrayMap.keys s) ((pairs I n m).map (·.1)) (fun rest it =>
          Keys.debug c I alt key it = .ok (listText alt key rest))) := by
  have hk : ∀ (b : Bool) (m : K → Option Unit) (s : List (Option Unit)), Stored I n b m s →
      BehavesLike (Keys.it c I) (TotalIter.new s 0) ((pairs I n m).map (·.1)) (fun rest it =>
          Keys.debug c I alt key it = .ok (listText alt key rest)) := by
    intro b m s h
    exact (Keys.behaves L ⟨_, h.sview L, rfl⟩).mono fun rest it h => debugKeys L alt key h
  have hv : ∀ (b : Bool) (m : K → Option V) (s : List (Option V)), Stored I n b m s →
      BehavesLike (MapIter.it c I) (TotalIter.new s 0) (pairs I n m) (fun rest it =>
          MapIter.debug c I alt key value it = .ok (listText alt (pairText alt key value) rest)) ∧
        BehavesLike (Values.it c I) (TotalIter.new s 0) ((pairs I n m).map (·.2)) (fun rest it =>
          Values.debug c I alt value it = .ok (listText alt value rest)) := by
    intro b m s h
    exact ⟨(MapIter.behaves L (h.sview L)).mono fun _ _ h => debugSparse_list L alt key value h,
      (Values.behaves L ⟨_, h.sview L, rfl⟩).mono fun _ _ h => debugValues L alt value h⟩
  refine ⟨fun sz hsz ops => ?_, fun sz hsz ops => ?_, ⟨_, OrdinalArrayMap.new_eq L, (OrdinalArrayMap.runs L _).mono ?_⟩,
    ⟨_, OrdinalArrayMap.new_eq L, (OrdinalArrayMap.runs L _).mono ?_⟩⟩
  · obtain ⟨s', h1, h2⟩ := OMap.runs_new L hsz ops
    exact ⟨s', h1, (hv _ _ _ h2).1, (hv _ _ _ h2).2,
      (MapIntoIter.behaves L (h2.sview L)).mono fun _ _ h => debugSparse_list L alt key value h⟩
  · obtain ⟨s', h1, h2⟩ := OMap.runs_new L hsz ops
    exact ⟨s', h1, hk _ _ _ h2⟩
  · rintro m s rfl
    have h : Stored I n true m (store I n m) := .inl ⟨rfl, rfl⟩
    exact ⟨(hv _ _ _ h).1, (hv _ _ _ h).2,
      (MapIntoIterArray.behaves L (h.sview L)).mono fun _ _ h => debugSparse_list L alt key value h⟩
  · rintro m s rfl
    exact hk true _ _ (.inl ⟨rfl, rfl⟩)

example := C52_map_iters (bool_lawful debug64).1 true (fun b => if b then "true" else "false") (toString (α := Nat))

/-- The items a mutable iterator has left, with the current values. -/
def restPairs (sp : MutSpec K V) : List (K × V) := sp.rest.filterMap fun k => (sp.map k).map fun v => (k, v)

omit [DecidableEq K] in
theorem srel_sview (L : Lawful c I n) {b : Bool} {sp : MutSpec K V} {s : MutClient V} (h : SRel I n b sp s) :
    SView I n (restPairs sp) (TotalIterMut.iter s.it) := by
  obtain ⟨ps, h1, h2, _, _, h5⟩ := h
  rcases h5 with ⟨_, h5⟩ | ⟨_, h5, rfl, h6⟩
  · refine ⟨_, mv_iter L sp.map h1 h5, ?_⟩
    rw [restPairs, h2, List.filterMap_map]
    clear h1 h2 h5
    induction ps with
    | nil => rfl
    | cons p ps ih =>
      simp only [Function.comp_def] at ih ⊢
      cases hm : sp.map p.1 with
      | none =>
        rw [List.filterMap_cons_none (by simp [keep, hm]), ih, List.map_cons, List.filterMap_cons_none (by simp [present, hm])]
      | some v => simp [keep, hm, present, ih]
  · refine ⟨[], ⟨?_, ?_, ?_⟩, by simp [restPairs, h2]⟩
    · simp [TotalIterMut.iter, TotalIter.new, Enumerate.new, h5]
    · simpa [TotalIterMut.iter, TotalIter.new, Enumerate.new] using h1.1.2.1
    · simp [slice_empty]

/-- C52 for `iter_mut()` and `values_mut()` of a sparse map: the remaining items with the current
values, after any interleaving of `next`, `next_back` and writes through references handed out. -/
theorem C52_iter_mut (L : Lawful c I n) (alt : Bool) (key : K → String) (value : V → String) :
    (∀ sz, n * sz ≤ 2 ^ (c.bits - 1) - 1 →
      RunsLike (OMap.step c I sz) (MapSpec.step I n) (OMap.new V) (fun _ => none) (fun m s =>
        RunsLike (MutClient.step c I) MutSpec.step ⟨OMap.iterMut s, []⟩ ⟨presentKeys I n m, [], m⟩ (fun sp cl =>
          MapIterMut.debug c I alt key value cl.it = .ok (listText alt (pairText alt key value) (restPairs sp)) ∧
          ValuesMut.debug c I alt value cl.it = .ok (listText alt value ((restPairs sp).map (·.2)))))) ∧
    ∃ s, OrdinalArrayMap.new V I n = .ok s ∧
      RunsLike (OrdinalArrayMap.step c I) (MapSpec.step I n) s (fun _ => none) (fun m s =>
        RunsLike (MutClient.step c I) MutSpec.step ⟨OrdinalArrayMap.iterMut s, []⟩ ⟨presentKeys I n m, [], m⟩ (fun sp cl =>
          MapIterMut.debug c I alt key value cl.it = .ok (listText alt (pairText alt key value) (restPairs sp)) ∧
          ValuesMut.debug c I alt value cl.it = .ok (listText alt value ((restPairs sp).map (·.2))))) := by
  have key : ∀ (b : Bool) (m : K → Option V) (s : List (Option V)), Stored I n b m s →
      RunsLike (MutClient.step c I) MutSpec.step ⟨TotalIterMut.new s, []⟩ ⟨presentKeys I n m, [], m⟩ (fun sp cl =>
          MapIterMut.debug c I alt key value cl.it = .ok (listText alt (pairText alt key value) (restPairs sp)) ∧
          ValuesMut.debug c I alt value cl.it = .ok (listText alt value ((restPairs sp).map (·.2)))) := by
    intro b m s h
    refine (SRel.runs L h).mono fun sp cl h => ?_
    have hs := srel_sview L h
    exact ⟨debugSparse_list L alt key value hs, debugValues L alt value ⟨_, hs, rfl⟩⟩
  constructor
  · intro sz hsz ops
    obtain ⟨s', h1, h2⟩ := OMap.runs_new L hsz ops
    exact ⟨s', h1, key _ _ _ h2⟩
  · refine ⟨_, OrdinalArrayMap.new_eq L, (OrdinalArrayMap.runs L _).mono ?_⟩
    rintro m s rfl
    exact key true _ _ (.inl ⟨rfl, rfl⟩)

example := C52_iter_mut (bool_lawful debug64).1 true (fun b => if b then "true" else "false") (toString (α := Nat))

/-- C52 for the iterators of the total maps. -/
theorem C52_total_iters (L : Lawful c I n) (alt : Bool) (key : K → String) (value : V → String) (vs : List V)
    (hvs : vs.length = n) :
    ∃ m0 : K → V,
      (∀ k, OrdinalTotalMap.get I vs k = .ok (m0 k)) ∧
      BehavesLike (TotalIter.it c I) (OrdinalTotalMap.iter vs) (pairsT I n m0) (fun rest it =>
        TotalIter.debug c I alt key value it = .ok (listText alt (pairText alt key value) rest)) ∧
      BehavesLike (TotalIntoIter.it c I) (OrdinalTotalMap.intoIter vs) (pairsT I n m0) (fun rest it =>
        TotalIntoIter.debug c I alt key value it = .ok (listText alt (pairText alt key value) rest)) ∧
      BehavesLike (TotalIter.it c I) (OrdinalTotalArrayMap.iter vs) (pairsT I n m0) (fun rest it =>
        TotalIter.debug c I alt key value it = .ok (listText alt (pairText alt key value) rest)) ∧
      BehavesLike (TotalIntoIterArray.it c I) (OrdinalTotalArrayMap.intoIter vs) (pairsT I n m0) (fun rest it =>
        TotalIntoIterArray.debug c I alt key value it = .ok (listText alt (pairText alt key value) rest)) ∧
      RunsLike (MutClientT.step c I) MutSpec.step ⟨OrdinalTotalMap.iterMut vs, []⟩
        ⟨values I n, [], fun k => some (m0 k)⟩ (fun sp cl =>
          TotalIterMut.debug c I alt key value cl.it = .ok (listText alt (pairText alt key value) (restPairs sp))) ∧
      RunsLike (MutClientT.step c I) MutSpec.step ⟨OrdinalTotalArrayMap.iterMut vs, []⟩
        ⟨values I n, [], fun k => some (m0 k)⟩ (fun sp cl =>
          TotalIterMut.debug c I alt key value cl.it = .ok (listText alt (pairText alt key value) (restPairs sp))) := by
  obtain ⟨m0, rfl⟩ := exists_store L vs hvs
  have hf := fresh_view L m0
  have hm : RunsLike (MutClientT.step c I) MutSpec.step ⟨TotalIterMut.new (store I n m0), []⟩
        ⟨values I n, [], fun k => some (m0 k)⟩ (fun sp cl =>
          TotalIterMut.debug c I alt key value cl.it = .ok (listText alt (pairText alt key value) (restPairs sp))) := by
    refine (TRel.runs L m0).mono ?_
    rintro sp cl ⟨ps, m, h1, h2, _, h4, h5⟩
    have e : restPairs sp = ps.map fun p => (p.1, m p.1) := by
      rw [restPairs, h2, h5, List.filterMap_map]
      simp [Function.comp_def]
    rw [e]
    exact debugTotal_list L alt key value (mv_iter L m h1 h4)
  exact ⟨m0, OrdinalTotalMap_get L m0,
    (TotalIter.behaves L hf).mono fun _ _ h => debugTotal_list L alt key value h,
    (TotalIntoIter.behaves L hf).mono fun _ _ h => debugTotal_list L alt key value h,
    (TotalIter.behaves L hf).mono fun _ _ h => debugTotal_list L alt key value h,
    (TotalIntoIterArray.behaves L hf).mono fun _ _ h => debugTotal_list L alt key value h, hm, hm⟩

example := C52_total_iters (bool_lawful debug64).1 true (fun b => if b then "true" else "false")
  (toString (α := Nat)) [5, 6] rfl

/-- C52 for the iterators of the sets: the remaining items.  (`OrdinalSet::iter` itself panics for an
uninhabited type in builds with debug assertions: C25.) -/
theorem C52_set_iters (L : Lawful c J n) (alt : Bool) (item : τ → String) (xs : List τ) :
    (n + 64 < c.M → (0 < n ∨ c.debugAssertions = false) → ∃ s, OrdinalSet.fromIter c J xs = .ok s ∧
      SetBehavesLike (OrdinalSet.api c J) s (fun x => decide (x ∈ xs)) (fun m s =>
        ∃ it, OrdinalSet.iter c J s = .ok it ∧ BehavesLike (SetIter.it c J) it (elements J n m) (fun rest it =>
          SetIter.debug c J alt item it = .ok (listText alt item rest)))) ∧
    (n ≤ 64 → ∃ s, OrdinalSet64.fromIter c J xs = .ok s ∧
      SetBehavesLike (OrdinalSet64.api c J) s (fun x => decide (x ∈ xs)) (fun m s =>
        ∃ it, OrdinalSet64.iter J s = .ok it ∧ BehavesLike (Iter64.it c J) it (elements J n m) (fun rest it =>
          Iter64.debug c J alt item it = .ok (listText alt item rest)))) := by
  have hs : ∀ {ws l it}, SetIter.View J n ws l it → BehavesLike (SetIter.it c J) it l (fun rest it =>
      SetIter.debug c J alt item it = .ok (listText alt item rest)) := by
    intro ws l it h
    refine (SetIter.behaves L h).mono fun rest it h => ?_
    have := SetIter.len_le L h
    exact debugSeq_eq "[" "]" alt (SetIter.View J n ws) (SetIter.next_view L ws) item h (by omega)
  refine ⟨fun hfit hp => ?_, fun h64 => ?_⟩
  · obtain ⟨s, h1, h2⟩ := OrdinalSet.fromIter_view L hfit xs
    refine ⟨s, h1, (OrdinalSet.behaves L hfit h2).mono fun m s h => ?_⟩
    obtain ⟨ws, it, h3, h4⟩ := OrdinalSet.iter_view L h hp
    exact ⟨it, h3, hs h4⟩
  · obtain ⟨s, h1, h2⟩ := OrdinalSet64.fromIter_view L h64 xs
    refine ⟨s, h1, (OrdinalSet64.behaves L h64 h2).mono fun m s h => ?_⟩
    refine ⟨s, by simp [OrdinalSet64.iter, OrdinalSet64.assert64_ok L h64], ?_⟩
    refine (Iter64.behaves L h64 (Iter64.view_of_set h)).mono fun rest it h => ?_
    have := Iter64.len_view L h64 h
    exact debugSeq_eq "[" "]" alt (Iter64.View J n) (Iter64.next_view L h64) item h (by omega)

example := C52_set_iters (bool_lawful debug64).1 false (fun b => if b then "true" else "false") [true]

omit [DecidableEq τ] in
/-- C52 for `AtomicOrdinal`: the value in the cell. -/
theorem C52_atomic (L : Lawful c J n) (item : τ → String) (v : τ) :
    ∃ cell, AtomicOrdinal.new J v = .ok cell ∧ AtomicOrdinal.debug J item cell = .ok (item v) := by
  refine ⟨ordOf J v, L.ordinal_eq v, ?_⟩
  simp [AtomicOrdinal.debug, AtomicOrdinal.step, AtomicOrdinal.call, Prim.exec, AtomicOrdinal.ret, L.from_ord]

example := C52_atomic (bool_lawful debug64).1 (fun b => if b then "true" else "false") true

/-! ## Concrete cases -/

/-- How `bool` prints. -/
def showBool (b : Bool) : String := if b then "true" else "false"

example : OMap.debug debug64 boolImpl false showBool (toString (α := Nat)) [some 5, some 7] =
    .ok "{false: 5, true: 7}" := by rfl
example : OMap.debug debug64 boolImpl true showBool (toString (α := Nat)) [none, some 7] =
    .ok "{\n    true: 7,\n}" := by rfl
example : MapIter.debug debug64 boolImpl false showBool (toString (α := Nat)) ⟨1, [some 7]⟩ =
    .ok "[(true, 7)]" := by rfl
example : OrdinalSet.debug debug64 boolImpl false showBool (.small 2) = .ok "{true}" := by rfl
example : (0 < 2 ∨ debug64.debugAssertions = false) ∧ Lawful debug64 boolImpl 2 := ⟨.inl (by decide), (bool_lawful _).1⟩
example : Lawful debug64 infallibleImpl 0 ∧ debug64.debugAssertions = true := ⟨(infallible_lawful _).1, rfl⟩

end OrdinalMap.Props
