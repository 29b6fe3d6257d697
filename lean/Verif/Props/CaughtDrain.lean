import Verif.Lemmas.CaughtDraining
import Verif.Props.CaughtIter
/-!
# C90: `drain()` after caught panics

A `Drain` that was created outside the `catch_unwind` is not dropped when one of its calls panics, and can be called
again.  C90: nothing but panics happens; a call that panics takes nothing out of the map; what the other calls return
and what stays in the map is together what was in the map; after the end of the `Drain` (leaked, dropped, or dropped
with a panic that is caught as well) the map is an ordinary one, and if the drop returned, it holds at most as many
values as calls panicked, each under its own key.
-/

namespace OrdinalMap.Props
open OrdinalMap

variable {σ K V : Type} {c : Cfg} {I : OrdinalImpl K} {J : SImpl σ K} {n : Nat} [DecidableEq K]

/-- The items of a `Drain` at the start: none if the map is not allocated, otherwise all keys. -/
def DrainStart (I : OrdinalImpl K) (n : Nat) (m : K → Option V) (qs : List (K × K)) : Prop :=
  (qs = [] ∧ ∀ k, m k = none) ∨ qs = (values I n).map fun k => (k, k)

/-- What C90 says of a map `s` with contents `m`; `good` is what it says of the map afterwards. -/
def DrainCaught (c : Cfg) (I : OrdinalImpl K) (J : SImpl σ K) (n : Nat) (m : K → Option V) (s : List (Option V))
    (good : (K → Option V) → List (Option V) → Prop) : Prop :=
  ∀ ds leak st, ∃ es e st' s' qs d m', Caught.drainCalls c J ds leak (st, s) = (.ok (es, e), (st', s')) ∧
    DrainStart I n m qs ∧
    CaughtLike Draining.step Draining.after (fun _ => False) (m, qs) ds es (some d) ∧
    Draining.final d leak e m' ∧ good m' s' ∧
    ((yielded es).map (·.2) ++ Draining.held I n d.1).Perm (Draining.held I n m) ∧
    (∀ k, m' k = none ∨ m' k = m k) ∧
    (∀ (j : Nat) k v, es[j]? = some (.returned (some (k, v))) → ∃ i k', I.ordinal k = .ok i ∧
      I.ordinal k' = .ok (i + frontPanics (ds.take j) (es.take j)) ∧ m k' = some v) ∧
    (leak = false → (∃ u, e = .returned u) → ∃ lost : List K, lost.length ≤ panics es ∧ ∀ k, m' k ≠ none → k ∈ lost)

theorem drainCaught_of (L : Lawful c I n) (H : Honest J I) {b : Bool} {m : K → Option V} {s : List (Option V)}
    (h : Stored I n b m s) : DrainCaught c I J n m s (fun m' s' => Stored I n b m' s') := by
  intro ds leak st
  have key : ∃ qs, DrainStart I n m qs ∧ Draining.View I n b (m, qs) (Drain.new s) ∧ Draining.Missing 0 (m, qs) := by
    rcases h with ⟨rfl, rfl⟩ | ⟨rfl, rfl, rfl⟩
    · refine ⟨_, .inr rfl, ⟨⟨.inl ⟨rfl, rfl⟩, by simp⟩, ?_⟩, [], Nat.le_refl _, fun k _ => .inr ?_⟩
      · have hl : (store I n m).length = n := by simp [store, values_length L]
        refine ⟨⟨Nat.zero_le _, ?_⟩, ?_, ?_⟩
        · simp only [Drain.new, TotalIterMut.new, Enumerate.new, hl, Nat.sub_zero, List.map_map]
          rw [← List.range_eq_range', ← values_ords L]; rfl
        · simp [Drain.new, TotalIterMut.new, Enumerate.new, values_length L]
        · have := slice_full (values I n)
          rw [values_length L] at this
          simp only [Drain.new, TotalIterMut.new, Enumerate.new, List.map_map, List.length_map, values_length L,
            Nat.zero_add]
          rw [this]; simp [Function.comp_def]
      · simp only [List.map_map, Function.comp_def, List.map_id']
        exact mem_values L k
    · refine ⟨[], .inl ⟨rfl, fun _ => rfl⟩, ⟨⟨.inr ⟨rfl, rfl, rfl⟩, fun _ => rfl⟩, ⟨Nat.le_refl _, rfl⟩, Nat.zero_le _, ?_⟩, [],
        Nat.le_refl _, fun k hk => absurd rfl hk⟩
      simp [Drain.new, TotalIterMut.new, Enumerate.new, slice]
  obtain ⟨qs, h1, h2, h3⟩ := key
  obtain ⟨es, st1, x, r, g1, g2, g3⟩ := Draining.call_drain (c := c) L H h2 ds st
  obtain ⟨d, rfl, g4⟩ := Draining.calls_perm L g2
  have g5 := Draining.calls_missing g2 rfl h3
  have g6 := Draining.calls_shrink g2 rfl
  have g3 := g3 d rfl
  have g7 := Draining.calls_drift (I := I) g2 (by
    rcases h1 with ⟨rfl, _⟩ | rfl
    · exact Drift.nil id
    · exact Drift.fresh L id)
  have run : ∀ (e : Ended Unit) st' x', Caught.catchUnwind (if leak then .of (.ok ()) else Caught.drainDrop c J)
      (st1, x) = (.ok e, (st', x')) → Caught.drainCalls c J ds leak (st, s) = (.ok (es, e), (st', x'.mem)) := by
    intro e st' x' he
    simp only [Caught.drainCalls, Upd.zoom, M.bind_apply, g1, he]
    rfl
  cases leak with
  | true =>
    refine ⟨es, .returned (), st1, _, qs, d, d.1, run _ _ _ rfl, h1, g2, rfl, g3.1.1, g4, g6, g7, fun e => by simp at e⟩
  | false =>
    obtain ⟨y, qs', d1, d2⟩ := Draining.sim_drop (c := c) L H g3
    have hw : ∀ ks k, Draining.without d.1 ks k = none ∨ Draining.without d.1 ks k = m k := by
      intro ks k
      simp only [Draining.without]
      by_cases hk : k ∈ ks
      · simp [hk]
      · simp only [hk, if_false]; exact g6 k
    have d1 := d1 st1
    rcases hd : Caught.drainDrop c J (st1, x) with ⟨f | u, st', x'⟩
    · rw [hd] at d1
      rcases d1 with ⟨rfl, j, qs'', d3⟩ | d1
      · refine ⟨es, .panicked, st', _, qs, d, _, run .panicked st' x' ?_, h1, g2, ⟨j, rfl⟩, d3.1.1, g4, hw _, g7, ?_⟩
        · simp [Caught.catchUnwind, hd]
        · rintro _ ⟨u, e⟩; simp at e
      · simp at d1
    · rw [hd] at d1
      simp only [Except.ok.injEq, Prod.mk.injEq] at d1
      obtain ⟨_, rfl⟩ := d1
      refine ⟨es, .returned (), st', _, qs, d, _, run (.returned ()) st' y ?_, h1, g2, rfl, d2.1.1, g4, hw _, g7, ?_⟩
      · simp [Caught.catchUnwind, hd]
      · rintro _ _
        obtain ⟨lost, l1, l2⟩ := g5
        refine ⟨lost, by simpa using l1, fun k hk => ?_⟩
        simp only [Draining.without] at hk
        by_cases hm : k ∈ d.2.map (·.2)
        · simp [hm] at hk
        · simp only [hm, if_false] at hk
          exact (l2 k hk).resolve_right hm

/-- C90 for the sparse maps, after any history; the map afterwards works as an ordinary one with the contents said. -/
theorem C90_drain (L : Lawful c I n) (H : Honest J I) :
    (∀ sz, n * sz ≤ 2 ^ (c.bits - 1) - 1 →
      RunsLike (OMap.step c I sz) (MapSpec.step I n) (OMap.new V) (fun _ => none) (fun m s =>
        DrainCaught c I J n m s (fun m' s' => RunsLike (OMap.step c I sz) (MapSpec.step I n) s' m'))) ∧
    ∃ s, OrdinalArrayMap.new V I n = .ok s ∧
      RunsLike (OrdinalArrayMap.step c I) (MapSpec.step I n) s (fun _ => none) (fun m s =>
        DrainCaught c I J n m s (fun m' s' => RunsLike (OrdinalArrayMap.step c I) (MapSpec.step I n) s' m')) := by
  refine ⟨fun sz hsz ops => ?_, _, OrdinalArrayMap.new_eq L, ?_⟩
  · obtain ⟨s', h1, h2⟩ := OMap.runs_new L hsz ops
    refine ⟨s', h1, fun ds leak st => ?_⟩
    obtain ⟨es, e, st', s'', qs, d, m', g1, g2, g3, g4, g5, g6⟩ := drainCaught_of L H h2 ds leak st
    refine ⟨es, e, st', s'', qs, d, m', g1, g2, g3, g4, fun ops' => ?_, g6⟩
    obtain ⟨t, t1, _⟩ := OMap.runs L hsz g5 ops'
    exact ⟨t, t1, trivial⟩
  · refine (OrdinalArrayMap.runs L _).mono fun m s h => ?_
    subst h
    intro ds leak st
    obtain ⟨es, e, st', s'', qs, d, m', g1, g2, g3, g4, g5, g6⟩ :=
      drainCaught_of L H (b := true) (.inl ⟨rfl, rfl⟩) ds leak st
    refine ⟨es, e, st', s'', qs, d, m', g1, g2, g3, g4, ?_, g6⟩
    rcases g5 with ⟨_, rfl⟩ | ⟨e, _⟩
    · exact (OrdinalArrayMap.runs L m').mono fun _ _ _ => trivial
    · simp at e

example := C90_drain (V := Nat) (bool_lawful debug64).1 moodyImpl_honest

omit [DecidableEq K] in
/-- C90, panics come from the key type only: a call returns exactly when it does in the model of C80, and so does the
destructor. -/
theorem C90_agrees (J : SImpl σ K) :
    (∀ (it : Drain V) d, AgreesWith it (Caught.call (Caught.drainNext c J) (Caught.drainNextBack c J) d)
      (match d with | .front => Eff.drainNext c J it | .back => Eff.drainNextBack c J it)) ∧
    ∀ (it : Drain V) (st : σ), match Eff.drainDrop c J it st with
      | (.ok mem, st') => ∃ q : Drain V, Caught.drainDrop c J (st, it) = (.ok (), (st', q)) ∧ q.mem = mem
      | (.error e, st') => ∃ q, Caught.drainDrop c J (st, it) = (.error e, (st', q)) := by
  refine ⟨fun it d => ?_, same_drainDrop⟩
  cases d
  · exact (same_drainNext it).caught
  · exact (same_drainNextBack it).caught

example := C90_agrees (V := Nat) (c := debug64) moodyImpl

/-! ## Concrete histories -/

-- The first call panics, the second returns `false` with the value of `true`; the value of `false` stays in the map.
example : Caught.drainCalls debug64 moodyImpl [.front, .front] false (3, [some 10, some (20 : Nat)]) =
    (.ok ([.panicked, .returned (some (false, 20))], .returned ()), (1, [some 10, none])) := by rfl
-- `next_back` panics: `true` stays.
example : Caught.drainCalls debug64 moodyImpl [.back, .front] false (3, [some 10, some (20 : Nat)]) =
    (.ok ([.panicked, .returned (some (false, 10))], .returned ()), (1, [none, some 20])) := by rfl
-- The drop panics.
example : Caught.drainCalls debug64 moodyImpl [.front] false (4, [some 10, some (20 : Nat)]) =
    (.ok ([.returned (some (false, 10))], .panicked), (2, [none, some 20])) := by rfl
-- Leaked.
example : Caught.drainCalls debug64 moodyImpl [.front] true (4, [some 10, some (20 : Nat)]) =
    (.ok ([.returned (some (false, 10))], .returned ()), (3, [none, some 20])) := by rfl

end OrdinalMap.Props
