import Verif.Lemmas.Clone
import Verif.Props.Set
import Verif.Props.TotalMap
import Verif.Props.Values
/-!
# C54: clones are independent

Every statement is about a world (SpecClone.lean) that starts with one object.  The client then uses
and clones the objects there are in any order, for ever; every answer is that of the specification,
in which an object is changed only by operations on it and a clone starts with the contents of the
original at that moment.  `cl` is `V::clone`; it need not be the identity.
-/

namespace OrdinalMap.Props
open OrdinalMap

variable {K V τ : Type} [DecidableEq K] [DecidableEq τ] {c : Cfg} {I : OrdinalImpl K} {J : OrdinalImpl τ} {n : Nat}

/-- C54 for the sparse maps. -/
theorem C54_maps (L : Lawful c I n) (cl : V → V) :
    (∀ sz, n * sz ≤ 2 ^ (c.bits - 1) - 1 →
      RunsLike (World.step (OMap.step c I sz) (OMap.clone cl))
        (WorldSpec.step (MapSpec.step I n) fun m k => (m k).map cl) [OMap.new V] [fun _ => none]) ∧
    ∃ s, OrdinalArrayMap.new V I n = .ok s ∧
      RunsLike (World.step (OrdinalArrayMap.step c I) (OrdinalArrayMap.clone cl))
        (WorldSpec.step (MapSpec.step I n) fun m k => (m k).map cl) [s] [fun _ => none] := by
  constructor
  · intro sz hsz ops
    obtain ⟨s', h1, _⟩ := world_runs (step := OMap.step c I sz) (spec := MapSpec.step I n) (cl := OMap.clone cl)
      (clM := fun m k => (m k).map cl) (fun m s => ∃ b, Stored I n b m s)
      (fun m s op ⟨b, h⟩ => by
        obtain ⟨s', h1, h2⟩ := OMap.step_rel L hsz (m, b) s op h
        exact ⟨s', h1, _, h2⟩)
      (fun m s ⟨b, h⟩ => ⟨b, h.clone cl⟩) (s := OMap.new V) (m := fun _ => none) ⟨false, .inr ⟨rfl, rfl, rfl⟩⟩ ops
    exact ⟨s', h1, trivial⟩
  · refine ⟨_, OrdinalArrayMap.new_eq L, fun ops => ?_⟩
    obtain ⟨s', h1, _⟩ := world_runs (step := OrdinalArrayMap.step c I) (spec := MapSpec.step I n)
      (cl := OrdinalArrayMap.clone cl) (clM := fun m k => (m k).map cl) (fun m s => s = store I n m)
      (OrdinalArrayMap.step_rel L) (fun m s h => by rw [h]; exact store_map _ m)
      (s := store I n fun _ => none) (m := fun _ => none) rfl ops
    exact ⟨s', h1, trivial⟩

example := C54_maps (ordering_lawful debug64).1 (fun v : Nat => v + 100)

/-- C54 for the total maps. -/
theorem C54_total_maps (L : Lawful c I n) (cl : V → V) (vs : List V) (hvs : vs.length = n) :
    ∃ m0 : K → V, (∀ k, OrdinalTotalMap.get I vs k = .ok (m0 k)) ∧
      RunsLike (World.step (OrdinalTotalMap.step c I) (OrdinalTotalMap.clone cl))
        (WorldSpec.step (TotalSpec.step I n) fun m k => cl (m k)) [vs] [m0] ∧
      RunsLike (World.step (OrdinalTotalArrayMap.step c I n) (OrdinalTotalArrayMap.clone cl))
        (WorldSpec.step (TotalSpec.step I n) fun m k => cl (m k)) [vs] [m0] := by
  obtain ⟨m0, rfl⟩ := exists_store L vs hvs
  refine ⟨m0, OrdinalTotalMap_get L m0, fun ops => ?_, fun ops => ?_⟩
  · obtain ⟨s', h1, _⟩ := world_runs (step := OrdinalTotalMap.step c I) (spec := TotalSpec.step I n)
      (cl := OrdinalTotalMap.clone cl) (clM := fun m k => cl (m k)) (fun m s => s = store I n m)
      (OrdinalTotalMap.step_rel L) (fun m s h => by rw [h]; exact store_map _ m) (s := store I n m0) (m := m0) rfl ops
    exact ⟨s', h1, trivial⟩
  · obtain ⟨s', h1, _⟩ := world_runs (step := OrdinalTotalArrayMap.step c I n) (spec := TotalSpec.step I n)
      (cl := OrdinalTotalArrayMap.clone cl) (clM := fun m k => cl (m k)) (fun m s => s = store I n m)
      (OrdinalTotalArrayMap.step_rel L) (fun m s h => by rw [h]; exact store_map _ m) (s := store I n m0) (m := m0) rfl ops
    exact ⟨s', h1, trivial⟩

example := C54_total_maps (ordering_lawful debug64).1 (fun v : Nat => v + 100) [1, 2, 3] rfl

/-- C54 for the sets. -/
theorem C54_sets (L : Lawful c J n) (xs : List τ) :
    (n + 64 < c.M → ∃ s, OrdinalSet.fromIter c J xs = .ok s ∧
      RunsLike (World.step (OrdinalSet.api c J).step OrdinalSet.clone) (WorldSpec.step SetSpec.step id)
        [s] [fun x => decide (x ∈ xs)]) ∧
    (∃ S s, ordinalArraySetS J = .ok S ∧ OrdinalArraySet.fromIter c J S xs = .ok s ∧
      RunsLike (World.step (OrdinalArraySet.api c J S).step OrdinalArraySet.clone) (WorldSpec.step SetSpec.step id)
        [s] [fun x => decide (x ∈ xs)]) ∧
    (n ≤ 64 → ∃ s, OrdinalSet64.fromIter c J xs = .ok s ∧
      RunsLike (World.step (OrdinalSet64.api c J).step OrdinalSet64.clone) (WorldSpec.step SetSpec.step id)
        [s] [fun x => decide (x ∈ xs)]) := by
  refine ⟨fun hfit => ?_, ?_, fun h64 => ?_⟩
  · obtain ⟨s, h1, h2⟩ := OrdinalSet.fromIter_view L hfit xs
    exact ⟨s, h1, world_sets (OrdinalSet.View J n) (fun _ _ h => OrdinalSet.behaves L hfit h) (fun _ _ h => h) h2⟩
  · obtain ⟨s, h1, h2⟩ := OrdinalArraySet.fromIter_view L xs
    exact ⟨_, s, arraySetS_eq L, h1,
      world_sets (OrdinalArraySet.View J n) (fun _ _ h => OrdinalArraySet.behaves L h) (fun _ _ h => h) h2⟩
  · obtain ⟨s, h1, h2⟩ := OrdinalSet64.fromIter_view L h64 xs
    exact ⟨s, h1, world_sets (OrdinalSet64.View J n) (fun _ _ h => OrdinalSet64.behaves L h64 h) (fun _ _ h => h) h2⟩

example := C54_sets (u8_lawful debug32).1 [⟨200, by decide⟩, ⟨7, by decide⟩]

/-- C54 for the borrowing iterators of the sparse maps (`Iter`, `Keys`, `Values`) and for the owning
ones, which clone the values they still hold; after any history on the map. -/
theorem C54_map_iters (L : Lawful c I n) (cl : V → V) :
    (∀ sz, n * sz ≤ 2 ^ (c.bits - 1) - 1 →
      RunsLike (OMap.step c I sz) (MapSpec.step I n) (OMap.new V) (fun _ => none) (fun m s =>
        RunsLike (World.step (MapIter.it c I).step MapIter.clone) (WorldSpec.step Deque.step id)
          [OMap.iter s] [pairs I n m] ∧
        RunsLike (World.step (Keys.it c I).step Keys.clone) (WorldSpec.step Deque.step id)
          [OMap.keys s] [(pairs I n m).map (·.1)] ∧
        RunsLike (World.step (Values.it c I).step Values.clone) (WorldSpec.step Deque.step id)
          [OMap.values s] [(pairs I n m).map (·.2)] ∧
        RunsLike (World.step (MapIntoIter.it c I).step (MapIntoIter.clone cl))
          (WorldSpec.step Deque.step fun l => l.map fun p => (p.1, cl p.2)) [OMap.intoIter s] [pairs I n m])) ∧
    ∃ s, OrdinalArrayMap.new V I n = .ok s ∧
      RunsLike (OrdinalArrayMap.step c I) (MapSpec.step I n) s (fun _ => none) (fun m s =>
        RunsLike (World.step (MapIter.it c I).step MapIter.clone) (WorldSpec.step Deque.step id)
          [OrdinalArrayMap.iter s] [pairs I n m] ∧
        RunsLike (World.step (Keys.it c I).step Keys.clone) (WorldSpec.step Deque.step id)
          [OrdinalArrayMap.keys s] [(pairs I n m).map (·.1)] ∧
        RunsLike (World.step (Values.it c I).step Values.clone) (WorldSpec.step Deque.step id)
          [OrdinalArrayMap.values s] [(pairs I n m).map (·.2)] ∧
        RunsLike (World.step (MapIntoIterArray.it c I).step (MapIntoIterArray.clone cl))
          (WorldSpec.step Deque.step fun l => l.map fun p => (p.1, cl p.2))
          [OrdinalArrayMap.intoIter s] [pairs I n m]) := by
  have key : ∀ (b : Bool) (m : K → Option V) (s : List (Option V)), Stored I n b m s →
      RunsLike (World.step (MapIter.it c I).step MapIter.clone) (WorldSpec.step Deque.step id)
          [TotalIter.new s 0] [pairs I n m] ∧
        RunsLike (World.step (Keys.it c I).step Keys.clone) (WorldSpec.step Deque.step id)
          [TotalIter.new s 0] [(pairs I n m).map (·.1)] ∧
        RunsLike (World.step (Values.it c I).step Values.clone) (WorldSpec.step Deque.step id)
          [TotalIter.new s 0] [(pairs I n m).map (·.2)] := by
    intro b m s h
    exact ⟨world_iters (SView I n) (fun _ _ h => MapIter.behaves L h) (fun _ _ h => h) (h.sview L),
      world_iters (KView I n) (fun _ _ h => Keys.behaves L h) (fun _ _ h => h) ⟨_, h.sview L, rfl⟩,
      world_iters (VView I n) (fun _ _ h => Values.behaves L h) (fun _ _ h => h) ⟨_, h.sview L, rfl⟩⟩
  constructor
  · intro sz hsz ops
    obtain ⟨s', h1, h2⟩ := OMap.runs_new L hsz ops
    obtain ⟨k1, k2, k3⟩ := key _ _ _ h2
    exact ⟨s', h1, k1, k2, k3, world_iters (SView I n) (fun _ _ h => MapIntoIter.behaves L h)
      (fun _ _ h => h.clone cl) (h2.sview L)⟩
  · refine ⟨_, OrdinalArrayMap.new_eq L, (OrdinalArrayMap.runs L _).mono ?_⟩
    rintro m s rfl
    have h : Stored I n true m (store I n m) := .inl ⟨rfl, rfl⟩
    obtain ⟨k1, k2, k3⟩ := key _ _ _ h
    exact ⟨k1, k2, k3, world_iters (SView I n) (fun _ _ h => MapIntoIterArray.behaves L h)
      (fun _ _ h => h.clone cl) (h.sview L)⟩

example := C54_map_iters (ordering_lawful debug64).1 (fun v : Nat => v + 100)

omit [DecidableEq K] in
/-- C54 for the iterators of the total maps. -/
theorem C54_total_iters (L : Lawful c I n) (cl : V → V) (vs : List V) (hvs : vs.length = n) :
    ∃ m0 : K → V, (∀ k, OrdinalTotalMap.get I vs k = .ok (m0 k)) ∧
      RunsLike (World.step (TotalIter.it c I).step TotalIter.clone) (WorldSpec.step Deque.step id)
        [OrdinalTotalMap.iter vs] [pairsT I n m0] ∧
      RunsLike (World.step (TotalIter.it c I).step TotalIter.clone) (WorldSpec.step Deque.step id)
        [OrdinalTotalArrayMap.iter vs] [pairsT I n m0] ∧
      RunsLike (World.step (TotalIntoIter.it c I).step (TotalIntoIter.clone cl))
        (WorldSpec.step Deque.step fun l => l.map fun p => (p.1, cl p.2)) [OrdinalTotalMap.intoIter vs] [pairsT I n m0] ∧
      RunsLike (World.step (TotalIntoIterArray.it c I).step (TotalIntoIterArray.clone cl))
        (WorldSpec.step Deque.step fun l => l.map fun p => (p.1, cl p.2))
        [OrdinalTotalArrayMap.intoIter vs] [pairsT I n m0] := by
  obtain ⟨m0, rfl⟩ := exists_store L vs hvs
  have hf := fresh_view L m0
  exact ⟨m0, OrdinalTotalMap_get L m0,
    world_iters (LView I n) (fun _ _ h => TotalIter.behaves L h) (fun _ _ h => h) hf,
    world_iters (LView I n) (fun _ _ h => TotalIter.behaves L h) (fun _ _ h => h) hf,
    world_iters (LView I n) (fun _ _ h => TotalIntoIter.behaves L h) (fun _ _ h => h.clone cl) hf,
    world_iters (LView I n) (fun _ _ h => TotalIntoIterArray.behaves L h) (fun _ _ h => h.clone cl) hf⟩

example := C54_total_iters (ordering_lawful debug64).1 (fun v : Nat => v + 100) [1, 2, 3] rfl

/-- C54 for the iterators of the sets and for `all_values()`.  (`OrdinalSet::iter` panics for an
uninhabited type in builds with debug assertions: C25.) -/
theorem C54_set_iters (L : Lawful c J n) (xs : List τ) :
    (n + 64 < c.M → (0 < n ∨ c.debugAssertions = false) → ∃ s, OrdinalSet.fromIter c J xs = .ok s ∧
      SetBehavesLike (OrdinalSet.api c J) s (fun x => decide (x ∈ xs)) (fun m s =>
        ∃ it, OrdinalSet.iter c J s = .ok it ∧
          RunsLike (World.step (SetIter.it c J).step SetIter.clone) (WorldSpec.step Deque.step id)
            [it] [elements J n m])) ∧
    (n ≤ 64 → ∃ s, OrdinalSet64.fromIter c J xs = .ok s ∧
      SetBehavesLike (OrdinalSet64.api c J) s (fun x => decide (x ∈ xs)) (fun m s =>
        ∃ it, OrdinalSet64.iter J s = .ok it ∧
          RunsLike (World.step (Iter64.it c J).step Iter64.clone) (WorldSpec.step Deque.step id)
            [it] [elements J n m])) ∧
    ∃ it, OrdinalValues.new J = .ok it ∧
      RunsLike (World.step (OrdinalValues.iter J).step OrdinalValues.clone) (WorldSpec.step Deque.step id)
        [it] [values J n] := by
  refine ⟨fun hfit hp => ?_, fun h64 => ?_, ?_⟩
  · obtain ⟨s, h1, h2⟩ := OrdinalSet.fromIter_view L hfit xs
    refine ⟨s, h1, (OrdinalSet.behaves L hfit h2).mono fun m s h => ?_⟩
    obtain ⟨ws, it, h3, h4⟩ := OrdinalSet.iter_view L h hp
    exact ⟨it, h3, world_iters (SetIter.View J n ws) (fun _ _ h => SetIter.behaves L h) (fun _ _ h => h) h4⟩
  · obtain ⟨s, h1, h2⟩ := OrdinalSet64.fromIter_view L h64 xs
    refine ⟨s, h1, (OrdinalSet64.behaves L h64 h2).mono fun m s h => ?_⟩
    exact ⟨s, by simp [OrdinalSet64.iter, OrdinalSet64.assert64_ok L h64],
      world_iters (Iter64.View J n) (fun _ _ h => Iter64.behaves L h64 h) (fun _ _ h => h) (Iter64.view_of_set h)⟩
  · obtain ⟨it, h1, h2⟩ := OrdinalValues.new_view L
    exact ⟨it, h1, world_iters (OrdinalValues.View J n) (fun _ _ h => OrdinalValues.behaves L h) (fun _ _ h => h) h2⟩

example := C54_set_iters (ordering_lawful debug64).1 [.gt, .lt]

/-! ## Concrete cases -/

/-- A map is cloned; the clone (with values cloned by `· + 100`) is changed, then the original. -/
example :
    (runOps (World.step (OMap.step debug64 boolImpl 8) (OMap.clone (· + 100))) [OMap.new Nat]
      [.on 0 (.insert true 1), .clone 0, .on 1 (.get true), .on 1 (.insert false 7), .on 0 (.get false),
        .on 0 (.remove true), .on 1 (.get true)]).map (·.1) =
    .ok [some (.opt none), none, some (.opt (some 101)), some (.opt none), some (.opt none), some (.opt (some 1)),
      some (.opt (some 101))] := by rfl
example : Lawful debug64 boolImpl 2 ∧ 2 * 8 ≤ 2 ^ (debug64.bits - 1) - 1 := ⟨(bool_lawful _).1, by decide⟩
/-- An iterator is advanced, cloned, and both are run to the end. -/
example :
    (runOps (World.step (OrdinalValues.iter orderingImpl).step OrdinalValues.clone) [⟨0, 3⟩]
      [.on 0 .front, .clone 0, .on 0 .back, .on 1 .front, .on 1 .front, .on 0 .front, .on 0 .front]).map (·.1) =
    .ok [some (some .lt), none, some (some .gt), some (some .eq), some (some .gt), some (some .eq), some none] := by rfl

end OrdinalMap.Props
