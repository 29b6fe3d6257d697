import Verif.Lemmas.CaughtMap
import Verif.Lemmas.CaughtSame
import Verif.Lemmas.CaughtSet
import Verif.Props.TotalMap
/-!
# C88: collections after caught panics

`ordinal` and `from_ordinal` are user code, which may panic now and then; the panic may be caught, and the
collection used again.  C88: whatever history of operations is run, with panics of the key type at any calls, each
caught: every operation that returns has done what it does without panics; an operation that panics leaves the
collection as it was, except that `iter_mut()` and `values_mut()` keep what was written before the panic, and
`clear()` and `drain()` have removed some of the values.  Afterwards the collection is an ordinary one.  Only
`drain()` can abort the process, by a panic in its destructor while a panic unwinds.
-/

namespace OrdinalMap.Props
open OrdinalMap

variable {σ K V : Type} {c : Cfg} {I : OrdinalImpl K} {J : SImpl σ K} {n : Nat} [DecidableEq K]

/-- `bool`, with a budget of calls: each call takes one off, and a call that finds a multiple of 3 panics. -/
def moodyImpl : SImpl Nat Bool where
  size := .ok 2
  ordinal b := fun st => (if st % 3 = 0 then .error .panic else .ok b.toNat, st - 1)
  fromOrdinal i := fun st =>
    (if st % 3 = 0 then .error .panic else .ok (if i = 0 then some false else if i = 1 then some true else none), st - 1)

theorem moodyImpl_honest : Honest moodyImpl boolImpl := by
  refine ⟨rfl, fun k st => ?_, fun i st => ?_⟩
  · simp only [moodyImpl]
    split
    · exact .inr rfl
    · cases k <;> exact .inl rfl
  · simp only [moodyImpl]
    split
    · exact .inr rfl
    · refine .inl ?_
      match i with
      | 0 => rfl
      | 1 => rfl
      | i + 2 => rfl

/-- C88 for `OrdinalMap`. -/
theorem C88_map (L : Lawful c I n) (H : Honest J I) {sz : Nat} (hsz : n * sz ≤ 2 ^ (c.bits - 1) - 1) :
    RunsCaught (Caught.omapStep c J sz) (MapSpec.step I n) (MapSpec.after I n) MapSpec.fatal (OMap.new V)
      (fun _ => none) (fun m s => RunsLike (OMap.step c I sz) (MapSpec.step I n) s m) := by
  intro ops st
  obtain ⟨es, st', q, r, h1, h2, h3⟩ := caught_run (fun m s => ∃ b, Stored I n b m s)
    (step := Caught.omapStep (V := V) c J sz) (spec := MapSpec.step I n) (after := MapSpec.after I n)
    (fatal := MapSpec.fatal)
    (fun m x op st ⟨b, h⟩ => by
      obtain ⟨e, st', q, e1, e2⟩ := caught_omapStep L H hsz h op st
      refine ⟨e, st', q, e1, e2.imp id (Or.imp_left fun ⟨e2, b', m', e3, e4⟩ => ⟨e2, m', e3, b', e4⟩)⟩)
    ⟨false, .inr ⟨rfl, rfl, rfl⟩⟩ ops st
  refine ⟨es, st', q, r, h1, h2, fun m' e ops' => ?_⟩
  obtain ⟨b, hb⟩ := h3 m' e
  obtain ⟨s', g1, _⟩ := OMap.runs L hsz hb ops'
  exact ⟨s', g1, trivial⟩

example := C88_map (V := Nat) (bool_lawful debug64).1 moodyImpl_honest (sz := 8) (by decide)

/-- C88 for `OrdinalArrayMap`. -/
theorem C88_array_map (L : Lawful c I n) (H : Honest J I) : ∃ s, OrdinalArrayMap.new V I n = .ok s ∧
    RunsCaught (Caught.amapStep c J) (MapSpec.step I n) (MapSpec.after I n) MapSpec.fatal s (fun _ => none)
      (fun m s => RunsLike (OrdinalArrayMap.step c I) (MapSpec.step I n) s m) := by
  refine ⟨_, OrdinalArrayMap.new_eq L, fun ops st => ?_⟩
  obtain ⟨es, st', q, r, h1, h2, h3⟩ := caught_run (fun m s => s = store I n m)
    (step := Caught.amapStep (V := V) c J) (spec := MapSpec.step I n) (after := MapSpec.after I n)
    (fatal := MapSpec.fatal) (fun m x op st h => by subst h; exact caught_amapStep L H m op st) rfl ops st
  refine ⟨es, st', q, r, h1, h2, fun m' e => ?_⟩
  rw [h3 m' e]
  exact (OrdinalArrayMap.runs L m').mono fun _ _ _ => trivial

example := C88_array_map (V := Nat) (bool_lawful debug64).1 moodyImpl_honest

/-- C88 for `OrdinalTotalMap`. -/
theorem C88_total_map (L : Lawful c I n) (H : Honest J I) {sz : Nat} {s : OrdinalTotalMap V}
    (h : MadeTotal c I sz s) : ∃ m, (∀ k, OrdinalTotalMap.get I s k = .ok (m k)) ∧
    RunsCaught (Caught.totalStep c J J.size) (TotalSpec.step I n) (TotalSpec.after I n) (fun _ => False) s m
      (fun m s => RunsLike (OrdinalTotalMap.step c I) (TotalSpec.step I n) s m) := by
  obtain ⟨m, rfl⟩ := exists_store L s (madeTotal_length L h)
  refine ⟨m, OrdinalTotalMap_get L m, fun ops st => ?_⟩
  obtain ⟨es, st', q, r, h1, h2, h3⟩ := caught_run (fun m s => s = store I n m)
    (step := Caught.totalStep (V := V) c J J.size) (spec := TotalSpec.step I n) (after := TotalSpec.after I n)
    (fatal := fun _ => False)
    (fun m x op st h => by subst h; exact caught_totalStep L H (H.size.trans L.size) m op st) rfl ops st
  refine ⟨es, st', q, r, h1, h2, fun m' e => ?_⟩
  rw [h3 m' e]
  exact (totalMap_runs L m').mono fun _ _ _ => trivial

example := C88_total_map (bool_lawful debug64).1 moodyImpl_honest
  (.new (fun _ r => .ok (r * 10, r + 1)) 1 3 rfl : MadeTotal debug64 boolImpl 4 [10, 20])

/-- C88 for `OrdinalTotalArrayMap`. -/
theorem C88_total_array_map (L : Lawful c I n) (H : Honest J I) {s : OrdinalTotalArrayMap V}
    (h : MadeArray I n s) : ∃ m, (∀ k, OrdinalTotalArrayMap.get I s k = .ok (m k)) ∧
    RunsCaught (Caught.totalStep c J (.ok n)) (TotalSpec.step I n) (TotalSpec.after I n) (fun _ => False) s m
      (fun m s => RunsLike (OrdinalTotalArrayMap.step c I n) (TotalSpec.step I n) s m) := by
  obtain ⟨m, rfl⟩ := exists_store L s (madeArray_length L h).2
  refine ⟨m, OrdinalTotalArrayMap_get L m, fun ops st => ?_⟩
  obtain ⟨es, st', q, r, h1, h2, h3⟩ := caught_run (fun m s => s = store I n m)
    (step := Caught.totalStep (V := V) c J (.ok n)) (spec := TotalSpec.step I n) (after := TotalSpec.after I n)
    (fatal := fun _ => False)
    (fun m x op st h => by subst h; exact caught_totalStep L H rfl m op st) rfl ops st
  refine ⟨es, st', q, r, h1, h2, fun m' e => ?_⟩
  rw [h3 m' e]
  exact (totalArrayMap_runs L m').mono fun _ _ _ => trivial

example := C88_total_array_map (bool_lawful debug64).1 moodyImpl_honest (c := debug64)
  (.new (fun _ r => .ok (r * 10, r + 1)) 1 3 rfl : MadeArray boolImpl 2 [10, 20])

/-- C88 for the sets: a panic leaves the same set. -/
theorem C88_sets (L : Lawful c I n) (H : Honest J I) :
    (n + 64 < c.M → ∃ s, OrdinalSet.new I = .ok s ∧
      RunsCaught (fun op => Caught.catchUnwind (Caught.osetOp c J op)) SetSpec.step (fun m _ m' => m' = m)
        (fun _ => False) s (fun _ => false) (fun m s => SetBehavesLike (OrdinalSet.api c I) s m)) ∧
    (∀ S, S = divCeil n 64 → ∃ s, OrdinalArraySet.new I S = .ok s ∧
      RunsCaught (fun op => Caught.catchUnwind (Caught.asetOp c J S op)) SetSpec.step (fun m _ m' => m' = m)
        (fun _ => False) s (fun _ => false) (fun m s => SetBehavesLike (OrdinalArraySet.api c I S) s m)) ∧
    (n ≤ 64 → ∃ s, OrdinalSet64.new I = .ok s ∧
      RunsCaught (fun op => Caught.catchUnwind (Caught.set64Op c J op)) SetSpec.step (fun m _ m' => m' = m)
        (fun _ => False) s (fun _ => false) (fun m s => SetBehavesLike (OrdinalSet64.api c I) s m)) := by
  refine ⟨fun hfit => ?_, ?_, fun h64 => ?_⟩
  · obtain ⟨s, h1, h2⟩ := OrdinalSet.new_view (c := c) L
    refine ⟨s, h1, fun ops st => ?_⟩
    obtain ⟨es, st', q, r, e1, e2, e3⟩ := caught_run (OrdinalSet.View I n)
      (caught_setStep fun m t op h => sim_osetOp L H hfit h op) h2 ops st
    exact ⟨es, st', q, r, e1, e2, fun m' e => (OrdinalSet.behaves L hfit (e3 m' e)).mono fun _ _ _ => trivial⟩
  · rintro S rfl
    obtain ⟨s, h1, h2⟩ := OrdinalArraySet.new_view (c := c) L
    refine ⟨s, h1, fun ops st => ?_⟩
    obtain ⟨es, st', q, r, e1, e2, e3⟩ := caught_run (OrdinalArraySet.View I n)
      (caught_setStep fun m t op h => sim_asetOp L H h op) h2 ops st
    exact ⟨es, st', q, r, e1, e2, fun m' e => (OrdinalArraySet.behaves L (e3 m' e)).mono fun _ _ _ => trivial⟩
  · obtain ⟨s, h1, h2⟩ := OrdinalSet64.new_view (c := c) L h64
    refine ⟨s, h1, fun ops st => ?_⟩
    obtain ⟨es, st', q, r, e1, e2, e3⟩ := caught_run (OrdinalSet64.View I n)
      (caught_setStep fun m t op h => sim_set64Op L H h64 h op) h2 ops st
    exact ⟨es, st', q, r, e1, e2, fun m' e => (OrdinalSet64.behaves L h64 (e3 m' e)).mono fun _ _ _ => trivial⟩

example := C88_sets (bool_lawful debug64).1 moodyImpl_honest

omit [DecidableEq K] in
/-- C88, panics come from the key type only: for every implementation, honest or not, an operation returns here
exactly when it returns in the model of C80, with the same result, collection and calls.  With C80_agrees: if the
implementation has no state, exactly when it returns in the models of the other properties. -/
theorem C88_agrees (J : SImpl σ K) :
    (∀ sz (m : OMap V) op, AgreesWith m (Caught.omapStep c J sz op) (Eff.omapStep c J sz m op)) ∧
    (∀ (m : OrdinalArrayMap V) op, AgreesWith m (Caught.amapStep c J op) (Eff.amapStep c J m op)) ∧
    (∀ len (m : List V) op, AgreesWith m (Caught.totalStep c J len op) (Eff.totalStep c J len m op)) ∧
    (∀ t x, AgreesWith t (Caught.catchUnwind (Caught.osetOp c J (.insert x))) (Eff.osetInsert c J t x) ∧
      AgreesWith t (Caught.catchUnwind (Caught.osetOp c J (.contains x))) (do
        let b ← Eff.osetContains c J t x
        .of (.ok (b, t)))) ∧
    (∀ S t x, AgreesWith t (Caught.catchUnwind (Caught.asetOp c J S (.insert x))) (Eff.asetInsert c J S t x) ∧
      AgreesWith t (Caught.catchUnwind (Caught.asetOp c J S (.contains x))) (do
        let b ← Eff.asetContains c J S t x
        .of (.ok (b, t)))) ∧
    ∀ t x, AgreesWith t (Caught.catchUnwind (Caught.set64Op c J (.insert x))) (Eff.set64Insert c J t x) ∧
      AgreesWith t (Caught.catchUnwind (Caught.set64Op c J (.contains x))) (do
        let b ← Eff.set64Contains c J t x
        .of (.ok (b, t))) :=
  ⟨agrees_omapStep, agrees_amapStep, fun len m op => (same_totalOp len m op).caught,
    fun t x => ⟨(same_oset t x).1.caught, (same_oset t x).2.caught⟩,
    fun S t x => ⟨(same_aset S t x).1.caught, (same_aset S t x).2.caught⟩,
    fun t x => ⟨(same_set64 t x).1.caught, (same_set64 t x).2.caught⟩⟩

example := C88_agrees (V := Nat) (c := debug64) moodyImpl

omit [DecidableEq K] in
/-- C88, `drain()` does abort: a panic in `next` does not pass over the ordinal, so the destructor, which runs while the
panic unwinds, asks for the same ordinal again.  If `from_ordinal(0)` panics every time, a `drain()` of any
allocated map of two or more keys that starts with `next` ends the process, also if the panic would be caught. -/
theorem C88_drain_aborts (hp : ∀ st, (J.fromOrdinal 0 st).1 = .error .panic) (m : List (Option V)) (h : 2 ≤ m.length)
    (ds : List Dir) (leak : Bool) (st : σ) :
    ∃ p, Caught.drain c J (.front :: ds) leak (st, m) = (.ok .aborted, p) := by
  have key : ∀ (i j : Nat) (st : σ), i < j → ∃ st',
      Caught.drainNext (V := V) c J (st, ⟨m, ⟨0, ⟨i, j⟩⟩⟩) = (.error .panic, (st', ⟨m, ⟨0, ⟨i + 1, j⟩⟩⟩)) := by
    intro i j st hij
    refine ⟨(J.fromOrdinal 0 st).2, ?_⟩
    have e : Caught.mutNext (V := Option V) c J (st, ⟨m, ⟨0, ⟨i, j⟩⟩⟩) =
        (.error .panic, ((J.fromOrdinal 0 st).2, ⟨m, ⟨0, ⟨i + 1, j⟩⟩⟩)) := by
      simp only [Caught.mutNext, M.bind_apply, Upd.read, Range.next, hij, if_true, Upd.write, Upd.user, hp]
    simp only [Caught.drainNext, M.bind_apply, Upd.read, Caught.skipLoop, e]
  obtain ⟨st1, h1⟩ := key 0 m.length st (by omega)
  obtain ⟨st2, h2⟩ := key 1 m.length st1 (by omega)
  have h3 : Caught.drainDrop c J (st1, (⟨m, ⟨0, ⟨1, m.length⟩⟩⟩ : Drain V)) =
      (.error .panic, (st2, ⟨m, ⟨0, ⟨2, m.length⟩⟩⟩)) := by
    simp only [Caught.drainDrop, M.bind_apply, Upd.read, Caught.dropLoop, h2]
  have h4 : Caught.runDirs (Caught.drainNext c J) (Caught.drainNextBack c J) (.front :: ds) (st, Drain.new m) =
      (.error .panic, (st1, ⟨m, ⟨0, ⟨1, m.length⟩⟩⟩)) := by
    simp only [Caught.runDirs, M.bind_apply, Drain.new, TotalIterMut.new, Enumerate.new, h1]
  exact ⟨_, by simp only [Caught.drain, Upd.zoom, M.bind_apply, Caught.catchWith, h4, h3]; rfl⟩

example := C88_drain_aborts (c := debug64) (J := SImpl.ofPure (σ := Unit) ⟨.ok 2, fun b : Bool => .ok b.toNat,
  fun _ => .error .panic⟩) (fun _ => rfl) [none, some (5 : Nat)] (by decide) [.back] true ()

/-! ## Concrete histories -/

-- `insert` calls `ordinal` once.  The third call panics: the map is allocated, and as it was before.
example : Caught.run (Caught.omapStep debug64 moodyImpl 8) [.insert true (5 : Nat), .get true, .insert true 7, .get true]
    (5, OMap.new Nat) = (.ok [.returned (.opt none), .returned (.opt (some 5)), .panicked, .returned (.opt (some 5))],
      (1, [none, some 5])) := by rfl
-- `clear` removes `false`, then panics; `true` is still there.
example : Caught.run (Caught.omapStep debug64 moodyImpl 8) [.clear, .get true, .get false]
    (4, [some 5, some (6 : Nat)]) =
    (.ok [.panicked, .returned (.opt (some 6)), .returned (.opt none)], (0, [none, some 6])) := by rfl
-- `iter_mut` hands out `false`, which is written to, then panics.
example : Caught.run (Caught.omapStep debug64 moodyImpl 8) [.iterMut [.front, .write 0 (9 : Nat), .front], .get false]
    (4, [some 5, some 6]) = (.ok [.panicked, .returned (.opt (some 9))], (1, [some 9, some 6])) := by rfl
-- `drain`: the first call panics.  The destructor begins with the same ordinal again.
example : Caught.run (Caught.omapStep debug64 moodyImpl 8) [.drain [.front] false, .len]
    (6, [some (5 : Nat), some 6]) = (.ok [.panicked, .panicked], (2, [some 5, none])) := by rfl
-- If that panics as well, the process aborts.
example : Caught.run (Caught.omapStep debug64 moodyImpl 8) [.drain [.front] false, .len]
    (0, [some (5 : Nat), some 6]) = (.ok [.aborted], (0, [some 5, some 6])) := by rfl

end OrdinalMap.Props
