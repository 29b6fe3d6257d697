import Verif.Model.Own
import Verif.SpecOwn
import Verif.Lemmas.MapMore
/-! # Ownership and unwinding -/

namespace OrdinalMap
open ArrayBuilder
variable {K V W E ρ : Type} {c : Cfg} {I : OrdinalImpl K} {n : Nat}

theorem valuesNext_cases (hI : UserImpl I) (it : OrdinalValues) :
    OrdinalValues.next I it = .error .panic ∨ (∃ it', OrdinalValues.next I it = .ok (none, it')) ∨
    ∃ k it', OrdinalValues.next I it = .ok (some k, it') ∧ it'.len < it.len := by
  unfold OrdinalValues.next Range.next
  split
  · rename_i h; split at h <;> simp_all
  · rename_i i r h
    split at h
    · rename_i hlt
      simp only [Prod.mk.injEq, Option.some.injEq] at h
      obtain ⟨rfl, rfl⟩ := h
      rcases hI.fromOrdinal it.start with e | ⟨o, e⟩
      · left; simp [e]
      · cases o with
        | none => left; simp [e]
        | some k =>
          right; right
          refine ⟨k, _, by simp [e]; rfl, ?_⟩
          unfold OrdinalValues.len Range.len
          repeat' split
          all_goals simp_all; omega
    · simp_all

/-! ## `OrdinalTotalMap::try_new` -/

namespace OrdinalTotalMap

theorem tryNewLoopO_refines (init : K → ρ → R (Except E V × ρ)) : ∀ fuel it map made r,
    (tryNewLoopO I init fuel it map made r >>= fun p => p.2.result) = tryNewLoop I init fuel it map r := by
  intro fuel
  induction fuel with
  | zero => intros; rfl
  | succ fuel ih =>
    intro it map made r
    unfold tryNewLoopO tryNewLoop
    cases h : OrdinalValues.next I it with
    | error e => cases e <;> rfl
    | ok p =>
      obtain ⟨o, it'⟩ := p
      cases o with
      | none => rfl
      | some v =>
        simp only [ok_bind]
        cases hi : init v r with
        | error e => cases e <;> rfl
        | ok q =>
          obtain ⟨x, r'⟩ := q
          cases x with
          | error e => rfl
          | ok x => exact ih ..

theorem tryNewLoopO_spec (hI : UserImpl I) {init : K → ρ → R (Except E V × ρ)}
    (hf : ∀ k r, Returns (init k r)) : ∀ fuel it (map : List V) r, OrdinalValues.len it < fuel →
    ∃ log o, tryNewLoopO I init fuel it map map r = .ok (log, o) ∧ o.handed ++ o.dropped = log := by
  intro fuel
  induction fuel with
  | zero => intro _ _ _ h; omega
  | succ fuel ih =>
    intro it map r hl
    unfold tryNewLoopO
    rcases valuesNext_cases hI it with e | ⟨it', e⟩ | ⟨k, it', e, hlt⟩
    · exact ⟨_, _, by rw [e], by simp [Outcome.handed]⟩
    · exact ⟨_, _, by rw [e], by simp [Outcome.handed]⟩
    · rw [e]
      dsimp only
      rcases hf k r with e1 | ⟨⟨x, r'⟩, e1⟩
      · exact ⟨_, _, by rw [e1], by simp [Outcome.handed]⟩
      · rw [e1]
        cases x with
        | error x => exact ⟨_, _, rfl, by simp [Outcome.handed]⟩
        | ok x => exact ih it' (map ++ [x]) r' (by simp only [OrdinalValues.len] at *; omega)

theorem tryNewLoopO_log (L : Lawful c I n) (init : K → ρ → R (Except E V × ρ)) :
    ∀ (ks : List K) (fuel : Nat) (it : OrdinalValues) (map made : List V) (r : ρ) log o,
      OrdinalValues.View I n ks it → tryNewLoopO I init fuel it map made r = .ok (log, o) →
      log = made ++ initLog init ks r := by
  intro ks
  induction ks with
  | nil =>
    intro fuel it map made r log o hv h
    obtain ⟨it', h1, _, _⟩ := OrdinalValues.next_view L it [] hv
    cases fuel with
    | zero => simp [tryNewLoopO] at h
    | succ fuel => simp [tryNewLoopO, h1] at h; simp [initLog, h.1]
  | cons k ks ih =>
    intro fuel it map made r log o hv h
    obtain ⟨it', h1, h2, _⟩ := OrdinalValues.next_view L it _ hv
    cases fuel with
    | zero => simp [tryNewLoopO] at h
    | succ fuel =>
      simp only [tryNewLoopO, h1, List.head?_cons] at h
      simp only [initLog]
      cases hi : init k r with
      | error e => rw [hi] at h; cases e <;> simp_all
      | ok q =>
        rw [hi] at h
        obtain ⟨x, r'⟩ := q
        cases x with
        | error e => simp_all
        | ok x => rw [ih _ _ _ _ _ _ _ h2 h]; simp

end OrdinalTotalMap

/-! ## `OrdinalTotalArrayMap::try_new` -/

namespace OrdinalTotalArrayMap

theorem tryNewLoopO_refines (init : K → ρ → R (Except E V × ρ)) (S : Nat) : ∀ fuel it vs made r,
    vs.length ≤ S →
    (tryNewLoopO I init fuel it (holding S vs) made r >>= fun p => p.2.result) =
      tryNewLoop I init fuel it (holding S vs) r := by
  intro fuel
  induction fuel with
  | zero => intros; rfl
  | succ fuel ih =>
    intro it vs made r hl
    unfold tryNewLoopO tryNewLoop
    cases h : OrdinalValues.next I it with
    | error e =>
      cases e <;> first | rfl | simp [unwindBuilder, drop_holding, Outcome.result]
    | ok p =>
      obtain ⟨o, it'⟩ := p
      cases o with
      | none =>
        simp only [ok_bind]
        rcases Nat.lt_or_eq_of_le hl with h1 | h1
        · rw [tryFinish_partial h1]
          simp [ArrayBuilder.finish, tryFinish_partial h1, Outcome.result]
        · rw [tryFinish_full h1]
          simp [ArrayBuilder.finish, tryFinish_full h1, Outcome.result]
      | some v =>
        simp only [ok_bind]
        cases hi : init v r with
        | error e =>
          cases e <;> first | rfl | simp [unwindBuilder, drop_holding, Outcome.result]
        | ok q =>
          obtain ⟨x, r'⟩ := q
          cases x with
          | error e => simp [drop_holding, Outcome.result]
          | ok x =>
            rcases Nat.lt_or_eq_of_le hl with h1 | h1
            · simp only [push_holding x h1, ok_bind]
              exact ih _ _ _ _ (by simp; omega)
            · simp [push_full x h1, unwindBuilder, drop_holding, Outcome.result]

theorem tryNewLoopO_spec (hI : UserImpl I) {init : K → ρ → R (Except E V × ρ)}
    (hf : ∀ k r, Returns (init k r)) (S : Nat) : ∀ fuel it (vs : List V) r, OrdinalValues.len it < fuel →
    vs.length ≤ S →
    ∃ log o, tryNewLoopO I init fuel it (holding S vs) vs r = .ok (log, o) ∧
      (o.handed ++ o.dropped).Perm log := by
  intro fuel
  induction fuel with
  | zero => intro _ _ _ h; omega
  | succ fuel ih =>
    intro it vs r hl hS
    unfold tryNewLoopO
    rcases valuesNext_cases hI it with e | ⟨it', e⟩ | ⟨k, it', e, hlt⟩
    · exact ⟨_, _, by simp [e, unwindBuilder, drop_holding]; exact ⟨rfl, rfl⟩, by simp [Outcome.handed]⟩
    · rcases Nat.lt_or_eq_of_le hS with h1 | h1
      · exact ⟨_, _, by simp [e, tryFinish_partial h1]; exact ⟨rfl, rfl⟩, by simp [Outcome.handed]⟩
      · exact ⟨_, _, by simp [e, tryFinish_full h1]; exact ⟨rfl, rfl⟩, by simp [Outcome.handed]⟩
    · rw [e]
      dsimp only
      rcases hf k r with e1 | ⟨⟨x, r'⟩, e1⟩
      · exact ⟨_, _, by simp [e1, unwindBuilder, drop_holding]; exact ⟨rfl, rfl⟩, by simp [Outcome.handed]⟩
      · rw [e1]
        cases x with
        | error x => exact ⟨_, _, by simp [drop_holding]; exact ⟨rfl, rfl⟩, by simp [Outcome.handed]⟩
        | ok x =>
          rcases Nat.lt_or_eq_of_le hS with h1 | h1
          · simp only [push_holding x h1]
            exact ih it' (vs ++ [x]) r' (by simp only [OrdinalValues.len] at *; omega) (by simp; omega)
          · refine ⟨_, _, by simp [push_full x h1, unwindBuilder, drop_holding]; exact ⟨rfl, rfl⟩, ?_⟩
            simpa [Outcome.handed] using (List.perm_append_singleton x vs).symm

theorem tryNewLoopO_log (L : Lawful c I n) (init : K → ρ → R (Except E V × ρ)) (S : Nat) :
    ∀ (ks : List K) (fuel : Nat) (it : OrdinalValues) (vs made : List V) (r : ρ) log o,
      OrdinalValues.View I n ks it → vs.length + ks.length = S →
      tryNewLoopO I init fuel it (holding S vs) made r = .ok (log, o) →
      log = made ++ initLog init ks r := by
  intro ks
  induction ks with
  | nil =>
    intro fuel it vs made r log o hv hS h
    obtain ⟨it', h1, _, _⟩ := OrdinalValues.next_view L it [] hv
    cases fuel with
    | zero => simp [tryNewLoopO] at h
    | succ fuel =>
      simp [tryNewLoopO, h1, tryFinish_full (show vs.length = S by simpa using hS)] at h
      simp [initLog, h.1]
  | cons k ks ih =>
    intro fuel it vs made r log o hv hS h
    obtain ⟨it', h1, h2, _⟩ := OrdinalValues.next_view L it _ hv
    simp only [List.length_cons] at hS
    cases fuel with
    | zero => simp [tryNewLoopO] at h
    | succ fuel =>
      simp only [tryNewLoopO, h1, List.head?_cons] at h
      simp only [initLog]
      cases hi : init k r with
      | error e =>
        rw [hi] at h
        cases e <;> simp_all [unwindBuilder, drop_holding]
      | ok q =>
        rw [hi] at h
        obtain ⟨x, r'⟩ := q
        cases x with
        | error e => simp_all [drop_holding]
        | ok x =>
          simp only [push_holding x (show vs.length < S by omega)] at h
          rw [ih _ _ _ _ _ _ _ h2 (by simp; omega) h]; simp

/-! ## `map` -/

theorem intoNext_cases (hI : UserImpl I) (it : TotalIntoIterArray V) :
    TotalIntoIterArray.next c I it = .error .panic ∨
    (∃ it', TotalIntoIterArray.next c I it = .ok (none, it') ∧ Enumerate.iter it = [] ∧ Enumerate.iter it' = []) ∨
    ∃ k v it', TotalIntoIterArray.next c I it = .ok (some (k, v), it') ∧
      Enumerate.iter it = v :: Enumerate.iter it' := by
  obtain ⟨next, l⟩ := it
  unfold TotalIntoIterArray.next Enumerate.nextItem
  cases l with
  | nil => right; left; exact ⟨⟨next, []⟩, rfl, rfl, rfl⟩
  | cons v l =>
    rcases hI.fromOrdinal next with e | ⟨o, e⟩
    · left; simp [listIter, e]
    · cases o with
      | none => left; simp [listIter, e]
      | some k =>
        simp only [listIter, List.head?_cons, e, ok_bind, unwrap_some]
        unfold addU
        split
        · right; right
          exact ⟨k, v, _, rfl, rfl⟩
        · split
          · left; rfl
          · right; right
            exact ⟨k, v, _, rfl, rfl⟩

theorem mapLoopO_refines (f : K → V → ρ → R (W × ρ)) (S : Nat) : ∀ fuel it vs passed made r,
    vs.length ≤ S →
    (mapLoopO c I f fuel it (holding S vs) passed made r >>= fun p => p.out.result) =
      mapLoop c I f fuel it (holding S vs) r := by
  intro fuel
  induction fuel with
  | zero => intros; rfl
  | succ fuel ih =>
    intro it vs passed made r hl
    unfold mapLoopO mapLoop
    cases h : TotalIntoIterArray.next c I it with
    | error e => cases e <;> first | rfl | simp [unwindBuilder, drop_holding, Outcome.result]
    | ok p =>
      obtain ⟨o, it'⟩ := p
      cases o with
      | none =>
        simp only [ok_bind]
        rcases Nat.lt_or_eq_of_le hl with h1 | h1
        · simp [ArrayBuilder.finish, tryFinish_partial h1, Outcome.result]
        · simp [ArrayBuilder.finish, tryFinish_full h1, Outcome.result]
      | some q =>
        obtain ⟨k, v⟩ := q
        simp only [ok_bind]
        cases hi : f k v r with
        | error e => cases e <;> first | rfl | simp [unwindBuilder, drop_holding, Outcome.result]
        | ok q =>
          obtain ⟨w, r'⟩ := q
          rcases Nat.lt_or_eq_of_le hl with h1 | h1
          · simp only [push_holding w h1, ok_bind]
            exact ih _ _ _ _ _ (by simp; omega)
          · simp [push_full w h1, unwindBuilder, drop_holding, Outcome.result]

theorem mapLoopO_spec (hI : UserImpl I) {f : K → V → ρ → R (W × ρ)} (hf : ∀ k v r, Returns (f k v r))
    (S : Nat) : ∀ fuel it (vs : List W) passed r, (Enumerate.iter it : List V).length < fuel → vs.length ≤ S →
    ∃ g, mapLoopO c I f fuel it (holding S vs) passed vs r = .ok g ∧
      g.passed ++ g.droppedIn = passed ++ Enumerate.iter it ∧
      ((g.out.returned.map (·.1)).getD [] ++ g.out.dropped).Perm g.made := by
  intro fuel
  induction fuel with
  | zero => intro _ _ _ _ h; omega
  | succ fuel ih =>
    intro it vs passed r hl hS
    unfold mapLoopO
    rcases intoNext_cases (c := c) hI it with e | ⟨it', e, e1, e2⟩ | ⟨k, v, it', e, e1⟩
    · exact ⟨_, by simp [e, unwindBuilder, drop_holding]; rfl, rfl, by simp⟩
    · rcases Nat.lt_or_eq_of_le hS with h1 | h1
      · exact ⟨_, by simp [e, tryFinish_partial h1]; rfl, by simp [e1, e2], by simp⟩
      · exact ⟨_, by simp [e, tryFinish_full h1]; rfl, by simp [e1, e2], by simp⟩
    · rw [e]
      dsimp only
      rcases hf k v r with e3 | ⟨⟨w, r'⟩, e3⟩
      · exact ⟨_, by simp [e3, unwindBuilder, drop_holding]; rfl, by simp [e1], by simp⟩
      · rw [e3]
        dsimp only
        rcases Nat.lt_or_eq_of_le hS with h1 | h1
        · simp only [push_holding w h1]
          have := ih it' (vs ++ [w]) (passed ++ [v]) r' (by rw [e1] at hl; simp at hl; omega) (by simp; omega)
          simpa [e1] using this
        · refine ⟨_, by simp [push_full w h1, unwindBuilder, drop_holding]; rfl, by simp [e1], ?_⟩
          simpa using (List.perm_append_singleton w vs).symm

end OrdinalTotalArrayMap

/-! ## `retain` -/

variable [DecidableEq K]

theorem OrdinalArrayMap.retainLoopU_view (L : Lawful c I n) (f : K → V → ρ → RetainCall V ρ) :
    ∀ (ps : List (K × Nat)) (fuel : Nat) (m : K → Option V) (it : Enumerate Range) (r : ρ),
      MV I n ps it → ps.length < fuel →
      OrdinalArrayMap.retainLoopU c I f fuel ⟨store I n m, it⟩ r =
        .ok ((retainUSpec f (ps.map (·.1)) m r).1, store I n (retainUSpec f (ps.map (·.1)) m r).2.1,
          (retainUSpec f (ps.map (·.1)) m r).2.2) := by
  intro ps
  induction ps with
  | nil =>
    intro fuel m it r hv hf
    obtain ⟨fuel, rfl⟩ : ∃ k, fuel = k + 1 := ⟨fuel - 1, by omega⟩
    obtain ⟨it', h1, _⟩ := MV.next L it [] hv
    simp [OrdinalArrayMap.retainLoopU, TotalIterMut.next, h1, retainUSpec]
  | cons p ps ih =>
    intro fuel m it r hv hf
    obtain ⟨k, slot⟩ := p
    obtain rfl : slot = ordOf I k := hv.2 (k, slot) (by simp)
    obtain ⟨fuel, rfl⟩ : ∃ k, fuel = k + 1 := ⟨fuel - 1, by omega⟩
    obtain ⟨it', h1, h2⟩ := MV.next L it _ hv
    simp only [List.length_cons] at hf
    simp only [OrdinalArrayMap.retainLoopU, TotalIterMut.next, h1, ok_bind, List.head?_cons, readSlot_store L,
      List.map_cons, retainUSpec]
    cases hm : m k with
    | none => exact ih fuel m it' r h2 (by omega)
    | some v =>
      simp only
      have hs : (m k).isSome := by rw [hm]; rfl
      rcases f k v r with ⟨_ | kp, v', r'⟩
      · simp only [writeSome_store L m v' hs, ok_bind]
      · simp only [ok_bind, writeSome_store L m v' hs]
        cases kp with
        | true =>
          simp only [if_true]
          exact ih fuel _ it' r' h2 (by omega)
        | false =>
          simp only [Bool.false_eq_true, if_false, writeSlot_store L, ok_bind, updT_eq_upd, upd_upd]
          exact ih fuel _ it' r' h2 (by omega)

theorem OrdinalArrayMap.retainU_eq (L : Lawful c I n) (m : K → Option V) (f : K → V → ρ → RetainCall V ρ) (r : ρ) :
    OrdinalArrayMap.retainU c I (store I n m) f r =
      .ok ((retainUSpec f (OrdinalMap.values I n) m r).1,
        store I n (retainUSpec f (OrdinalMap.values I n) m r).2.1,
        (retainUSpec f (OrdinalMap.values I n) m r).2.2) := by
  have hv := fresh_mv L
  have e : (slots I n).map (·.1) = OrdinalMap.values I n := by simp [slots, Function.comp_def]
  have hl : (slots I n).length = n := by simp [slots, values_length L]
  simp only [OrdinalArrayMap.retainU, OrdinalArrayMap.iterMut, OrdinalTotalArrayMap.iterMut, TotalIterMut.new,
    store_length L]
  rw [OrdinalArrayMap.retainLoopU_view L f (slots I n) _ m _ r hv (by
    rw [TotalIterMut.len, MV.len hv]; omega), e]

end OrdinalMap
