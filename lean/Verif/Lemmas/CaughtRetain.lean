import Verif.SpecCaughtRetain
import Verif.Lemmas.CaughtSame
/-! # `retain` when user code panics -/

namespace OrdinalMap

variable {σ K V ω ο s μ : Type} {c : Cfg} {I : OrdinalImpl K} {J : SImpl σ K} {n : Nat}

theorem mutNext_nil (L : Lawful c I n) {it : Enumerate Range} (h : MV I n [] it) (mem : List V) (st : σ) :
    ∃ it', Caught.mutNext c J (st, ⟨mem, it⟩) = (.ok none, (st, ⟨mem, it'⟩)) := by
  obtain ⟨it', h1, _⟩ := MV.next L it [] h
  unfold Enumerate.nextItem at h1
  simp only [show slotIter.next it.iter = Range.next it.iter from rfl] at h1
  unfold Caught.mutNext
  simp only [M.bind_apply, Upd.read]
  rcases hr : Range.next it.iter with ⟨_ | slot, r⟩
  · exact ⟨_, rfl⟩
  · rw [hr] at h1
    simp only at h1
    rcases hf : I.fromOrdinal it.next with e | o
    · rw [hf] at h1; simp at h1
    · rw [hf] at h1
      cases o with
      | none => simp [unwrap] at h1
      | some k =>
        simp only [unwrap, ok_bind] at h1
        rcases ha : addU c it.next 1 with e | x <;> rw [ha] at h1 <;> simp at h1

theorem mutNext_cons (L : Lawful c I n) (H : Honest J I) {it : Enumerate Range} {k : K} {slot : Nat}
    {ps : List (K × Nat)} (h : MV I n ((k, slot) :: ps) it) (mem : List V) (st : σ) :
    (∃ st' it', J.fromOrdinal it.next st = (.error .panic, st') ∧
      Caught.mutNext c J (st, ⟨mem, it⟩) = (.error .panic, (st', ⟨mem, it'⟩))) ∨
    ∃ st' it', J.fromOrdinal it.next st = (.ok (some k), st') ∧
      Caught.mutNext c J (st, ⟨mem, it⟩) = (.ok (some (k, slot)), (st', ⟨mem, it'⟩)) ∧ MV I n ps it' ∧
      it'.next = it.next + 1 := by
  obtain ⟨it', h1, h2⟩ := MV.next L it _ h
  unfold Enumerate.nextItem at h1
  simp only [show slotIter.next it.iter = Range.next it.iter from rfl, List.head?_cons] at h1
  unfold Caught.mutNext
  simp only [M.bind_apply, Upd.read]
  rcases hr : Range.next it.iter with ⟨_ | slot', r⟩
  · rw [hr] at h1; simp at h1
  · rw [hr] at h1
    simp only [M.bind_apply, Upd.write, Upd.user] at h1 ⊢
    have hJ := H.fromOrdinal it.next st
    rcases hj : J.fromOrdinal it.next st with ⟨x, st'⟩
    rw [hj] at hJ
    simp only at hJ
    rcases hJ with rfl | rfl
    · rcases hf : I.fromOrdinal it.next with e | o
      · rw [hf] at h1; simp at h1
      · rw [hf] at h1
        cases o with
        | none => simp [unwrap] at h1
        | some k' =>
          simp only [unwrap, ok_bind] at h1
          rcases ha : addU c it.next 1 with e | x
          · rw [ha] at h1; simp at h1
          · rw [ha] at h1
            simp only [ok_bind, Except.ok.injEq, Prod.mk.injEq, Option.some.injEq] at h1
            obtain ⟨⟨rfl, rfl⟩, rfl⟩ := h1
            have hx : x = it.next + 1 := by
              have hb := h.1.2.1
              simp only [List.length_cons] at hb
              have := L.fits
              have e := addU_ok (c := c) (a := it.next) (b := 1) (by omega)
              rw [ha] at e
              simpa using e
            refine .inr ⟨st', _, rfl, rfl, h2, hx⟩
    · exact .inl ⟨st', _, rfl, rfl⟩

variable [DecidableEq K]

theorem retainLoop_ends (L : Lawful c I n) (H : Honest J I) {f : K → Upd σ V Bool} {dtor : V → M σ Unit}
    (hf : ∀ k, OnlyPanics (f k)) (hd : ∀ v, OnlyPanics (dtor v)) :
    ∀ (ps : List (K × Nat)) (fuel : Nat) (m : K → Option V) (it : Enumerate Range) (st : σ), MV I n ps it →
      ps.length < fuel → ∃ e st' m' it',
        Caught.catchUnwind (Caught.retainLoop c J f dtor fuel) (st, (⟨store I n m, it⟩ : MapIterMut V)) =
          (.ok e, (st', ⟨store I n m', it'⟩)) ∧
        Retains J f dtor (ps.map (·.1)) it.next st m e st' m' := by
  intro ps
  induction ps with
  | nil =>
    intro fuel m it st h hl
    obtain ⟨fuel, rfl⟩ : ∃ k, fuel = k + 1 := ⟨fuel - 1, by omega⟩
    obtain ⟨it', h1⟩ := mutNext_nil (J := J) L h (store I n m) st
    refine ⟨.returned (), st, m, it', ?_, .done⟩
    simp only [Caught.catchUnwind, Caught.retainLoop, M.bind_apply, h1]
    rfl
  | cons p ps ih =>
    intro fuel m it st h hl
    obtain ⟨k, slot⟩ := p
    obtain rfl : slot = ordOf I k := h.2 (k, slot) (by simp)
    obtain ⟨fuel, rfl⟩ : ∃ k, fuel = k + 1 := ⟨fuel - 1, by omega⟩
    simp only [List.length_cons] at hl
    rcases mutNext_cons (c := c) L H h (store I n m) st with ⟨st', it', h1, h2⟩ | ⟨st', it', h1, h2, h3, h4⟩
    · refine ⟨.panicked, st', m, it', ?_, .keyPanics h1⟩
      simp only [Caught.catchUnwind, Caught.retainLoop, M.bind_apply, h2]
    · cases hm : m k with
      | none =>
        obtain ⟨e, st₂, m', it₂, g1, g2⟩ := ih fuel m it' st' h3 (by omega)
        refine ⟨e, st₂, m', it₂, ?_, .absent h1 hm (h4 ▸ g2)⟩
        rw [← g1]
        simp only [Caught.catchUnwind, Caught.retainLoop, M.bind_apply, h2, Upd.read, store_get L, hm]
      | some v =>
        have hw : ∀ w, (store I n m).set (ordOf I k) (some w) = store I n (upd m k (some w)) := fun w => by
          rw [store_set L, updT_eq_upd]
        rcases hc : f k (st', v) with ⟨x, st'', w⟩
        have hz : Caught.withValue (ordOf I k) v (f k) (st', (⟨store I n m, it'⟩ : MapIterMut V)) =
            (x, (st'', ⟨store I n (upd m k (some w)), it'⟩)) := by
          simp only [Caught.withValue, Upd.zoom, hc, hw]
        rcases x with x | x
        · obtain rfl : x = .panic := hf k (st', v) x (by rw [hc])
          refine ⟨.panicked, st'', _, it', ?_, .closurePanics h1 hm hc⟩
          simp only [Caught.catchUnwind, Caught.retainLoop, M.bind_apply, h2, Upd.read, store_get L, hm, hz]
        · cases x with
          | true =>
            obtain ⟨e, st₂, m', it₂, g1, g2⟩ := ih fuel (upd m k (some w)) it' st'' h3 (by omega)
            refine ⟨e, st₂, m', it₂, ?_, .kept h1 hm hc (h4 ▸ g2)⟩
            rw [← g1]
            simp only [Caught.catchUnwind, Caught.retainLoop, M.bind_apply, h2, Upd.read, store_get L, hm, hz, if_true]
          | false =>
            have hg : upd m k (some w) k = some w := by simp [upd]
            have hs : (store I n (upd m k (some w))).set (ordOf I k) none = store I n (upd m k none) := by
              rw [store_set L, updT_eq_upd, upd_upd]
            rcases hdt : dtor w st'' with ⟨y | ⟨⟩, st₂⟩
            · obtain rfl : y = .panic := hd w st'' y (by rw [hdt])
              refine ⟨.panicked, st₂, _, it', ?_, .dropPanics h1 hm hc hdt⟩
              simp only [Caught.catchUnwind, Caught.retainLoop, M.bind_apply, h2, Upd.read, store_get L, hm, hz,
                Bool.false_eq_true, if_false, hg, Upd.write, Upd.user, hdt, hs]
            · obtain ⟨e, st₃, m', it₂, g1, g2⟩ := ih fuel (upd m k none) it' st₂ h3 (by omega)
              refine ⟨e, st₃, m', it₂, ?_, .dropped h1 hm hc hdt (h4 ▸ g2)⟩
              rw [← g1]
              simp only [Caught.catchUnwind, Caught.retainLoop, M.bind_apply, h2, Upd.read, store_get L, hm, hz,
                Bool.false_eq_true, if_false, hg, Upd.write, Upd.user, hdt, hs]

theorem retain_ends (L : Lawful c I n) (H : Honest J I) {f : K → Upd σ V Bool} {dtor : V → M σ Unit}
    (hf : ∀ k, OnlyPanics (f k)) (hd : ∀ v, OnlyPanics (dtor v)) (m : K → Option V) (st : σ) :
    ∃ e st' m', Caught.catchUnwind (Caught.retain c J f dtor) (st, store I n m) = (.ok e, (st', store I n m')) ∧
      Retains J f dtor (values I n) 0 st m e st' m' := by
  have hv := fresh_mv L
  have e1 : (slots I n).map (·.1) = values I n := by simp [slots, Function.comp_def]
  obtain ⟨e, st', m', it', h1, h2⟩ := retainLoop_ends L H hf hd (slots I n) ((slots I n).length + 1) m _ st hv
    (Nat.lt_succ_self _)
  rw [e1] at h2
  refine ⟨e, st', m', ?_, h2⟩
  have hl : TotalIterMut.len (TotalIterMut.new (store I n m)) = (slots I n).length := by
    rw [TotalIterMut.len, TotalIterMut.new, store_length L, MV.len hv]
  rw [← hl] at h1
  have hn : (⟨store I n m, Enumerate.new ⟨0, n⟩ 0⟩ : MapIterMut V) = TotalIterMut.new (store I n m) := by
    rw [TotalIterMut.new, store_length L]
  rw [hn] at h1
  unfold Caught.catchUnwind at h1 ⊢
  simp only [Caught.retain, Upd.zoom, M.bind_apply, Upd.read]
  rcases hx : Caught.retainLoop c J f dtor (TotalIterMut.len (TotalIterMut.new (store I n m)) + 1)
    (st, TotalIterMut.new (store I n m)) with ⟨x | x, st₁, y⟩
  · simp only [hx] at h1 ⊢
    cases x <;> simp only [Prod.mk.injEq, Except.ok.injEq, reduceCtorEq, false_and] at h1
    obtain ⟨rfl, rfl, rfl⟩ := h1
    rfl
  · simp only [hx] at h1 ⊢
    simp only [Prod.mk.injEq, Except.ok.injEq] at h1
    obtain ⟨rfl, rfl, rfl⟩ := h1
    rfl

theorem arrStep_ends (L : Lawful c I n) (H : Honest J I) (m : K → Option V) (op : Caught.ArrOp σ K V)
    (hop : ArrSpec.safe op) (st : σ) :
    ∃ e st' q, Caught.arrStep c J op (st, store I n m) = (.ok e, (st', q)) ∧
      ((∃ m', e ≠ .aborted ∧ ArrSpec.ends J I n m op e m' ∧ q = store I n m') ∨ (e = .aborted ∧ ArrSpec.fatal op)) := by
  cases op with
  | op op =>
    obtain ⟨e, st', q, h1, h2⟩ := caught_amapStep (c := c) L H m op st
    refine ⟨e, st', q, h1, ?_⟩
    rcases h2 with ⟨rfl, rfl⟩ | ⟨rfl, m', h2, rfl⟩ | ⟨rfl, h2⟩
    · exact .inl ⟨_, by simp, rfl, rfl⟩
    · exact .inl ⟨m', by simp, h2, rfl⟩
    · exact .inr ⟨rfl, h2⟩
  | retain f dtor =>
    obtain ⟨e, st', m', h1, h2⟩ := retain_ends (c := c) L H hop.1 hop.2 m st
    unfold Caught.catchUnwind at h1
    simp only [Caught.arrStep, Caught.catchUnwind, M.bind_apply]
    rcases hx : Caught.retain c J f dtor (st, store I n m) with ⟨x | x, p⟩
    · simp only [hx] at h1 ⊢
      cases x <;> simp only [Prod.mk.injEq, Except.ok.injEq, reduceCtorEq, false_and] at h1
      obtain ⟨rfl, rfl⟩ := h1
      exact ⟨.panicked, _, _, rfl, .inl ⟨m', by simp, ⟨st, _, h2⟩, rfl⟩⟩
    · simp only [hx] at h1 ⊢
      simp only [Prod.mk.injEq, Except.ok.injEq] at h1
      obtain ⟨rfl, rfl⟩ := h1
      exact ⟨.returned .unit, _, _, rfl, .inl ⟨m', by simp, ⟨rfl, st, _, h2⟩, rfl⟩⟩

theorem arrRun_ends (L : Lawful c I n) (H : Honest J I) (m : K → Option V) (ops : List (Caught.ArrOp σ K V))
    (hops : ∀ op ∈ ops, ArrSpec.safe op) (st : σ) :
    ∃ es st' q r, Caught.run (Caught.arrStep c J) ops (st, store I n m) = (.ok es, (st', q)) ∧
      EndsLike (ArrSpec.ends J I n) ArrSpec.fatal m ops es r ∧ ∀ m', r = some m' → q = store I n m' := by
  induction ops generalizing m st with
  | nil => exact ⟨[], st, _, some m, rfl, .nil m, fun m' e => by simp only [Option.some.injEq] at e; rw [e]⟩
  | cons op ops ih =>
    obtain ⟨e, st1, q1, e1, e2⟩ := arrStep_ends (c := c) L H m op (hops op (by simp)) st
    unfold Caught.run
    simp only [M.bind_apply, e1]
    rcases e2 with ⟨m1, hne, e2, rfl⟩ | ⟨rfl, e2⟩
    · obtain ⟨es, st2, q2, r, g1, g2, g3⟩ := ih m1 (fun op h => hops op (by simp [h])) st1
      refine ⟨e :: es, st2, q2, r, ?_, .cons e2 g2, g3⟩
      cases e with
      | aborted => exact absurd rfl hne
      | returned o => simp only [M.bind_apply, g1]; rfl
      | panicked => simp only [M.bind_apply, g1]; rfl
    · exact ⟨_, _, _, none, rfl, .aborted e2, fun m' e => by simp at e⟩

/-! ## What `Retains` says of the contents -/

theorem Retains.contents {f : K → Upd σ V Bool} {dtor : V → M σ Unit} {ks : List K} {i : Nat} {st st' : σ}
    {m m' : K → Option V} {e : Ended Unit} (h : Retains J f dtor ks i st m e st' m') (hnd : ks.Nodup) :
    ∃ done rest, ks = done ++ rest ∧ (e = .returned () → rest = []) ∧ (∀ k, k ∉ done → m' k = m k) ∧
      ∀ k ∈ done, (m k = none ∧ m' k = none) ∨ ∃ v st₁ x st₂ w, m k = some v ∧ f k (st₁, v) = (x, (st₂, w)) ∧
        m' k = if x = .ok false then none else some w := by
  induction h with
  | done => exact ⟨[], [], rfl, fun _ => rfl, fun _ _ => rfl, by simp⟩
  | @keyPanics k ks => exact ⟨[], k :: ks, rfl, fun h => by simp at h, fun _ _ => rfl, by simp⟩
  | @absent k ks i st st' st'' m m' e h1 h2 h3 ih =>
    simp only [List.nodup_cons] at hnd
    obtain ⟨done, rest, rfl, g2, g3, g4⟩ := ih hnd.2
    simp only [List.mem_append, not_or] at hnd
    refine ⟨k :: done, rest, rfl, g2, fun k' hk => g3 k' fun h => hk (by simp [h]), fun k' hk => ?_⟩
    rcases List.mem_cons.1 hk with rfl | hk
    · exact .inl ⟨h2, (g3 k' hnd.1.1).trans h2⟩
    · exact g4 k' hk
  | @closurePanics k ks i st st' st'' m v w h1 h2 h3 =>
    refine ⟨[k], ks, rfl, fun h => by simp at h, fun k' hk => ?_, fun k' hk => .inr ?_⟩
    · simp only [List.mem_singleton] at hk
      simp [upd, hk]
    · simp only [List.mem_singleton] at hk
      subst hk
      exact ⟨v, _, _, _, w, h2, h3, by simp [upd]⟩
  | @dropPanics k ks i st st' st'' st₂ m v w h1 h2 h3 h4 =>
    refine ⟨[k], ks, rfl, fun h => by simp at h, fun k' hk => ?_, fun k' hk => .inr ?_⟩
    · simp only [List.mem_singleton] at hk
      simp [upd, hk]
    · simp only [List.mem_singleton] at hk
      subst hk
      exact ⟨v, _, _, _, w, h2, h3, by simp [upd]⟩
  | @kept k ks i st st' st'' st₂ m m' v w e h1 h2 h3 h4 ih =>
    simp only [List.nodup_cons] at hnd
    obtain ⟨done, rest, rfl, g2, g3, g4⟩ := ih hnd.2
    simp only [List.mem_append, not_or] at hnd
    have hne : ∀ k', k' ∈ done → k' ≠ k := fun k' h e => hnd.1.1 (e ▸ h)
    refine ⟨k :: done, rest, rfl, g2, fun k' hk => ?_, fun k' hk => ?_⟩
    · simp only [List.mem_cons, not_or] at hk
      rw [g3 k' hk.2]; simp [upd, hk.1]
    · rcases List.mem_cons.1 hk with rfl | hk
      · exact .inr ⟨v, _, _, _, w, h2, h3, by rw [g3 k' hnd.1.1]; simp [upd]⟩
      · have := g4 k' hk
        simpa only [upd, hne k' hk, if_false] using this
  | @dropped k ks i st st' st'' st₂ st₃ m m' v w e h1 h2 h3 h4 h5 ih =>
    simp only [List.nodup_cons] at hnd
    obtain ⟨done, rest, rfl, g2, g3, g4⟩ := ih hnd.2
    simp only [List.mem_append, not_or] at hnd
    have hne : ∀ k', k' ∈ done → k' ≠ k := fun k' h e => hnd.1.1 (e ▸ h)
    refine ⟨k :: done, rest, rfl, g2, fun k' hk => ?_, fun k' hk => ?_⟩
    · simp only [List.mem_cons, not_or] at hk
      rw [g3 k' hk.2]; simp [upd, hk.1]
    · rcases List.mem_cons.1 hk with rfl | hk
      · exact .inr ⟨v, _, _, _, w, h2, h3, by rw [g3 k' hnd.1.1]; simp [upd]⟩
      · have := g4 k' hk
        simpa only [upd, hne k' hk, if_false] using this

/-! ## Agreement with the model of C80 -/

omit [DecidableEq K] in
theorem same_retainLoop {J : SImpl σ K} {f : K → V → M σ (Bool × V)} {g : K → Upd σ V Bool}
    (hg : ∀ k v st, match f k v st with
      | (.ok (b, w), st') => g k (st, v) = (.ok b, (st', w))
      | (.error e, st') => ∃ w, g k (st, v) = (.error e, (st', w))) (fuel : Nat) (it : MapIterMut V) (st : σ) :
    match Eff.retainLoop c J f fuel it st with
    | (.ok m', st') => ∃ q : MapIterMut V,
      Caught.retainLoop c J g (fun _ => .of (.ok ())) fuel (st, it) = (.ok (), (st', q)) ∧ TotalIterMut.mem q = m'
    | (.error e, st') => ∃ q,
      Caught.retainLoop c J g (fun _ => .of (.ok ())) fuel (st, it) = (.error e, (st', q)) := by
  induction fuel generalizing it st with
  | zero => exact ⟨it, rfl⟩
  | succ fuel ih =>
    have h := same_mutNext (c := c) (J := J) it st
    unfold Eff.retainLoop Caught.retainLoop
    simp only [M.bind_apply]
    rcases hy : Eff.mutNext c J it st with ⟨e | ⟨o, it'⟩, st'⟩
    · rw [hy] at h
      obtain ⟨q, h⟩ := h
      exact ⟨q, by rw [h]⟩
    · rw [hy] at h
      simp only at h
      rw [h]
      cases o with
      | none => exact ⟨it', rfl, rfl⟩
      | some p =>
        obtain ⟨k, slot⟩ := p
        obtain ⟨mem, e⟩ := it'
        simp only [M.bind_apply, Upd.read, readSlot]
        rcases hm : mem[slot]? with _ | _ | v
        · exact ⟨_, rfl⟩
        · simp only [M.of]; exact ih _ _
        · simp only [M.of, M.bind_apply]
          have hlt : slot < mem.length := by
            rcases Nat.lt_or_ge slot mem.length with h | h
            · exact h
            · rw [List.getElem?_eq_none h] at hm; simp at hm
          have hc := hg k v st'
          rcases hf : f k v st' with ⟨x | ⟨b, w⟩, st₂⟩
          · rw [hf] at hc
            obtain ⟨w, hc⟩ := hc
            exact ⟨⟨mem.set slot (some w), e⟩, by simp only [Caught.withValue, Upd.zoom, hc]⟩
          · rw [hf] at hc
            simp only at hc
            have hz : Caught.withValue slot v (g k) (st', (⟨mem, e⟩ : MapIterMut V)) =
                (.ok b, (st₂, ⟨mem.set slot (some w), e⟩)) := by
              simp only [Caught.withValue, Upd.zoom, hc]
            rw [hz]
            simp only [writeSome, hm, ok_bind]
            cases b with
            | true => simp only [if_true]; exact ih _ _
            | false =>
              have hget : (mem.set slot (some w))[slot]? = some (some w) := by simp [hlt]
              simp only [Bool.false_eq_true, if_false, M.bind_apply, Upd.read, hget, Upd.write, Upd.user, writeSlot,
                List.length_set, hlt, if_true]
              exact ih _ _

end OrdinalMap
