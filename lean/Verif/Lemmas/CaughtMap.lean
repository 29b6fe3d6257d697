import Verif.Lemmas.CaughtDrain
/-! # The maps when user code panics -/

namespace OrdinalMap

variable {σ K V ω ο s μ : Type} {c : Cfg} {I : OrdinalImpl K} {J : SImpl σ K} {n : Nat} [DecidableEq K] {b : Bool}

/-- What a panic may leave in the storage. -/
def Left (I : OrdinalImpl K) (n : Nat) (m : K → Option V) (op : MapOp K V) (q : List (Option V)) : Prop :=
  ∃ b m', MapSpec.after I n m op m' ∧ Stored I n b m' q

theorem runSpec_append {spec : μ → ω → ο × μ} (m : μ) (xs ys : List ω) :
    (runSpec spec m (xs ++ ys)).2 = (runSpec spec (runSpec spec m xs).2 ys).2 := by
  induction xs generalizing m with
  | nil => rfl
  | cons x xs ih => exact ih _

theorem sim_iterMut_spec (L : Lawful c I n) (H : Honest J I) {m : K → Option V} {s : List (Option V)}
    (h : Stored I n b m s) (steps : List (MutStep V)) :
    ∃ s', Sim s (Caught.iterMut c J steps)
        (.ok ((runSpec MutSpec.step ⟨presentKeys I n m, [], m⟩ steps).1, s'))
        (fun q => ∃ m', (∃ done, done <+: steps ∧
          m' = (runSpec MutSpec.step ⟨presentKeys I n m, [], m⟩ done).2.map) ∧ Stored I n b m' q) ∧
      Stored I n b (runSpec MutSpec.step ⟨presentKeys I n m, [], m⟩ steps).2.map s' := by
  obtain ⟨cl, h1, h2⟩ := SRel.runs L h steps
  have hs := sim_iterMut (c := c) H steps s
  rw [h1] at hs
  refine ⟨cl.it.mem, hs.mono ?_, h2.stored⟩
  rintro q ⟨done, os, cl', e1, e2, rfl⟩
  obtain ⟨cl'', g1, g2⟩ := SRel.runs L h done
  rw [g1] at e2
  simp only [Except.ok.injEq, Prod.mk.injEq] at e2
  obtain ⟨_, rfl⟩ := e2
  exact ⟨_, ⟨done, e1, rfl⟩, g2.stored⟩

/-- The operations without a key, except `drain`. -/
def MapOp.keyless : MapOp K V → Bool
  | .len | .isEmpty | .iter _ | .keys _ | .values _ | .iterMut _ | .valuesMut _ | .clear => true
  | _ => false

theorem sim_keyless (L : Lawful c I n) (H : Honest J I) {m : K → Option V} {s : List (Option V)}
    (h : Stored I n b m s) {op : MapOp K V} (hop : op.keyless = true) :
    ∃ s', Sim s (Caught.keyless c J op) (.ok ((MapSpec.step I n m op).1, s')) 
        (fun q => ∃ m', MapSpec.after I n m op m' ∧ Stored I n b m' q) ∧
      Stored I n b (MapSpec.step I n m op).2 s' := by
  cases op with
  | len =>
    refine ⟨s, Sim.read_bind ?_, h⟩
    exact Sim.user_ok (H.mapLen c s) (h.count L) ⟨m, rfl, h⟩ (.ok _)
  | isEmpty =>
    refine ⟨s, Sim.read_bind ?_, h⟩
    obtain ⟨it, h1⟩ := h.first L
    exact Sim.user_ok (H.mapIsEmpty c s) (by rw [h1]; simp only [ok_bind, isEmpty_head]) ⟨m, rfl, h⟩ (.ok _)
  | iter ds =>
    refine ⟨s, Sim.read_bind ?_, h⟩
    obtain ⟨it, h1⟩ := h.run_iter L ds
    exact Sim.user_ok (Honest.run (it := MapIter.it c I) (H.mapNext c) (H.mapNextBack c) ds _) h1 ⟨m, rfl, h⟩
      (.ok _)
  | keys ds =>
    refine ⟨s, Sim.read_bind ?_, h⟩
    obtain ⟨it, h1⟩ := h.run_keys L ds
    exact Sim.user_ok (Honest.run (it := Keys.it c I) (Honest.mapItem (H.mapNext c) _)
      (Honest.mapItem (H.mapNextBack c) _) ds _) h1 ⟨m, rfl, h⟩ (.ok _)
  | values ds =>
    refine ⟨s, Sim.read_bind ?_, h⟩
    obtain ⟨it, h1⟩ := h.run_values L ds
    exact Sim.user_ok (Honest.run (it := Values.it c I) (Honest.mapItem (H.mapNext c) _)
      (Honest.mapItem (H.mapNextBack c) _) ds _) h1 ⟨m, rfl, h⟩ (.ok _)
  | iterMut steps =>
    obtain ⟨s', h1, h2⟩ := sim_iterMut_spec L H h steps
    exact ⟨s', h1.bind_ok (.ok _), h2⟩
  | valuesMut steps =>
    obtain ⟨s', h1, h2⟩ := sim_iterMut_spec L H h steps
    exact ⟨s', h1.bind_ok (.ok _), h2⟩
  | clear =>
    obtain ⟨s', h1, h2⟩ := sim_clear L H h
    exact ⟨s', h2.bind_ok (.ok _), h1⟩
  | _ => simp [MapOp.keyless] at hop

omit [DecidableEq K] in
theorem initFullMap_eff (H : Honest J I) (sz : Nat) (s : OMap V) :
    Eff.initFullMap c J sz s = OMap.initFullMap c I sz s := by
  unfold Eff.initFullMap OMap.initFullMap
  rw [H.size]

omit [DecidableEq K] in
theorem sim_initFullMap (L : Lawful c I n) (H : Honest J I) {sz : Nat} (hsz : n * sz ≤ 2 ^ (c.bits - 1) - 1)
    {m : K → Option V} {s : OMap V} (h : Stored I n b m s) (k : K) {F : OMap V → Prop} :
    Sim s (Caught.initFullMap c J sz) (.ok ((), store I n m)) F := by
  refine Sim.read_bind (Sim.of_ok (by rw [initFullMap_eff H]; exact OMap.initFullMap_eq L hsz h k) ?_)
  intro st
  rfl

omit [DecidableEq K] in
theorem sim_omapEntry (L : Lawful c I n) (H : Honest J I) {sz : Nat} (hsz : n * sz ≤ 2 ^ (c.bits - 1) - 1)
    {m : K → Option V} {s : OMap V} (h : Stored I n b m s) (k : K) {F : OMap V → Prop} (hF : F (store I n m)) :
    Sim s (Caught.omapEntry c J sz k) (.ok (if (m k).isSome then .occupied k (ordOf I k) else .vacant k (ordOf I k),
      store I n m)) F := by
  unfold Caught.omapEntry
  refine (sim_initFullMap L H hsz h k).bind_ok ?_
  refine Sim.user_ok (H.ord k) (L.ordinal_eq k) hF (Sim.read_bind ?_)
  simp only [slotOf_store L, ok_bind, Entry.new_store L]
  exact .ok _

omit [DecidableEq K] in
theorem sim_client {f : List (Option V) → R (MapOut K V × List (Option V))} {s s' : List (Option V)} {o : MapOut K V}
    (h : f s = .ok (o, s')) {F : List (Option V) → Prop} : Sim (σ := σ) s (Caught.client f) (.ok (o, s')) F :=
  Sim.read_bind (Sim.of_ok h (Sim.write_bind (.ok _)))

theorem sim_orInsertClient (L : Lawful c I n) (m : K → Option V) (k : K) (v w : V) {F : List (Option V) → Prop} :
    Sim (σ := σ) (store I n m) (Caught.orInsertClient
        (if (m k).isSome then Entry.occupied k (ordOf I k) else .vacant k (ordOf I k)) v w)
      (.ok (.opt (some ((m k).getD v)), store I n (upd m k (some w)))) F := by
  have h1 : upd m k (some ((m k).getD v)) k = some ((m k).getD v) := by simp [upd]
  have h2 : (upd m k (some ((m k).getD v)) k).isSome := by rw [h1]; rfl
  unfold Caught.orInsertClient
  refine Sim.read_bind (Sim.of_ok (orInsert_store L m k v) (Sim.write_bind ?_))
  refine Sim.of_ok (readSome_store L _ h1) (Sim.of_ok (writeSome_store L _ w h2) (Sim.write_bind ?_))
  rw [upd_upd]
  exact .ok _

omit [DecidableEq K] in
theorem Caught.omapOp_keyless {sz : Nat} {op : MapOp K V} (h : op.keyless = true) :
    Caught.omapOp c J sz op = Caught.keyless c J op := by
  cases op <;> first | rfl | simp [MapOp.keyless] at h

omit [DecidableEq K] in
theorem Caught.amapOp_keyless {op : MapOp K V} (h : op.keyless = true) :
    Caught.amapOp c J op = Caught.keyless c J op := by
  cases op <;> first | rfl | simp [MapOp.keyless] at h

theorem sim_omapOp (L : Lawful c I n) (H : Honest J I) {sz : Nat} (hsz : n * sz ≤ 2 ^ (c.bits - 1) - 1)
    {m : K → Option V} {s : OMap V} (h : Stored I n b m s) {op : MapOp K V} (hop : ¬ MapSpec.fatal op) :
    ∃ b' s', Sim s (Caught.omapOp c J sz op) (.ok ((MapSpec.step I n m op).1, s')) (Left I n m op) ∧
      Stored I n b' (MapSpec.step I n m op).2 s' := by
  have left : ∀ {op : MapOp K V}, MapSpec.after I n m op m → Left I n m op s := fun e => ⟨b, m, e, h⟩
  have left' : ∀ {op : MapOp K V}, MapSpec.after I n m op m → Left I n m op (store I n m) :=
    fun e => ⟨true, m, e, .inl ⟨rfl, rfl⟩⟩
  by_cases hk : op.keyless = true
  · rw [Caught.omapOp_keyless hk]
    obtain ⟨s', h1, h2⟩ := sim_keyless L H h hk
    exact ⟨b, s', h1.mono fun q hq => ⟨b, hq⟩, h2⟩
  cases op with
  | get k =>
    refine ⟨b, s, Sim.read_bind (Sim.user_ok (H.ord k) (L.ordinal_eq k) (left rfl) ?_), h⟩
    rw [h.get L k]
    rcases h with ⟨rfl, rfl⟩ | ⟨rfl, rfl, rfl⟩ <;> exact .ok _
  | getMut k w =>
    rcases h with ⟨rfl, rfl⟩ | ⟨rfl, rfl, rfl⟩
    · refine ⟨true, _, Sim.user_ok (H.ord k) (L.ordinal_eq k) (left rfl) (sim_client ?_), .inl ⟨rfl, rfl⟩⟩
      rw [store_get L]
      exact getMutClient_store L m k w
    · exact ⟨false, [], Sim.user_ok (H.ord k) (L.ordinal_eq k) (left rfl) (sim_client (by simp [getMutClient, MapSpec.step])),
        .inr ⟨rfl, rfl, by simp [MapSpec.step]⟩⟩
  | insert k v =>
    refine ⟨true, _, ?_, .inl ⟨rfl, rfl⟩⟩
    unfold Caught.omapOp
    refine (sim_initFullMap L H hsz h k).bind_ok ?_
    refine Sim.user_ok (H.ord k) (L.ordinal_eq k) (left' rfl) (Sim.read_bind ?_)
    refine Sim.of_ok (getIdx_store L m k) (Sim.of_ok (setIdx_store L m k _) (Sim.write_bind ?_))
    rw [updT_eq_upd]
    exact .ok _
  | remove k =>
    rcases h with ⟨rfl, rfl⟩ | ⟨rfl, rfl, rfl⟩
    · refine ⟨true, _, Sim.user_ok (H.ord k) (L.ordinal_eq k) (left rfl) (Sim.read_bind ?_), .inl ⟨rfl, rfl⟩⟩
      rw [store_get L]
      refine Sim.write_bind ?_
      rw [store_set L, updT_eq_upd]
      exact .ok _
    · refine ⟨false, [], Sim.user_ok (H.ord k) (L.ordinal_eq k) (left rfl) (Sim.read_bind (.ok _)), .inr ⟨rfl, rfl, ?_⟩⟩
      funext k'; simp [MapSpec.step, upd]
  | orInsert k v w =>
    refine ⟨true, _, ?_, .inl ⟨rfl, rfl⟩⟩
    unfold Caught.omapOp
    exact (sim_omapEntry L H hsz h k (left' (op := .orInsert k v w) rfl)).bind_ok (sim_orInsertClient L m k v w)
  | entry k v w =>
    refine ⟨true, _, ?_, .inl ⟨rfl, rfl⟩⟩
    unfold Caught.omapOp
    exact (sim_omapEntry L H hsz h k (left' (op := .entry k v w) rfl)).bind_ok (sim_client (entryClient_store L m k v w))
  | drain ds leak => simp [MapSpec.fatal] at hop
  | _ => simp [MapOp.keyless] at hk

/-- One caught operation. -/
theorem caught_omapStep (L : Lawful c I n) (H : Honest J I) {sz : Nat} (hsz : n * sz ≤ 2 ^ (c.bits - 1) - 1)
    {m : K → Option V} {s : OMap V} (h : Stored I n b m s) (op : MapOp K V) (st : σ) :
    ∃ e st' q, Caught.omapStep c J sz op (st, s) = (.ok e, (st', q)) ∧
      ((e = .returned (MapSpec.step I n m op).1 ∧ ∃ b', Stored I n b' (MapSpec.step I n m op).2 q) ∨
        (e = .panicked ∧ Left I n m op q) ∨ (e = .aborted ∧ MapSpec.fatal op)) := by
  by_cases hop : MapSpec.fatal op
  · cases op with
    | drain ds leak =>
      obtain ⟨e, st', q, e1, e2⟩ := caught_drain L H h ds leak st
      simp only [Caught.omapStep, M.bind_apply, e1]
      rcases e2 with ⟨os, rfl, rfl, e2⟩ | ⟨rfl, m', e2, e3⟩ | rfl
      · exact ⟨_, _, _, rfl, .inl ⟨rfl, b, e2⟩⟩
      · exact ⟨_, _, _, rfl, .inr (.inl ⟨rfl, b, m', e2, e3⟩)⟩
      · exact ⟨_, _, _, rfl, .inr (.inr ⟨rfl, trivial⟩)⟩
    | _ => simp [MapSpec.fatal] at hop
  · obtain ⟨b', s', h1, h2⟩ := sim_omapOp L H hsz h hop
    have hc : Caught.omapStep c J sz op = Caught.catchUnwind (Caught.omapOp c J sz op) := by
      cases op with
      | drain ds leak => simp [MapSpec.fatal] at hop
      | _ => rfl
    obtain ⟨e, st', q, e1, e2⟩ := h1.caught st
    rw [hc]
    refine ⟨e, st', q, e1, ?_⟩
    rcases e2 with ⟨rfl, rfl⟩ | ⟨rfl, e2⟩
    · exact .inl ⟨rfl, b', h2⟩
    · exact .inr (.inl ⟨rfl, e2⟩)

omit [DecidableEq K] in
/-- Whole histories, from single operations. -/
theorem caught_run {spec : μ → ω → ο × μ} {after : μ → ω → μ → Prop} {fatal : ω → Prop} {step : ω → Upd σ s (Ended ο)}
    (Rel : μ → s → Prop)
    (h : ∀ m x op st, Rel m x → ∃ e st' q, step op (st, x) = (.ok e, (st', q)) ∧
      ((e = .returned (spec m op).1 ∧ Rel (spec m op).2 q) ∨ (e = .panicked ∧ ∃ m', after m op m' ∧ Rel m' q) ∨
        (e = .aborted ∧ fatal op))) {m : μ} {x : s} (hr : Rel m x) : RunsCaught step spec after fatal x m Rel := by
  intro ops st
  induction ops generalizing m x st with
  | nil => exact ⟨[], st, x, some m, rfl, .nil m, fun m' e => by simp only [Option.some.injEq] at e; exact e ▸ hr⟩
  | cons op ops ih =>
    obtain ⟨e, st1, q1, e1, e2⟩ := h m x op st hr
    unfold Caught.run
    simp only [M.bind_apply, e1]
    rcases e2 with ⟨rfl, e2⟩ | ⟨rfl, m1, e2, e3⟩ | ⟨rfl, e2⟩
    · obtain ⟨es, st2, q2, r, g1, g2, g3⟩ := ih e2 st1
      refine ⟨_, st2, q2, r, ?_, .returned g2, g3⟩
      simp only [M.bind_apply, g1]
      rfl
    · obtain ⟨es, st2, q2, r, g1, g2, g3⟩ := ih e3 st1
      refine ⟨_, st2, q2, r, ?_, .panicked e2 g2, g3⟩
      simp only [M.bind_apply, g1]
      rfl
    · exact ⟨_, _, _, none, rfl, .aborted e2, fun m' e => by simp at e⟩

/-! ## `OrdinalArrayMap` -/

omit [DecidableEq K] in
theorem sim_slotFor (L : Lawful c I n) (H : Honest J I) (m : K → V) (k : K) {F : List V → Prop}
    (hF : F (store I n m)) : Sim (store I n m) (Caught.slotFor J k) (.ok (ordOf I k, store I n m)) F := by
  refine Sim.user_ok (H.ord k) (L.ordinal_eq k) hF (Sim.read_bind ?_)
  rw [slotOf_store L]
  exact .ok _

omit [DecidableEq K] in
theorem sim_amapEntry (L : Lawful c I n) (H : Honest J I) (m : K → Option V) (k : K) {F : List (Option V) → Prop}
    (hF : F (store I n m)) :
    Sim (store I n m) (Caught.amapEntry J k)
      (.ok (if (m k).isSome then .occupied k (ordOf I k) else .vacant k (ordOf I k), store I n m)) F := by
  refine (sim_slotFor L H m k hF).bind_ok (Sim.read_bind ?_)
  rw [Entry.new_store L]
  exact .ok _

theorem sim_amapOp (L : Lawful c I n) (H : Honest J I) (m : K → Option V) {op : MapOp K V}
    (hop : ¬ MapSpec.fatal op) :
    Sim (store I n m) (Caught.amapOp c J op) (.ok ((MapSpec.step I n m op).1, store I n (MapSpec.step I n m op).2))
      (fun q => ∃ m', MapSpec.after I n m op m' ∧ q = store I n m') := by
  have h : Stored I n true m (store I n m) := .inl ⟨rfl, rfl⟩
  have unst : ∀ {m' : K → Option V} {s}, Stored I n true m' s → s = store I n m' := by
    intro m' s h; simpa [Stored] using h
  have left : ∀ {op : MapOp K V}, MapSpec.after I n m op m →
      (fun q => ∃ m', MapSpec.after I n m op m' ∧ q = store I n m') (store I n m) := fun e => ⟨m, e, rfl⟩
  by_cases hk : op.keyless = true
  · rw [Caught.amapOp_keyless hk]
    obtain ⟨s', h1, h2⟩ := sim_keyless L H h hk
    rw [unst h2] at h1
    exact h1.mono fun q ⟨m', e1, e2⟩ => ⟨m', e1, unst e2⟩
  cases op with
  | get k =>
    refine Sim.read_bind (Sim.user_ok (H.ord k) (L.ordinal_eq k) (left (op := .get k) rfl) ?_)
    exact Sim.of_ok (getIdx_store L m k) (.ok _)
  | getMut k w =>
    refine (sim_slotFor L H m k (left (op := .getMut k w) rfl)).bind_ok (sim_client ?_)
    simp only [readSlot_store L, ok_bind]
    exact getMutClient_store L m k w
  | insert k v =>
    refine (sim_slotFor L H m k (left (op := .insert k v) rfl)).bind_ok (sim_client ?_)
    simp only [readSlot_store L, writeSlot_store L, ok_bind, updT_eq_upd]
    rfl
  | remove k =>
    refine (sim_slotFor L H m k (left (op := .remove k) rfl)).bind_ok (sim_client ?_)
    simp only [readSlot_store L, writeSlot_store L, ok_bind, updT_eq_upd]
    rfl
  | orInsert k v w =>
    exact (sim_amapEntry L H m k (left (op := .orInsert k v w) rfl)).bind_ok (sim_orInsertClient L m k v w)
  | entry k v w =>
    exact (sim_amapEntry L H m k (left (op := .entry k v w) rfl)).bind_ok (sim_client (entryClient_store L m k v w))
  | drain ds leak => simp [MapSpec.fatal] at hop
  | _ => simp [MapOp.keyless] at hk

/-- One caught operation. -/
theorem caught_amapStep (L : Lawful c I n) (H : Honest J I) (m : K → Option V) (op : MapOp K V) (st : σ) :
    ∃ e st' q, Caught.amapStep c J op (st, store I n m) = (.ok e, (st', q)) ∧
      ((e = .returned (MapSpec.step I n m op).1 ∧ q = store I n (MapSpec.step I n m op).2) ∨
        (e = .panicked ∧ ∃ m', MapSpec.after I n m op m' ∧ q = store I n m') ∨ (e = .aborted ∧ MapSpec.fatal op)) := by
  have unst : ∀ {m' : K → Option V} {s}, Stored I n true m' s → s = store I n m' := by
    intro m' s h; simpa [Stored] using h
  by_cases hop : MapSpec.fatal op
  · cases op with
    | drain ds leak =>
      obtain ⟨e, st', q, e1, e2⟩ := caught_drain L H (b := true) (.inl ⟨rfl, rfl⟩) ds leak st
      simp only [Caught.amapStep, M.bind_apply]
      erw [e1]
      rcases e2 with ⟨os, rfl, rfl, e2⟩ | ⟨rfl, m', e2, e3⟩ | rfl
      · exact ⟨_, _, _, rfl, .inl ⟨rfl, unst e2⟩⟩
      · exact ⟨_, _, _, rfl, .inr (.inl ⟨rfl, m', e2, unst e3⟩)⟩
      · exact ⟨_, _, _, rfl, .inr (.inr ⟨rfl, trivial⟩)⟩
    | _ => simp [MapSpec.fatal] at hop
  · have hc : Caught.amapStep c J op = Caught.catchUnwind (Caught.amapOp c J op) := by
      cases op with
      | drain ds leak => simp [MapSpec.fatal] at hop
      | _ => rfl
    obtain ⟨e, st', q, e1, e2⟩ := (sim_amapOp L H m hop).caught st
    rw [hc]
    refine ⟨e, st', q, e1, ?_⟩
    rcases e2 with ⟨rfl, rfl⟩ | ⟨rfl, e2⟩
    · exact .inl ⟨rfl, rfl⟩
    · exact .inr (.inl ⟨rfl, e2⟩)

/-! ## The total maps -/

theorem sim_totalOp (L : Lawful c I n) (H : Honest J I) (m : K → V) (op : TotalOp K V) {len : R Nat}
    (hlen : len = .ok n) :
    Sim (store I n m) (Caught.totalOp c J len op)
      (.ok ((TotalSpec.step I n m op).1, store I n (TotalSpec.step I n m op).2))
      (fun q => ∃ m', TotalSpec.after I n m op m' ∧ q = store I n m') := by
  have left : ∀ (op : TotalOp K V), TotalSpec.after I n m op m →
      (fun q => ∃ m', TotalSpec.after I n m op m' ∧ q = store I n m') (store I n m) := fun _ e => ⟨m, e, rfl⟩
  subst hlen
  cases op with
  | get k =>
    exact Sim.read_bind (Sim.user_ok (H.ord k) (L.ordinal_eq k) (left (.get k) rfl)
      (Sim.of_ok (getIdx_store L m k) (.ok _)))
  | index k =>
    exact Sim.read_bind (Sim.user_ok (H.ord k) (L.ordinal_eq k) (left (.index k) rfl)
      (Sim.of_ok (getIdx_store L m k) (.ok _)))
  | getMut k w =>
    refine (sim_slotFor L H m k (left (.getMut k w) rfl)).bind_ok (Sim.read_bind ?_)
    exact Sim.of_ok (readSlot_store L m k) (Sim.of_ok (writeSlot_store L m k w) (Sim.write_bind (.ok _)))
  | indexMut k w =>
    refine (sim_slotFor L H m k (left (.indexMut k w) rfl)).bind_ok (Sim.read_bind ?_)
    exact Sim.of_ok (readSlot_store L m k) (Sim.of_ok (writeSlot_store L m k w) (Sim.write_bind (.ok _)))
  | insert k v =>
    refine Sim.user_ok (H.ord k) (L.ordinal_eq k) (left (.insert k v) rfl) (Sim.read_bind ?_)
    exact Sim.of_ok (getIdx_store L m k) (Sim.of_ok (setIdx_store L m k v) (Sim.write_bind (.ok _)))
  | len => exact .ok _
  | isEmpty => exact .ok _
  | iter ds =>
    refine Sim.read_bind ?_
    obtain ⟨it, h1⟩ := total_iter L m ds
    exact Sim.user_ok (Honest.run (it := TotalIter.it c I) (H.enumNext c _) (H.enumNextBack c _) ds _) h1
      (left (.iter ds) rfl) (.ok _)
  | keys ds =>
    obtain ⟨v, h1, it, h2⟩ := total_keys L ds
    refine Sim.of_ok (by rw [H.valuesNew]; exact h1) ?_
    exact Sim.user_ok (Honest.run (it := OrdinalValues.iter I) H.valuesNext H.valuesNextBack ds _) h2
      (left (.keys ds) rfl) (.ok _)
  | values ds =>
    refine Sim.read_bind ?_
    obtain ⟨it, h1⟩ := total_values (I := I) (n := n) m ds
    exact Sim.of_ok h1 (.ok _)
  | iterMut steps =>
    have hs := sim_iterMutT (c := c) H steps (store I n m)
    obtain ⟨cl, h1, h2⟩ := total_iterMut L m steps
    simp only [h1, ok_bind, h2] at hs
    refine (hs.mono ?_).bind_ok (.ok _)
    rintro q ⟨done, os, cl', e1, e2, rfl⟩
    obtain ⟨cl'', g1, g2⟩ := total_iterMut L m done
    rw [g1] at e2
    simp only [Except.ok.injEq, Prod.mk.injEq] at e2
    obtain ⟨_, rfl⟩ := e2
    exact ⟨_, ⟨done, e1, rfl⟩, g2⟩
  | valuesMut steps =>
    obtain ⟨cl, h1, h2⟩ := total_valuesMut L m steps
    refine Sim.read_bind (Sim.of_ok (by rw [store_length L]; exact h1) (Sim.write_bind ?_))
    rw [h2]
    exact .ok _

theorem caught_totalStep (L : Lawful c I n) (H : Honest J I) {len : R Nat} (hlen : len = .ok n) (m : K → V)
    (op : TotalOp K V) (st : σ) :
    ∃ e st' q, Caught.totalStep c J len op (st, store I n m) = (.ok e, (st', q)) ∧
      ((e = .returned (TotalSpec.step I n m op).1 ∧ q = store I n (TotalSpec.step I n m op).2) ∨
        (e = .panicked ∧ ∃ m', TotalSpec.after I n m op m' ∧ q = store I n m') ∨ (e = .aborted ∧ False)) := by
  obtain ⟨e, st', q, e1, e2⟩ := (sim_totalOp L H m op hlen).caught st
  refine ⟨e, st', q, e1, ?_⟩
  rcases e2 with ⟨rfl, rfl⟩ | ⟨rfl, e2⟩
  · exact .inl ⟨rfl, rfl⟩
  · exact .inr (.inl ⟨rfl, e2⟩)

end OrdinalMap
