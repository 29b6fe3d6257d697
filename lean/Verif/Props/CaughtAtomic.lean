import Verif.SpecCaught
import Verif.SpecCaughtAtomic
import Verif.Model.CaughtAtomic
import Verif.Lemmas.Caught
import Verif.Props.Atomic
import Verif.Props.Caught
/-!
# C92: `AtomicOrdinal` of a type that panics

`ordinal` and `from_ordinal` are user code, which may panic now and then; the threads catch the panic and go on.  C92:
the cell stays a linearizable register.  A call that returns has taken effect at one moment and returns what it should;
`store` that panics has not taken effect; `load` that panics has changed nothing; `compare_exchange` that panics has
either taken effect, as one that returns, or not at all.
-/

namespace OrdinalMap.Props
open OrdinalMap

variable {σ τ T ι : Type} {c : Cfg} {I : OrdinalImpl τ} {J : SImpl σ τ} {n : Nat}

/-- A call of the user code panics in state `u`. -/
def PanicsIn (J : SImpl σ τ) (u : σ) : Prop :=
  (∃ k, (J.ordinal k u).1 = .error .panic) ∨ ∃ i, (J.fromOrdinal i u).1 = .error .panic

/-- The thread states of the machine and of the specification correspond. -/
def UPhaseRel (I : OrdinalImpl τ) : UPhase τ → LinState τ → Prop
  | .idle, .idle => True
  | .called op, .pending op' => op = op'
  | .half op b i s f, .pending op' => op = op' ∧ ∃ a, op = .cas a b s f ∧ i = ordOf I a
  | .ready op p, .pending op' => op = op' ∧ p = encode I op
  | .answered op (.ok raw), .done op' out => op = op' ∧ AtomicOrdinal.ret I raw = out ∧
    (raw = .unit ∨ op.panicsAfter = true)
  | .answered op (.error e), .done op' out => op = op' ∧ out = .error e
  | _, _ => False

theorem uphaseRel_set [DecidableEq T] {th : T → UThread τ} {st : T → LinState τ}
    (h : ∀ t, UPhaseRel I (th t).phase (st t)) (t : T) {a : UThread τ} {b : LinState τ}
    (hab : UPhaseRel I a.phase b) (t' : T) : UPhaseRel I (setAt th t a t').phase (setAt st t b t') := by
  unfold setAt
  by_cases e : t' = t
  · simp [e, hab]
  · simp [e, h t']

theorem exec_unit {cell : Nat} {op : AtomicOp τ} {raw : RawRes} {cell' : Nat}
    (h : Prim.exec cell (encode I op) = .ok (raw, cell')) : raw = .unit ∨ op.panicsAfter = true := by
  cases op with
  | load o => exact .inr rfl
  | cas a b s f => exact .inr rfl
  | store v o => cases o <;> simp [encode, Prim.exec] at h <;> exact .inl h.1.symm

theorem atomicRet_ends (H : Honest J I) (raw : RawRes) (u : σ) :
    (Eff.atomicRet J raw u).1 = AtomicOrdinal.ret I raw ∨
    ((Eff.atomicRet J raw u).1 = .error .panic ∧ raw ≠ .unit ∧ PanicsIn J u) := by
  have key : ∀ v, (J.fromOrdinal v u).1 = I.fromOrdinal v ∨ ((J.fromOrdinal v u).1 = .error .panic ∧ PanicsIn J u) :=
    fun v => (H.fromOrdinal v u).imp id fun h => ⟨h, .inr ⟨v, h⟩⟩
  cases raw with
  | unit => exact .inl rfl
  | val v | ok v | err v =>
    simp only [Eff.atomicRet, Eff.atomicValue, M.bind_apply, AtomicOrdinal.ret]
    rcases hj : J.fromOrdinal v u with ⟨x, u'⟩
    have hk := key v
    rw [hj] at hk
    rcases hk with e | ⟨e, hp⟩ <;> simp only at e <;> subst e
    · cases I.fromOrdinal v with
      | error e => exact .inl rfl
      | ok o => cases o <;> exact .inl rfl
    · exact .inr ⟨rfl, by simp, hp⟩

theorem umachine_lin [DecidableEq T] [DecidableEq τ] (L : Lawful c I n) (H : Honest J I) (can : Prop)
    (prog : T → List (R (AtomicOut τ)) → Option (AtomicOp τ)) (sched : List (T × σ)) :
    (∀ p ∈ sched, PanicsIn J p.2 → can) →
    ∀ (v : τ) (st : T → LinState τ) (s : UMachine T τ), s.cell = ordOf I v →
      (∀ t, UPhaseRel I (s.threads t).phase (st t)) →
      (∃ es, LegalOrPanics can v st es ∧ es.filter AtomicEv.visible = (s.run J prog sched).1) ∧
      ∃ w, (s.run J prog sched).2.cell = ordOf I w := by
  induction sched with
  | nil => intro _ v st s hc _; exact ⟨⟨[], .nil v st, rfl⟩, v, hc⟩
  | cons p ts ih =>
    obtain ⟨t, u⟩ := p
    intro hcan v st s hc hr
    have ih := ih fun p hp => hcan p (by simp [hp])
    have hcan : PanicsIn J u → can := hcan (t, u) (by simp)
    have hord : ∀ k, (J.ordinal k u).1 = .ok (ordOf I k) ∨ ((J.ordinal k u).1 = .error .panic ∧ can) := fun k =>
      (H.ordinal k u).imp (fun h => h.trans (L.ordinal_eq k)) fun h => ⟨h, hcan (.inl ⟨k, h⟩)⟩
    have ht := hr t
    simp only [UMachine.run, UMachine.step]
    generalize hth : s.threads t = th at ht
    obtain ⟨rs, ph⟩ := th
    generalize hst : st t = x at ht
    have silent : ∀ {ph' : UPhase τ} {op : AtomicOp τ}, x = .pending op → UPhaseRel I ph' (.pending op) →
        (∃ es, LegalOrPanics can v st es ∧ es.filter AtomicEv.visible =
          ((⟨s.cell, setAt s.threads t ⟨rs, ph'⟩⟩ : UMachine T τ).run J prog ts).1) ∧
        ∃ w, ((⟨s.cell, setAt s.threads t ⟨rs, ph'⟩⟩ : UMachine T τ).run J prog ts).2.cell = ordOf I w := by
      intro ph' op hx hp
      obtain ⟨⟨es, h1, h2⟩, h3⟩ := ih v (setAt st t (.pending op)) ⟨s.cell, setAt s.threads t ⟨rs, ph'⟩⟩ hc
          (uphaseRel_set hr t hp)
      refine ⟨⟨es, ?_, h2⟩, h3⟩
      rwa [← hx, ← hst, setAt_self] at h1
    have early : ∀ {op : AtomicOp τ}, x = .pending op → op.panicsBefore = true → can →
        (∃ es, LegalOrPanics can v st es ∧ es.filter AtomicEv.visible = .res t op (.error .panic) ::
          ((⟨s.cell, setAt s.threads t ⟨rs ++ [.error .panic], .idle⟩⟩ : UMachine T τ).run J prog ts).1) ∧
        ∃ w, ((⟨s.cell, setAt s.threads t ⟨rs ++ [.error .panic], .idle⟩⟩ : UMachine T τ).run J prog ts).2.cell =
          ordOf I w := by
      intro op hx ho hc'
      obtain ⟨⟨es, h1, h2⟩, h3⟩ := ih v (setAt st t .idle)
        ⟨s.cell, setAt s.threads t ⟨rs ++ [.error .panic], .idle⟩⟩ hc (uphaseRel_set hr t (by simp [UPhaseRel]))
      exact ⟨⟨.res t op (.error .panic) :: es, .before t op hc' ho (hst.trans hx) h1,
        by simp [List.filter_cons, AtomicEv.visible, h2]⟩, h3⟩
    cases ph with
    | idle =>
      cases x <;> simp only [UPhaseRel] at ht
      cases hp : prog t rs with
      | none => simpa [hp] using ih v st s hc hr
      | some op =>
        obtain ⟨⟨es, h1, h2⟩, h3⟩ := ih v (setAt st t (.pending op)) ⟨s.cell, setAt s.threads t ⟨rs, .called op⟩⟩ hc
          (uphaseRel_set hr t (by simp [UPhaseRel]))
        exact ⟨⟨.inv t op :: es, .inv t op hst h1, by simp [List.filter_cons, AtomicEv.visible, h2, hp]⟩,
          by simpa [hp] using h3⟩
    | called op =>
      cases x <;> simp only [UPhaseRel] at ht
      subst ht
      cases op with
      | load o =>
        have := silent (ph' := .ready (.load o) (.load o)) rfl ⟨rfl, rfl⟩
        simpa using this
      | store w o =>
        rcases hord w with e | ⟨e, hc'⟩
        · simpa only [e, List.nil_append] using silent (ph' := .ready (.store w o) (.store (ordOf I w) o)) rfl ⟨rfl, rfl⟩
        · simpa only [e, List.singleton_append] using early rfl rfl hc'
      | cas a b s' f =>
        rcases hord a with e | ⟨e, hc'⟩
        · simpa only [e, List.nil_append] using
            silent (ph' := .half (.cas a b s' f) b (ordOf I a) s' f) rfl ⟨rfl, a, rfl, rfl⟩
        · simpa only [e, List.singleton_append] using early rfl rfl hc'
    | half op b i s' f =>
      cases x <;> simp only [UPhaseRel] at ht
      obtain ⟨rfl, a, rfl, rfl⟩ := ht
      rcases hord b with e | ⟨e, hc'⟩
      · simpa only [e, List.nil_append] using
          silent (ph' := .ready (.cas a b s' f) (.cas (ordOf I a) (ordOf I b) s' f)) rfl ⟨rfl, rfl⟩
      · simpa only [e, List.singleton_append] using early rfl rfl hc'
    | ready op p =>
      cases x <;> simp only [UPhaseRel] at ht
      obtain ⟨rfl, rfl⟩ := ht
      cases hv : op.valid with
      | false =>
        have he := (exec_eq L v op).1 hv
        simp only [hc, he]
        obtain ⟨⟨es, h1, h2⟩, h3⟩ := ih v (setAt st t (.done op (.error .panic)))
          ⟨ordOf I v, setAt s.threads t ⟨rs, .answered op (.error .panic)⟩⟩ rfl
          (uphaseRel_set hr t (by simp [UPhaseRel]))
        refine ⟨⟨.lin t op :: es, .lin t op hst ?_, by simp [AtomicEv.visible, h2]⟩, by simpa using h3⟩
        rw [spec_invalid v hv]
        exact h1
      | true =>
        obtain ⟨raw, he, hret⟩ := (exec_eq L v op).2 hv
        simp only [hc, he]
        obtain ⟨⟨es, h1, h2⟩, h3⟩ := ih (AtomicSpec.step v op).2 (setAt st t (.done op (AtomicSpec.step v op).1))
          ⟨ordOf I (AtomicSpec.step v op).2, setAt s.threads t ⟨rs, .answered op (.ok raw)⟩⟩ rfl
          (uphaseRel_set hr t ⟨rfl, hret, exec_unit he⟩)
        exact ⟨⟨.lin t op :: es, .lin t op hst h1, by simp [AtomicEv.visible, h2]⟩, by simpa using h3⟩
    | answered op raw =>
      cases raw with
      | error e =>
        cases x <;> simp only [UPhaseRel] at ht
        obtain ⟨rfl, rfl⟩ := ht
        obtain ⟨⟨es, h1, h2⟩, h3⟩ := ih v (setAt st t .idle) ⟨s.cell, setAt s.threads t
            ⟨rs ++ [.error e], .idle⟩⟩ hc (uphaseRel_set hr t (by simp [UPhaseRel]))
        exact ⟨⟨.res t op _ :: es, .res t op _ hst h1, by simp [List.filter_cons, AtomicEv.visible, h2]⟩, h3⟩
      | ok raw =>
        cases x <;> simp only [UPhaseRel] at ht
        obtain ⟨rfl, rfl, ha⟩ := ht
        obtain ⟨⟨es, h1, h2⟩, h3⟩ := ih v (setAt st t .idle) ⟨s.cell, setAt s.threads t
            ⟨rs ++ [(Eff.atomicRet J raw u).1], .idle⟩⟩ hc (uphaseRel_set hr t (by simp [UPhaseRel]))
        refine ⟨⟨.res t op (Eff.atomicRet J raw u).1 :: es, ?_, by simp [List.filter_cons, AtomicEv.visible, h2]⟩, h3⟩
        rcases atomicRet_ends H raw u with e | ⟨e, hu, hp⟩
        · rw [e]
          exact .res t op _ hst h1
        · rw [e]
          exact .after t op _ (hcan hp) (ha.resolve_left hu) hst h1

theorem legal_of_never [DecidableEq T] [DecidableEq τ] {v : τ} {st : T → LinState τ} {es : List (AtomicEv T τ)}
    (h : LegalOrPanics False v st es) : Legal v st es := by
  induction h with
  | nil v st => exact .nil v st
  | inv t op h _ ih => exact .inv t op h ih
  | lin t op h _ ih => exact .lin t op h ih
  | res t op out h _ ih => exact .res t op out h ih
  | before t op hc => exact hc.elim
  | after t op out hc => exact hc.elim

/-- C92: under every schedule of all programs of the threads, the history is one that the specification allows, and the cell
always holds the ordinal of a value (so that the next call finds one, whatever has panicked).  If no call of user code
in it panicked, it is linearizable as in C49. -/
theorem C92_linearizable [DecidableEq T] [DecidableEq τ] (L : Lawful c I n) (H : Honest J I) (v : τ) {cell : Nat} {u u' : σ}
    (hnew : J.ordinal v u = (.ok cell, u')) (prog : T → List (R (AtomicOut τ)) → Option (AtomicOp τ))
    (sched : List (T × σ)) :
    (∃ es, LegalOrPanics True v (fun _ => .idle) es ∧
      es.filter AtomicEv.visible = ((UMachine.init cell).run J prog sched).1) ∧
    (∃ w, I.ordinal w = .ok ((UMachine.init cell : UMachine T τ).run J prog sched).2.cell) ∧
    ((∀ p ∈ sched, ¬ PanicsIn J p.2) → Linearizable v ((UMachine.init cell).run J prog sched).1) := by
  obtain rfl : cell = ordOf I v := by
    have := H.ordinal v u
    rw [hnew, L.ordinal_eq] at this
    simpa using this
  have hr : ∀ t, UPhaseRel I ((UMachine.init (ordOf I v) : UMachine T τ).threads t).phase .idle :=
    fun t => by simp [UMachine.init, UPhaseRel]
  obtain ⟨h1, w, h2⟩ := umachine_lin L H True prog sched (fun _ _ _ => trivial) v _ _ rfl hr
  refine ⟨h1, ⟨w, by rw [h2]; exact L.ordinal_eq w⟩, fun h => ?_⟩
  obtain ⟨⟨es, g1, g2⟩, _⟩ := umachine_lin L H False prog sched (fun p hp hq => h p hp hq) v _ _ rfl hr
  exact ⟨es, legal_of_never g1, g2⟩

example (u : Nat) := C92_linearizable (T := Bool) (bool_lawful debug64).1 moodyImpl_honest true (cell := 1) (u := 1)
  (u' := 0) rfl (fun t l => if l.length < 3 then some (if t then .load .acquire else .cas true false .seqCst .relaxed)
    else none) [(true, u), (false, 3), (false, 2), (true, 4), (false, 7), (false, 0), (false, 6)]

/-! ## Progress -/

/-- How far a thread has come: at most five steps to a call. -/
def uprogress (th : UThread τ) : Nat :=
  5 * th.results.length +
    match th.phase with | .idle => 0 | .called _ => 1 | .half .. => 2 | .ready _ _ => 3 | .answered _ _ => 4

theorem uprogress_step [DecidableEq T] (prog : T → List (R (AtomicOut τ)) → Option (AtomicOp τ)) (s : UMachine T τ)
    (t t' : T) (u : σ) :
    (t ≠ t' → (s.step J prog t' u).2.threads t = s.threads t) ∧
    (t = t' → prog t (s.threads t).results = none ∧ (s.threads t).phase = .idle ∧ (s.step J prog t' u).2 = s ∨
      uprogress (s.threads t) < uprogress ((s.step J prog t' u).2.threads t)) := by
  constructor
  · intro h
    simp only [UMachine.step]
    repeat' split
    all_goals simp [setAt, h]
  · rintro rfl
    simp only [UMachine.step]
    generalize hth : s.threads t = th
    obtain ⟨rs, ph⟩ := th
    cases ph with
    | idle =>
      dsimp only
      cases hp : prog t rs with
      | none => simp
      | some op => right; simp [setAt, uprogress]
    | called op =>
      right
      cases op with
      | load o => simp [setAt, uprogress]
      | store v o => dsimp only; cases (J.ordinal v u).1 <;> simp [setAt, uprogress] <;> omega
      | cas a b s f => dsimp only; cases (J.ordinal a u).1 <;> simp [setAt, uprogress] <;> omega
    | half op b i s f =>
      right
      dsimp only
      cases (J.ordinal b u).1 <;> simp [setAt, uprogress] <;> omega
    | ready op p =>
      right
      dsimp only
      cases Prim.exec s.cell p <;> simp [setAt, uprogress]
    | answered op raw => right; simp [setAt, uprogress]; omega

theorem urun_ended [DecidableEq T] (prog : T → List (R (AtomicOut τ)) → Option (AtomicOp τ)) (t : T)
    (ts : List (T × σ)) : ∀ (s : UMachine T τ), prog t (s.threads t).results = none → (s.threads t).phase = .idle →
      (s.run J prog ts).2.threads t = s.threads t := by
  induction ts with
  | nil => intro s _ _; rfl
  | cons p us ih =>
    obtain ⟨t', u⟩ := p
    intro s a b
    simp only [UMachine.run]
    have hu : (s.step J prog t' u).2.threads t = s.threads t := by
      by_cases e2 : t = t'
      · subst e2
        simp only [UMachine.step]
        generalize hth : s.threads t = th at a b
        obtain ⟨rs, ph⟩ := th
        simp only at a b
        subst b
        simp [a, hth]
      · exact (uprogress_step prog s t t' u).1 e2
    rw [ih _ (by rw [hu]; exact a) (by rw [hu]; exact b), hu]

theorem uprogress_run [DecidableEq T] (prog : T → List (R (AtomicOut τ)) → Option (AtomicOp τ)) (t : T)
    (sched : List (T × σ)) : ∀ s : UMachine T τ,
      (prog t ((s.run J prog sched).2.threads t).results = none ∧ ((s.run J prog sched).2.threads t).phase = .idle) ∨
      uprogress (s.threads t) + (sched.map (·.1)).count t ≤ uprogress ((s.run J prog sched).2.threads t) := by
  induction sched with
  | nil => intro s; right; simp [UMachine.run]
  | cons p ts ih =>
    obtain ⟨t', u⟩ := p
    intro s
    simp only [UMachine.run]
    obtain ⟨p1, p2⟩ := uprogress_step (J := J) prog s t t' u
    rcases ih (s.step J prog t' u).2 with h | h
    · exact .inl h
    · by_cases e : t = t'
      · rcases p2 e with ⟨q1, q2, q3⟩ | q
        · left
          rw [q3, urun_ended prog t ts s q1 q2]
          exact ⟨q1, q2⟩
        · right
          subst e
          simp only [List.map_cons, List.count_cons_self]
          omega
      · right
        rw [p1 e] at h
        rw [List.map_cons, List.count_cons_of_ne (fun h => e h.symm)]
        exact h

/-- C92: calls never wait for other threads, also not for ones whose calls have panicked: a thread that has made `5 * k`
steps has finished `k` calls, or its program has ended. -/
theorem C92_wait_free [DecidableEq T] (J : SImpl σ τ) (cell : Nat)
    (prog : T → List (R (AtomicOut τ)) → Option (AtomicOp τ)) (t : T) (k : Nat) (sched : List (T × σ))
    (h : 5 * k ≤ (sched.map (·.1)).count t) :
    let th := ((UMachine.init cell).run J prog sched).2.threads t
    (prog t th.results = none ∧ th.phase = .idle) ∨ k ≤ th.results.length := by
  intro th
  rcases uprogress_run (J := J) prog t sched (UMachine.init cell) with h1 | h1
  · exact .inl h1
  · right
    have h2 : uprogress th ≤ 5 * th.results.length + 4 := by
      unfold uprogress
      split <;> omega
    have h3 : uprogress ((UMachine.init cell : UMachine T τ).threads t) = 0 := rfl
    have h4 : (sched.map (·.1)).count t ≤ uprogress th := by
      simp only [h3, Nat.zero_add] at h1
      exact h1
    omega

example := C92_wait_free moodyImpl 0 (fun (t : Bool) _ => some (if t then .load .acquire else .store true .release))
  true 2 (List.replicate 10 (true, 3) ++ [(false, 1)]) (by decide)

/-! ## Weak memory -/

theorem atomicCall_ok (H : Honest J I) {op : AtomicOp τ} {u : σ} {p : Prim}
    (h : (Eff.atomicCall J op u).1 = .ok p) : AtomicOrdinal.call I op = .ok p := by
  have key : Ref (Eff.atomicCall J op) (AtomicOrdinal.call I op) := by
    cases op with
    | load o => exact .of _
    | store v o => exact (H.ord v).bind fun _ => .of _
    | cas a b s f => exact (H.ord a).bind fun _ => (H.ord b).bind fun _ => .of _
  have := key u
  rw [h] at this
  exact this

/-- C92 under every memory ordering: take any execution in which the accesses to the `AtomicUsize` are those of calls
`ops` that have not panicked before (`g` describes them) and each read gets its value from some write.  Then there is
an execution `g'` of an atomic cell holding a `T` with the same reads-from relation in which the same accesses write,
and each call returns what it returns in `g'`, or panics because `from_ordinal` does. -/
theorem C92_no_invention [DecidableEq τ] (L : Lawful c I n) (H : Honest J I) (v : τ) (ops : ι → AtomicOp τ)
    (g : CellGraph Nat ι) (hinit : ∃ u, (J.ordinal v u).1 = .ok g.init)
    (hops : ∀ i, ∃ u, (Eff.atomicCall J (ops i) u).1 = .ok (g.op i)) (hg : g.Consistent) :
    ∃ g' : CellGraph τ ι, g'.init = v ∧ g'.op = ops ∧ g'.rf = g.rf ∧ g'.Consistent ∧
      ∀ i, ((g'.written i).isSome = (g.written i).isSome) ∧ ∀ u, (Eff.atomicRet J (g.out i) u).1 = .ok (g'.out i) ∨
        ((Eff.atomicRet J (g.out i) u).1 = .error .panic ∧ PanicsIn J u ∧ (ops i).panicsAfter = true) := by
  have h1 : AtomicOrdinal.new I v = .ok g.init := by
    obtain ⟨u, h⟩ := hinit
    have := H.ordinal v u
    rw [h] at this
    simpa [AtomicOrdinal.new, eq_comm] using this
  have h2 : ∀ i, AtomicOrdinal.call I (ops i) = .ok (g.op i) := fun i => by
    obtain ⟨u, h⟩ := hops i
    exact atomicCall_ok H h
  obtain ⟨g', e1, e2, e3, e4, e5⟩ := C50_no_invention L v ops g h1 h2 hg
  refine ⟨g', e1, e2, e3, e4, fun i => ⟨(e5 i).1, fun u => ?_⟩⟩
  rcases atomicRet_ends H (g.out i) u with e | ⟨e, hu, hp⟩
  · exact .inl (e.trans (e5 i).2)
  · refine .inr ⟨e, hp, ?_⟩
    have := h2 i
    rw [call_eq L] at this
    simp only [Except.ok.injEq] at this
    unfold CellGraph.out at hu
    rw [← this] at hu
    cases ho : ops i with
    | load o => rfl
    | cas a b s f => rfl
    | store w o => rw [ho] at hu; simp [encode] at hu

example := C92_no_invention (ι := Bool) (bool_lawful debug64).1 moodyImpl_honest true
  (fun t => if t then .cas true false .seqCst .relaxed else .load .relaxed)
  ⟨1, fun t => if t then .cas 1 0 .seqCst .relaxed else .load .relaxed, fun t => if t then none else some true,
    fun t => if t then 1 else 0⟩ ⟨1, rfl⟩
  (fun t => ⟨2, by cases t <;> rfl⟩) (by intro t; cases t <;> rfl)

/-! ## Concrete schedules -/

/-- The results of a thread: `none` for a panic. -/
private def seen {T : Type} (s : UMachine T Bool) (t : T) : List (Option (AtomicOut Bool)) :=
  (s.threads t).results.map fun r => r.toOption

-- `compare_exchange(true, false)` succeeds, but `from_ordinal` panics; the load afterwards sees `false`.
example : (seen ((UMachine.init 1).run moodyImpl (fun (_ : Unit) rs =>
      if rs.length = 0 then some (.cas true false .seqCst .relaxed)
      else if rs.length = 1 then some (.load .seqCst) else none)
    [((), 1), ((), 1), ((), 1), ((), 1), ((), 3), ((), 1), ((), 1), ((), 1), ((), 1)]).2 ()) =
    [none, some (.val false)] := by rfl
-- `ordinal` of the new value panics: the cell is as it was.
example : (seen ((UMachine.init 1).run moodyImpl (fun (_ : Unit) rs =>
      if rs.length = 0 then some (.cas true false .seqCst .relaxed)
      else if rs.length = 1 then some (.load .seqCst) else none)
    [((), 1), ((), 1), ((), 3), ((), 1), ((), 1), ((), 1), ((), 1)]).2 ()) =
    [none, some (.val true)] := by rfl

end OrdinalMap.Props
