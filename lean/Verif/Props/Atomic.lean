import Verif.Model.Atomic
import Verif.Lemmas.Lawful
import Verif.Lemmas.Leaf
import Verif.Props.Leaf
/-!
# C49–C51: `AtomicOrdinal`

`AtomicSpec.step`, `Linearizable` and `CellGraph` are in SpecAtomic.lean.
-/

namespace OrdinalMap.Props
open OrdinalMap

variable {τ T ι : Type} {c : Cfg} {I : OrdinalImpl τ} {n : Nat}

/-! ## One call -/

/-- The `AtomicUsize` call that corresponds to an operation. -/
def encode (I : OrdinalImpl τ) : AtomicOp τ → Prim
  | .load o => .load o
  | .store v o => .store (ordOf I v) o
  | .cas a b s f => .cas (ordOf I a) (ordOf I b) s f

theorem call_eq (L : Lawful c I n) (op : AtomicOp τ) : AtomicOrdinal.call I op = .ok (encode I op) := by
  cases op <;> simp [AtomicOrdinal.call, encode, L.ordinal_eq]

theorem exec_eq [DecidableEq τ] (L : Lawful c I n) (v : τ) (op : AtomicOp τ) :
    (op.valid = false → Prim.exec (ordOf I v) (encode I op) = .error .panic) ∧
    (op.valid = true → ∃ raw, Prim.exec (ordOf I v) (encode I op) = .ok (raw, ordOf I (AtomicSpec.step v op).2) ∧
      AtomicOrdinal.ret I raw = (AtomicSpec.step v op).1) := by
  cases op with
  | load o =>
    cases o <;> simp [AtomicOp.valid, Prim.exec, encode, AtomicSpec.step, AtomicOrdinal.ret, L.from_ord]
  | store w o =>
    cases o <;> simp [AtomicOp.valid, Prim.exec, encode, AtomicSpec.step, AtomicOrdinal.ret]
  | cas a b s f =>
    by_cases h : v = a
    · cases f <;> simp [AtomicOp.valid, Prim.exec, encode, AtomicSpec.step, AtomicOrdinal.ret, L.from_ord, h]
    · cases f <;>
        simp [AtomicOp.valid, Prim.exec, encode, AtomicSpec.step, AtomicOrdinal.ret, L.from_ord, h, L.ord_inj_iff]

theorem spec_invalid [DecidableEq τ] (v : τ) {op : AtomicOp τ} (h : op.valid = false) :
    AtomicSpec.step v op = (.error .panic, v) := by
  simp [AtomicSpec.step, h]

/-- C49 for one thread: `new(v)` makes a cell holding `v`, and each operation answers and leaves
behind what the atomic cell of the specification does. -/
theorem C49_sequential [DecidableEq τ] (L : Lawful c I n) (v : τ) :
    ∃ cell, AtomicOrdinal.new I v = .ok cell ∧ ∀ op : AtomicOp τ,
      (AtomicOrdinal.step I cell op).1 = (AtomicSpec.step v op).1 ∧
      AtomicOrdinal.new I (AtomicSpec.step v op).2 = .ok (AtomicOrdinal.step I cell op).2 := by
  refine ⟨ordOf I v, L.ordinal_eq v, fun op => ?_⟩
  simp only [AtomicOrdinal.step, AtomicOrdinal.new, call_eq L, L.ordinal_eq]
  cases hv : op.valid with
  | false => simp [(exec_eq L v op).1 hv, spec_invalid v hv]
  | true =>
    obtain ⟨raw, h1, h2⟩ := (exec_eq L v op).2 hv
    simp [h1, h2]

example := C49_sequential (ordering_lawful debug64).1 .eq

/-- C51: an operation panics exactly if its orderings are invalid, and then leaves the cell
unchanged. -/
theorem C51_orderings (L : Lawful c I n) (v : τ) :
    ∃ cell, AtomicOrdinal.new I v = .ok cell ∧
      (∀ o, (o = .release ∨ o = .acqRel → AtomicOrdinal.step I cell (.load o) = (.error .panic, cell)) ∧
        (¬(o = .release ∨ o = .acqRel) → ∃ r c', AtomicOrdinal.step I cell (.load o) = (.ok r, c'))) ∧
      (∀ w o, (o = .acquire ∨ o = .acqRel → AtomicOrdinal.step I cell (.store w o) = (.error .panic, cell)) ∧
        (¬(o = .acquire ∨ o = .acqRel) → ∃ r c', AtomicOrdinal.step I cell (.store w o) = (.ok r, c'))) ∧
      (∀ a b s f,
        (f = .release ∨ f = .acqRel → AtomicOrdinal.step I cell (.cas a b s f) = (.error .panic, cell)) ∧
        (¬(f = .release ∨ f = .acqRel) → ∃ r c', AtomicOrdinal.step I cell (.cas a b s f) = (.ok r, c'))) := by
  refine ⟨ordOf I v, L.ordinal_eq v, fun o => ?_, fun w o => ?_, fun a b s f => ?_⟩
  · cases o <;> simp [AtomicOrdinal.step, call_eq L, encode, Prim.exec, AtomicOrdinal.ret, L.from_ord]
  · cases o <;> simp [AtomicOrdinal.step, call_eq L, encode, Prim.exec, AtomicOrdinal.ret]
  · by_cases h : ordOf I v = ordOf I a
    · cases f <;> simp [AtomicOrdinal.step, call_eq L, encode, Prim.exec, AtomicOrdinal.ret, L.from_ord, h]
    · cases f <;> simp [AtomicOrdinal.step, call_eq L, encode, Prim.exec, AtomicOrdinal.ret, L.from_ord, h]

example := C51_orderings (ordering_lawful debug64).1 .gt

/-! ## Interleavings -/

/-- The thread states of the machine and of the specification correspond. -/
def PhaseRel (I : OrdinalImpl τ) : Phase τ → LinState τ → Prop
  | .idle, .idle => True
  | .called op, .pending op' => op = op'
  | .ready op p, .pending op' => op = op' ∧ p = encode I op
  | .answered op raw, .done op' out => op = op' ∧ (do AtomicOrdinal.ret I (← raw)) = out
  | _, _ => False

theorem phaseRel_set [DecidableEq T] {th : T → ThreadState τ} {st : T → LinState τ}
    (h : ∀ t, PhaseRel I (th t).phase (st t)) (t : T) {a : ThreadState τ} {b : LinState τ}
    (hab : PhaseRel I a.phase b) (t' : T) : PhaseRel I (setAt th t a t').phase (setAt st t b t') := by
  unfold setAt
  by_cases e : t' = t
  · simp [e, hab]
  · simp [e, h t']

theorem setAt_self [DecidableEq T] {α : Type} (f : T → α) (t : T) : setAt f t (f t) = f := by
  funext t'
  unfold setAt
  by_cases e : t' = t <;> simp [e]

theorem machine_lin [DecidableEq T] [DecidableEq τ] (L : Lawful c I n)
    (prog : T → List (R (AtomicOut τ)) → Option (AtomicOp τ)) (sched : List T) :
    ∀ (v : τ) (st : T → LinState τ) (s : Machine T τ), s.cell = ordOf I v →
      (∀ t, PhaseRel I (s.threads t).phase (st t)) →
      ∃ es, Legal v st es ∧ es.filter AtomicEv.visible = (s.run I prog sched).1 := by
  induction sched with
  | nil => intro v st s _ _; exact ⟨[], .nil v st, rfl⟩
  | cons t ts ih =>
    intro v st s hc hr
    have ht := hr t
    simp only [Machine.run, Machine.step]
    generalize hth : s.threads t = th at ht
    obtain ⟨rs, ph⟩ := th
    generalize hst : st t = x at ht
    cases ph with
    | idle =>
      cases x <;> simp only [PhaseRel] at ht
      cases hp : prog t rs with
      | none =>
        obtain ⟨es, h1, h2⟩ := ih v st s hc hr
        exact ⟨es, h1, by simpa [hp] using h2⟩
      | some op =>
        obtain ⟨es, h1, h2⟩ := ih v (setAt st t (.pending op)) ⟨s.cell, setAt s.threads t ⟨rs, .called op⟩⟩ hc
          (phaseRel_set hr t (by simp [PhaseRel]))
        exact ⟨.inv t op :: es, .inv t op hst h1, by simp [List.filter_cons, AtomicEv.visible, h2, hp]⟩
    | called op =>
      cases x <;> simp only [PhaseRel] at ht
      subst ht
      simp only [call_eq L]
      obtain ⟨es, h1, h2⟩ := ih v (setAt st t (.pending op)) ⟨s.cell, setAt s.threads t ⟨rs, .ready op (encode I op)⟩⟩ hc
          (phaseRel_set hr t (by simp [PhaseRel]))
      refine ⟨es, ?_, by simp [h2]⟩
      rwa [← hst, setAt_self] at h1
    | ready op p =>
      cases x <;> simp only [PhaseRel] at ht
      obtain ⟨ht, hp⟩ := ht
      subst ht hp
      cases hv : op.valid with
      | false =>
        have he := (exec_eq L v op).1 hv
        simp only [hc, he]
        obtain ⟨es, h1, h2⟩ := ih v (setAt st t (.done op (.error .panic)))
          ⟨ordOf I v, setAt s.threads t ⟨rs, .answered op (.error .panic)⟩⟩ rfl
          (phaseRel_set hr t (by simp [PhaseRel]))
        refine ⟨.lin t op :: es, .lin t op hst ?_, by simp [AtomicEv.visible, h2]⟩
        rw [spec_invalid v hv]
        exact h1
      | true =>
        obtain ⟨raw, he, hret⟩ := (exec_eq L v op).2 hv
        simp only [hc, he]
        obtain ⟨es, h1, h2⟩ := ih (AtomicSpec.step v op).2 (setAt st t (.done op (AtomicSpec.step v op).1))
          ⟨ordOf I (AtomicSpec.step v op).2, setAt s.threads t ⟨rs, .answered op (.ok raw)⟩⟩ rfl
          (phaseRel_set hr t (by simp [PhaseRel, hret]))
        exact ⟨.lin t op :: es, .lin t op hst h1, by simp [AtomicEv.visible, h2]⟩
    | answered op raw =>
      cases x <;> simp only [PhaseRel] at ht
      obtain ⟨ht, ho⟩ := ht
      subst ht ho
      obtain ⟨es, h1, h2⟩ := ih v (setAt st t .idle) ⟨s.cell, setAt s.threads t
          ⟨rs ++ [do AtomicOrdinal.ret I (← raw)], .idle⟩⟩ hc (phaseRel_set hr t (by simp [PhaseRel]))
      exact ⟨.res t op _ :: es, .res t op _ hst h1, by simp [List.filter_cons, AtomicEv.visible, h2]⟩

/-- C49: whatever the threads do and however they are scheduled, the history of calls and returns is
linearizable: each call takes effect, as the atomic cell of the specification says, at one moment
between the call and the return. -/
theorem C49_linearizable [DecidableEq T] [DecidableEq τ] (L : Lawful c I n) (v : τ)
    (prog : T → List (R (AtomicOut τ)) → Option (AtomicOp τ)) (sched : List T) :
    ∃ cell, AtomicOrdinal.new I v = .ok cell ∧
      Linearizable v ((Machine.init cell).run I prog sched).1 := by
  refine ⟨ordOf I v, L.ordinal_eq v, ?_⟩
  exact machine_lin L prog sched v _ _ rfl (fun t => by simp [Machine.init, PhaseRel])

example := C49_linearizable (T := Bool) (ordering_lawful debug64).1 .lt
  (fun t l => if l.length < 3 then some (if t then .load .acquire else .cas .lt .gt .seqCst .relaxed) else none)
  [true, false, false, true, true, false]

/-- In an allowed sequence of events each return has an outcome the specification gives for some
contents of the cell. -/
theorem legal_res [DecidableEq T] [DecidableEq τ] {v : τ} {st : T → LinState τ} {es : List (AtomicEv T τ)}
    (h : Legal v st es) (hst : ∀ t op out, st t = .done op out → ∃ w, out = (AtomicSpec.step w op).1)
    {t : T} {op : AtomicOp τ} {out : R (AtomicOut τ)} (hm : AtomicEv.res t op out ∈ es) :
    ∃ w, out = (AtomicSpec.step w op).1 := by
  induction h with
  | nil => simp at hm
  | inv t' op' h _ ih =>
    refine ih (fun t1 op1 out1 h1 => ?_) (by simpa using hm)
    unfold setAt at h1
    split at h1
    · simp at h1
    · exact hst _ _ _ h1
  | @lin v' st' es' t' op' h _ ih =>
    refine ih (fun t1 op1 out1 h1 => ?_) (by simpa using hm)
    unfold setAt at h1
    split at h1
    · simp only [LinState.done.injEq] at h1
      exact ⟨v', by rw [← h1.2, h1.1]⟩
    · exact hst _ _ _ h1
  | res t' op' out' h _ ih =>
    simp only [List.mem_cons, AtomicEv.res.injEq] at hm
    rcases hm with ⟨rfl, rfl, rfl⟩ | hm
    · exact hst _ _ _ h
    · refine ih (fun t1 op1 out1 h1 => ?_) hm
      unfold setAt at h1
      split at h1
      · simp at h1
      · exact hst _ _ _ h1

/-- C49: no call with valid orderings panics, under any schedule. -/
theorem C49_no_panic [DecidableEq T] [DecidableEq τ] (L : Lawful c I n) (v : τ)
    (prog : T → List (R (AtomicOut τ)) → Option (AtomicOp τ)) (sched : List T) :
    ∃ cell, AtomicOrdinal.new I v = .ok cell ∧
      ∀ t op out, AtomicEv.res t op out ∈ ((Machine.init cell).run I prog sched).1 → op.valid = true →
        ∃ r, out = .ok r := by
  refine ⟨ordOf I v, L.ordinal_eq v, fun t op out hm hv => ?_⟩
  obtain ⟨es, h1, h2⟩ := machine_lin L prog sched v (fun _ => .idle) (Machine.init (ordOf I v)) rfl
    (fun t => by simp [Machine.init, PhaseRel])
  rw [← h2] at hm
  obtain ⟨w, hw⟩ := legal_res h1 (by simp) (List.mem_filter.1 hm).1
  rw [hw]
  unfold AtomicSpec.step
  rw [if_pos hv]
  cases op <;> simp
  split <;> simp

example := C49_no_panic (T := Bool) (ordering_lawful debug64).1 .lt
  (fun t l => if l.length < 3 then some (if t then .load .acquire else .cas .lt .gt .seqCst .relaxed) else none)
  [true, false, false, true, true, false]

/-! ## Progress -/

/-- How far a thread has come: four steps to a call. -/
def progress (th : ThreadState τ) : Nat :=
  4 * th.results.length + match th.phase with | .idle => 0 | .called _ => 1 | .ready _ _ => 2 | .answered _ _ => 3

theorem progress_step [DecidableEq T] (prog : T → List (R (AtomicOut τ)) → Option (AtomicOp τ)) (s : Machine T τ)
    (t t' : T) :
    (t ≠ t' → (s.step I prog t').2.threads t = s.threads t) ∧
    (t = t' → prog t (s.threads t).results = none ∧ (s.threads t).phase = .idle ∧ (s.step I prog t').2 = s ∨
      progress (s.threads t) < progress ((s.step I prog t').2.threads t)) := by
  constructor
  · intro h
    simp only [Machine.step]
    repeat' split
    all_goals simp [setAt, h]
  · rintro rfl
    simp only [Machine.step]
    generalize hth : s.threads t = th
    obtain ⟨rs, ph⟩ := th
    cases ph with
    | idle =>
      dsimp only
      cases hp : prog t rs with
      | none => simp
      | some op => right; simp [setAt, progress]
    | called op =>
      right
      dsimp only
      cases AtomicOrdinal.call I op <;> simp [setAt, progress] <;> omega
    | ready op p =>
      right
      dsimp only
      cases Prim.exec s.cell p <;> simp [setAt, progress]
    | answered op raw => right; simp [setAt, progress]; omega

theorem progress_run [DecidableEq T] (prog : T → List (R (AtomicOut τ)) → Option (AtomicOp τ)) (t : T) (sched : List T) :
    ∀ s : Machine T τ,
      (prog t ((s.run I prog sched).2.threads t).results = none ∧ ((s.run I prog sched).2.threads t).phase = .idle) ∨
      progress (s.threads t) + sched.count t ≤ progress ((s.run I prog sched).2.threads t) := by
  induction sched with
  | nil => intro s; right; simp [Machine.run]
  | cons t' ts ih =>
    intro s
    simp only [Machine.run]
    obtain ⟨p1, p2⟩ := progress_step (I := I) prog s t t'
    rcases ih (s.step I prog t').2 with h | h
    · exact .inl h
    · by_cases e : t = t'
      · rcases p2 e with ⟨q1, q2, q3⟩ | q
        · rw [q3] at h ⊢
          left
          have key : ∀ (ts : List T) (s : Machine T τ), prog t (s.threads t).results = none → (s.threads t).phase = .idle →
              (s.run I prog ts).2.threads t = s.threads t := by
            intro ts
            induction ts with
            | nil => intro s _ _; rfl
            | cons u us ih2 =>
              intro s a b
              simp only [Machine.run]
              obtain ⟨r1, r2⟩ := progress_step (I := I) prog s t u
              have hu : (s.step I prog u).2.threads t = s.threads t := by
                by_cases e2 : t = u
                · subst e2
                  simp only [Machine.step]
                  generalize hth : s.threads t = th at a b
                  obtain ⟨rs, ph⟩ := th
                  simp only at a b
                  subst b
                  simp [a, hth]
                · exact r1 e2
              rw [ih2 _ (by rw [hu]; exact a) (by rw [hu]; exact b), hu]
          rw [key _ _ q1 q2]
          exact ⟨q1, q2⟩
        · right
          subst e
          simp only [List.count_cons_self]
          omega
      · right
        rw [p1 e] at h
        rw [List.count_cons_of_ne (fun h => e h.symm)]
        exact h

/-- C49: calls never wait for other threads: a thread that has made `4 * k` steps has finished `k`
calls, or its program has ended, whatever the other threads do. -/
theorem C49_wait_free [DecidableEq T] (cell : Nat)
    (prog : T → List (R (AtomicOut τ)) → Option (AtomicOp τ)) (t : T) (k : Nat) (sched : List T)
    (h : 4 * k ≤ sched.count t) :
    let th := ((Machine.init cell).run I prog sched).2.threads t
    (prog t th.results = none ∧ th.phase = .idle) ∨ k ≤ th.results.length := by
  intro th
  rcases progress_run (I := I) prog t sched (Machine.init cell) with h1 | h1
  · exact .inl h1
  · right
    have h2 : progress th ≤ 4 * th.results.length + 3 := by
      unfold progress
      split <;> omega
    have h3 : progress ((Machine.init cell : Machine T τ).threads t) = 0 := rfl
    have h4 : sched.count t ≤ progress th := by
      simp only [h3, Nat.zero_add] at h1
      exact h1
    omega

example := C49_wait_free (I := orderingImpl) 0
  (fun (t : Bool) _ => some (if t then .load .acquire else .store .gt .release)) true 2
  (List.replicate 8 true ++ [false, false]) (by decide)

/-! ## Weak memory -/

/-- C50: take any execution in which threads make the calls `ops` on an `AtomicOrdinal` made by
`new(v)`, and in which each read of the `AtomicUsize` gets its value from some write (`g` describes the
accesses to the `AtomicUsize`).  Then there is an execution `g'` of an atomic cell holding a `T`, with
the same reads-from relation, in which the same accesses write; and each call returns, without
panicking, what it returns in `g'`.  In particular each value returned was passed to `new`, `store`
or a successful `compare_exchange`. -/
theorem C50_no_invention [DecidableEq τ] (L : Lawful c I n) (v : τ) (ops : ι → AtomicOp τ) (g : CellGraph Nat ι)
    (hinit : AtomicOrdinal.new I v = .ok g.init) (hops : ∀ i, AtomicOrdinal.call I (ops i) = .ok (g.op i))
    (hg : g.Consistent) :
    ∃ g' : CellGraph τ ι, g'.init = v ∧ g'.op = ops ∧ g'.rf = g.rf ∧ g'.Consistent ∧
      ∀ i, ((g'.written i).isSome = (g.written i).isSome) ∧ AtomicOrdinal.ret I (g.out i) = .ok (g'.out i) := by
  have hop : ∀ i, g.op i = encode I (ops i) := fun i => by
    have := hops i
    rw [call_eq L] at this
    simpa using this.symm
  have hin : g.init = ordOf I v := by
    have := hinit
    rw [AtomicOrdinal.new, L.ordinal_eq] at this
    simpa using this.symm
  -- every value written is an ordinal
  have hw : ∀ j x, g.written j = some x → ∃ a, x = ordOf I a := by
    intro j x hx
    unfold CellGraph.written at hx
    rw [hop] at hx
    cases ho : ops j with
    | load o => simp [ho, encode] at hx
    | store w o =>
      simp only [ho, encode, Option.some.injEq] at hx
      exact ⟨w, hx.symm⟩
    | cas a b s f =>
      simp only [ho, encode] at hx
      split at hx
      · simp only [Option.some.injEq] at hx
        exact ⟨b, hx.symm⟩
      · simp at hx
  -- so is every value read
  have hr : ∀ i, ∃ a, (∀ w o, ops i ≠ .store w o) → g.read i = ordOf I a := by
    intro i
    have hc := hg i
    rw [hop] at hc
    have key : g.Reads i → ∃ a, g.read i = ordOf I a := by
      unfold CellGraph.Reads
      split
      · intro h; exact ⟨v, h.trans hin⟩
      · intro h; exact hw _ _ h
    cases ho : ops i with
    | store w o => exact ⟨w, fun h => absurd rfl (h w o)⟩
    | load o =>
      rw [ho] at hc
      obtain ⟨a, ha⟩ := key hc
      exact ⟨a, fun _ => ha⟩
    | cas a b s f =>
      rw [ho] at hc
      obtain ⟨a, ha⟩ := key hc
      exact ⟨a, fun _ => ha⟩
  obtain ⟨rd, hrd⟩ := Classical.axiomOfChoice hr
  have hrd' : ∀ i, (∃ o, ops i = .load o) ∨ (∃ a b s f, ops i = .cas a b s f) → g.read i = ordOf I (rd i) := by
    intro i hi
    apply hrd
    intro w o h
    rcases hi with ⟨o', h'⟩ | ⟨a, b, s, f, h'⟩ <;> rw [h] at h' <;> simp at h'
  let g' : CellGraph τ ι := ⟨v, ops, g.rf, rd⟩
  have hwr : ∀ j, g.written j = (g'.written j).map (ordOf I) := by
    intro j
    simp only [CellGraph.written, hop, g']
    cases ho : ops j with
    | load o => simp [encode]
    | store w o => simp [encode]
    | cas a b s f =>
      simp only [encode, hrd' j (.inr ⟨a, b, s, f, ho⟩), L.ord_inj_iff]
      split <;> simp
  refine ⟨g', rfl, rfl, rfl, fun i => ?_, fun i => ⟨by rw [hwr]; simp, ?_⟩⟩
  · have hc := hg i
    rw [hop] at hc
    have key : (∃ o, ops i = .load o) ∨ (∃ a b s f, ops i = .cas a b s f) → g.Reads i → g'.Reads i := by
      intro hi
      unfold CellGraph.Reads
      show (match g.rf i with | none => _ | some j => _) → (match g.rf i with | none => rd i = v | some j => g'.written j = some (rd i))
      rw [hrd' i hi, hin]
      cases g.rf i with
      | none => exact fun h => L.ord_inj h
      | some j =>
        dsimp only
        rw [hwr]
        intro h
        rw [Option.map_eq_some_iff] at h
        obtain ⟨a, h1, h2⟩ := h
        rw [h1, L.ord_inj h2]
    show match ops i with | .store _ _ => True | _ => g'.Reads i
    cases ho : ops i with
    | store w o => trivial
    | load o =>
      rw [ho] at hc
      exact key (.inl ⟨o, ho⟩) hc
    | cas a b s f =>
      rw [ho] at hc
      exact key (.inr ⟨a, b, s, f, ho⟩) hc
  · simp only [CellGraph.out, hop, g']
    cases ho : ops i with
    | load o => simp [encode, AtomicOrdinal.ret, hrd' i (.inl ⟨o, ho⟩), L.from_ord]
    | store w o => simp [encode, AtomicOrdinal.ret]
    | cas a b s f =>
      simp only [encode, hrd' i (.inr ⟨a, b, s, f, ho⟩), L.ord_inj_iff]
      split <;> simp [AtomicOrdinal.ret, L.from_ord]

/-- What C50 means for the value a load or a failed `compare_exchange` returns: it is the initial
value or was written by a store or a successful `compare_exchange`. -/
theorem C50_spec_meaning [DecidableEq τ] (g : CellGraph τ ι) (hg : g.Consistent) (i : ι) (w : τ)
    (h : g.out i = .val w ∨ g.out i = .ok w ∨ g.out i = .err w) :
    w = g.init ∨ ∃ j, (∃ o, g.op j = .store w o) ∨ ∃ old s f, g.op j = .cas old w s f ∧ g.out j = .ok old := by
  have hc := hg i
  have key : g.Reads i → g.read i = w →
      w = g.init ∨ ∃ j, (∃ o, g.op j = .store w o) ∨ ∃ old s f, g.op j = .cas old w s f ∧ g.out j = .ok old := by
    intro hr he
    unfold CellGraph.Reads at hr
    split at hr
    · exact .inl (he.symm.trans hr)
    · rename_i j _
      refine .inr ⟨j, ?_⟩
      unfold CellGraph.written at hr
      rw [he] at hr
      split at hr
      · simp at hr
      · rename_i x o ho
        left
        simp only [Option.some.injEq] at hr
        exact ⟨o, hr ▸ ho⟩
      · rename_i old new s f ho
        right
        split at hr
        · rename_i hold
          simp only [Option.some.injEq] at hr
          refine ⟨old, s, f, hr ▸ ho, ?_⟩
          unfold CellGraph.out
          rw [ho]
          simp [hold]
        · simp at hr
  cases ho : g.op i with
  | store x o => simp [CellGraph.out, ho] at h
  | load o =>
    rw [ho] at hc
    simp only [CellGraph.out, ho] at h
    exact key hc (by simpa using h)
  | cas a b s f =>
    rw [ho] at hc
    simp only [CellGraph.out, ho] at h
    refine key hc ?_
    split at h <;> simpa using h

/-! ## Concrete cases -/

/-- Two threads on an `AtomicOrdinal<Ordering>`: thread `false` stores `Greater`, thread `true` tries to
replace `Less` by `Equal` and then loads. -/
def demoProg : Bool → List (R (AtomicOut Ordering)) → Option (AtomicOp Ordering)
  | false, [] => some (.store .gt .release)
  | true, [] => some (.cas .lt .eq .acqRel .acquire)
  | true, [_] => some (.load .relaxed)
  | _, _ => none

example : ((Machine.init 0).run orderingImpl demoProg
      [true, false, true, false, false, true, false, true, true, true, true, true]).1 =
    [.inv true (.cas .lt .eq .acqRel .acquire), .inv false (.store .gt .release),
     .res false (.store .gt .release) (.ok .unit),
     .res true (.cas .lt .eq .acqRel .acquire) (.ok (.err .gt)),
     .inv true (.load .relaxed), .res true (.load .relaxed) (.ok (.val .gt))] := rfl

example : ∃ cell, AtomicOrdinal.new orderingImpl .lt = .ok cell ∧
    Linearizable Ordering.lt ((Machine.init cell).run orderingImpl demoProg
      [true, false, true, false, false, true, false, true, true, true, true, true]).1 :=
  C49_linearizable (ordering_lawful debug64).1 _ _ _

/-- A history that is not linearizable, so that `Linearizable` is not vacuous: a load returns a value
nobody stored. -/
example : ¬Linearizable (T := Unit) true [.inv () (.load .seqCst), .res () (.load .seqCst) (.ok (.val false))] := by
  rintro ⟨es, h, hf⟩
  have hm : AtomicEv.res () (.load .seqCst) (.ok (.val false)) ∈ es := by
    refine (List.mem_filter (p := AtomicEv.visible).1 ?_).1
    rw [hf]; simp
  have key : ∀ (v : Bool) (st : Unit → LinState Bool) (es : List (AtomicEv Unit Bool)), Legal v st es → v = true →
      (∀ e ∈ es, e.visible → e = .inv () (.load .seqCst) ∨ e = .res () (.load .seqCst) (.ok (.val false))) →
      (∀ t, st t = .idle ∨ st t = .pending (.load .seqCst) ∨ st t = .done (.load .seqCst) (.ok (.val true))) →
      AtomicEv.res () (.load .seqCst) (.ok (.val false)) ∉ es := by
    intro v st es h
    induction h with
    | nil => intro _ _ _; simp
    | inv t op h _ ih =>
      intro hv he hs hm
      have h0 := he (.inv t op) (by simp) rfl
      simp only [AtomicEv.inv.injEq, reduceCtorEq, or_false, true_and] at h0
      refine ih hv (fun e hx => he e (by simp [hx])) (fun t' => ?_) (by simpa using hm)
      subst h0
      right; left
      unfold setAt
      rw [if_pos (Subsingleton.elim _ _)]
    | lin t op h _ ih =>
      intro hv he hs hm
      have h0 : op = .load .seqCst := by
        rcases hs t with h1 | h1 | h1 <;> rw [h1] at h <;> simp at h
        exact h.symm
      subst h0 hv
      exact ih rfl (fun e hx => he e (by simp [hx])) (fun t' => by simp [setAt, AtomicSpec.step, AtomicOp.valid]) (by simpa using hm)
    | res t op out h _ ih =>
      intro hv he hs hm
      have h0 : out = .ok (.val true) := by
        rcases hs t with h1 | h1 | h1 <;> rw [h1] at h <;> simp at h
        exact h.2.symm
      subst h0
      exact ih hv (fun e hx => he e (by simp [hx])) (fun t' => by simp [setAt]) (by simpa using hm)
  refine key _ _ _ h rfl (fun e he hv => ?_) (fun t => by simp) hm
  have : e ∈ es.filter AtomicEv.visible := List.mem_filter.2 ⟨he, hv⟩
  rw [hf] at this
  simpa using this

example : AtomicOrdinal.step orderingImpl 2 (.load .acqRel) = (.error .panic, 2) := rfl
example : AtomicOrdinal.step orderingImpl 2 (.cas .gt .lt .release .relaxed) = (.ok (.ok .gt), 0) := rfl

/-- A weak-memory execution: access `0` stores `Equal`, access `1` reads the initial value although
access `2` reads the store. -/
def demoGraph : CellGraph Nat (Fin 3) where
  init := 0
  op := fun i => if i = 0 then .store 1 .relaxed else .load .relaxed
  rf := fun i => if i = 2 then some 0 else none
  read := fun i => if i = 2 then 1 else 0

theorem demoGraph_consistent : demoGraph.Consistent := by
  intro i
  match i with
  | 0 => trivial
  | 1 => exact rfl
  | 2 => exact rfl

theorem demoGraph_calls (i : Fin 3) :
    AtomicOrdinal.call orderingImpl (if i = 0 then .store Ordering.eq .relaxed else .load .relaxed) =
    .ok (demoGraph.op i) := by
  match i with
  | 0 => rfl
  | 1 => rfl
  | 2 => rfl

example := C50_no_invention (ordering_lawful debug64).1 .lt
  (fun i : Fin 3 => if i = 0 then .store Ordering.eq .relaxed else .load .relaxed) demoGraph rfl demoGraph_calls
  demoGraph_consistent

example := C50_spec_meaning demoGraph demoGraph_consistent 2 1 (.inl rfl)

end OrdinalMap.Props
