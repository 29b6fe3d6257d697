import Verif.Text.AtomicRun
import Verif.Props.Atomic
import Verif.Props.TextSet
import Verif.SpecSound
/-!
# C106: `AtomicOrdinal`, lexed, parsed and run from its source text

`P 0` is the type stored, `P 2` the state of the world.
-/

namespace OrdinalMap.Props
open OrdinalMap OrdinalMap.Text

variable {P : Nat → Type} {c : Cfg} {J : (p : Nat) → OrdinalImpl (P p)} {n : Nat}

/-- The model of `atomic.rs`. -/
def modelMethods {τ : Type} (I : OrdinalImpl τ) : Methods τ :=
  ⟨AtomicOrdinal.new I, AtomicOrdinal.call I, AtomicOrdinal.ret I, fun x => do unwrap (← I.fromOrdinal x)⟩

theorem decomposes : Decomposes c J atomicTree (modelMethods (J 0)) := by
  refine ⟨atomicVal, fun S v r => ?_, fun S i op r => ?_, fun S i w r => ?_⟩
  · rw [atomicCall, atomic_new 7]
    simp only [modelMethods, AtomicOrdinal.new]
    cases (J 0).ordinal v with
    | error e => rfl
    | ok x => cases hs : S.new x r <;> simp [hs]
  · cases op with
    | load o =>
      rw [atomicOp, atomicCall, atomic_load 7]
      simp only [modelMethods, AtomicOrdinal.call, Shared.ask, ok_bind]
      cases hs : S.load i o r with
      | error e => rfl
      | ok q => cases hf : (J 0).fromOrdinal q.1 with
        | error e => simp [AtomicOrdinal.ret, hf]
        | ok u => cases u <;> simp [AtomicOrdinal.ret, hf, unwrap]
    | store v o =>
      rw [atomicOp, atomicCall, atomic_store 7]
      simp only [modelMethods, AtomicOrdinal.call, Shared.ask]
      cases (J 0).ordinal v with
      | error e => rfl
      | ok x => cases hs : S.store i x o r <;> simp [AtomicOrdinal.ret, hs, Val.unit]
    | cas v w s f =>
      rw [atomicOp, atomicCall, atomic_cas 7]
      simp only [modelMethods, AtomicOrdinal.call, Shared.ask]
      cases (J 0).ordinal v with
      | error e => rfl
      | ok x => cases (J 0).ordinal w with
        | error e => rfl
        | ok y => cases hs : S.cas i x y s f r with
          | error e => simp [hs]
          | ok q =>
            obtain ⟨⟨ok, z⟩, r'⟩ := q
            cases hf : (J 0).fromOrdinal z with
            | error e => cases ok <;> simp [AtomicOrdinal.ret, hs, hf]
            | ok u => cases u <;> cases ok <;> simp [AtomicOrdinal.ret, hs, hf, unwrap]
  · rw [atomicCall, atomic_fmt 6]
    simp only [modelMethods]
    cases hs : S.load i .relaxed r with
    | error e => rfl
    | ok q => cases hf : (J 0).fromOrdinal q.1 with
      | error e => simp [hf]
      | ok u => cases u with
        | none => simp [hf, unwrap]
        | some u => cases hd : S.fmt u w q.2 <;> simp [hf, unwrap, hd]

/-- C106: the text and the model do the same, with every impl, lawful or not, on every `AtomicUsize`. -/
theorem C106_agrees : AtomicSource c J fun M => M = modelMethods (J 0) :=
  ⟨atomicTree, _, atomic_parsed, decomposes, rfl⟩

/-- With the wrong impl `bogusImpl`. -/
example := C106_agrees (P := two Bool Bool) (c := debug64) (J := twoImpls bogusImpl boolImpl)

/-! ## Threads -/

section
variable {T τ : Type}

/-- What a thread is doing, in the model. -/
def phaseOf : At τ → Phase τ
  | .idle => .idle
  | .before op => .called op
  | .access op p => .ready op p
  | .after op x => .answered op x

/-- The state of the model. -/
def machineOf (s : Threads T τ) : OrdinalMap.Machine T τ := ⟨s.cell, fun t => ⟨s.results t, phaseOf (s.at_ t)⟩⟩

theorem exec_spec (cell : Nat) (p : AtomicOp Nat) : AtomicSpec.step cell p = match Prim.exec cell p with
    | .error e => (.error e, cell)
    | .ok (raw, cell') => (.ok raw, cell') := by
  cases p with
  | load o => cases o <;> rfl
  | store x o => cases o <;> rfl
  | cas a b s f =>
    by_cases h : cell = a <;> cases f <;> simp [AtomicSpec.step, AtomicOp.valid, Prim.exec, h]

theorem threads_setAt [DecidableEq T] (s : Threads T τ) (t : T) (cell : Nat) (rs : List (R (AtomicOut τ))) (a : At τ) :
    machineOf ⟨cell, setAt s.results t rs, setAt s.at_ t a⟩ = ⟨cell, setAt (machineOf s).threads t ⟨rs, phaseOf a⟩⟩ := by
  simp only [machineOf, OrdinalMap.Machine.mk.injEq, true_and]
  funext t'
  unfold setAt
  by_cases e : t' = t <;> simp [e]

theorem threads_step [DecidableEq T] (I : OrdinalImpl τ) (prog : T → List (R (AtomicOut τ)) → Option (AtomicOp τ)) (s : Threads T τ) (t : T) :
    (machineOf s).step I prog t = ((s.step (modelMethods I) prog t).1, machineOf (s.step (modelMethods I) prog t).2) := by
  have hs : ∀ cell a, machineOf ⟨cell, s.results, setAt s.at_ t a⟩ = ⟨cell, setAt (machineOf s).threads t ⟨s.results t, phaseOf a⟩⟩ := by
    intro cell a
    rw [← threads_setAt, setAt_self]
  have ht : (machineOf s).threads t = ⟨s.results t, phaseOf (s.at_ t)⟩ := rfl
  rw [OrdinalMap.Machine.step, ht, Threads.step]
  cases ha : s.at_ t with
  | idle =>
    simp only [phaseOf]
    cases prog t (s.results t) with
    | none => rfl
    | some op => simp only [hs]; rfl
  | before op =>
    simp only [phaseOf, modelMethods]
    cases AtomicOrdinal.call I op with
    | error e => simp only [threads_setAt]; rfl
    | ok p => simp only [hs]; rfl
  | access op p =>
    simp only [phaseOf, exec_spec]
    rw [show (machineOf s).cell = s.cell from rfl]
    cases Prim.exec s.cell p with
    | error e => simp only [hs]; rfl
    | ok q => simp only [hs]; rfl
  | after op x =>
    simp only [phaseOf, threads_setAt]
    rfl

theorem threads_run [DecidableEq T] (I : OrdinalImpl τ) (prog : T → List (R (AtomicOut τ)) → Option (AtomicOp τ)) (sched : List T) :
    ∀ s : Threads T τ, (machineOf s).run I prog sched =
      ((s.run (modelMethods I) prog sched).1, machineOf (s.run (modelMethods I) prog sched).2) := by
  induction sched with
  | nil => intro s; rfl
  | cons t ts ih =>
    intro s
    rw [OrdinalMap.Machine.run, threads_step, Threads.run]
    simp only [ih]

end

/-- C106: any number of threads, each with any program that depends on the results, any schedule: the calls of the text are linearizable
to the cell of the specification.  Calls with valid orderings do not panic.  Each thread finishes `k` calls in at most `4 * k` steps of
its own, unless it has nothing more to do. -/
theorem C106_linearizable {T : Type} [DecidableEq T] [DecidableEq (P 0)] (L : Lawful c (J 0) n) (v : P 0)
    (prog : T → List (R (AtomicOut (P 0))) → Option (AtomicOp (P 0))) (sched : List T) : AtomicSource c J fun M =>
    ∃ cell, M.new v = .ok cell ∧
      let run := (Threads.start cell).run M prog sched
      Linearizable v run.1 ∧ (∀ t op out, AtomicEv.res t op out ∈ run.1 → op.valid = true → ∃ r, out = .ok r) ∧
      ∀ t k, 4 * k ≤ sched.count t → (prog t (run.2.results t) = none ∧ run.2.at_ t = .idle) ∨ k ≤ (run.2.results t).length := by
  refine ⟨atomicTree, _, atomic_parsed, decomposes, ?_⟩
  obtain ⟨cell, h1, h2⟩ := C49_linearizable L v prog sched
  obtain ⟨cell', h3, h4⟩ := C49_no_panic L v prog sched
  obtain rfl : cell = cell' := by rw [h1] at h3; simpa using h3
  have hr := threads_run (J 0) prog sched (Threads.start cell)
  rw [show machineOf (Threads.start (T := T) (τ := P 0) cell) = OrdinalMap.Machine.init cell from rfl] at hr
  rw [hr] at h2 h4
  refine ⟨cell, h1, h2, h4, fun t k hk => ?_⟩
  rcases C49_wait_free (I := J 0) cell prog t k sched hk with h | h
  · rw [hr] at h
    refine .inl ⟨h.1, ?_⟩
    have := h.2
    simp only [machineOf] at this
    generalize (Threads.run (modelMethods (J 0)) prog (Threads.start cell) sched).2.at_ t = a at this ⊢
    cases a <;> simp_all [phaseOf]
  · rw [hr] at h
    exact .inr h

example := C106_linearizable (T := Bool) (J := twoImpls orderingImpl boolImpl) (ordering_lawful debug64).1 .lt
  (fun t l => if l.length < 3 then some (if t then .load .acquire else .cas .lt .gt .seqCst .relaxed) else none)
  [true, false, false, true, true, false]

/-- C106: whatever the memory model lets an `AtomicUsize` return, the text returns what a cell of `T` may return that reads from the same
writes: no value is invented. -/
theorem C106_no_invention {ι : Type} [DecidableEq (P 0)] (L : Lawful c (J 0) n) : AtomicSource c J fun M =>
    ∀ (v : P 0) (ops : ι → AtomicOp (P 0)) (g : CellGraph Nat ι), M.new v = .ok g.init → (∀ i, M.call (ops i) = .ok (g.op i)) → g.Consistent →
      ∃ g' : CellGraph (P 0) ι, g'.init = v ∧ g'.op = ops ∧ g'.rf = g.rf ∧ g'.Consistent ∧
        ∀ i, ((g'.written i).isSome = (g.written i).isSome) ∧ M.ret (g.out i) = .ok (g'.out i) :=
  ⟨atomicTree, _, atomic_parsed, decomposes, fun v ops g => C50_no_invention L v ops g⟩

example := C106_no_invention (ι := Nat) (J := twoImpls orderingImpl boolImpl) (ordering_lawful debug64).1

/-- C106: every operation has an access, so that the hypotheses of `C106_no_invention` can be met; and what is printed is the value
stored. -/
theorem C106_values (L : Lawful c (J 0) n) : AtomicSource c J fun M =>
    (∀ op, ∃ p, M.call op = .ok p) ∧ ∀ v, ∃ x, M.new v = .ok x ∧ M.shown x = .ok v ∧ M.ret (.val x) = .ok (.val v) := by
  refine ⟨atomicTree, _, atomic_parsed, decomposes, fun op => ⟨_, call_eq L op⟩, fun v => ⟨ordOf (J 0) v, L.ordinal_eq v, ?_, ?_⟩⟩
  · simp [modelMethods, L.from_ord, unwrap]
  · simp [modelMethods, AtomicOrdinal.ret, L.from_ord, unwrap]

example := C106_values (J := twoImpls orderingImpl boolImpl) (ordering_lawful debug64).1

end OrdinalMap.Props
