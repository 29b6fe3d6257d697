import Verif.SpecClone
import Verif.Lemmas.Set
import Verif.Lemmas.Map
/-! Lemmas about worlds and clones. -/

namespace OrdinalMap

variable {σ μ ω ο : Type}

/-- Objects and specifications agree one by one. -/
inductive WRel (rel : μ → σ → Prop) : List μ → List σ → Prop where
  | nil : WRel rel [] []
  | cons {m s ms ss} (h : rel m s) (t : WRel rel ms ss) : WRel rel (m :: ms) (s :: ss)

theorem WRel.get {rel : μ → σ → Prop} {ms : List μ} {ss : List σ} (h : WRel rel ms ss) (i : Nat) :
    (ms[i]? = none ∧ ss[i]? = none) ∨ ∃ m s, ms[i]? = some m ∧ ss[i]? = some s ∧ rel m s := by
  induction h generalizing i with
  | nil => simp
  | cons h _ ih =>
    cases i with
    | zero => exact .inr ⟨_, _, rfl, rfl, h⟩
    | succ i => simpa using ih i

theorem WRel.set {rel : μ → σ → Prop} {ms : List μ} {ss : List σ} (h : WRel rel ms ss) (i : Nat) {m : μ} {s : σ}
    (hr : rel m s) : WRel rel (ms.set i m) (ss.set i s) := by
  induction h generalizing i with
  | nil => exact .nil
  | cons h t ih =>
    cases i with
    | zero => exact .cons hr t
    | succ i => exact .cons h (ih i)

theorem WRel.snoc {rel : μ → σ → Prop} {ms : List μ} {ss : List σ} (h : WRel rel ms ss) {m : μ} {s : σ} (hr : rel m s) :
    WRel rel (ms ++ [m]) (ss ++ [s]) := by
  induction h with
  | nil => exact .cons hr .nil
  | cons h _ ih => exact .cons h ih

/-- If one object refines its specification and cloning preserves the relation, worlds do. -/
theorem world_runs {step : σ → ω → R (ο × σ)} {spec : μ → ω → ο × μ} {cl : σ → σ} {clM : μ → μ} (rel : μ → σ → Prop)
    (h : ∀ m s op, rel m s → ∃ s', step s op = .ok ((spec m op).1, s') ∧ rel (spec m op).2 s')
    (hc : ∀ m s, rel m s → rel (clM m) (cl s)) {s : σ} {m : μ} (hr : rel m s) :
    RunsLike (World.step step cl) (WorldSpec.step spec clM) [s] [m] (WRel rel) := by
  refine runsLike_of (WRel rel) ?_ (.cons hr .nil)
  intro ms ss op hw
  cases op with
  | on i op =>
    rcases hw.get i with ⟨h1, h2⟩ | ⟨m, s, h1, h2, h3⟩
    · exact ⟨ss, by simp [World.step, WorldSpec.step, h1, h2], by simpa [WorldSpec.step, h1] using hw⟩
    · obtain ⟨s', e1, e2⟩ := h m s op h3
      exact ⟨ss.set i s', by simp [World.step, WorldSpec.step, h1, h2, e1], by
        simpa [WorldSpec.step, h1] using hw.set i e2⟩
  | clone i =>
    rcases hw.get i with ⟨h1, h2⟩ | ⟨m, s, h1, h2, h3⟩
    · exact ⟨ss, by simp [World.step, WorldSpec.step, h1, h2], by simpa [WorldSpec.step, h1] using hw⟩
    · exact ⟨ss ++ [cl s], by simp [World.step, WorldSpec.step, h1, h2], by
        simpa [WorldSpec.step, h1] using hw.snoc (hc m s h3)⟩

/-- Worlds of iterators. -/
theorem world_iters {ι : Type} {it : DEIter σ ι} {cl : σ → σ} {clM : List ι → List ι} (view : List ι → σ → Prop)
    (hb : ∀ s l, view l s → BehavesLike it s l view) (hc : ∀ l s, view l s → view (clM l) (cl s)) {s : σ} {l : List ι}
    (h : view l s) : RunsLike (World.step it.step cl) (WorldSpec.step Deque.step clM) [s] [l] := by
  intro ops
  obtain ⟨s', h1, _⟩ := world_runs (step := it.step) (spec := Deque.step) view (fun l s d h => by
    obtain ⟨s', h1, h2⟩ := hb s l h [d]
    rw [DEIter.run] at h1
    cases e : it.step s d with
    | error f => simp [e] at h1
    | ok p =>
      obtain ⟨o, t⟩ := p
      simp only [e, ok_bind, DEIter.run, Deque.run, Except.ok.injEq, Prod.mk.injEq, List.cons.injEq, and_true] at h1
      obtain ⟨rfl, rfl⟩ := h1
      exact ⟨t, rfl, h2⟩) hc h ops
  exact ⟨s', h1, trivial⟩

/-- Worlds of sets. -/
theorem world_sets {τ : Type} [DecidableEq τ] {api : SetApi σ τ} {cl : σ → σ} (view : (τ → Bool) → σ → Prop)
    (hb : ∀ s m, view m s → SetBehavesLike api s m view) (hc : ∀ m s, view m s → view m (cl s)) {s : σ} {m : τ → Bool}
    (h : view m s) : RunsLike (World.step api.step cl) (WorldSpec.step SetSpec.step id) [s] [m] := by
  intro ops
  obtain ⟨s', h1, _⟩ := world_runs (step := api.step) (spec := SetSpec.step) (clM := id) view (fun m s op h => by
    obtain ⟨s', h1, h2⟩ := hb s m h [op]
    cases op with
    | insert x =>
      rw [SetApi.run] at h1
      simp only [SetApi.step, SetSpec.step]
      cases e : api.insert s x with
      | error f => simp [e] at h1
      | ok p =>
        obtain ⟨o, t⟩ := p
        simp only [e, ok_bind, SetApi.run, SetSpec.run, Except.ok.injEq, Prod.mk.injEq, List.cons.injEq, and_true] at h1
        obtain ⟨rfl, rfl⟩ := h1
        exact ⟨t, rfl, h2⟩
    | contains x =>
      rw [SetApi.run] at h1
      simp only [SetApi.step, SetSpec.step]
      cases e : api.contains s x with
      | error f => simp [e] at h1
      | ok p =>
        simp only [e, ok_bind, SetApi.run, SetSpec.run, Except.ok.injEq, Prod.mk.injEq, List.cons.injEq, and_true] at h1
        obtain ⟨rfl, rfl⟩ := h1
        exact ⟨s, rfl, h2⟩) hc h ops
  exact ⟨s', h1, trivial⟩

/-! ## Clones of maps and iterators hold the cloned contents -/

variable {K V : Type} {c : Cfg} {I : OrdinalImpl K} {n : Nat}

theorem store_map {W : Type} (f : V → W) (m : K → V) : (store I n m).map f = store I n fun k => f (m k) := by
  simp [store, Function.comp_def]

theorem Stored.clone {b : Bool} {m : K → Option V} {mem : List (Option V)} (cl : V → V) (h : Stored I n b m mem) :
    Stored I n b (fun k => (m k).map cl) (mem.map (Option.map cl)) := by
  rcases h with ⟨rfl, rfl⟩ | ⟨rfl, rfl, rfl⟩
  · exact .inl ⟨rfl, store_map _ m⟩
  · exact .inr ⟨rfl, rfl, rfl⟩

theorem LView.clone {ps : List (K × V)} {s : Enumerate (List V)} (cl : V → V) (h : LView I n ps s) :
    LView I n (ps.map fun p => (p.1, cl p.2)) (Enumerate.clone (List.map cl) s) := by
  obtain ⟨h1, h2, h3⟩ := h
  refine ⟨?_, by simpa [Enumerate.clone] using h2, ?_⟩
  · simp [Enumerate.clone, h1, Function.comp_def]
  · simpa [Enumerate.clone, Function.comp_def] using h3

theorem SView.clone {l : List (K × V)} {s : Enumerate (List (Option V))} (cl : V → V) (h : SView I n l s) :
    SView I n (l.map fun p => (p.1, cl p.2)) (Enumerate.clone (List.map (Option.map cl)) s) := by
  obtain ⟨ps, h1, rfl⟩ := h
  refine ⟨_, h1.clone (Option.map cl), ?_⟩
  simp only [List.map_filterMap, List.filterMap_map]
  congr 1
  funext p
  obtain ⟨k, o⟩ := p
  cases o <;> rfl

end OrdinalMap
