import Verif.SpecEffect
import Verif.Lemmas.SoundMap
/-! # Program logic for code with state -/

namespace OrdinalMap

variable {σ s α β ι K V W E ω ο A B : Type}

/-- The run is sound; `P` holds of its value and state if it returns, `Q` of the state if it panics. -/
def MHolds (x : M σ α) (st : σ) (P : α → σ → Prop) (Q : σ → Prop) : Prop :=
  match x st with
  | (.ok a, st') => P a st'
  | (.error .panic, st') => Q st'
  | (.error .compileError, st') => Q st'
  | (.error .diverge, _) => False
  | (.error .ub, _) => False

theorem MHolds.sound {x : M σ α} {st : σ} {P : α → σ → Prop} {Q : σ → Prop} (h : MHolds x st P Q) :
    Sound (x st).1 := by
  unfold MHolds at h
  unfold Sound
  rcases hx : x st with ⟨(_ | _ | _ | _) | _, _⟩ <;> simp_all

theorem mholds_of_sound {x : M σ α} {st : σ} {P : α → σ → Prop} {Q : σ → Prop} (h : Sound (x st).1)
    (hP : ∀ a, P a (x st).2) (hQ : Q (x st).2) : MHolds x st P Q := by
  unfold MHolds
  unfold Sound at h
  rcases hx : x st with ⟨(_ | _ | _ | _) | _, _⟩ <;> simp_all

theorem MHolds.mono {x : M σ α} {st : σ} {P P' : α → σ → Prop} {Q Q' : σ → Prop} (h : MHolds x st P Q)
    (hP : ∀ a st', P a st' → P' a st') (hQ : ∀ st', Q st' → Q' st') : MHolds x st P' Q' := by
  unfold MHolds at *
  rcases hx : x st with ⟨(_ | _ | _ | _) | _, _⟩ <;> simp_all

theorem MHolds.bind {x : M σ α} {f : α → M σ β} {st : σ} {P : α → σ → Prop} {P' : β → σ → Prop} {Q : σ → Prop}
    (h : MHolds x st P Q) (hf : ∀ a st', P a st' → MHolds (f a) st' P' Q) : MHolds (x >>= f) st P' Q := by
  change MHolds (M.bind x f) st P' Q
  unfold MHolds M.bind at *
  rcases hx : x st with ⟨(_ | _ | _ | _) | _, _⟩
  all_goals simp only [hx] at h ⊢
  · exact h
  · exact h
  · exact hf _ _ h

theorem mholds_of {x : R α} {st : σ} {P : α → σ → Prop} {Q : σ → Prop} (h : Holds x fun a => P a st) (hQ : Q st) :
    MHolds (.of x) st P Q := by
  unfold MHolds M.of
  rcases x with (_ | _ | _ | _) | _ <;> simp_all [Holds]

theorem mholds_ok {a : α} {st : σ} {P : α → σ → Prop} {Q : σ → Prop} (h : P a st) :
    MHolds (.of (.ok a)) st P Q := h

/-- Pure code first. -/
theorem Holds.mbind {x : R α} {f : α → M σ β} {st : σ} {P : α → Prop} {P' : β → σ → Prop} {Q : σ → Prop}
    (h : Holds x P) (hQ : Q st) (hf : ∀ a, P a → MHolds (f a) st P' Q) : MHolds (.of x >>= f) st P' Q := by
  rcases x with (_ | _ | _ | _) | a
  · exact hQ
  · exact hQ
  · exact h.elim
  · exact h.elim
  · exact hf a h

theorem Sound.mbind {x : R α} {f : α → M σ β} {st : σ} {P' : β → σ → Prop} {Q : σ → Prop}
    (h : Sound x) (hQ : Q st) (hf : ∀ a, MHolds (f a) st P' Q) : MHolds (.of x >>= f) st P' Q :=
  h.holds.mbind hQ fun a _ => hf a

/-- `T st l`: in the state `st` the calls so far are (possibly) `l`. -/
structure Traced (c : Cfg) (J : SImpl σ K) (T : σ → List (Call K) → Prop) : Prop where
  size : Sound J.size
  size_lt : ∀ n, J.size = .ok n → n < c.M
  ordinal : ∀ k st l, T st l → Sound (J.ordinal k st).1 ∧ T (J.ordinal k st).2 (l ++ [.ordinal k])
  fromOrdinal : ∀ i st l, T st l → Sound (J.fromOrdinal i st).1 ∧ T (J.fromOrdinal i st).2 (l ++ [.from i])

/-- Forgetting the calls. -/
theorem SoundSImpl.traced {c : Cfg} {J : SImpl σ K} (h : SoundSImpl c J) : Traced c J fun _ _ => True :=
  ⟨h.size, h.size_lt, fun _ _ _ _ => ⟨h.ordinal _ _, trivial⟩, fun _ _ _ _ => ⟨h.fromOrdinal _ _, trivial⟩⟩

/-- Recording the calls. -/
theorem SoundSImpl.logged {c : Cfg} {J : SImpl σ K} (h : SoundSImpl c J) (l₀ : List (Call K)) :
    Traced c J.logged fun st l => st.2 = l₀ ++ l := by
  refine ⟨h.size, h.size_lt, fun k st l e => ⟨h.ordinal _ _, ?_⟩, fun i st l e => ⟨h.fromOrdinal _ _, ?_⟩⟩ <;>
    simp [SImpl.logged, e]

variable {c : Cfg} {J : SImpl σ K} {T : σ → List (Call K) → Prop}

theorem Traced.mfrom (hJ : Traced c J T) {st : σ} {l : List (Call K)} (h : T st l) (i : Nat) :
    MHolds (J.fromOrdinal i) st (fun _ st' => T st' (l ++ [.from i])) fun st' => T st' (l ++ [.from i]) :=
  mholds_of_sound (hJ.fromOrdinal i st l h).1 (fun _ => (hJ.fromOrdinal i st l h).2) (hJ.fromOrdinal i st l h).2

theorem Traced.mordinal (hJ : Traced c J T) {st : σ} {l : List (Call K)} (h : T st l) (k : K) :
    MHolds (J.ordinal k) st (fun _ st' => T st' (l ++ [.ordinal k])) fun st' => T st' (l ++ [.ordinal k]) :=
  mholds_of_sound (hJ.ordinal k st l h).1 (fun _ => (hJ.ordinal k st l h).2) (hJ.ordinal k st l h).2

/-! ## Steps of iterators -/

/-- A step keeps an invariant, never increases a measure, decreases it when it yields, and yields only good
items; `Q` holds if it panics. -/
def MSteps (Inv : s → σ → Prop) (Q : σ → Prop) (mu : s → Nat) (item : A → s → Prop)
    (step : s → M σ (Option A × s)) : Prop :=
  ∀ x st, Inv x st → MHolds (step x) st (fun p st' => Inv p.2 st' ∧ mu p.2 ≤ mu x ∧
    ∀ a, p.1 = some a → mu p.2 < mu x ∧ item a p.2) Q

theorem msteps_skipLoop {step : s → M σ (Option A × s)} {body : A → s → R (Option B × s)} {Inv : s → σ → Prop}
    {Q : σ → Prop} {mu : s → Nat} {item : A → s → Prop} {post : B → s → Prop} (hs : MSteps Inv Q mu item step)
    (hQ : ∀ x st, Inv x st → Q st)
    (hb : ∀ a x st, Inv x st → item a x →
      Holds (body a x) fun p => Inv p.2 st ∧ mu p.2 ≤ mu x ∧ ∀ b, p.1 = some b → post b p.2) :
    MSteps Inv Q mu post fun x => Eff.skipLoop step body (mu x + 1) x := by
  have key : ∀ fuel x st, mu x < fuel → Inv x st → MHolds (Eff.skipLoop step body fuel x) st (fun p st' =>
      Inv p.2 st' ∧ mu p.2 ≤ mu x ∧ ∀ b, p.1 = some b → mu p.2 < mu x ∧ post b p.2) Q := by
    intro fuel
    induction fuel with
    | zero => intro x st h; omega
    | succ fuel ih =>
      intro x st hf hi
      unfold Eff.skipLoop
      refine (hs x st hi).bind ?_
      rintro ⟨o, x1⟩ st1 ⟨h1, h2, h3⟩
      cases o with
      | none => exact mholds_ok ⟨h1, h2, fun b hb => by cases hb⟩
      | some a =>
        obtain ⟨h4, h5⟩ := h3 a rfl
        refine (hb a x1 st1 h1 h5).mbind (hQ _ _ h1) ?_
        rintro ⟨o, x2⟩ ⟨g1, g2, g3⟩
        simp only at h2 h4 g2
        cases o with
        | some b => exact mholds_ok ⟨g1, by simp only; omega, fun b' hb' => ⟨by simp only; omega, g3 b' hb'⟩⟩
        | none =>
          refine (ih x2 st1 (by omega) g1).mono ?_ fun _ h => h
          rintro ⟨o, x3⟩ st3 ⟨k1, k2, k3⟩
          simp only at k2
          refine ⟨k1, by simp only; omega, fun b hb => ?_⟩
          obtain ⟨k4, k5⟩ := k3 b hb
          exact ⟨by simp only at k4 ⊢; omega, k5⟩
  intro x st hi
  exact key _ x st (by omega) hi

theorem MSteps.mapItem {step : s → M σ (Option A × s)} {Inv : s → σ → Prop} {Q : σ → Prop} {mu : s → Nat}
    {item : A → s → Prop} {post : B → s → Prop} (hs : MSteps Inv Q mu item step) (f : A → B)
    (hf : ∀ a x, item a x → post (f a) x) : MSteps Inv Q mu post (Eff.mapItem f step) := by
  intro x st hi
  refine (hs x st hi).bind ?_
  rintro ⟨o, x1⟩ st1 ⟨h1, h2, h3⟩
  refine mholds_ok ⟨h1, h2, fun b hb => ?_⟩
  cases o with
  | none => simp at hb
  | some a =>
    simp only [Option.map_some, Option.some.injEq] at hb
    subst hb
    exact ⟨(h3 a rfl).1, hf _ _ (h3 a rfl).2⟩

theorem mholds_run {next nextBack : s → M σ (Option A × s)} {Inv : s → σ → Prop} {Q : σ → Prop} {mu : s → Nat}
    {item : A → s → Prop} (h1 : MSteps Inv Q mu item next) (h2 : MSteps Inv Q mu item nextBack) (ds : List Dir)
    {x : s} {st : σ} (hi : Inv x st) :
    MHolds (Eff.run next nextBack x ds) st (fun p st' => Inv p.2 st') Q := by
  induction ds generalizing x st with
  | nil => exact hi
  | cons d ds ih =>
    unfold Eff.run
    cases d
    · refine ((h1 x st hi).mono (P' := fun p st' => Inv p.2 st') (fun _ _ h => h.1) fun _ h => h).bind ?_
      rintro ⟨o, x1⟩ st1 h
      refine (ih h).bind ?_
      rintro ⟨os, x2⟩ st2 h'
      exact mholds_ok h'
    · refine ((h2 x st hi).mono (P' := fun p st' => Inv p.2 st') (fun _ _ h => h.1) fun _ h => h).bind ?_
      rintro ⟨o, x1⟩ st1 h
      refine (ih h).bind ?_
      rintro ⟨os, x2⟩ st2 h'
      exact mholds_ok h'

theorem mholds_runOps {step : s → ω → M σ (ο × s)} {Inv : s → σ → Prop} {Q : σ → Prop}
    (hs : ∀ x st op, Inv x st → MHolds (step x op) st (fun p st' => Inv p.2 st') Q) (ops : List ω) {x : s} {st : σ}
    (hi : Inv x st) : MHolds (Eff.runOps step x ops) st (fun p st' => Inv p.2 st') Q := by
  induction ops generalizing x st with
  | nil => exact hi
  | cons op ops ih =>
    unfold Eff.runOps
    refine (hs x st op hi).bind ?_
    rintro ⟨o, x1⟩ st1 h
    refine (ih h).bind ?_
    rintro ⟨os, x2⟩ st2 h'
    exact mholds_ok h'

/-! ## Walks -/

/-- A walk below `n` that has left out the numbers from `lo` to `hi - 1`. -/
def WalkOut (n lo hi : Nat) (l : List (Call K)) : Prop :=
  ∃ is : List Nat, l = is.map .from ∧ is.Nodup ∧ (∀ i ∈ is, i < n) ∧ ∀ i ∈ is, ¬ (lo ≤ i ∧ i < hi)

theorem WalkOut.walk {n lo hi : Nat} {l : List (Call K)} (h : WalkOut n lo hi l) : Walk n l := by
  obtain ⟨is, h1, h2, h3, -⟩ := h
  exact ⟨is, h1, h2, h3⟩

theorem walkOut_nil (n lo hi : Nat) : WalkOut n lo hi ([] : List (Call K)) := ⟨[], rfl, by simp, by simp, by simp⟩

theorem walk_nil (n : Nat) : Walk n ([] : List (Call K)) := (walkOut_nil n 0 0).walk

theorem WalkOut.add {n lo hi i lo' hi' : Nat} {l : List (Call K)} (h : WalkOut n lo hi l) (hi1 : i < n)
    (hi2 : lo ≤ i ∧ i < hi) (hlo : lo ≤ lo') (hhi : hi' ≤ hi) (hne : ¬ (lo' ≤ i ∧ i < hi')) :
    WalkOut n lo' hi' (l ++ [.from i]) := by
  obtain ⟨is, h1, h2, h3, h4⟩ := h
  refine ⟨is ++ [i], by simp [h1], ?_, ?_, ?_⟩
  · refine List.nodup_append.2 ⟨h2, by simp, ?_⟩
    intro a ha b hb e
    simp only [List.mem_singleton] at hb
    exact h4 a ha (by rw [e, hb]; exact hi2)
  · intro j hj
    simp only [List.mem_append, List.mem_singleton] at hj
    rcases hj with hj | rfl
    · exact h3 j hj
    · exact hi1
  · intro j hj
    simp only [List.mem_append, List.mem_singleton] at hj
    rcases hj with hj | rfl
    · have := h4 j hj; omega
    · exact hne

theorem WalkOut.shrink {n lo hi lo' hi' : Nat} {l : List (Call K)} (h : WalkOut n lo hi l) (hlo : lo ≤ lo')
    (hhi : hi' ≤ hi) : WalkOut n lo' hi' l := by
  obtain ⟨is, h1, h2, h3, h4⟩ := h
  exact ⟨is, h1, h2, h3, fun i hi => by have := h4 i hi; omega⟩

/-! ## Enumerators -/

/-- A standard iterator: `next` and `next_back` yield good items and count down. -/
structure StdOk (S : StdIter s ι) (I : s → Prop) (G : ι → Prop) : Prop where
  next : ∀ x, I x → I (S.next x).2 ∧ (match (S.next x).1 with
    | none => S.len (S.next x).2 = S.len x
    | some v => S.len (S.next x).2 + 1 = S.len x ∧ G v)
  back : ∀ x, I x → I (S.nextBack x).2 ∧ (match (S.nextBack x).1 with
    | none => S.len (S.nextBack x).2 = S.len x
    | some v => S.len (S.nextBack x).2 + 1 = S.len x ∧ G v)

theorem stdOk_list (V : Type) : StdOk (listIter V) (fun _ => True) fun _ => True := by
  constructor
  · rintro (_ | ⟨v, l⟩) - <;> simp [listIter]
  · intro l _
    refine ⟨trivial, ?_⟩
    simp only [listIter]
    cases h : l.getLast? with
    | none => simp only [List.getLast?_eq_none_iff] at h; simp [h]
    | some v =>
      have : l ≠ [] := by rintro rfl; simp at h
      have := List.length_pos_iff.2 this
      simp; omega

theorem stdOk_slot (n : Nat) : StdOk slotIter (fun r => r.stop ≤ n) (· < n) := by
  constructor
  · rintro ⟨lo, hi⟩ h
    simp only [slotIter, Range.next, Range.len] at h ⊢
    by_cases h1 : lo < hi
    · simp only [h1, if_true]; refine ⟨h, ?_, by omega⟩; split <;> omega
    · simp [h1, h]
  · rintro ⟨lo, hi⟩ h
    simp only [slotIter, Range.nextBack, Range.len] at h ⊢
    by_cases h1 : lo < hi
    · simp only [h1, if_true]; refine ⟨by omega, ?_, by omega⟩; split <;> omega
    · simp [h1, h]

/-- The calls so far are a walk. -/
def Walked (T : σ → List (Call K) → Prop) (n : Nat) (st : σ) : Prop := ∃ l, T st l ∧ Walk n l

/-- The calls so far leave out what the enumerator has left. -/
def EnumInv (T : σ → List (Call K) → Prop) (S : StdIter s ι) (I : s → Prop) (n : Nat) (e : Enumerate s)
    (st : σ) : Prop :=
  I e.iter ∧ e.next + S.len e.iter ≤ n ∧ ∃ l, T st l ∧ WalkOut n e.next (e.next + S.len e.iter) l

theorem EnumInv.walked {S : StdIter s ι} {I : s → Prop} {n : Nat} {e : Enumerate s} {st : σ}
    (h : EnumInv T S I n e st) : Walked T n st := by
  obtain ⟨-, -, l, h1, h2⟩ := h
  exact ⟨l, h1, h2.walk⟩

theorem msteps_enumNext (hJ : Traced c J T) {S : StdIter s ι} {I : s → Prop} {G : ι → Prop} (hS : StdOk S I G)
    {n : Nat} (hn : n < c.M) : MSteps (EnumInv T S I n) (Walked T n) (fun e => S.len e.iter) (fun p _ => G p.2)
      (Eff.enumNext c J S) := by
  rintro ⟨m, x⟩ st ⟨hI, hle, l, hT, hw⟩
  have hx := hS.next x hI
  unfold Eff.enumNext
  dsimp only at hI hle hw ⊢
  rcases hnx : S.next x with ⟨_ | v, y⟩
  · simp only [hnx] at hx
    refine mholds_ok ⟨⟨hx.1, by simp only; omega, l, hT, hw.shrink (Nat.le_refl _) (by simp only; omega)⟩, by simp only; omega, ?_⟩
    intro a ha; cases ha
  · simp only [hnx] at hx
    obtain ⟨hI', hlen, hG⟩ := hx
    have hw' : WalkOut n (m + 1) (m + 1 + S.len y) (l ++ [.from m]) :=
      hw.add (by omega) (by omega) (by omega) (by omega) (by omega)
    refine ((hJ.mfrom hT m).mono (fun _ _ h => h) fun st' h => ⟨_, h, hw'.walk⟩).bind ?_
    intro o st1 hT1
    refine (sound_unwrap o).mbind ⟨_, hT1, hw'.walk⟩ fun k => ?_
    rw [addU_ok (by omega)]
    refine mholds_ok ⟨⟨hI', by simp only; omega, _, hT1, hw'⟩, by simp only; omega, ?_⟩
    rintro a ha
    simp only [Option.some.injEq] at ha
    subst ha
    exact ⟨by simp only; omega, hG⟩

theorem msteps_enumNextBack (hJ : Traced c J T) {S : StdIter s ι} {I : s → Prop} {G : ι → Prop} (hS : StdOk S I G)
    {n : Nat} (hn : n < c.M) : MSteps (EnumInv T S I n) (Walked T n) (fun e => S.len e.iter) (fun p _ => G p.2)
      (Eff.enumNextBack c J S) := by
  rintro ⟨m, x⟩ st ⟨hI, hle, l, hT, hw⟩
  have hx := hS.back x hI
  unfold Eff.enumNextBack
  dsimp only at hI hle hw ⊢
  rcases hnx : S.nextBack x with ⟨_ | v, y⟩
  · simp only [hnx] at hx
    refine mholds_ok ⟨⟨hx.1, by simp only; omega, l, hT, hw.shrink (Nat.le_refl _) (by simp only; omega)⟩, by simp only; omega, ?_⟩
    intro a ha; cases ha
  · simp only [hnx] at hx
    obtain ⟨hI', hlen, hG⟩ := hx
    have hw' : WalkOut n m (m + S.len y) (l ++ [.from (m + S.len y)]) :=
      hw.add (by omega) (by omega) (by omega) (by omega) (by omega)
    dsimp only
    rw [addU_ok (by omega)]
    refine ((hJ.mfrom hT (m + S.len y)).mono (fun _ _ h => h) fun st' h => ⟨_, h, hw'.walk⟩).bind ?_
    intro o st1 hT1
    refine (sound_unwrap o).mbind ⟨_, hT1, hw'.walk⟩ fun k => ?_
    refine mholds_ok ⟨⟨hI', by simp only; omega, _, hT1, hw'⟩, by simp only; omega, ?_⟩
    rintro a ha
    simp only [Option.some.injEq] at ha
    subst ha
    exact ⟨by simp only; omega, hG⟩

end OrdinalMap
