import Verif.Lemmas.EffectUp
/-! # Soundness and calls of the sets, `from_iter` and arrays over an implementation with state -/

namespace OrdinalMap
open ArrayBuilder

variable {σ s α β ι K V W E ω ο A B : Type}
variable {c : Cfg} {J : SImpl σ K} {T : σ → List (Call K) → Prop}

/-- Looking at the calls after `l`. -/
theorem Traced.shift (hJ : Traced c J T) (l : List (Call K)) : Traced c J fun st l' => T st (l ++ l') :=
  ⟨hJ.size, hJ.size_lt, fun k st l' h => by simpa using hJ.ordinal k st _ h,
    fun i st l' h => by simpa using hJ.fromOrdinal i st _ h⟩

/-- The calls are the first of `cs`. -/
def Pre (T : σ → List (Call K) → Prop) (cs : List (Call K)) (st : σ) : Prop := ∃ cs', cs' <+: cs ∧ T st cs'

theorem pre_nil {cs : List (Call K)} {st : σ} (h : T st []) : Pre T cs st := ⟨[], List.nil_prefix, h⟩

theorem Pre.cons {cl : Call K} {cs : List (Call K)} {st : σ} (h : Pre (fun st l => T st (cl :: l)) cs st) :
    Pre T (cl :: cs) st := by
  obtain ⟨cs', h1, h2⟩ := h
  exact ⟨cl :: cs', by simpa using h1, h2⟩

theorem AtMost.pre {k : K} {cs : List (Call K)} {st : σ} (h : AtMost T k st) : Pre T (.ordinal k :: cs) st := by
  rcases h with h | h
  · exact pre_nil h
  · exact ⟨[.ordinal k], by simp, h⟩

/-! ## `from_iter` of the maps -/

theorem mholds_omapExtend (hJ : Traced c J T) (sz : Nat) (ps : List (K × V)) (m : OMap V) (hm : m.length < c.M)
    {st : σ} (h : T st []) :
    MHolds (Eff.omapExtend c J sz m ps) st (fun m' st' => m'.length < c.M ∧ T st' (ps.map fun p => .ordinal p.1))
      (Pre T (ps.map fun p => .ordinal p.1)) := by
  induction ps generalizing T m st with
  | nil => exact mholds_ok ⟨hm, h⟩
  | cons p ps ih =>
    obtain ⟨k, v⟩ := p
    unfold Eff.omapExtend
    refine ((mholds_omapInsert hJ sz m hm k v h).mono (fun _ _ h => h) fun _ h => h.pre).bind ?_
    rintro ⟨old, m'⟩ st1 ⟨h1, h2⟩
    exact (ih (hJ.shift [.ordinal k]) m' h1 h2).mono (fun _ _ h => h) fun _ h => h.cons

theorem mholds_amapExtend (hJ : Traced c J T) (ps : List (K × V)) (m : OrdinalArrayMap V) {st : σ} (h : T st []) :
    MHolds (Eff.amapExtend J m ps) st
      (fun m' st' => List.length m' = List.length m ∧ T st' (ps.map fun p => .ordinal p.1))
      (Pre T (ps.map fun p => .ordinal p.1)) := by
  induction ps generalizing T m st with
  | nil => exact mholds_ok ⟨rfl, h⟩
  | cons p ps ih =>
    obtain ⟨k, v⟩ := p
    unfold Eff.amapExtend
    refine ((mholds_amapInsert hJ m k v h).mono (fun _ _ h => h) fun _ h => h.pre).bind ?_
    rintro ⟨old, m'⟩ st1 ⟨h1, h2⟩
    exact (ih (hJ.shift [.ordinal k]) m' h2).mono (fun _ _ h => ⟨h.1.trans h1, h.2⟩) fun _ h => h.cons

/-! ## Sets -/

/-- Between `lo` and `hi` calls of `ordinal` on `x`. -/
def Reps (T : σ → List (Call K) → Prop) (x : K) (lo hi : Nat) (st : σ) : Prop :=
  ∃ j, lo ≤ j ∧ j ≤ hi ∧ T st (List.replicate j (.ordinal x))

theorem Traced.mrep (hJ : Traced c J T) {x : K} {lo hi n : Nat} (hn : hi < n) {st : σ} (h : Reps T x lo hi st) :
    MHolds (J.ordinal x) st (fun _ st' => Reps T x (lo + 1) (hi + 1) st') (Reps T x 0 n) := by
  obtain ⟨j, h1, h2, h3⟩ := h
  refine (hJ.mordinal h3 x).mono (fun _ st' h => ⟨j + 1, by omega, by omega, ?_⟩)
    fun st' h => ⟨j + 1, by omega, by omega, ?_⟩ <;> (rw [List.replicate_succ']; exact h)

theorem Reps.weaken {x : K} {lo hi lo' hi' : Nat} {st : σ} (h : Reps T x lo hi st) (h1 : lo' ≤ lo) (h2 : hi ≤ hi') :
    Reps T x lo' hi' st := by
  obtain ⟨j, h3, h4, h5⟩ := h
  exact ⟨j, by omega, by omega, h5⟩

theorem reps_nil {x : K} {st : σ} (h : T st []) : Reps T x 0 0 st := ⟨0, by omega, by omega, h⟩

theorem mholds_refContains (hJ : Traced c J T) (ws : SetRef) (x : K) {n : Nat} (hn : 2 ≤ n) {st : σ} (h : T st []) :
    MHolds (Eff.refContains c J ws x) st (fun _ st' => Reps T x 1 2 st') (Reps T x 0 n) := by
  unfold Eff.refContains
  refine (hJ.mrep (hi := 0) (by omega) (reps_nil h)).bind fun i st1 h1 => ?_
  split
  · exact mholds_ok (h1.weaken (by omega) (by omega))
  · refine (hJ.mrep (by omega) h1).bind fun j st2 h2 => ?_
    refine mholds_of ?_ (h2.weaken (by omega) (by omega))
    exact Sound.bind (sound_shl64 _ _ _) fun _ => h2.weaken (by omega) (by omega)

theorem sound_refNew (hJ : Traced c J T) (ws : List (BitVec 64)) : Sound (Eff.refNew c J ws) := by
  have := hJ.size
  unfold Eff.refNew; sound

theorem sound_mutNew (hJ : Traced c J T) (ws : List (BitVec 64)) : Sound (Eff.mutNew c J ws) := by
  have := hJ.size
  unfold Eff.mutNew; sound

theorem mholds_setInsert (hJ : Traced c J T) (ws : List (BitVec 64)) (x : K) {st : σ} (h : T st []) :
    MHolds (Eff.setInsert c J ws x) st (fun _ st' => Reps T x 3 4 st') (Reps T x 0 4) := by
  unfold Eff.setInsert
  refine (sound_refNew hJ ws).mbind ((reps_nil h).weaken (by omega) (by omega)) fun r => ?_
  refine (mholds_refContains hJ r x (by omega) h).bind fun b st1 h1 => ?_
  refine (hJ.mrep (by omega) h1).bind fun j st2 h2 => ?_
  refine (sound_shl64 _ _ _).mbind (h2.weaken (by omega) (by omega)) fun mask => ?_
  refine (hJ.mrep (by omega) h2).bind fun i st3 h3 => ?_
  refine mholds_of ?_ (h3.weaken (by omega) (by omega))
  exact Sound.bind (sound_getIdx _ _) fun _ => Sound.bind (sound_setIdx _ _ _) fun _ => h3

theorem mholds_osetContains (hJ : Traced c J T) (t : OrdinalSet) (x : K) {st : σ} (h : T st []) :
    MHolds (Eff.osetContains c J t x) st (fun _ st' => Reps T x 1 2 st') (Reps T x 0 2) := by
  unfold Eff.osetContains
  refine Sound.mbind ?_ ((reps_nil h).weaken (by omega) (by omega)) fun ws => mholds_refContains hJ ws x (by omega) h
  have h1 := hJ.size
  have h2 := sound_refNew hJ
  sound

theorem sound_osetAlloc (hJ : Traced c J T) (ws : List (BitVec 64)) : Sound (Eff.osetAlloc c J ws) := by
  have := hJ.size
  unfold Eff.osetAlloc; sound

theorem mholds_osetInsert (hJ : Traced c J T) (t : OrdinalSet) (x : K) {st : σ} (h : T st []) :
    MHolds (Eff.osetInsert c J t x) st (fun _ st' => Reps T x 3 4 st') (Reps T x 0 4) := by
  have h0 : Reps T x 0 4 st := (reps_nil h).weaken (by omega) (by omega)
  unfold Eff.osetInsert
  refine hJ.size.mbind h0 fun n => ?_
  split
  · refine (sound_mutNew hJ _).mbind h0 fun ws => ?_
    refine (mholds_setInsert hJ ws x h).bind ?_
    rintro ⟨b, ws'⟩ st1 h1
    exact mholds_of (Sound.bind (sound_getIdx _ _) fun _ => h1) (h1.weaken (by omega) (by omega))
  · refine (Sound.bind (sound_osetAlloc hJ _) fun _ => (sound_mutNew hJ _).holds).mbind h0 fun ws _ => ?_
    refine (mholds_setInsert hJ ws x h).bind ?_
    rintro ⟨b, ws'⟩ st1 h1
    exact mholds_ok h1
  · exact h0

theorem mholds_asetContains (hJ : Traced c J T) (S : Nat) (ws : OrdinalArraySet) (x : K) {st : σ} (h : T st []) :
    MHolds (Eff.asetContains c J S ws x) st (fun _ st' => Reps T x 1 2 st') (Reps T x 0 2) := by
  unfold Eff.asetContains
  refine Sound.mbind ?_ ((reps_nil h).weaken (by omega) (by omega)) fun ws => mholds_refContains hJ ws x (by omega) h
  have h1 := hJ.size
  have h2 := sound_refNew hJ
  sound

theorem mholds_asetInsert (hJ : Traced c J T) (S : Nat) (ws : OrdinalArraySet) (x : K) {st : σ} (h : T st []) :
    MHolds (Eff.asetInsert c J S ws x) st (fun _ st' => Reps T x 3 4 st') (Reps T x 0 4) := by
  unfold Eff.asetInsert
  refine Sound.mbind ?_ ((reps_nil h).weaken (by omega) (by omega)) fun ws => mholds_setInsert hJ ws x h
  have h1 := hJ.size
  have h2 := sound_mutNew hJ
  sound

theorem sound_assert64J (hJ : Traced c J T) : Sound (J.size >>= fun n => constAssert (decide (n ≤ 64))) :=
  (Sound.bind hJ.size fun _ => (sound_constAssert _).holds).sound

theorem mholds_set64Contains (hJ : Traced c J T) (w : OrdinalSet64) (x : K) {n : Nat} (hn : 1 ≤ n) {st : σ}
    (h : T st []) : MHolds (Eff.set64Contains c J w x) st (fun _ st' => Reps T x 1 1 st') (Reps T x 0 n) := by
  unfold Eff.set64Contains
  refine (sound_assert64J hJ).mbind ((reps_nil h).weaken (by omega) (by omega)) fun _ => ?_
  refine (hJ.mrep (hi := 0) (by omega) (reps_nil h)).bind fun i st1 h1 => ?_
  exact mholds_of (Sound.bind (sound_shl64 _ _ _) fun _ => h1) (h1.weaken (by omega) (by omega))

theorem mholds_set64Insert (hJ : Traced c J T) (w : OrdinalSet64) (x : K) {st : σ} (h : T st []) :
    MHolds (Eff.set64Insert c J w x) st (fun _ st' => Reps T x 2 2 st') (Reps T x 0 2) := by
  unfold Eff.set64Insert
  refine (sound_assert64J hJ).mbind ((reps_nil h).weaken (by omega) (by omega)) fun _ => ?_
  refine (mholds_set64Contains hJ w x (by omega) h).bind fun b st1 h1 => ?_
  refine (hJ.mrep (by omega) h1).bind fun i st2 h2 => ?_
  exact mholds_of (Sound.bind (sound_shl64 _ _ _) fun _ => h2) (h2.weaken (by omega) (by omega))

theorem mholds_set64Extend (hJ : Traced c J T) (xs : List K) (w : OrdinalSet64) {st : σ} (h : T st []) :
    MHolds (Eff.set64Extend c J w xs) st (fun _ st' => T st' (xs.map .ordinal)) (Pre T (xs.map .ordinal)) := by
  induction xs generalizing T w st with
  | nil => exact mholds_ok h
  | cons x xs ih =>
    unfold Eff.set64Extend
    refine ((hJ.mordinal1 h x).mono (fun _ _ h => h) fun _ h => h.pre).bind fun i st1 h1 => ?_
    refine (sound_shl64 _ _ _).mbind (AtMost.pre (.inr h1)) fun mask => ?_
    exact (ih (hJ.shift [.ordinal x]) _ h1).mono (fun _ _ h => h) fun _ h => h.cons

/-! ## Iterating sets -/

/-- A walk of a set that has left out the numbers from `lo` to `hi - 1`. -/
def SetWalkOut (n lo hi : Nat) (l : List (Call K)) : Prop :=
  SetWalk n l ∧ ∀ i ∈ l.filterMap Call.index?, ¬ (lo ≤ i ∧ i < hi)

theorem setWalkOut_nil (n lo hi : Nat) : SetWalkOut n lo hi ([] : List (Call K)) := by
  refine ⟨⟨?_, ?_, ?_⟩, ?_⟩ <;> simp

theorem SetWalkOut.shrink {n lo hi lo' hi' : Nat} {l : List (Call K)} (h : SetWalkOut n lo hi l) (hlo : lo ≤ lo')
    (hhi : hi' ≤ hi) : SetWalkOut n lo' hi' l := ⟨h.1, fun i hi => by have := h.2 i hi; omega⟩

/-- One value: its `from_ordinal` and at most two `ordinal`s. -/
theorem SetWalkOut.add {n lo hi i lo' hi' : Nat} {rs l : List (Call K)} (h : SetWalkOut n lo hi l) (hi1 : i < n)
    (hi2 : lo ≤ i ∧ i < hi) (hlo : lo ≤ lo') (hhi : hi' ≤ hi) (hne : ¬ (lo' ≤ i ∧ i < hi'))
    (hrs : rs.filterMap Call.index? = []) (hj : rs.length ≤ 2) :
    SetWalkOut n lo' hi' (l ++ .from i :: rs) := by
  obtain ⟨⟨h1, h2, h3⟩, h4⟩ := h
  have e : (l ++ Call.from i :: rs).filterMap Call.index? = l.filterMap Call.index? ++ [i] := by
    rw [List.filterMap_append, List.filterMap_cons, hrs]; rfl
  refine ⟨⟨?_, ?_, ?_⟩, ?_⟩
  · rw [e]
    refine List.nodup_append.2 ⟨h1, by simp, ?_⟩
    intro a ha b hb e
    simp only [List.mem_singleton] at hb
    exact h4 a ha (by rw [e, hb]; exact hi2)
  · rw [e]
    intro j hj
    simp only [List.mem_append, List.mem_singleton] at hj
    rcases hj with hj | rfl
    · exact h2 j hj
    · exact hi1
  · rw [e]
    simp only [List.length_append, List.length_cons, List.length_nil]
    omega
  · rw [e]
    intro j hj
    simp only [List.mem_append, List.mem_singleton] at hj
    rcases hj with hj | rfl
    · have := h4 j hj; omega
    · exact hne

/-- The calls so far are a walk of a set. -/
def SetWalked (T : σ → List (Call K) → Prop) (n : Nat) (st : σ) : Prop := ∃ l, T st l ∧ SetWalk n l

/-- The calls so far leave out what the iterator has left. -/
def SetInv (T : σ → List (Call K) → Prop) (n : Nat) (it : SetIter) (st : σ) : Prop :=
  it.iter.stop ≤ n ∧ ∃ l, T st l ∧ SetWalkOut n it.iter.start it.iter.stop l

theorem replicate_index (x : K) (j : Nat) : (List.replicate j (Call.ordinal x)).filterMap Call.index? = [] := by
  rw [List.filterMap_eq_nil_iff]
  intro a ha
  rw [List.eq_of_mem_replicate ha]
  rfl

/-- A step of the inner iterator. -/
def InnerOk (T : σ → List (Call K) → Prop) (n : Nat)
    (step : OrdinalValues → M σ (Option K × OrdinalValues)) : Prop :=
  ∀ r st l, r.stop ≤ n → T st l → SetWalkOut n r.start r.stop l →
    MHolds (step r) st (fun p st' => p.2.stop ≤ n ∧ OrdinalValues.len p.2 ≤ OrdinalValues.len r ∧ (match p.1 with
      | none => T st' l ∧ SetWalkOut n p.2.start p.2.stop l
      | some _ => OrdinalValues.len p.2 < OrdinalValues.len r ∧ ∃ i, T st' (l ++ [.from i]) ∧
        ∀ rs : List (Call K), rs.filterMap Call.index? = [] → rs.length ≤ 2 →
          SetWalkOut n p.2.start p.2.stop (l ++ .from i :: rs)))
      (SetWalked T n)

theorem innerOk_next (hJ : Traced c J T) (n : Nat) : InnerOk T n (Eff.valuesNext J) := by
  rintro ⟨lo, hi⟩ st l hle hT hw
  unfold Eff.valuesNext Range.next
  dsimp only at hle hw ⊢
  by_cases h1 : lo < hi
  · simp only [h1, if_true]
    have hw' : ∀ rs : List (Call K), rs.filterMap Call.index? = [] → rs.length ≤ 2 →
        SetWalkOut n (lo + 1) hi (l ++ .from lo :: rs) :=
      fun rs h2 h3 => hw.add (by omega) (by omega) (by omega) (by omega) (by omega) h2 h3
    have hq : ∀ st', T st' (l ++ [.from lo]) → SetWalked T n st' := fun st' h => ⟨_, h, (hw' [] rfl (by simp)).1⟩
    refine ((hJ.mfrom hT lo).mono (fun _ _ h => h) hq).bind fun o st1 hT1 => ?_
    refine (sound_unwrap o).mbind (hq _ hT1) fun k => mholds_ok ⟨hle, ?_, ?_, lo, hT1, hw'⟩ <;>
      (simp only [OrdinalValues.len, Range.len, h1, if_true]; split <;> omega)
  · simp only [h1, if_false]
    exact mholds_ok ⟨hle, Nat.le_refl _, hT, hw⟩

theorem innerOk_nextBack (hJ : Traced c J T) (n : Nat) : InnerOk T n (Eff.valuesNextBack J) := by
  rintro ⟨lo, hi⟩ st l hle hT hw
  unfold Eff.valuesNextBack Range.nextBack
  dsimp only at hle hw ⊢
  by_cases h1 : lo < hi
  · simp only [h1, if_true]
    have hw' : ∀ rs : List (Call K), rs.filterMap Call.index? = [] → rs.length ≤ 2 →
        SetWalkOut n lo (hi - 1) (l ++ .from (hi - 1) :: rs) :=
      fun rs h2 h3 => hw.add (by omega) (by omega) (by omega) (by omega) (by omega) h2 h3
    have hq : ∀ st', T st' (l ++ [.from (hi - 1)]) → SetWalked T n st' := fun st' h => ⟨_, h, (hw' [] rfl (by simp)).1⟩
    refine ((hJ.mfrom hT (hi - 1)).mono (fun _ _ h => h) hq).bind fun o st1 hT1 => ?_
    refine (sound_unwrap o).mbind (hq _ hT1) fun k => mholds_ok ⟨by simp only; omega, ?_, ?_, hi - 1, hT1, hw'⟩ <;>
      (simp only [OrdinalValues.len, Range.len, h1, if_true]; split <;> omega)
  · simp only [h1, if_false]
    exact mholds_ok ⟨hle, Nat.le_refl _, hT, hw⟩

theorem msteps_setLoop (hJ : Traced c J T) {n : Nat} {step : OrdinalValues → M σ (Option K × OrdinalValues)}
    (hs : InnerOk T n step) :
    MSteps (SetInv T n) (SetWalked T n) (fun it => OrdinalValues.len it.iter) (fun _ _ => True)
      fun it => Eff.setLoop c J step (OrdinalValues.len it.iter + 1) it := by
  have key : ∀ fuel it st, OrdinalValues.len it.iter < fuel → SetInv T n it st →
      MHolds (Eff.setLoop c J step fuel it) st (fun p st' => SetInv T n p.2 st' ∧
        OrdinalValues.len p.2.iter ≤ OrdinalValues.len it.iter ∧
        ∀ a, p.1 = some a → OrdinalValues.len p.2.iter < OrdinalValues.len it.iter ∧ True) (SetWalked T n) := by
    intro fuel
    induction fuel with
    | zero => intro it st h; omega
    | succ fuel ih =>
      rintro it st hf ⟨hle, l, hT, hw⟩
      unfold Eff.setLoop
      refine (hs it.iter st l hle hT hw).bind ?_
      rintro ⟨o, r⟩ st1 ⟨h1, h2, h3⟩
      cases o with
      | none => exact mholds_ok ⟨⟨h1, l, h3⟩, h2, by simp⟩
      | some x =>
        obtain ⟨h4, i, hT1, hw1⟩ := h3
        simp only at h1 h2 h4 hw1
        have hr : ∀ {lo hi st'}, hi ≤ 2 → Reps (fun st l' => T st (l ++ [.from i] ++ l')) x lo hi st' →
            ∃ l', T st' l' ∧ SetWalkOut n r.start r.stop l' := by
          rintro lo hi st' hhi ⟨j, -, hj, ht⟩
          refine ⟨_, ht, ?_⟩
          rw [List.append_assoc]
          exact hw1 _ (replicate_index x j) (by simp; omega)
        refine ((mholds_refContains (hJ.shift (l ++ [.from i])) it.set x (n := 2) (Nat.le_refl _)
          (by simpa using hT1)).mono (fun _ _ h => h) fun st' h => ?_).bind fun b st2 h5 => ?_
        · obtain ⟨l', h6, h7⟩ := hr (Nat.le_refl _) h
          exact ⟨l', h6, h7.1⟩
        · cases b with
          | true =>
            refine mholds_ok ⟨⟨h1, hr (Nat.le_refl _) h5⟩, ?_, fun _ _ => ⟨?_, trivial⟩⟩ <;> (simp only; omega)
          | false =>
            refine (ih ⟨r, it.set⟩ st2 (by simp only; omega) ⟨h1, hr (Nat.le_refl _) h5⟩).mono ?_ fun _ h => h
            rintro ⟨o, it'⟩ st3 ⟨k1, k2, k3⟩
            simp only at k2
            refine ⟨k1, by simp only; omega, fun a ha => ⟨?_, trivial⟩⟩
            have := (k3 a ha).1
            simp only at this ⊢
            omega
  intro it st hi
  exact key _ it st (by omega) hi

theorem setInv_new {st : σ} (h : T st []) (n : Nat) (ws : SetRef) : SetInv T n ⟨⟨0, n⟩, ws⟩ st :=
  ⟨Nat.le_refl _, [], h, setWalkOut_nil _ _ _⟩

theorem SetInv.walked {n : Nat} {it : SetIter} {st : σ} (h : SetInv T n it st) : SetWalked T n st := by
  obtain ⟨-, l, h1, h2⟩ := h
  exact ⟨l, h1, h2.1⟩

/-- Any walk over a set. -/
theorem mholds_setRun (hJ : Traced c J T) (n : Nat) (ws : SetRef) (ds : List Dir) {st : σ} (h : T st []) :
    MHolds (Eff.run (Eff.setNext c J) (Eff.setNextBack c J) ⟨⟨0, n⟩, ws⟩ ds) st
      (fun _ st' => SetWalked T n st') (SetWalked T n) :=
  (mholds_run (msteps_setLoop hJ (innerOk_next hJ n)) (msteps_setLoop hJ (innerOk_nextBack hJ n)) ds
    (setInv_new h n ws)).mono (fun _ _ h => h.walked) fun _ h => h

/-! ## `Iter64` -/

/-- Calls of `from_ordinal` on bits of a word, none twice. -/
def BitWalked (T : σ → List (Call K) → Prop) (w₀ : BitVec 64) (st : σ) : Prop := ∃ l, T st l ∧ BitWalk w₀ l

/-- What is left are bits of the word that were not called. -/
def BitInv (T : σ → List (Call K) → Prop) (w₀ w : BitVec 64) (st : σ) : Prop :=
  (∀ i, w.getLsbD i = true → w₀.getLsbD i = true) ∧
    ∃ is : List Nat, T st (is.map .from) ∧ is.Nodup ∧ (∀ i ∈ is, w₀.getLsbD i = true) ∧ ∀ i ∈ is, w.getLsbD i = false

theorem BitInv.walked {w₀ w : BitVec 64} {st : σ} (h : BitInv T w₀ w st) : BitWalked T w₀ st := by
  obtain ⟨-, is, h1, h2, h3, -⟩ := h
  exact ⟨_, h1, is, rfl, h2, h3⟩

theorem mholds_bitStep (hJ : Traced c J T) {w₀ w : BitVec 64} {st : σ} (h : BitInv T w₀ w st) {i : Nat} (hi : i < 64)
    (hw : w.getLsbD i = true) :
    MHolds (M.of (shl64 c 1 i) >>= fun mask => J.fromOrdinal i >>= fun o => M.of (unwrap o) >>= fun x =>
      M.of (.ok (some x, w &&& ~~~mask))) st (fun p st' => BitInv T w₀ p.2 st' ∧ Iter64.len p.2 ≤ Iter64.len w ∧
        ∀ a, p.1 = some a → Iter64.len p.2 < Iter64.len w ∧ True) (BitWalked T w₀) := by
  obtain ⟨h1, is, hT, h2, h3, h4⟩ := h
  have hx : ∀ st', T st' (is.map .from ++ [.from i]) → BitInv T w₀ (w &&& ~~~(1#64 <<< i)) st' := by
    intro st' hT'
    refine ⟨fun j hj => h1 j (by simp at hj; exact hj.1), is ++ [i], by simpa using hT', ?_, ?_, ?_⟩
    · refine List.nodup_append.2 ⟨h2, by simp, ?_⟩
      intro a ha b hb e
      simp only [List.mem_singleton] at hb
      have := h4 a ha
      rw [e, hb, hw] at this
      cases this
    · intro j hj
      simp only [List.mem_append, List.mem_singleton] at hj
      rcases hj with hj | rfl
      · exact h3 j hj
      · exact h1 _ hw
    · intro j hj
      simp only [List.mem_append, List.mem_singleton] at hj
      rcases hj with hj | rfl
      · simp [h4 j hj]
      · simp [hi]
  rw [shl64_ok c _ hi]
  change MHolds (J.fromOrdinal i >>= _) st _ _
  refine ((hJ.mfrom hT i).mono (fun _ _ h => h) fun st' h => (hx st' h).walked).bind fun o st1 hT1 => ?_
  refine (sound_unwrap o).mbind (hx _ hT1).walked fun x => ?_
  have := countOnes_clear hi hw
  exact mholds_ok ⟨hx _ hT1, by simp only [Iter64.len]; omega, fun _ _ => ⟨this, trivial⟩⟩

theorem msteps_iter64Next (hJ : Traced c J T) (w₀ : BitVec 64) :
    MSteps (BitInv T w₀) (BitWalked T w₀) Iter64.len (fun _ _ => True) (Eff.iter64Next c J) := by
  intro w st hs
  unfold Eff.iter64Next
  dsimp only
  by_cases h : trailingZeros w = 64
  · rw [if_pos h]
    exact mholds_ok ⟨hs, Nat.le_refl _, by simp⟩
  · rw [if_neg h]
    have h2 : trailingZeros w < 64 ∧ w.getLsbD (trailingZeros w) = true := by
      have e : trailingZeros w = ((bitsOf w).head?).getD 64 := trailingZeros_eq w
      cases hb : (bitsOf w).head? with
      | none => rw [hb] at e; exact absurd e h
      | some i =>
        rw [hb] at e
        have hi : i ∈ bitsOf w := List.mem_of_head? hb
        simp only [bitsOf, List.mem_filter, List.mem_range] at hi
        rw [e]; exact hi
    exact mholds_bitStep hJ hs h2.1 h2.2

theorem msteps_iter64NextBack (hJ : Traced c J T) (w₀ : BitVec 64) :
    MSteps (BitInv T w₀) (BitWalked T w₀) Iter64.len (fun _ _ => True) (Eff.iter64NextBack c J) := by
  intro w st hs
  unfold Eff.iter64NextBack
  rw [leadingZeros_eq]
  cases hb : (bitsOf w).getLast? with
  | none => exact mholds_ok ⟨hs, Nat.le_refl _, by simp⟩
  | some i =>
    have hi : i ∈ bitsOf w := List.mem_of_getLast? hb
    simp only [bitsOf, List.mem_filter, List.mem_range] at hi
    have : checkedSub 63 (63 - i) = some i := by simp [checkedSub]; omega
    simp only [this]
    exact mholds_bitStep hJ hs hi.1 hi.2

theorem mholds_run64 (hJ : Traced c J T) (w : BitVec 64) (ds : List Dir) {st : σ} (h : T st []) :
    MHolds (Eff.run (Eff.iter64Next c J) (Eff.iter64NextBack c J) w ds) st
      (fun _ st' => BitWalked T w st') (BitWalked T w) :=
  (mholds_run (msteps_iter64Next hJ w) (msteps_iter64NextBack hJ w) ds
    ⟨fun _ h => h, [], h, by simp, by simp, by simp⟩).mono (fun _ _ h => h.walked) fun _ h => h

/-! ## Arrays -/

/-- At most `n` calls, all of `from_ordinal`. -/
def Froms (T : σ → List (Call K) → Prop) (n : Nat) (st : σ) : Prop :=
  ∃ is : List Nat, is.length ≤ n ∧ T st (is.map .from)

theorem mholds_arrayFromLoop (hJ : Traced c J T) (N k n : Nat) (vs : List K) (hN : vs.length + k = N) (is : List Nat)
    (his : is.length = vs.length) {st : σ} (h : T st (is.map .from)) :
    MHolds (Eff.arrayFromLoop J k n (holding N vs)) st (fun r st' => Froms T N st' ∧ ∀ m b, r = some (m, b) →
      ∃ ws, b = holding N ws ∧ ws.length = N ∧ ∃ is : List Nat, is.length = N ∧ T st' (is.map .from)) (Froms T N) := by
  induction k generalizing n vs is st with
  | zero =>
    refine mholds_ok ⟨⟨is, by omega, h⟩, ?_⟩
    rintro m b hb
    simp only [Option.some.injEq, Prod.mk.injEq] at hb
    exact ⟨vs, hb.2.symm, by omega, is, by omega, h⟩
  | succ k ih =>
    unfold Eff.arrayFromLoop
    refine hJ.size.mbind ⟨is, by omega, h⟩ fun t => ?_
    split
    · exact mholds_of (Sound.bind (sound_drop _ _) fun _ => ⟨⟨is, by omega, h⟩, by simp⟩) ⟨is, by omega, h⟩
    · rename_i i _
      have hf : ∀ st', T st' (is.map .from ++ [.from i]) → Froms T N st' := fun st' h =>
        ⟨is ++ [i], by simp; omega, by simpa using h⟩
      refine ((hJ.mfrom h i).mono (fun _ _ h => h) hf).bind fun o st1 h1 => ?_
      refine Holds.mbind (P := fun b => ∃ v, b = holding N (vs ++ [v])) ?_ (hf _ h1) ?_
      · refine Sound.bind (sound_unwrap o) fun v => ?_
        rw [push_holding _ (by omega)]
        exact ⟨v, rfl⟩
      · rintro _ ⟨v, rfl⟩
        refine (sound_divU _ _).mbind (hf _ h1) fun n' => ?_
        exact ih n' (vs ++ [v]) (by simp; omega) (is ++ [i]) (by simp [his]) (by simpa using h1)

theorem mholds_arrayFrom (hJ : Traced c J T) (N i : Nat) {st : σ} (h : T st []) :
    MHolds (Eff.arrayFrom J N i) st (fun r st' => Froms T N st' ∧ (r.isSome → ∃ is : List Nat, is.length = N ∧
      T st' (is.map .from))) (Froms T N) := by
  unfold Eff.arrayFrom
  rw [ArrayBuilder.new_eq]
  refine (mholds_arrayFromLoop hJ N N i [] (by simp) [] rfl h).bind fun r st1 h1 => ?_
  obtain ⟨h1, h2⟩ := h1
  cases r with
  | none => exact mholds_ok ⟨h1, by simp⟩
  | some p =>
    obtain ⟨n, b⟩ := p
    obtain ⟨ws, rfl, hl, h3⟩ := h2 _ _ rfl
    dsimp only
    split
    · exact mholds_of (Sound.bind (sound_drop _ _) fun _ => ⟨h1, by simp⟩) h1
    · rw [finish_full hl]
      exact mholds_ok ⟨h1, fun _ => h3⟩

theorem mholds_arrayOrdinal (hJ : Traced c J T) (vs : List K) (r : Nat) {st : σ} (h : T st []) :
    MHolds (Eff.arrayOrdinalLoop c J vs r) st (fun _ st' => T st' (vs.map .ordinal)) (Pre T (vs.map .ordinal)) := by
  induction vs generalizing T r st with
  | nil => exact mholds_ok h
  | cons v vs ih =>
    unfold Eff.arrayOrdinalLoop
    refine (Sound.bind hJ.size fun _ => (sound_unwrap _).holds).mbind (pre_nil h) fun r _ => ?_
    refine ((hJ.mordinal1 h v).mono (fun _ _ h => h) fun _ h => h.pre).bind fun i st1 h1 => ?_
    refine (sound_addU _ _ _).mbind (AtMost.pre (.inr h1)) fun r' => ?_
    exact (ih (hJ.shift [.ordinal v]) r' h1).mono (fun _ _ h => h) fun _ h => h.cons

end OrdinalMap
