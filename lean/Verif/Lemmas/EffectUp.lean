import Verif.Lemmas.EffectMap
/-! # Exact calls of the loops that run to the end -/

namespace OrdinalMap
open ArrayBuilder

variable {σ s α β ι K V W E ω ο A B : Type}
variable {c : Cfg} {J : SImpl σ K} {T : σ → List (Call K) → Prop}

theorem upTo_succ (n : Nat) : (upTo (n + 1) : List (Call K)) = upTo n ++ [.from n] := by
  simp [upTo, List.range_succ]

theorem upTo_zero : (upTo 0 : List (Call K)) = [] := rfl

theorem walk_upTo {i n : Nat} (h : i ≤ n) : Walk n (upTo i : List (Call K)) :=
  ⟨List.range i, rfl, List.nodup_range, fun j hj => by simp only [List.mem_range] at hj; omega⟩

/-- The calls so far are `0`, `1`, … up to at most `n - 1`. -/
def Up (T : σ → List (Call K) → Prop) (n : Nat) (st : σ) : Prop := ∃ i, i ≤ n ∧ T st (upTo i)

/-- `MSteps` with a property that holds at the end. -/
def MStepsF (Inv : s → σ → Prop) (Q : σ → Prop) (mu : s → Nat) (item : A → s → Prop) (fin : s → Prop)
    (step : s → M σ (Option A × s)) : Prop :=
  ∀ x st, Inv x st → MHolds (step x) st (fun p st' => Inv p.2 st' ∧ mu p.2 ≤ mu x ∧
    (∀ a, p.1 = some a → mu p.2 < mu x ∧ item a p.2) ∧ (p.1 = none → fin p.2)) Q

theorem mstepsF_skipLoop {step : s → M σ (Option A × s)} {body : A → s → R (Option B × s)} {Inv : s → σ → Prop}
    {Q : σ → Prop} {mu : s → Nat} {item : A → s → Prop} {post : B → s → Prop} {fin : s → Prop}
    (hs : MStepsF Inv Q mu item fin step) (hQ : ∀ x st, Inv x st → Q st)
    (hb : ∀ a x st, Inv x st → item a x →
      Holds (body a x) fun p => Inv p.2 st ∧ mu p.2 ≤ mu x ∧ ∀ b, p.1 = some b → post b p.2) :
    MStepsF Inv Q mu post fin fun x => Eff.skipLoop step body (mu x + 1) x := by
  have key : ∀ fuel x st, mu x < fuel → Inv x st → MHolds (Eff.skipLoop step body fuel x) st (fun p st' =>
      Inv p.2 st' ∧ mu p.2 ≤ mu x ∧ (∀ b, p.1 = some b → mu p.2 < mu x ∧ post b p.2) ∧ (p.1 = none → fin p.2)) Q := by
    intro fuel
    induction fuel with
    | zero => intro x st h; omega
    | succ fuel ih =>
      intro x st hf hi
      unfold Eff.skipLoop
      refine (hs x st hi).bind ?_
      rintro ⟨o, x1⟩ st1 ⟨h1, h2, h3, h0⟩
      cases o with
      | none => exact mholds_ok ⟨h1, h2, fun b hb => by (cases hb), fun _ => h0 rfl⟩
      | some a =>
        obtain ⟨h4, h5⟩ := h3 a rfl
        refine (hb a x1 st1 h1 h5).mbind (hQ _ _ h1) ?_
        rintro ⟨o, x2⟩ ⟨g1, g2, g3⟩
        simp only at h2 h4 g2
        cases o with
        | some b =>
          exact mholds_ok ⟨g1, by simp only; omega, fun b' hb' => ⟨by simp only; omega, g3 b' hb'⟩, by simp⟩
        | none =>
          refine (ih x2 st1 (by omega) g1).mono ?_ fun _ h => h
          rintro ⟨o, x3⟩ st3 ⟨k1, k2, k3, k0⟩
          simp only at k2
          refine ⟨k1, by simp only; omega, fun b hb => ?_, k0⟩
          obtain ⟨k4, k5⟩ := k3 b hb
          exact ⟨by simp only at k4 ⊢; omega, k5⟩
  intro x st hi
  exact key _ x st (by omega) hi

/-- `StdOk` with a length of zero at the end. -/
def StdEnds (S : StdIter s ι) : Prop := ∀ x, (S.next x).1 = none → S.len (S.next x).2 = 0

theorem stdEnds_list (V : Type) : StdEnds (listIter V) := by
  rintro (_ | ⟨v, l⟩) h <;> simp_all [listIter]

theorem stdEnds_slot : StdEnds slotIter := by
  rintro ⟨lo, hi⟩ h
  simp only [slotIter, Range.next, Range.len] at h ⊢
  by_cases h1 : lo < hi
  · simp [h1] at h
  · simp [h1]

/-- The enumerator has called `0`, …, up to where it is. -/
def EnumUp (T : σ → List (Call K) → Prop) (S : StdIter s ι) (I : s → Prop) (n : Nat) (e : Enumerate s)
    (st : σ) : Prop :=
  I e.iter ∧ e.next + S.len e.iter = n ∧ T st (upTo e.next)

theorem EnumUp.up {S : StdIter s ι} {I : s → Prop} {n : Nat} {e : Enumerate s} {st : σ}
    (h : EnumUp T S I n e st) : Up T n st := ⟨e.next, by have := h.2.1; omega, h.2.2⟩

theorem mstepsF_enumNext (hJ : Traced c J T) {S : StdIter s ι} {I : s → Prop} {G : ι → Prop} (hS : StdOk S I G)
    (hE : StdEnds S) {n : Nat} (hn : n < c.M) :
    MStepsF (EnumUp T S I n) (Up T n) (fun e => S.len e.iter) (fun p _ => G p.2) (fun e => e.next = n)
      (Eff.enumNext c J S) := by
  rintro ⟨m, x⟩ st ⟨hI, hle, hT⟩
  have hx := hS.next x hI
  have hy := hE x
  unfold Eff.enumNext
  dsimp only at hI hle hT ⊢
  rcases hnx : S.next x with ⟨_ | v, y⟩
  · simp only [hnx, true_implies] at hx hy
    refine mholds_ok ⟨⟨hx.1, by simp only; omega, hT⟩, by simp only; omega, by simp, ?_⟩
    intro _
    simp only
    omega
  · simp only [hnx] at hx
    obtain ⟨hI', hlen, hG⟩ := hx
    have hup : ∀ st', T st' (upTo m ++ [.from m]) → Up T n st' := fun st' h => ⟨m + 1, by omega, by rw [upTo_succ]; exact h⟩
    refine ((hJ.mfrom hT m).mono (fun _ _ h => h) hup).bind ?_
    intro o st1 hT1
    refine (sound_unwrap o).mbind (hup _ hT1) fun k => ?_
    rw [addU_ok (by omega)]
    refine mholds_ok ⟨⟨hI', by simp only; omega, by simp only [upTo_succ]; exact hT1⟩, by simp only; omega, ?_, by simp⟩
    rintro a ha
    simp only [Option.some.injEq] at ha
    subst ha
    exact ⟨by simp only; omega, hG⟩

/-! ## `len` -/

abbrev ListUp (T : σ → List (Call K) → Prop) (V : Type) (n : Nat) :=
  EnumUp T (listIter V) (fun _ => True) n

theorem listUp_new {st : σ} (h : T st []) (m : List V) : ListUp T V m.length (TotalIter.new m 0) st :=
  ⟨trivial, by simp [TotalIter.new, Enumerate.new, listIter], h⟩

theorem mstepsF_listNext (hJ : Traced c J T) {n : Nat} (hn : n < c.M) :
    MStepsF (ListUp T V n) (Up T n) (Enumerate.len (listIter V)) (fun _ _ => True) (fun e => e.next = n)
      (Eff.enumNext c J (listIter V)) := mstepsF_enumNext hJ (stdOk_list _) (stdEnds_list _) hn

theorem mstepsF_mapNext (hJ : Traced c J T) {n : Nat} (hn : n < c.M) :
    MStepsF (ListUp T (Option V) n) (Up T n) (fun s : MapIter V => TotalIter.len s)
      (fun _ _ => True) (fun e => e.next = n) (Eff.mapNext c J) :=
  mstepsF_skipLoop (mstepsF_listNext hJ hn) (fun _ _ h => h.up) fun a x _ h _ => by
    obtain ⟨k, _ | v⟩ := a <;> simpa [MapIter.body] using h

theorem mholds_countLoop_up (hJ : Traced c J T) {n : Nat} (hn : n < c.M) (fuel : Nat) (x : MapIter V) (acc : Nat)
    {st : σ} (hf : TotalIter.len x < fuel) (hs : ListUp T (Option V) n x st) :
    MHolds (Eff.countLoop c J fuel x acc) st (fun _ st' => T st' (upTo n)) (Up T n) := by
  induction fuel generalizing x acc st with
  | zero => omega
  | succ fuel ih =>
    unfold Eff.countLoop
    refine (mstepsF_mapNext hJ hn x st hs).bind ?_
    rintro ⟨o, x1⟩ st1 ⟨h1, h2, h3, h0⟩
    cases o with
    | none =>
      have := h0 rfl
      simp only at this
      have h4 := h1.2.2
      simp only [this] at h4
      exact mholds_ok h4
    | some a =>
      have := (h3 a rfl).1
      simp only at this
      exact (sound_addU _ _ _).mbind h1.up fun acc => ih x1 acc (by omega) h1

theorem mholds_mapLen_up (hJ : Traced c J T) (m : List (Option V)) (hm : m.length < c.M) {st : σ} (h : T st []) :
    MHolds (Eff.mapLen c J m) st (fun _ st' => T st' (upTo m.length)) (Up T m.length) :=
  mholds_countLoop_up hJ hm _ _ _ (Nat.lt_succ_self _) (listUp_new h m)

/-! ## `is_empty` -/

theorem slotsToFirst_le (m : List (Option V)) : slotsToFirst m ≤ m.length := by
  induction m with
  | nil => exact Nat.le_refl _
  | cons o m ih => cases o <;> simp [slotsToFirst] <;> omega

theorem mholds_firstLoop (hJ : Traced c J T) (a : Nat) (m : List (Option V))
    (hm : a + m.length < c.M) {st : σ} (h : T st (upTo a)) (fuel : Nat) (hf : m.length < fuel) :
    MHolds (Eff.skipLoop (Eff.enumNext c J (listIter _)) MapIter.body fuel ⟨a, m⟩) st
      (fun (p : Option (K × V) × MapIter V) st' => p.1.isNone = m.all Option.isNone ∧ T st' (upTo (a + slotsToFirst m)))
      (Up T (a + slotsToFirst m)) := by
  induction m generalizing a st fuel with
  | nil =>
    cases fuel with
    | zero => simp at hf
    | succ fuel =>
      unfold Eff.skipLoop Eff.enumNext
      exact mholds_ok ⟨rfl, h⟩
  | cons o m ih =>
    cases fuel with
    | zero => simp at hf
    | succ fuel =>
      simp only [List.length_cons] at hm hf
      unfold Eff.skipLoop
      have hle : a + 1 ≤ a + slotsToFirst (o :: m) := by cases o <;> simp [slotsToFirst]
      have hup : ∀ st', T st' (upTo a ++ [.from a]) → Up T (a + slotsToFirst (o :: m)) st' :=
        fun st' h => ⟨a + 1, hle, by rw [upTo_succ]; exact h⟩
      unfold Eff.enumNext
      simp only [listIter]
      refine MHolds.bind (P := fun p st' => (∃ k, p.1 = some (k, o)) ∧ p.2 = ⟨a + 1, m⟩ ∧
        T st' (upTo (a + 1))) ?_ ?_
      · refine ((hJ.mfrom h a).mono (fun _ _ h => h) hup).bind fun k st1 h1 => ?_
        refine (sound_unwrap k).mbind (hup _ h1) fun k => ?_
        rw [addU_ok (by omega)]
        exact mholds_ok ⟨⟨k, rfl⟩, rfl, by rw [upTo_succ]; exact h1⟩
      · rintro ⟨p, it⟩ st1 ⟨⟨k, rfl⟩, rfl, h1⟩
        dsimp only
        cases o with
        | some v => exact mholds_ok ⟨by simp, h1⟩
        | none =>
          have := ih (a + 1) (by omega) h1 fuel (by omega)
          rw [show a + 1 + slotsToFirst m = a + slotsToFirst (none :: m) by simp [slotsToFirst]; omega] at this
          refine this.mono ?_ fun _ h => h
          rintro p st2 ⟨h2, h3⟩
          exact ⟨by simpa using h2, h3⟩

/-- `is_empty` looks at the slots up to the first value. -/
theorem mholds_mapIsEmpty_up (hJ : Traced c J T) (m : List (Option V)) (hm : m.length < c.M) {st : σ} (h : T st []) :
    MHolds (Eff.mapIsEmpty c J m) st (fun b st' => b = m.all Option.isNone ∧ T st' (upTo (slotsToFirst m)))
      (Up T (slotsToFirst m)) := by
  have := mholds_firstLoop hJ 0 m (by omega) h (TotalIter.len (TotalIter.new m 0) + 1)
    (by simp [TotalIter.len, TotalIter.new, Enumerate.new, Enumerate.len, listIter])
  simp only [Nat.zero_add] at this
  exact this.bind fun p st1 h1 => mholds_ok h1

/-! ## `clear` -/

theorem mstepsF_mutNext (hJ : Traced c J T) {n : Nat} (hn : n < c.M) :
    MStepsF (fun (it : TotalIterMut V) st => it.mem.length = n ∧ EnumUp T slotIter (fun r => r.stop ≤ n) n it.it st)
      (Up T n) TotalIterMut.len (fun p _ => p.2 < n) (fun it => it.it.next = n) (Eff.mutNext c J) := by
  rintro it st ⟨h1, h2⟩
  refine (mstepsF_enumNext hJ (stdOk_slot _) stdEnds_slot hn it.it st h2).bind ?_
  rintro ⟨o, e⟩ st1 ⟨g1, g2, g3, g4⟩
  exact mholds_ok ⟨⟨h1, g1⟩, g2, fun a ha => g3 a ha, g4⟩

theorem mstepsF_drainNext (hJ : Traced c J T) {n : Nat} (hn : n < c.M) :
    MStepsF (fun (it : TotalIterMut (Option V)) st => it.mem.length = n ∧ EnumUp T slotIter (fun r => r.stop ≤ n) n it.it st)
      (Up T n) TotalIterMut.len (fun _ _ => True) (fun it => it.it.next = n) (Eff.drainNext c J) :=
  mstepsF_skipLoop (mstepsF_mutNext hJ hn) (fun _ _ h => h.2.up) fun p x st hs hp => by
    obtain ⟨h1, h⟩ := hs
    subst h1
    unfold Drain.body
    have : x.mem[p.2]? = some x.mem[p.2] := by simp
    rw [this]
    cases x.mem[p.2] with
    | none => exact ⟨⟨by simp, h⟩, Nat.le_refl _, by simp⟩
    | some v => exact ⟨⟨by simp, h⟩, Nat.le_refl _, by simp⟩

theorem mholds_clear_up (hJ : Traced c J T) (m : List (Option V)) (hm : m.length < c.M) {st : σ} (h : T st []) :
    MHolds (Eff.drainDrop c J (Drain.new m)) st (fun _ st' => T st' (upTo m.length)) (Up T m.length) := by
  have key : ∀ fuel (x : TotalIterMut (Option V)) st, TotalIterMut.len x < fuel →
      (x.mem.length = m.length ∧ EnumUp T slotIter (fun r => r.stop ≤ m.length) m.length x.it st) →
      MHolds (Eff.dropLoop c J fuel x) st (fun _ st' => T st' (upTo m.length)) (Up T m.length) := by
    intro fuel
    induction fuel with
    | zero => intro x st h; omega
    | succ fuel ih =>
      intro x st hf hi
      unfold Eff.dropLoop
      refine (mstepsF_drainNext hJ hm x st hi).bind ?_
      rintro ⟨o, x1⟩ st1 ⟨h1, h2, h3, h0⟩
      cases o with
      | none =>
        have h4 := h1.2.2.2
        rw [h0 rfl] at h4
        exact mholds_ok h4
      | some a =>
        have := (h3 a rfl).1
        simp only at this
        exact ih x1 st1 (by omega) h1
  refine key _ _ st (Nat.lt_succ_self _) ⟨rfl, ?_, ?_, h⟩
  · simp [Drain.new, TotalIterMut.new, Enumerate.new]
  · simp only [Drain.new, TotalIterMut.new, Enumerate.new, slotIter, Range.len]; split <;> omega

/-! ## `retain` -/

/-- A closure that does not call the implementation (or whose calls are not of interest). -/
def Keeps (T : σ → List (Call K) → Prop) (x : M σ α) : Prop :=
  ∀ st l, T st l → MHolds x st (fun _ st' => T st' l) fun st' => T st' l

theorem mholds_retain_up (hJ : Traced c J T) (m : OrdinalArrayMap V) (hm : List.length m < c.M)
    (f : K → V → M σ (Bool × V)) (hf : ∀ k v, Keeps T (f k v)) {st : σ} (h : T st []) :
    MHolds (Eff.retain c J m f) st (fun m' st' => List.length m' = List.length m ∧ T st' (upTo (List.length m)))
      (Up T (List.length m)) := by
  have key : ∀ fuel (x : TotalIterMut (Option V)) st, TotalIterMut.len x < fuel →
      (x.mem.length = List.length m ∧ EnumUp T slotIter (fun r => r.stop ≤ List.length m) (List.length m) x.it st) →
      MHolds (Eff.retainLoop c J f fuel x) st
        (fun m' st' => List.length m' = List.length m ∧ T st' (upTo (List.length m))) (Up T (List.length m)) := by
    intro fuel
    induction fuel with
    | zero => intro x st h; omega
    | succ fuel ih =>
      intro x st hfu hi
      unfold Eff.retainLoop
      refine (mstepsF_mutNext hJ hm x st hi).bind ?_
      rintro ⟨o, x1⟩ st1 ⟨h1, h2, h3, h0⟩
      cases o with
      | none =>
        have h4 := h1.2.2.2
        rw [h0 rfl] at h4
        exact mholds_ok ⟨h1.1, h4⟩
      | some p =>
        obtain ⟨k, i⟩ := p
        obtain ⟨h4, h5⟩ := h3 _ rfl
        obtain ⟨h1l, h1e⟩ := h1
        simp only at h4 h5 h1l h1e
        refine (holds_readSlot (m := x1.mem) (by omega)).mbind h1e.up fun o ho => ?_
        cases o with
        | none => exact ih x1 st1 (by omega) ⟨h1l, h1e⟩
        | some v =>
          have hup : ∀ st', T st' (upTo x1.it.next) → EnumUp T slotIter (fun r => r.stop ≤ List.length m)
            (List.length m) x1.it st' := fun st' h => ⟨h1e.1, h1e.2.1, h⟩
          refine ((hf k v st1 _ h1e.2.2).mono (fun _ _ h => h) fun st' h => (hup st' h).up).bind ?_
          rintro ⟨keep, v'⟩ st2 ht2
          refine Holds.mbind (P := fun mem => List.length mem = List.length m) ?_ (hup _ ht2).up fun mem hl =>
            ih ⟨mem, x1.it⟩ st2 (by simpa [TotalIterMut.len] using (show TotalIterMut.len x1 < fuel by omega)) ⟨hl, hup _ ht2⟩
          refine (holds_writeSome v' ⟨v, ho⟩).bind ?_
          rintro _ rfl
          cases keep with
          | true => simp [h1l]
          | false =>
            refine (holds_writeSlot none (by simp; omega)).mono ?_
            rintro _ rfl
            simp [h1l]
  refine key _ _ st (Nat.lt_succ_self _) ⟨rfl, ?_, ?_, h⟩
  · simp [TotalIterMut.new, Enumerate.new]
  · simp only [TotalIterMut.new, Enumerate.new, slotIter, Range.len]; split <;> omega

/-! ## Constructors -/

/-- `OrdinalValues::next` from the front. -/
theorem mholds_valuesNext_up (hJ : Traced c J T) (lo hi : Nat) (hle : lo ≤ hi) {st : σ} (h : T st (upTo lo)) :
    MHolds (Eff.valuesNext J ⟨lo, hi⟩) st (fun p st' => match p.1 with
      | none => lo = hi ∧ T st' (upTo hi)
      | some _ => p.2 = ⟨lo + 1, hi⟩ ∧ lo < hi ∧ T st' (upTo (lo + 1))) (Up T hi) := by
  unfold Eff.valuesNext Range.next
  dsimp only
  by_cases h1 : lo < hi
  · simp only [h1, if_true]
    have hup : ∀ st', T st' (upTo lo ++ [.from lo]) → Up T hi st' :=
      fun st' h => ⟨lo + 1, by omega, by rw [upTo_succ]; exact h⟩
    refine ((hJ.mfrom h lo).mono (fun _ _ h => h) hup).bind fun o st1 h2 => ?_
    refine (sound_unwrap o).mbind (hup _ h2) fun k => mholds_ok ⟨rfl, trivial, by rw [upTo_succ]; exact h2⟩
  · simp only [h1, if_false]
    have e : lo = hi := by omega
    subst e
    exact mholds_ok ⟨rfl, h⟩

/-- `UpTo` the size. -/
def UpSize (T : σ → List (Call K) → Prop) (J : SImpl σ K) (st : σ) : Prop :=
  ∃ i, T st (upTo i) ∧ ∀ n, J.size = .ok n → i ≤ n

theorem Up.size {n : Nat} {st : σ} (h : Up T n st) (hn : J.size = .ok n) : UpSize T J st := by
  obtain ⟨i, h1, h2⟩ := h
  exact ⟨i, h2, fun n' hn' => by rw [hn] at hn'; cases hn'; exact h1⟩

theorem upSize_nil {st : σ} (h : T st []) : UpSize T J st := ⟨0, h, fun _ _ => Nat.zero_le _⟩

theorem sound_withCapacity (c : Cfg) (sz n : Nat) : Sound (withCapacity c sz n) := by unfold withCapacity; sound

/-- What `try_new` did: all calls if it returns a map. -/
def Built (T : σ → List (Call K) → Prop) (J : SImpl σ K) (r : Except E (List V)) (st : σ) : Prop :=
  match r with
  | .ok m => ∃ n, J.size = .ok n ∧ m.length = n ∧ T st (upTo n)
  | .error _ => UpSize T J st

theorem mholds_tryNew_up (hJ : Traced c J T) (sz : Nat) (init : K → M σ (Except E V)) (hf : ∀ k, Keeps T (init k))
    {st : σ} (h : T st []) :
    MHolds (Eff.tryNew c J sz init) st (Built T J) (UpSize T J) := by
  have key : ∀ fuel lo hi (map : List V) st, J.size = .ok hi → hi - lo < fuel → lo ≤ hi → map.length = lo →
      T st (upTo lo) → MHolds (Eff.tryNewLoop J init fuel ⟨lo, hi⟩ map) st (Built T J) (UpSize T J) := by
    intro fuel
    induction fuel with
    | zero => intro lo hi map st _ h; omega
    | succ fuel ih =>
      intro lo hi map st hsz hfu hle hl ht
      unfold Eff.tryNewLoop
      refine ((mholds_valuesNext_up hJ lo hi hle ht).mono (fun _ _ h => h) fun _ h => h.size hsz).bind ?_
      rintro ⟨o, r⟩ st1 h1
      cases o with
      | none =>
        obtain ⟨rfl, h1⟩ := h1
        exact mholds_ok ⟨lo, hsz, hl, h1⟩
      | some k =>
        obtain ⟨e, h2, h1⟩ := h1
        simp only at e
        subst e
        have hu : ∀ st', T st' (upTo (lo + 1)) → UpSize T J st' := fun st' h => Up.size ⟨lo + 1, h2, h⟩ hsz
        refine ((hf k st1 _ h1).mono (fun _ _ h => h) hu).bind fun e st2 h3 => ?_
        cases e with
        | error e => exact mholds_ok (hu _ h3)
        | ok x => exact ih (lo + 1) hi _ st2 hsz (by omega) h2 (by simp [hl]) h3
  unfold Eff.tryNew
  refine (Sound.bind hJ.size fun n => (sound_withCapacity c sz n).holds).mbind (upSize_nil h) fun _ _ => ?_
  refine (holds_valuesNew hJ h).mbind (upSize_nil h) ?_
  rintro ⟨lo, hi⟩ ⟨h1, h2, -⟩
  simp only at h1 h2
  subst h1
  refine key _ 0 hi [] st h2 ?_ (Nat.zero_le _) rfl h
  simp only [OrdinalValues.len, Range.len]; split <;> omega

theorem mholds_tryNewArray_up (hJ : Traced c J T) (S : Nat) (init : K → M σ (Except E V)) (hf : ∀ k, Keeps T (init k))
    {st : σ} (h : T st []) :
    MHolds (Eff.tryNewArray J S init) st (Built T J) (UpSize T J) := by
  have key : ∀ fuel lo hi (vs : List V) st, J.size = .ok hi → hi = S → hi - lo < fuel → lo ≤ hi → vs.length = lo →
      T st (upTo lo) → MHolds (Eff.tryNewArrayLoop J init fuel ⟨lo, hi⟩ (holding S vs)) st (Built T J) (UpSize T J) := by
    intro fuel
    induction fuel with
    | zero => intro lo hi vs st _ _ h; omega
    | succ fuel ih =>
      intro lo hi vs st hsz hS hfu hle hl ht
      unfold Eff.tryNewArrayLoop
      refine ((mholds_valuesNext_up hJ lo hi hle ht).mono (fun _ _ h => h) fun _ h => h.size hsz).bind ?_
      rintro ⟨o, r⟩ st1 h1
      cases o with
      | none =>
        obtain ⟨rfl, h1⟩ := h1
        subst hS
        dsimp only
        rw [finish_full (by omega)]
        exact mholds_ok ⟨lo, hsz, hl, h1⟩
      | some k =>
        obtain ⟨e, h2, h1⟩ := h1
        simp only at e
        subst e
        have hu : ∀ st', T st' (upTo (lo + 1)) → UpSize T J st' := fun st' h => Up.size ⟨lo + 1, h2, h⟩ hsz
        refine ((hf k st1 _ h1).mono (fun _ _ h => h) hu).bind fun e st2 h3 => ?_
        cases e with
        | error e => exact mholds_of (Sound.bind (sound_drop _ _) fun _ => hu _ h3) (hu _ h3)
        | ok x =>
          dsimp only
          rw [push_holding _ (by omega)]
          exact ih (lo + 1) hi _ st2 hsz hS (by omega) h2 (by simp [hl]) h3
  unfold Eff.tryNewArray
  refine Holds.mbind (P := fun _ => J.size = .ok S) ?_ (upSize_nil h) fun _ hS => ?_
  · refine hJ.size.holds'.bind fun n hn => ?_
    unfold constAssert
    split
    · rename_i e; simp only [beq_iff_eq] at e; subst e; exact hn
    · trivial
  refine (holds_valuesNew hJ h).mbind (upSize_nil h) ?_
  rintro ⟨lo, hi⟩ ⟨h1, h2, -⟩
  simp only at h1 h2
  subst h1
  rw [ArrayBuilder.new_eq]
  refine key _ 0 hi [] st h2 (by rw [hS] at h2; cases h2; rfl) ?_ (Nat.zero_le _) rfl h
  simp only [OrdinalValues.len, Range.len]; split <;> omega

theorem mholds_newArray_up (hJ : Traced c J T) (S : Nat) (init : K → M σ V) (hf : ∀ k, Keeps T (init k))
    {st : σ} (h : T st []) :
    MHolds (Eff.newArray J S init) st (fun m st' => ∃ n, J.size = .ok n ∧ m.length = n ∧ T st' (upTo n))
      (UpSize T J) := by
  unfold Eff.newArray
  refine (Sound.bind hJ.size fun n => (sound_constAssert _).holds).mbind (upSize_nil h) fun _ _ => ?_
  refine (mholds_tryNewArray_up hJ S _ (fun k st l hl => ?_) h).bind fun r st1 h1 => ?_
  · exact (hf k st l hl).bind fun v st1 h1 => mholds_ok h1
  · cases r with
    | ok m => exact mholds_ok h1
    | error e => exact e.elim

theorem mholds_mapLoop_up (hJ : Traced c J T) (f : K → V → M σ W) (hf : ∀ k v, Keeps T (f k v)) (m : List V)
    (ws : List W) {st : σ} (hm : ws.length + m.length < c.M) (h : T st (upTo ws.length)) (fuel : Nat)
    (hfu : m.length < fuel) :
    MHolds (Eff.mapLoop c J f fuel ⟨ws.length, m⟩ (holding (ws.length + m.length) ws)) st
      (fun m' st' => m'.length = ws.length + m.length ∧ T st' (upTo (ws.length + m.length)))
      (Up T (ws.length + m.length)) := by
  induction m generalizing ws st fuel with
  | nil =>
    cases fuel with
    | zero => simp at hfu
    | succ fuel =>
      unfold Eff.mapLoop Eff.enumNext
      refine mholds_of ?_ ⟨ws.length, Nat.le_refl _, h⟩
      rw [finish_full (by simp)]
      exact ⟨by simp, h⟩
  | cons v m ih =>
    cases fuel with
    | zero => simp at hfu
    | succ fuel =>
      simp only [List.length_cons] at hm hfu
      unfold Eff.mapLoop
      have hup : ∀ st', T st' (upTo (ws.length + 1)) → Up T (ws.length + (v :: m).length) st' :=
        fun st' h => ⟨ws.length + 1, by simp, h⟩
      unfold Eff.enumNext
      simp only [listIter]
      refine MHolds.bind (P := fun p st' => (∃ k, p.1 = some (k, v)) ∧ p.2 = ⟨ws.length + 1, m⟩ ∧
        T st' (upTo (ws.length + 1))) ?_ ?_
      · refine ((hJ.mfrom h ws.length).mono (fun _ _ h => h) fun st' h => hup st' (by rw [upTo_succ]; exact h)).bind
          fun k st1 h1 => ?_
        rw [← upTo_succ] at h1
        refine (sound_unwrap k).mbind (hup _ h1) fun k => ?_
        rw [addU_ok (by omega)]
        exact mholds_ok ⟨⟨k, rfl⟩, rfl, h1⟩
      · rintro ⟨p, it⟩ st1 ⟨⟨k, rfl⟩, rfl, h1⟩
        dsimp only
        refine ((hf k v st1 _ h1).mono (fun _ _ h => h) hup).bind fun w st2 h2 => ?_
        rw [push_holding _ (by simp)]
        have := ih (ws ++ [w]) (st := st2) (by simp; omega) (by simpa using h2) fuel (by omega)
        simp only [List.length_append, List.length_cons, List.length_nil, Nat.zero_add] at this
        rw [show ws.length + 1 + m.length = ws.length + (m.length + 1) by omega] at this
        exact this

theorem mholds_mapArr_up (hJ : Traced c J T) (m : List V) (hm : m.length < c.M)
    (f : K → V → M σ W) (hf : ∀ k v, Keeps T (f k v)) {st : σ} (h : T st []) :
    MHolds (Eff.map c J m.length m f) st (fun m' st' => m'.length = m.length ∧ T st' (upTo m.length))
      (Up T m.length) := by
  have := mholds_mapLoop_up hJ f hf m [] (by simpa using hm) h
    (TotalIntoIterArray.len (TotalIntoIterArray.new m) + 1)
    (by simp [TotalIntoIterArray.len, TotalIntoIterArray.new, Enumerate.new, Enumerate.len, listIter])
  simp only [List.length_nil, Nat.zero_add] at this
  unfold Eff.map
  rw [ArrayBuilder.new_eq]
  exact this

end OrdinalMap
