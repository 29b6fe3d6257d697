import Verif.Lemmas.EffectSound
/-! # Soundness and calls of the maps over an implementation with state -/

namespace OrdinalMap

variable {σ s α β ι K V W E ω ο A B : Type}
variable {c : Cfg} {J : SImpl σ K} {T : σ → List (Call K) → Prop}

/-! ## Iterators of the maps -/

/-- The invariant of iterators over the values of a map. -/
abbrev ListInv (T : σ → List (Call K) → Prop) (V : Type) (n : Nat) :=
  EnumInv T (listIter V) (fun _ => True) n

theorem listInv_new {st : σ} (h : T st []) (m : List V) : ListInv T V m.length (TotalIter.new m 0) st :=
  ⟨trivial, by simp [TotalIter.new, Enumerate.new, listIter], [], h, walkOut_nil _ _ _⟩

theorem msteps_listNext (hJ : Traced c J T) {n : Nat} (hn : n < c.M) :
    MSteps (ListInv T V n) (Walked T n) (Enumerate.len (listIter V)) (fun _ _ => True)
      (Eff.enumNext c J (listIter V)) := msteps_enumNext hJ (stdOk_list _) hn

theorem msteps_listNextBack (hJ : Traced c J T) {n : Nat} (hn : n < c.M) :
    MSteps (ListInv T V n) (Walked T n) (Enumerate.len (listIter V)) (fun _ _ => True)
      (Eff.enumNextBack c J (listIter V)) := msteps_enumNextBack hJ (stdOk_list _) hn

theorem mapIter_mbody (a : K × Option V) (x : MapIter V) {n : Nat} {st : σ} (h : ListInv T (Option V) n x st) :
    Holds (MapIter.body a x) fun p => ListInv T (Option V) n p.2 st ∧ TotalIter.len p.2 ≤ TotalIter.len x ∧
      ∀ b, p.1 = some b → True := by
  obtain ⟨k, _ | v⟩ := a <;> simpa [MapIter.body] using h

theorem msteps_mapNext (hJ : Traced c J T) {n : Nat} (hn : n < c.M) :
    MSteps (ListInv T (Option V) n) (Walked T n) (fun s : MapIter V => TotalIter.len s)
      (fun _ _ => True) (Eff.mapNext c J) :=
  msteps_skipLoop (msteps_listNext hJ hn) (fun _ _ h => h.walked) fun a x _ h _ => mapIter_mbody a x h

theorem msteps_mapNextBack (hJ : Traced c J T) {n : Nat} (hn : n < c.M) :
    MSteps (ListInv T (Option V) n) (Walked T n) (fun s : MapIter V => TotalIter.len s)
      (fun _ _ => True) (Eff.mapNextBack c J) :=
  msteps_skipLoop (msteps_listNextBack hJ hn) (fun _ _ h => h.walked) fun a x _ h _ => mapIter_mbody a x h

/-- The invariant of enumerators of slots. -/
abbrev SlotsInv (T : σ → List (Call K) → Prop) (n : Nat) := EnumInv T slotIter (fun r => r.stop ≤ n) n

theorem slotsInv_new {st : σ} (h : T st []) (m : List V) : SlotsInv T m.length (TotalIterMut.new m).it st :=
  ⟨by simp [TotalIterMut.new, Enumerate.new], by
    simp only [TotalIterMut.new, Enumerate.new, slotIter, Range.len]; split <;> omega, [], h,
    walkOut_nil _ _ _⟩

/-- The invariant of `IterMut` over the memory `m`. -/
def MutE (T : σ → List (Call K) → Prop) (m : List V) (it : TotalIterMut V) (st : σ) : Prop :=
  it.mem = m ∧ SlotsInv T m.length it.it st

theorem MutE.walked {m : List V} {it : TotalIterMut V} {st : σ} (h : MutE T m it st) : Walked T m.length st :=
  h.2.walked

theorem mutE_new {st : σ} (h : T st []) (m : List V) : MutE T m (TotalIterMut.new m) st := ⟨rfl, slotsInv_new h m⟩

theorem msteps_mutNext (hJ : Traced c J T) (m : List V) (hm : m.length < c.M) :
    MSteps (MutE T m) (Walked T m.length) TotalIterMut.len (fun p _ => p.2 < m.length) (Eff.mutNext c J) := by
  rintro it st ⟨h1, h2⟩
  refine (msteps_enumNext hJ (stdOk_slot _) hm it.it st h2).bind ?_
  rintro ⟨o, e⟩ st1 ⟨g1, g2, g3⟩
  exact mholds_ok ⟨⟨h1, g1⟩, g2, fun a ha => g3 a ha⟩

theorem msteps_mutNextBack (hJ : Traced c J T) (m : List V) (hm : m.length < c.M) :
    MSteps (MutE T m) (Walked T m.length) TotalIterMut.len (fun p _ => p.2 < m.length) (Eff.mutNextBack c J) := by
  rintro it st ⟨h1, h2⟩
  refine (msteps_enumNextBack hJ (stdOk_slot _) hm it.it st h2).bind ?_
  rintro ⟨o, e⟩ st1 ⟨g1, g2, g3⟩
  exact mholds_ok ⟨⟨h1, g1⟩, g2, fun a ha => g3 a ha⟩

theorem MutE.inv {m : List V} {it : TotalIterMut V} {st : σ} (h : MutE T m it st) : MutInv m it := ⟨h.1, h.2.1⟩

theorem mapIterMut_mbody (m : List (Option V)) (p : K × Nat) (x : MapIterMut V) {st : σ} (hs : MutE T m x st)
    (hp : p.2 < m.length) : Holds (MapIterMut.body p x) fun q =>
      MutE T m q.2 st ∧ TotalIterMut.len q.2 ≤ TotalIterMut.len x ∧ ∀ b : K × Nat, q.1 = some b → Full m b.2 := by
  obtain ⟨rfl, h⟩ := hs
  unfold MapIterMut.body
  have : x.mem[p.2]? = some x.mem[p.2] := by simp
  rw [this]
  cases h1 : x.mem[p.2] with
  | none => exact ⟨⟨rfl, h⟩, Nat.le_refl _, by simp⟩
  | some v =>
    refine ⟨⟨rfl, h⟩, Nat.le_refl _, ?_⟩
    rintro b hb
    simp only [Option.some.injEq] at hb
    subst hb
    exact ⟨v, by rw [this, h1]⟩

theorem msteps_mapMutNext (hJ : Traced c J T) (m : List (Option V)) (hm : m.length < c.M) :
    MSteps (MutE T m) (Walked T m.length) TotalIterMut.len (fun p _ => Full m p.2) (Eff.mapMutNext c J) :=
  msteps_skipLoop (msteps_mutNext hJ m hm) (fun _ _ h => h.walked) fun a x _ h1 h2 => mapIterMut_mbody m a x h1 h2

theorem msteps_mapMutNextBack (hJ : Traced c J T) (m : List (Option V)) (hm : m.length < c.M) :
    MSteps (MutE T m) (Walked T m.length) TotalIterMut.len (fun p _ => Full m p.2) (Eff.mapMutNextBack c J) :=
  msteps_skipLoop (msteps_mutNextBack hJ m hm) (fun _ _ h => h.walked) fun a x _ h1 h2 => mapIterMut_mbody m a x h1 h2

/-- The invariant of `Drain`. -/
def DrainE (T : σ → List (Call K) → Prop) (n : Nat) (it : TotalIterMut (Option V)) (st : σ) : Prop :=
  it.mem.length = n ∧ SlotsInv T n it.it st

theorem drainE_new {st : σ} (h : T st []) (m : List (Option V)) : DrainE T m.length (Drain.new m) st :=
  ⟨rfl, slotsInv_new h m⟩

theorem DrainE.walked {n : Nat} {it : TotalIterMut (Option V)} {st : σ} (h : DrainE T n it st) : Walked T n st :=
  h.2.walked

theorem MutE.drain {m : List (Option V)} {it : TotalIterMut (Option V)} {st : σ} (h : MutE T m it st) :
    DrainE T m.length it st := by
  obtain ⟨rfl, h⟩ := h
  exact ⟨rfl, h⟩

theorem msteps_drainOf {n : Nat} {step : TotalIterMut (Option V) → M σ (Option (K × Nat) × TotalIterMut (Option V))}
    (h : ∀ m : List (Option V), m.length = n → MSteps (MutE T m) (Walked T n) TotalIterMut.len
      (fun p _ => p.2 < m.length) step) :
    MSteps (DrainE T n) (Walked T n) TotalIterMut.len (fun p _ => p.2 < n) step := by
  rintro it st ⟨h1, h2⟩
  refine (h it.mem h1 it st ⟨rfl, by rw [h1]; exact h2⟩).mono ?_ fun _ h => h
  rintro ⟨o, it1⟩ st1 ⟨g1, g2, g3⟩
  have g4 := g1.drain
  rw [h1] at g4
  exact ⟨g4, g2, fun a ha => ⟨(g3 a ha).1, by rw [← h1]; exact (g3 a ha).2⟩⟩

theorem drain_mbody {n : Nat} (p : K × Nat) (x : Drain V) {st : σ} (hs : DrainE T n x st) (hp : p.2 < n) :
    Holds (Drain.body p x) fun q =>
      DrainE T n q.2 st ∧ TotalIterMut.len q.2 ≤ TotalIterMut.len x ∧ ∀ b, q.1 = some b → True := by
  obtain ⟨rfl, h⟩ := hs
  unfold Drain.body
  have : x.mem[p.2]? = some x.mem[p.2] := by simp
  rw [this]
  cases x.mem[p.2] with
  | none => exact ⟨⟨by simp, h⟩, Nat.le_refl _, by simp⟩
  | some v => exact ⟨⟨by simp, h⟩, Nat.le_refl _, by simp⟩

theorem msteps_drainNext (hJ : Traced c J T) {n : Nat} (hn : n < c.M) :
    MSteps (DrainE (V := V) T n) (Walked T n) TotalIterMut.len (fun _ _ => True) (Eff.drainNext c J) :=
  msteps_skipLoop (msteps_drainOf fun m hm => by
    have := msteps_mutNext hJ m (by omega); rw [hm] at this; rw [hm]; exact this)
    (fun _ _ h => h.walked) fun a x _ h1 h2 => drain_mbody a x h1 h2

theorem msteps_drainNextBack (hJ : Traced c J T) {n : Nat} (hn : n < c.M) :
    MSteps (DrainE (V := V) T n) (Walked T n) TotalIterMut.len (fun _ _ => True) (Eff.drainNextBack c J) :=
  msteps_skipLoop (msteps_drainOf fun m hm => by
    have := msteps_mutNextBack hJ m (by omega); rw [hm] at this; rw [hm]; exact this)
    (fun _ _ h => h.walked) fun a x _ h1 h2 => drain_mbody a x h1 h2

theorem mholds_drainDrop (hJ : Traced c J T) {n : Nat} (hn : n < c.M) {x : Drain V} {st : σ} (hs : DrainE T n x st) :
    MHolds (Eff.drainDrop c J x) st (fun m st' => m.length = n ∧ Walked T n st') (Walked T n) := by
  have key : ∀ fuel (x : TotalIterMut (Option V)) st, TotalIterMut.len x < fuel → DrainE T n x st →
      MHolds (Eff.dropLoop c J fuel x) st (fun m st' => m.length = n ∧ Walked T n st') (Walked T n) := by
    intro fuel
    induction fuel with
    | zero => intro x st h; omega
    | succ fuel ih =>
      intro x st hf hi
      unfold Eff.dropLoop
      refine (msteps_drainNext hJ hn x st hi).bind ?_
      rintro ⟨o, x1⟩ st1 ⟨h1, h2, h3⟩
      cases o with
      | none => exact mholds_ok ⟨h1.1, h1.walked⟩
      | some a =>
        have := (h3 a rfl).1
        simp only at this
        exact ih x1 st1 (by omega) h1
  exact key _ x st (by omega) hs

theorem mholds_countLoop (hJ : Traced c J T) {n : Nat} (hn : n < c.M) (fuel : Nat) (x : MapIter V) (acc : Nat) {st : σ}
    (hf : TotalIter.len x < fuel) (hs : ListInv T (Option V) n x st) :
    MHolds (Eff.countLoop c J fuel x acc) st (fun _ st' => Walked T n st') (Walked T n) := by
  induction fuel generalizing x acc st with
  | zero => omega
  | succ fuel ih =>
    unfold Eff.countLoop
    refine (msteps_mapNext hJ hn x st hs).bind ?_
    rintro ⟨o, x1⟩ st1 ⟨h1, h2, h3⟩
    cases o with
    | none => exact mholds_ok h1.walked
    | some a =>
      have := (h3 a rfl).1
      simp only at this
      exact (sound_addU _ _ _).mbind h1.walked fun acc => ih x1 acc (by omega) h1

theorem mholds_mapLen (hJ : Traced c J T) (m : List (Option V)) (hm : m.length < c.M) {st : σ} (h : T st []) :
    MHolds (Eff.mapLen c J m) st (fun _ st' => Walked T m.length st') (Walked T m.length) :=
  mholds_countLoop hJ hm _ _ _ (Nat.lt_succ_self _) (listInv_new h m)

theorem mholds_mapIsEmpty (hJ : Traced c J T) (m : List (Option V)) (hm : m.length < c.M) {st : σ} (h : T st []) :
    MHolds (Eff.mapIsEmpty c J m) st (fun _ st' => Walked T m.length st') (Walked T m.length) := by
  refine (msteps_mapNext hJ hm _ st (listInv_new h m)).bind ?_
  rintro ⟨o, x⟩ st1 ⟨h1, -⟩
  exact mholds_ok h1.walked

/-! ## Clients of mutable iterators -/

/-- Invariant of a client of `iter_mut` on a sparse map. -/
def ClientE (T : σ → List (Call K) → Prop) (n : Nat) (x : MutClient V) (st : σ) : Prop :=
  x.it.mem.length = n ∧ SlotsInv T n x.it.it st ∧ ∀ i ∈ x.handed, Full x.it.mem i

theorem clientE_new {st : σ} (h : T st []) (m : List (Option V)) :
    ClientE T m.length (⟨TotalIterMut.new m, []⟩ : MutClient V) st := ⟨rfl, slotsInv_new h m, by simp⟩

theorem mholds_clientStep (hJ : Traced c J T) {n : Nat} (hn : n < c.M) (x : MutClient V) (st : σ) (op : MutStep V)
    (hs : ClientE T n x st) :
    MHolds (Eff.clientStep c J x op) st (fun p st' => ClientE T n p.2 st') (Walked T n) := by
  obtain ⟨hl, hsl, hh⟩ := hs
  have main : ∀ {next : MapIterMut V → M σ (Option (K × Nat) × MapIterMut V)},
      MSteps (MutE T x.it.mem) (Walked T x.it.mem.length) TotalIterMut.len (fun p _ => Full x.it.mem p.2) next →
      MHolds (next x.it >>= fun (o, it) => match o with
        | none => .of (.ok (none, ⟨it, x.handed⟩))
        | some (k, slot) => .of (do .ok (some (k, ← readSome it.mem slot), ⟨it, x.handed ++ [slot]⟩)))
        st (fun (p : Option (K × V) × MutClient V) st' => ClientE T n p.2 st') (Walked T n) := by
    intro next h
    rw [hl] at h
    refine (h x.it st ⟨rfl, by rw [hl]; exact hsl⟩).bind ?_
    rintro ⟨o, it⟩ st1 ⟨⟨hm, h2⟩, -, h3⟩
    simp only at hm
    rw [hl] at h2
    cases o with
    | none => exact mholds_ok ⟨by rw [← hl, hm], h2, by simp only [hm]; exact hh⟩
    | some p =>
      obtain ⟨k, slot⟩ := p
      have hf := (h3 _ rfl).2
      simp only at hf
      refine mholds_of (Sound.bind (holds_readSome (by rw [hm]; exact hf)) fun v => ?_) h2.walked
      refine ⟨by rw [← hl, hm], h2, fun i hi => ?_⟩
      simp only [hm]
      simp only [List.mem_append, List.mem_singleton] at hi
      rcases hi with hi | rfl
      · exact hh i hi
      · exact hf
  cases op with
  | front => exact main (msteps_mapMutNext hJ _ (by omega))
  | back => exact main (msteps_mapMutNextBack hJ _ (by omega))
  | write j v =>
    simp only [Eff.clientStep]
    split
    · exact mholds_ok ⟨hl, hsl, hh⟩
    · rename_i slot hj
      have hm := List.mem_of_getElem? hj
      refine mholds_of ((holds_writeSome v (hh _ hm)).bind ?_) hsl.walked
      rintro _ rfl
      exact ⟨by simp [hl], hsl, fun i hi => (hh i hi).set_some v⟩

theorem mholds_clientStepV (hJ : Traced c J T) {n : Nat} (hn : n < c.M) (x : MutClient V) (st : σ) (op : MutStep V)
    (hs : ClientE T n x st) :
    MHolds (Eff.clientStepV c J x op) st (fun p st' => ClientE T n p.2 st') (Walked T n) := by
  obtain ⟨hl, hsl, hh⟩ := hs
  have main : ∀ {next : MapIterMut V → M σ (Option Nat × MapIterMut V)},
      MSteps (MutE T x.it.mem) (Walked T x.it.mem.length) TotalIterMut.len (fun p _ => Full x.it.mem p) next →
      MHolds (next x.it >>= fun (o, it) => match o with
        | none => .of (.ok (none, ⟨it, x.handed⟩))
        | some slot => .of (do .ok (some (← readSome it.mem slot), ⟨it, x.handed ++ [slot]⟩)))
        st (fun (p : Option V × MutClient V) st' => ClientE T n p.2 st') (Walked T n) := by
    intro next h
    rw [hl] at h
    refine (h x.it st ⟨rfl, by rw [hl]; exact hsl⟩).bind ?_
    rintro ⟨o, it⟩ st1 ⟨⟨hm, h2⟩, -, h3⟩
    simp only at hm
    rw [hl] at h2
    cases o with
    | none => exact mholds_ok ⟨by rw [← hl, hm], h2, by simp only [hm]; exact hh⟩
    | some slot =>
      have hf := (h3 _ rfl).2
      simp only at hf
      refine mholds_of (Sound.bind (holds_readSome (by rw [hm]; exact hf)) fun v => ?_) h2.walked
      refine ⟨by rw [← hl, hm], h2, fun i hi => ?_⟩
      simp only [hm]
      simp only [List.mem_append, List.mem_singleton] at hi
      rcases hi with hi | rfl
      · exact hh i hi
      · exact hf
  cases op with
  | front => exact main ((msteps_mapMutNext hJ _ (by omega)).mapItem (fun p => p.2) fun _ _ h => h)
  | back => exact main ((msteps_mapMutNextBack hJ _ (by omega)).mapItem (fun p => p.2) fun _ _ h => h)
  | write j v =>
    simp only [Eff.clientStepV]
    split
    · exact mholds_ok ⟨hl, hsl, hh⟩
    · rename_i slot hj
      have hm := List.mem_of_getElem? hj
      refine mholds_of ((holds_writeSome v (hh _ hm)).bind ?_) hsl.walked
      rintro _ rfl
      exact ⟨by simp [hl], hsl, fun i hi => (hh i hi).set_some v⟩

/-- Invariant of a client of `iter_mut` on a total map. -/
def ClientTE (T : σ → List (Call K) → Prop) (n : Nat) (x : MutClientT V) (st : σ) : Prop :=
  x.it.mem.length = n ∧ SlotsInv T n x.it.it st ∧ ∀ i ∈ x.handed, i < n

theorem clientTE_new {st : σ} (h : T st []) (m : List V) :
    ClientTE T m.length (⟨TotalIterMut.new m, []⟩ : MutClientT V) st := ⟨rfl, slotsInv_new h m, by simp⟩

theorem mholds_clientStepT (hJ : Traced c J T) {n : Nat} (hn : n < c.M) (x : MutClientT V) (st : σ) (op : MutStep V)
    (hs : ClientTE T n x st) :
    MHolds (Eff.clientStepT c J x op) st (fun p st' => ClientTE T n p.2 st') (Walked T n) := by
  obtain ⟨hl, hsl, hh⟩ := hs
  have main : ∀ {next : TotalIterMut V → M σ (Option (K × Nat) × TotalIterMut V)},
      MSteps (MutE T x.it.mem) (Walked T x.it.mem.length) TotalIterMut.len (fun p _ => p.2 < x.it.mem.length) next →
      MHolds (next x.it >>= fun (o, it) => match o with
        | none => .of (.ok (none, ⟨it, x.handed⟩))
        | some (k, slot) => .of (do .ok (some (k, ← readSlot it.mem slot), ⟨it, x.handed ++ [slot]⟩)))
        st (fun (p : Option (K × V) × MutClientT V) st' => ClientTE T n p.2 st') (Walked T n) := by
    intro next h
    rw [hl] at h
    refine (h x.it st ⟨rfl, by rw [hl]; exact hsl⟩).bind ?_
    rintro ⟨o, it⟩ st1 ⟨⟨hm, h2⟩, -, h3⟩
    simp only at hm
    rw [hl] at h2
    cases o with
    | none => exact mholds_ok ⟨by rw [← hl, hm], h2, hh⟩
    | some p =>
      obtain ⟨k, slot⟩ := p
      have hf := (h3 _ rfl).2
      simp only at hf
      refine mholds_of ((holds_readSlot (by rw [hm, hl]; exact hf)).bind fun v _ => ?_) h2.walked
      refine ⟨by rw [← hl, hm], h2, fun i hi => ?_⟩
      simp only [List.mem_append, List.mem_singleton] at hi
      rcases hi with hi | rfl
      · exact hh i hi
      · exact hf
  cases op with
  | front => exact main (msteps_mutNext hJ _ (by omega))
  | back => exact main (msteps_mutNextBack hJ _ (by omega))
  | write j v =>
    simp only [Eff.clientStepT]
    split
    · exact mholds_ok ⟨hl, hsl, hh⟩
    · rename_i slot hj
      have hm := List.mem_of_getElem? hj
      refine mholds_of ((holds_writeSlot v (by rw [hl]; exact hh _ hm)).bind ?_) hsl.walked
      rintro _ rfl
      exact ⟨by simp [hl], hsl, hh⟩

/-! ## Operations without a key -/

theorem mholds_keyless (hJ : Traced c J T) (m : List (Option V)) (hm : m.length < c.M) {st : σ} (h : T st [])
    (op : MapOp K V) :
    MHolds (Eff.keyless c J m op) st (fun p st' => p.2.length = m.length ∧ Walked T m.length st')
      (Walked T m.length) := by
  have h0 : Walked T m.length st := ⟨[], h, walk_nil _⟩
  have hn := msteps_mapNext (V := V) hJ hm
  have hb := msteps_mapNextBack (V := V) hJ hm
  cases op with
  | len =>
    refine (mholds_mapLen hJ m hm h).bind fun _ _ hw => mholds_ok ⟨rfl, hw⟩
  | isEmpty =>
    refine (mholds_mapIsEmpty hJ m hm h).bind fun _ _ hw => mholds_ok ⟨rfl, hw⟩
  | iter ds =>
    refine (mholds_run hn hb ds (listInv_new h m)).bind ?_
    rintro ⟨os, x⟩ st1 h1
    exact mholds_ok ⟨rfl, h1.walked⟩
  | keys ds =>
    refine (mholds_run (hn.mapItem (post := fun _ _ => True) (fun p => p.1) fun _ _ h => h)
      (hb.mapItem (fun p => p.1) fun _ _ h => h) ds (listInv_new h m)).bind ?_
    rintro ⟨os, x⟩ st1 h1
    exact mholds_ok ⟨rfl, h1.walked⟩
  | values ds =>
    refine (mholds_run (hn.mapItem (post := fun _ _ => True) (fun p => p.2) fun _ _ h => h)
      (hb.mapItem (fun p => p.2) fun _ _ h => h) ds (listInv_new h m)).bind ?_
    rintro ⟨os, x⟩ st1 h1
    exact mholds_ok ⟨rfl, h1.walked⟩
  | iterMut steps =>
    refine (mholds_runOps (mholds_clientStep hJ hm) steps (clientE_new h m)).bind ?_
    rintro ⟨os, x⟩ st1 h1
    exact mholds_ok ⟨h1.1, h1.2.1.walked⟩
  | valuesMut steps =>
    refine (mholds_runOps (mholds_clientStepV hJ hm) steps (clientE_new h m)).bind ?_
    rintro ⟨os, x⟩ st1 h1
    exact mholds_ok ⟨h1.1, h1.2.1.walked⟩
  | drain ds leak =>
    refine (mholds_run (msteps_drainNext hJ hm) (msteps_drainNextBack hJ hm) ds (drainE_new h m)).bind ?_
    rintro ⟨os, x⟩ st1 h1
    cases leak with
    | true => exact mholds_ok ⟨h1.1, h1.walked⟩
    | false => exact (mholds_drainDrop hJ hm h1).bind fun _ _ hw => mholds_ok hw
  | clear =>
    exact (mholds_drainDrop hJ hm (drainE_new h m)).bind fun _ _ hw => mholds_ok hw
  | get k => exact mholds_ok ⟨rfl, h0⟩
  | getMut k w => exact mholds_ok ⟨rfl, h0⟩
  | insert k v => exact mholds_ok ⟨rfl, h0⟩
  | remove k => exact mholds_ok ⟨rfl, h0⟩
  | orInsert k v w => exact mholds_ok ⟨rfl, h0⟩
  | entry k v w => exact mholds_ok ⟨rfl, h0⟩

/-! ## Operations with a key -/

/-- No call, or one of `ordinal` on the key. -/
def AtMost (T : σ → List (Call K) → Prop) (k : K) (st : σ) : Prop := T st [] ∨ T st [.ordinal k]

theorem Traced.mordinal1 (hJ : Traced c J T) {st : σ} (h : T st []) (k : K) :
    MHolds (J.ordinal k) st (fun _ st' => T st' [.ordinal k]) (AtMost T k) :=
  (hJ.mordinal h k).mono (fun _ _ h => h) fun _ h => .inr h

theorem holds_getMutClient_len {m : List (Option V)} {r : Option Nat} (w : V) (h : ∀ i, r = some i → Full m i) :
    Holds (getMutClient (K := K) r m w) fun p => p.2.length = m.length := by
  cases r with
  | none => exact rfl
  | some i =>
    simp only [getMutClient]
    refine Sound.bind (holds_readSome (h i rfl)) fun v => (holds_writeSome w (h i rfl)).bind ?_
    rintro _ rfl
    simp

theorem holds_orInsert_len {m : List (Option V)} {e : Entry K} (v : V) (h : EntryInv m e) :
    Holds (e.orInsert m v) fun p => Full p.2 p.1 ∧ p.2.length = m.length := by
  cases e with
  | occupied k i =>
    obtain ⟨w, hw⟩ := h
    simp only [Entry.orInsert, Entry.occupiedGetMut, hw, unwrap_some, ok_bind, holds_ok]
    exact ⟨⟨w, hw⟩, trivial⟩
  | vacant k i =>
    unfold Entry.orInsert
    refine (holds_writeSlot (some v) h).bind ?_
    rintro _ rfl
    exact ⟨⟨v, List.getElem?_set_self h⟩, by simp⟩

theorem holds_entryClient_len {m : List (Option V)} {e : Entry K} (v w : V) (h : EntryInv m e) :
    Holds (entryClient e m v w) fun p => p.2.length = m.length := by
  cases e with
  | occupied k i =>
    obtain ⟨u, hu⟩ := h
    simp only [entryClient, Entry.occupiedGet, Entry.occupiedGetMut, hu, unwrap_some, ok_bind]
    refine (holds_writeSome (m := m) w ⟨u, hu⟩).bind ?_
    rintro _ rfl
    simp
  | vacant k i =>
    simp only [entryClient, Entry.vacantInsert]
    refine (holds_writeSlot (some v) h).bind ?_
    rintro _ rfl
    simp

theorem holds_orInsertClient {m : List (Option V)} {e : Entry K} (v w : V) (h : EntryInv m e) :
    Holds (e.orInsert m v >>= fun (slot, m) => readSome m slot >>= fun o => writeSome m slot w >>= fun m' =>
      (.ok (.opt (some o), m') : R (MapOut K V × List (Option V)))) fun p => p.2.length = m.length := by
  refine (holds_orInsert_len v h).bind ?_
  rintro ⟨i, m'⟩ ⟨hf, hl⟩
  refine Sound.bind (holds_readSome hf) fun o => (holds_writeSome w hf).bind ?_
  rintro _ rfl
  simpa using hl

theorem holds_initFullMap (hJ : Traced c J T) (sz : Nat) (m : OMap V) (hm : m.length < c.M) :
    Holds (Eff.initFullMap c J sz m) fun m' => m'.length < c.M := by
  have hw : ∀ c sz n, Sound (withCapacity c sz n) := by intros; unfold withCapacity; sound
  unfold Eff.initFullMap
  split
  · refine hJ.size.holds'.bind fun n h => Sound.bind (hw c sz n) fun _ => ?_
    rw [h]
    simpa using hJ.size_lt n h
  · exact hm

theorem mholds_omapInsert (hJ : Traced c J T) (sz : Nat) (m : OMap V) (hm : m.length < c.M) (k : K) (v : V) {st : σ}
    (h : T st []) : MHolds (Eff.omapInsert c J sz m k v) st
      (fun p st' => p.2.length < c.M ∧ T st' [.ordinal k]) (AtMost T k) := by
  refine (holds_initFullMap hJ sz m hm).mbind (.inl h) fun m' hm' => ?_
  refine (hJ.mordinal1 h k).bind fun i st1 h1 => ?_
  refine mholds_of ?_ (.inr h1)
  refine Sound.bind (sound_getIdx _ _) fun old => ?_
  refine Holds.bind (P := fun m'' => m''.length = m'.length) ?_ fun m'' hl => ⟨by simp only [hl]; exact hm', h1⟩
  unfold setIdx
  split <;> simp [Holds]

theorem mholds_omapEntry (hJ : Traced c J T) (sz : Nat) (m : OMap V) (hm : m.length < c.M) (k : K) {st : σ}
    (h : T st []) : MHolds (Eff.omapEntry c J sz m k) st
      (fun p st' => EntryInv p.2 p.1 ∧ p.2.length < c.M ∧ T st' [.ordinal k]) (AtMost T k) := by
  refine (holds_initFullMap hJ sz m hm).mbind (.inl h) fun m' hm' => ?_
  refine (hJ.mordinal1 h k).bind fun i st1 h1 => ?_
  refine mholds_of ((holds_slotOf m' i).bind fun j hj => (holds_entryNew k hj).bind fun e he => ?_) (.inr h1)
  exact ⟨he, hm', h1⟩

theorem mholds_omapKeyed (hJ : Traced c J T) (sz : Nat) (m : OMap V) (hm : m.length < c.M) {st : σ} (h : T st [])
    (op : MapOp K V) {k : K} (hk : op.key? = some k) :
    MHolds (Eff.omapStep c J sz m op) st (fun p st' => p.2.length < c.M ∧ T st' [.ordinal k]) (AtMost T k) := by
  cases op with
  | get k' =>
    cases hk
    exact (hJ.mordinal1 h k).bind fun i st1 h1 => mholds_ok ⟨hm, h1⟩
  | getMut k' w =>
    cases hk
    refine (hJ.mordinal1 h k).bind fun i st1 h1 => mholds_of ?_ (.inr h1)
    refine (holds_getMutClient_len w ?_).mono fun p hp => ⟨by rw [hp]; exact hm, h1⟩
    intro j hj
    simp only [Option.map_eq_some_iff] at hj
    obtain ⟨v, hv, rfl⟩ := hj
    exact ⟨v, Option.join_eq_some_iff.1 hv⟩
  | insert k' v =>
    cases hk
    refine (mholds_omapInsert hJ sz m hm k v h).bind ?_
    rintro ⟨old, m'⟩ st1 h1
    exact mholds_ok h1
  | remove k' =>
    cases hk
    refine (hJ.mordinal1 h k).bind fun i st1 h1 => ?_
    split
    · exact mholds_ok ⟨hm, h1⟩
    · exact mholds_ok ⟨by simpa using hm, h1⟩
  | orInsert k' v w =>
    cases hk
    refine (mholds_omapEntry hJ sz m hm k h).bind ?_
    rintro ⟨e, m'⟩ st1 ⟨he, hl, h1⟩
    exact mholds_of ((holds_orInsertClient v w he).mono fun p hp => ⟨by rw [hp]; exact hl, h1⟩) (.inr h1)
  | entry k' v w =>
    cases hk
    refine (mholds_omapEntry hJ sz m hm k h).bind ?_
    rintro ⟨e, m'⟩ st1 ⟨he, hl, h1⟩
    exact mholds_of ((holds_entryClient_len v w he).mono fun p hp => ⟨by rw [hp]; exact hl, h1⟩) (.inr h1)
  | len => cases hk
  | isEmpty => cases hk
  | iter => cases hk
  | keys => cases hk
  | values => cases hk
  | iterMut => cases hk
  | valuesMut => cases hk
  | drain => cases hk
  | clear => cases hk

theorem omapStep_keyless (sz : Nat) (m : OMap V) (op : MapOp K V) (hk : op.key? = none) :
    Eff.omapStep c J sz m op = Eff.keyless c J m op := by cases op <;> first | rfl | cases hk

theorem amapStep_keyless (m : OrdinalArrayMap V) (op : MapOp K V) (hk : op.key? = none) :
    Eff.amapStep c J m op = Eff.keyless c J m op := by cases op <;> first | rfl | cases hk

/-! ## The total maps -/

theorem mholds_slotFor (hJ : Traced c J T) (m : List V) (k : K) {st : σ} (h : T st []) :
    MHolds (Eff.slotFor J m k) st (fun i st' => i < m.length ∧ T st' [.ordinal k]) (AtMost T k) :=
  (hJ.mordinal1 h k).bind fun i _ h1 => mholds_of ((holds_slotOf m i).mono fun _ hj => ⟨hj, h1⟩) (.inr h1)

theorem mholds_totalGet (hJ : Traced c J T) (m : List V) (k : K) {st : σ} (h : T st []) :
    MHolds (Eff.totalGet J m k) st (fun _ st' => T st' [.ordinal k]) (AtMost T k) :=
  (hJ.mordinal1 h k).bind fun i _ h1 => mholds_of ((sound_getIdx m i).holds.mono fun _ _ => h1) (.inr h1)

theorem holds_setIdx_len (m : List V) (i : Nat) (v : V) : Holds (setIdx m i v) fun m' => m'.length = m.length := by
  unfold setIdx
  split <;> simp [Holds]

theorem mholds_totalKeyed (hJ : Traced c J T) (len : R Nat) (m : List V) {st : σ} (h : T st []) (op : TotalOp K V)
    {k : K} (hk : op.key? = some k) :
    MHolds (Eff.totalStep c J len m op) st (fun p st' => p.2.length = m.length ∧ T st' [.ordinal k])
      (AtMost T k) := by
  have hg : ∀ w, MHolds (Eff.slotFor J m k >>= fun slot => M.of (readSlot m slot >>= fun o =>
      writeSlot m slot w >>= fun m' => (.ok (MapOut.opt (some o), m') : R (MapOut K V × List V)))) st
      (fun p st' => p.2.length = m.length ∧ T st' [.ordinal k]) (AtMost T k) := fun w =>
    (mholds_slotFor hJ m k h).bind fun i _ ⟨hi, h1⟩ => mholds_of ((holds_readSlot hi).bind fun _ _ =>
      (holds_writeSlot w hi).bind fun m' hm' => ⟨by simp [hm'], h1⟩) (.inr h1)
  cases op with
  | get k' => cases hk; exact (mholds_totalGet hJ m k h).bind fun _ _ h1 => mholds_ok ⟨rfl, h1⟩
  | index k' => cases hk; exact (mholds_totalGet hJ m k h).bind fun _ _ h1 => mholds_ok ⟨rfl, h1⟩
  | getMut k' w => cases hk; exact hg w
  | indexMut k' w => cases hk; exact hg w
  | insert k' v =>
    cases hk
    exact (hJ.mordinal1 h k).bind fun i _ h1 => mholds_of (Sound.bind (sound_getIdx m i) fun _ =>
      (holds_setIdx_len m i v).bind fun _ hl => ⟨hl, h1⟩) (.inr h1)
  | len => cases hk
  | isEmpty => cases hk
  | iter => cases hk
  | keys => cases hk
  | values => cases hk
  | iterMut => cases hk
  | valuesMut => cases hk

/-- The calls so far leave out what the values iterator has left. -/
def ValsInv (T : σ → List (Call K) → Prop) (n : Nat) (r : OrdinalValues) (st : σ) : Prop :=
  r.stop ≤ n ∧ ∃ l, T st l ∧ WalkOut n r.start r.stop l

theorem ValsInv.walked {n : Nat} {r : OrdinalValues} {st : σ} (h : ValsInv T n r st) : Walked T n st := by
  obtain ⟨-, l, h1, h2⟩ := h
  exact ⟨l, h1, h2.walk⟩

theorem msteps_valuesNext (hJ : Traced c J T) {n : Nat} :
    MSteps (ValsInv T n) (Walked T n) OrdinalValues.len (fun _ _ => True) (Eff.valuesNext J) := by
  rintro ⟨lo, hi⟩ st ⟨hle, l, hT, hw⟩
  unfold Eff.valuesNext Range.next
  dsimp only at hle hw ⊢
  by_cases h1 : lo < hi
  · simp only [h1, if_true]
    have hw' : WalkOut n (lo + 1) hi (l ++ [.from lo]) :=
      hw.add (by omega) (by omega) (by omega) (by omega) (by omega)
    refine ((hJ.mfrom hT lo).mono (fun _ _ h => h) fun st' h => ⟨_, h, hw'.walk⟩).bind ?_
    intro o st1 hT1
    refine (sound_unwrap o).mbind ⟨_, hT1, hw'.walk⟩ fun k => ?_
    refine mholds_ok ⟨⟨hle, _, hT1, hw'⟩, ?_, ?_⟩
    · simp only [OrdinalValues.len, Range.len, h1, if_true]; split <;> omega
    · intro a _; simp only [OrdinalValues.len, Range.len, h1, if_true]; refine ⟨?_, trivial⟩; split <;> omega
  · simp only [h1, if_false]
    exact mholds_ok ⟨⟨hle, l, hT, hw⟩, Nat.le_refl _, by simp⟩

theorem msteps_valuesNextBack (hJ : Traced c J T) {n : Nat} :
    MSteps (ValsInv T n) (Walked T n) OrdinalValues.len (fun _ _ => True) (Eff.valuesNextBack J) := by
  rintro ⟨lo, hi⟩ st ⟨hle, l, hT, hw⟩
  unfold Eff.valuesNextBack Range.nextBack
  dsimp only at hle hw ⊢
  by_cases h1 : lo < hi
  · simp only [h1, if_true]
    have hw' : WalkOut n lo (hi - 1) (l ++ [.from (hi - 1)]) :=
      hw.add (by omega) (by omega) (by omega) (by omega) (by omega)
    refine ((hJ.mfrom hT (hi - 1)).mono (fun _ _ h => h) fun st' h => ⟨_, h, hw'.walk⟩).bind ?_
    intro o st1 hT1
    refine (sound_unwrap o).mbind ⟨_, hT1, hw'.walk⟩ fun k => ?_
    refine mholds_ok ⟨⟨by simp only; omega, _, hT1, hw'⟩, ?_, ?_⟩
    · simp only [OrdinalValues.len, Range.len, h1, if_true]; split <;> omega
    · intro a _; simp only [OrdinalValues.len, Range.len, h1, if_true]; refine ⟨?_, trivial⟩; split <;> omega
  · simp only [h1, if_false]
    exact mholds_ok ⟨⟨hle, l, hT, hw⟩, Nat.le_refl _, by simp⟩

/-- A new `OrdinalValues`. -/
theorem holds_valuesNew (hJ : Traced c J T) {st : σ} (h : T st []) :
    Holds (Eff.valuesNew J) fun r => r.start = 0 ∧ J.size = .ok r.stop ∧ ValsInv T r.stop r st := by
  unfold Eff.valuesNew
  refine (hJ.size.holds').bind fun n hn => ?_
  exact ⟨rfl, hn, Nat.le_refl _, [], h, walkOut_nil _ _ _⟩

theorem holds_slotStep_len (x : SlotClient V) (op : MutStep V) (hs : SlotInv x) :
    Holds (SlotClient.step x op) fun p => SlotInv p.2 ∧ p.2.mem.length = x.mem.length := by
  have h := holds_slotStep x op hs
  cases hr : SlotClient.step x op with
  | error e => rw [hr] at h; cases e <;> exact h
  | ok p =>
    rw [hr] at h
    refine ⟨h, ?_⟩
    cases op with
    | front =>
      simp only [SlotClient.step] at hr
      split at hr
      · cases hr; rfl
      · simp only [Bind.bind, Except.bind] at hr
        split at hr <;> cases hr
        rfl
    | back =>
      simp only [SlotClient.step] at hr
      split at hr
      · cases hr; rfl
      · simp only [Bind.bind, Except.bind] at hr
        split at hr <;> cases hr
        rfl
    | write j v =>
      simp only [SlotClient.step] at hr
      split at hr
      · cases hr; rfl
      · rename_i slot hj
        have hw := holds_writeSlot v (hs.2 _ (List.mem_of_getElem? hj))
        simp only [Bind.bind, Except.bind] at hr
        split at hr
        · cases hr
        · rename_i m' hm'
          rw [hm'] at hw
          cases hr
          simp only [holds_ok] at hw
          simp [hw]

/-- The calls are a walk below one of two bounds. -/
def WalkedOr (T : σ → List (Call K) → Prop) (n : Nat) (J : SImpl σ K) (st : σ) : Prop :=
  Walked T n st ∨ ∃ n', J.size = .ok n' ∧ Walked T n' st

theorem mholds_totalKeyless (hJ : Traced c J T) (len : R Nat) (hlen : Sound len) (m : List V) (hm : m.length < c.M)
    {st : σ} (h : T st []) (op : TotalOp K V) (hk : op.key? = none) :
    MHolds (Eff.totalStep c J len m op) st (fun p st' => p.2.length = m.length ∧ WalkedOr T m.length J st')
      (WalkedOr T m.length J) := by
  have h0 : WalkedOr T m.length J st := .inl ⟨[], h, walk_nil _⟩
  cases op with
  | get => cases hk
  | index => cases hk
  | getMut => cases hk
  | indexMut => cases hk
  | insert => cases hk
  | len => exact mholds_of (Sound.bind hlen fun _ => ⟨rfl, h0⟩) h0
  | isEmpty => exact mholds_of (Sound.bind hlen fun _ => ⟨rfl, h0⟩) h0
  | iter ds =>
    refine ((mholds_run (msteps_listNext hJ hm) (msteps_listNextBack hJ hm) ds (listInv_new h m)).mono
      (fun _ _ h => h) fun _ h => .inl h).bind ?_
    rintro ⟨os, x⟩ st1 h1
    exact mholds_ok ⟨rfl, .inl h1.walked⟩
  | keys ds =>
    refine (holds_valuesNew hJ h).mbind h0 fun r ⟨_, hsz, hr⟩ => ?_
    refine ((mholds_run (msteps_valuesNext hJ) (msteps_valuesNextBack hJ) ds hr).mono
      (fun _ _ h => h) fun _ h => .inr ⟨_, hsz, h⟩).bind ?_
    rintro ⟨os, x⟩ st1 h1
    exact mholds_ok ⟨rfl, .inr ⟨_, hsz, h1.walked⟩⟩
  | values ds => exact mholds_of (Sound.bind (sound_listRun m ds) fun _ => ⟨rfl, h0⟩) h0
  | iterMut steps =>
    refine ((mholds_runOps (mholds_clientStepT hJ hm) steps (clientTE_new h m)).mono
      (fun _ _ h => h) fun _ h => .inl h).bind ?_
    rintro ⟨os, x⟩ st1 h1
    exact mholds_ok ⟨h1.1, .inl h1.2.1.walked⟩
  | valuesMut steps =>
    refine mholds_of ((holds_runOps (inv := fun x => SlotInv x ∧ x.mem.length = m.length) ?_ steps
      (s := ⟨m, ⟨0, m.length⟩, []⟩) ⟨⟨Nat.le_refl _, by simp⟩, rfl⟩).bind fun p hp => ⟨hp.2, h0⟩) h0
    rintro x op ⟨hx, hl⟩
    have := (holds_slotStep_len x op hx).mono (Q := fun p => SlotInv p.2 ∧ p.2.mem.length = m.length)
      fun p hp => ⟨hp.1, hp.2.trans hl⟩
    exact this

/-! ## `OrdinalArrayMap` -/

theorem mholds_amapInsert (hJ : Traced c J T) (m : OrdinalArrayMap V) (k : K) (v : V) {st : σ} (h : T st []) :
    MHolds (Eff.amapInsert J m k v) st (fun p st' => p.2.length = m.length ∧ T st' [.ordinal k]) (AtMost T k) :=
  (mholds_slotFor hJ m k h).bind fun i _ ⟨hi, h1⟩ => mholds_of ((holds_readSlot hi).bind fun _ _ =>
    (holds_writeSlot (some v) hi).bind fun m' hm' => ⟨by simp [hm'], h1⟩) (.inr h1)

theorem mholds_amapEntry (hJ : Traced c J T) (m : OrdinalArrayMap V) (k : K) {st : σ} (h : T st []) :
    MHolds (Eff.amapEntry J m k) st
      (fun p st' => EntryInv p.2 p.1 ∧ p.2.length = m.length ∧ T st' [.ordinal k]) (AtMost T k) :=
  (mholds_slotFor hJ m k h).bind fun _ _ ⟨hi, h1⟩ =>
    mholds_of ((holds_entryNew k hi).bind fun _ he => ⟨he, rfl, h1⟩) (.inr h1)

theorem mholds_amapKeyed (hJ : Traced c J T) (m : OrdinalArrayMap V) {st : σ} (h : T st []) (op : MapOp K V) {k : K}
    (hk : op.key? = some k) :
    MHolds (Eff.amapStep c J m op) st (fun p st' => p.2.length = m.length ∧ T st' [.ordinal k]) (AtMost T k) := by
  cases op with
  | get k' => cases hk; exact (mholds_totalGet hJ m k h).bind fun _ _ h1 => mholds_ok ⟨rfl, h1⟩
  | getMut k' w =>
    cases hk
    refine (mholds_slotFor hJ m k h).bind fun i _ ⟨hi, h1⟩ => mholds_of ((holds_readSlot hi).bind fun o ho => ?_) (.inr h1)
    refine (holds_getMutClient_len w ?_).mono fun p hp => ⟨hp, h1⟩
    intro j hj
    simp only [Option.map_eq_some_iff] at hj
    obtain ⟨v, rfl, rfl⟩ := hj
    exact ⟨v, ho⟩
  | insert k' v =>
    cases hk
    refine (mholds_amapInsert hJ m k v h).bind ?_
    rintro ⟨old, m'⟩ st1 h1
    exact mholds_ok h1
  | remove k' =>
    cases hk
    exact (mholds_slotFor hJ m k h).bind fun i _ ⟨hi, h1⟩ => mholds_of ((holds_readSlot hi).bind fun _ _ =>
      (holds_writeSlot none hi).bind fun m' hm' => ⟨by simp [hm'], h1⟩) (.inr h1)
  | orInsert k' v w =>
    cases hk
    refine (mholds_amapEntry hJ m k h).bind ?_
    rintro ⟨e, m'⟩ st1 ⟨he, hl, h1⟩
    exact mholds_of ((holds_orInsertClient v w he).mono fun p hp => ⟨by rw [hp]; exact hl, h1⟩) (.inr h1)
  | entry k' v w =>
    cases hk
    refine (mholds_amapEntry hJ m k h).bind ?_
    rintro ⟨e, m'⟩ st1 ⟨he, hl, h1⟩
    exact mholds_of ((holds_entryClient_len v w he).mono fun p hp => ⟨by rw [hp]; exact hl, h1⟩) (.inr h1)
  | len => cases hk
  | isEmpty => cases hk
  | iter => cases hk
  | keys => cases hk
  | values => cases hk
  | iterMut => cases hk
  | valuesMut => cases hk
  | drain => cases hk
  | clear => cases hk

end OrdinalMap
