import Verif.Lemmas.Sound
import Verif.Model.Debug
import Verif.Lemmas.Set
/-! # Soundness of the loops and iterators -/

namespace OrdinalMap
variable {K V W E τ σ ι A B ρ ω ο : Type}

/-- A step that keeps an invariant, never increases a measure, decreases it when it yields, and yields
only good items. -/
def Steps (inv : σ → Prop) (mu : σ → Nat) (item : A → σ → Prop) (step : σ → R (Option A × σ)) : Prop :=
  ∀ s, inv s → Holds (step s) fun p => inv p.2 ∧ mu p.2 ≤ mu s ∧ ∀ a, p.1 = some a → mu p.2 < mu s ∧ item a p.2

theorem steps_skipLoop {step : σ → R (Option A × σ)} {body : A → σ → R (Option B × σ)} {inv : σ → Prop}
    {mu : σ → Nat} {item : A → σ → Prop} {post : B → σ → Prop} (hs : Steps inv mu item step)
    (hb : ∀ a s, inv s → item a s →
      Holds (body a s) fun p => inv p.2 ∧ mu p.2 ≤ mu s ∧ ∀ b, p.1 = some b → post b p.2) :
    Steps inv mu post fun s => skipLoop step body (mu s + 1) s := by
  have key : ∀ fuel s, mu s < fuel → inv s → Holds (skipLoop step body fuel s) fun p =>
      inv p.2 ∧ mu p.2 ≤ mu s ∧ ∀ b, p.1 = some b → mu p.2 < mu s ∧ post b p.2 := by
    intro fuel
    induction fuel with
    | zero => intro s h; omega
    | succ fuel ih =>
      intro s hf hi
      unfold skipLoop
      refine (hs s hi).bind ?_
      rintro ⟨o, s1⟩ ⟨h1, h2, h3⟩
      cases o with
      | none => exact ⟨h1, h2, fun b hb => by cases hb⟩
      | some a =>
        obtain ⟨h4, h5⟩ := h3 a rfl
        refine (hb a s1 h1 h5).bind ?_
        rintro ⟨o, s2⟩ ⟨g1, g2, g3⟩
        simp only at h2 h4 g2
        cases o with
        | some b => exact ⟨g1, by simp only; omega, fun b' hb' => ⟨by simp only; omega, g3 b' hb'⟩⟩
        | none =>
          refine (ih s2 (by omega) g1).mono ?_
          rintro ⟨o, s3⟩ ⟨k1, k2, k3⟩
          simp only at k2
          refine ⟨k1, by simp only; omega, fun b hb => ?_⟩
          obtain ⟨k4, k5⟩ := k3 b hb
          exact ⟨by simp only at k4 ⊢; omega, k5⟩
  intro s hi
  exact key _ s (by omega) hi

/-- Mapping the items of a step. -/
theorem Steps.map {step : σ → R (Option A × σ)} {inv : σ → Prop} {mu : σ → Nat} {item : A → σ → Prop}
    {post : B → σ → Prop} (hs : Steps inv mu item step) (f : A → B) (hf : ∀ a s, item a s → post (f a) s) :
    Steps inv mu post (fun s => step s >>= fun p => .ok (p.1.map f, p.2)) := by
  intro s hi
  refine (hs s hi).bind ?_
  rintro ⟨o, s1⟩ ⟨h1, h2, h3⟩
  refine ⟨h1, h2, fun b hb => ?_⟩
  cases o with
  | none => simp at hb
  | some a =>
    simp only [Option.map_some, Option.some.injEq] at hb
    subst hb
    exact ⟨(h3 a rfl).1, hf _ _ (h3 a rfl).2⟩

theorem holds_run {it : DEIter σ ι} {inv : σ → Prop} {mu : σ → Nat} {item : ι → σ → Prop}
    (h1 : Steps inv mu item it.next) (h2 : Steps inv mu item it.nextBack) (ds : List Dir) {s : σ} (hi : inv s) :
    Holds (it.run s ds) fun p => inv p.2 := by
  induction ds generalizing s with
  | nil => exact hi
  | cons d ds ih =>
    unfold DEIter.run
    have : Holds (it.step s d) fun p => inv p.2 := by
      cases d
      · exact (h1 s hi).mono fun p h => h.1
      · exact (h2 s hi).mono fun p h => h.1
    refine this.bind ?_
    rintro ⟨o, s1⟩ h
    refine (ih h).bind ?_
    rintro ⟨os, s2⟩ h'
    exact h'

theorem sound_entriesLoop {next : σ → R (Option ι × σ)} {inv : σ → Prop} {mu : σ → Nat} {item : ι → σ → Prop}
    (hs : Steps inv mu item next) (alt : Bool) (text : ι → String) :
    ∀ fuel s b, mu s < fuel → inv s → Sound (entriesLoop alt next text fuel s b) := by
  intro fuel
  induction fuel with
  | zero => intro s b h; omega
  | succ fuel ih =>
    intro s b hf hi
    unfold entriesLoop
    refine Holds.sound (P := fun _ => True) ((hs s hi).bind ?_)
    rintro ⟨o, s1⟩ ⟨h1, h2, h3⟩
    cases o with
    | none => trivial
    | some x =>
      have := (h3 x rfl).1
      simp only at this
      exact (ih s1 _ (by omega) h1).holds

theorem sound_debugSeq {next : σ → R (Option ι × σ)} {inv : σ → Prop} {mu : σ → Nat} {item : ι → σ → Prop}
    (hs : Steps inv mu item next) (opn cls : String) (alt : Bool) (text : ι → String) {s : σ} (hi : inv s) :
    Sound (debugSeq opn cls alt next text (mu s + 1) s) := by
  have := sound_entriesLoop hs alt text (mu s + 1) s ⟨opn, false⟩ (by omega) hi
  unfold debugSeq
  sound

/-- Runs of a client keep an invariant. -/
theorem holds_runOps {step : σ → ω → R (ο × σ)} {inv : σ → Prop}
    (hs : ∀ s op, inv s → Holds (step s op) fun p => inv p.2) (ops : List ω) {s : σ} (hi : inv s) :
    Holds (runOps step s ops) fun p => inv p.2 := by
  induction ops generalizing s with
  | nil => exact hi
  | cons d ds ih =>
    unfold runOps
    refine (hs s d hi).bind ?_
    rintro ⟨o, s1⟩ h
    refine (ih h).bind ?_
    rintro ⟨os, s2⟩ h'
    exact h'

/-! ## `OrdinalValues` and set iterators -/

variable {I : OrdinalImpl τ}

theorem steps_valuesNext (hI : SoundImpl I) :
    Steps (fun _ => True) OrdinalValues.len (fun _ _ => True) (OrdinalValues.next I) := by
  rintro ⟨lo, hi⟩ -
  unfold OrdinalValues.next Range.next
  dsimp only
  by_cases h : lo < hi
  · rw [if_pos h]
    refine Sound.bind (hI.fromOrdinal _) fun o => Sound.bind (sound_unwrap o) fun a => ?_
    simp only [holds_ok, OrdinalValues.len, Range.len, h, if_true, true_and, and_true]
    split <;> simp <;> omega
  · rw [if_neg h]; simp

theorem steps_valuesNextBack (hI : SoundImpl I) :
    Steps (fun _ => True) OrdinalValues.len (fun _ _ => True) (OrdinalValues.nextBack I) := by
  rintro ⟨lo, hi⟩ -
  unfold OrdinalValues.nextBack Range.nextBack
  dsimp only
  by_cases h : lo < hi
  · rw [if_pos h]
    refine Sound.bind (hI.fromOrdinal _) fun o => Sound.bind (sound_unwrap o) fun a => ?_
    simp only [holds_ok, OrdinalValues.len, Range.len, h, if_true, true_and, and_true]
    split <;> simp <;> omega
  · rw [if_neg h]; simp

theorem sound_setRefNew (c : Cfg) (hI : SoundImpl I) (ws : List (BitVec 64)) : Sound (SetRef.new c I ws) := by
  unfold SetRef.new ordinalArraySetS; sound

theorem sound_contains (c : Cfg) (hI : SoundImpl I) (s : SetRef) (x : τ) : Sound (s.contains c I x) := by
  unfold SetRef.contains; sound

theorem steps_setNext (c : Cfg) (hI : SoundImpl I) :
    Steps (fun _ => True) (fun s : SetIter => s.iter.len) (fun _ _ => True) (SetIter.next c I) := by
  have key : ∀ fuel (s : SetIter), s.iter.len < fuel → Holds (SetIter.nextLoop c I fuel s) fun p =>
      p.2.iter.len ≤ s.iter.len ∧ ∀ a, p.1 = some a → p.2.iter.len < s.iter.len := by
    intro fuel
    induction fuel with
    | zero => intro s h; omega
    | succ fuel ih =>
      intro s hf
      unfold SetIter.nextLoop
      refine (steps_valuesNext hI s.iter trivial).bind ?_
      rintro ⟨o, it⟩ ⟨-, h2, h3⟩
      cases o with
      | none => exact ⟨h2, fun a ha => by cases ha⟩
      | some a =>
        have h4 := (h3 a rfl).1
        simp only at h4
        refine Sound.bind (sound_contains c hI _ _) fun b => ?_
        split
        · exact ⟨h2, fun _ _ => h4⟩
        · refine (ih ⟨it, s.set⟩ (by simp only; omega)).mono ?_
          rintro ⟨o, s3⟩ ⟨k2, k3⟩
          simp only at k2 k3
          refine ⟨by simp only; omega, fun b hb => ?_⟩
          have := k3 b hb
          simp only; omega
  intro s _
  refine (key (s.iter.len + 1) s (by omega)).mono ?_
  rintro p ⟨h1, h2⟩
  exact ⟨trivial, h1, fun a ha => ⟨h2 a ha, trivial⟩⟩

theorem steps_setNextBack (c : Cfg) (hI : SoundImpl I) :
    Steps (fun _ => True) (fun s : SetIter => s.iter.len) (fun _ _ => True) (SetIter.nextBack c I) := by
  have key : ∀ fuel (s : SetIter), s.iter.len < fuel → Holds (SetIter.nextBackLoop c I fuel s) fun p =>
      p.2.iter.len ≤ s.iter.len ∧ ∀ a, p.1 = some a → p.2.iter.len < s.iter.len := by
    intro fuel
    induction fuel with
    | zero => intro s h; omega
    | succ fuel ih =>
      intro s hf
      unfold SetIter.nextBackLoop
      refine (steps_valuesNextBack hI s.iter trivial).bind ?_
      rintro ⟨o, it⟩ ⟨-, h2, h3⟩
      cases o with
      | none => exact ⟨h2, fun a ha => by cases ha⟩
      | some a =>
        have h4 := (h3 a rfl).1
        simp only at h4
        refine Sound.bind (sound_contains c hI _ _) fun b => ?_
        split
        · exact ⟨h2, fun _ _ => h4⟩
        · refine (ih ⟨it, s.set⟩ (by simp only; omega)).mono ?_
          rintro ⟨o, s3⟩ ⟨k2, k3⟩
          simp only at k2 k3
          refine ⟨by simp only; omega, fun b hb => ?_⟩
          have := k3 b hb
          simp only; omega
  intro s _
  refine (key (s.iter.len + 1) s (by omega)).mono ?_
  rintro p ⟨h1, h2⟩
  exact ⟨trivial, h1, fun a ha => ⟨h2 a ha, trivial⟩⟩

/-! ## Enumerators -/

variable {I : OrdinalImpl K}

theorem steps_listNext (c : Cfg) (hI : SoundImpl I) :
    Steps (fun _ => True) (fun s : Enumerate (List V) => Enumerate.len (listIter V) s) (fun _ _ => True)
      (Enumerate.nextItem c I (listIter V)) := by
  rintro ⟨n, l⟩ -
  unfold Enumerate.nextItem listIter Enumerate.len
  dsimp only
  cases l with
  | nil => simp
  | cons v l =>
    simp only [List.head?_cons, List.tail_cons]
    refine Sound.bind (hI.fromOrdinal _) fun o => Sound.bind (sound_unwrap o) fun a =>
      Sound.bind (sound_addU _ _ _) fun m => ?_
    simp

theorem steps_listNextBack (c : Cfg) (hI : SoundImpl I) :
    Steps (fun _ => True) (fun s : Enumerate (List V) => Enumerate.len (listIter V) s) (fun _ _ => True)
      (Enumerate.nextBackItem c I (listIter V)) := by
  rintro ⟨n, l⟩ -
  unfold Enumerate.nextBackItem listIter Enumerate.len
  dsimp only
  cases hl : l.getLast? with
  | none => simp
  | some v =>
    have : l ≠ [] := by rintro rfl; simp at hl
    have := List.length_pos_iff.2 this
    refine Sound.bind (sound_addU _ _ _) fun m => Sound.bind (hI.fromOrdinal _) fun o =>
      Sound.bind (sound_unwrap o) fun a => ?_
    simp; omega

/-- The invariant of `IterMut` over the memory `m`. -/
def MutInv (m : List V) (s : TotalIterMut V) : Prop := s.mem = m ∧ s.it.iter.stop ≤ m.length

theorem steps_mutNext (c : Cfg) (hI : SoundImpl I) (m : List V) :
    Steps (MutInv m) TotalIterMut.len (fun p _ => p.2 < m.length) (TotalIterMut.next c I) := by
  rintro ⟨mem, n, lo, hi⟩ ⟨rfl, h⟩
  unfold TotalIterMut.next Enumerate.nextItem slotIter Range.next
  simp only at h ⊢
  by_cases h1 : lo < hi
  · simp only [h1, if_true, bind_assoc]
    refine Sound.bind (hI.fromOrdinal _) fun o => Sound.bind (sound_unwrap o) fun a =>
      Sound.bind (sound_addU _ _ _) fun m => ?_
    simp only [ok_bind, holds_ok, MutInv, TotalIterMut.len, Enumerate.len, slotIter, Range.len, h1, if_true]
    refine ⟨⟨trivial, h⟩, by split <;> omega, ?_⟩
    rintro ⟨k, i⟩ hk
    simp only [Option.some.injEq, Prod.mk.injEq] at hk
    refine ⟨by split <;> omega, by simp only; omega⟩
  · simp [h1, MutInv, h]

theorem steps_mutNextBack (c : Cfg) (hI : SoundImpl I) (m : List V) :
    Steps (MutInv m) TotalIterMut.len (fun p _ => p.2 < m.length) (TotalIterMut.nextBack c I) := by
  rintro ⟨mem, n, lo, hi⟩ ⟨rfl, h⟩
  unfold TotalIterMut.nextBack Enumerate.nextBackItem slotIter Range.nextBack
  simp only at h ⊢
  by_cases h1 : lo < hi
  · simp only [h1, if_true, bind_assoc]
    refine Sound.bind (sound_addU _ _ _) fun m => Sound.bind (hI.fromOrdinal _) fun o =>
      Sound.bind (sound_unwrap o) fun a => ?_
    simp only [ok_bind, holds_ok, MutInv, TotalIterMut.len, Enumerate.len, slotIter, Range.len, h1, if_true]
    refine ⟨⟨trivial, by omega⟩, by split <;> omega, ?_⟩
    rintro ⟨k, i⟩ hk
    simp only [Option.some.injEq, Prod.mk.injEq] at hk
    refine ⟨by split <;> omega, by simp only; omega⟩
  · simp [h1, MutInv, h]

theorem mutInv_new (m : List V) : MutInv m (TotalIterMut.new m) := ⟨rfl, Nat.le_refl _⟩

theorem mapIter_body (p : K × Option V) (s : MapIter V) : Holds (MapIter.body p s) fun q =>
    True ∧ Enumerate.len (listIter _) q.2 ≤ Enumerate.len (listIter _) s ∧ ∀ b, q.1 = some b → True := by
  obtain ⟨k, _ | v⟩ := p <;> simp [MapIter.body]

theorem steps_mapNext (c : Cfg) (hI : SoundImpl I) :
    Steps (fun _ => True) (fun s : MapIter V => TotalIter.len s) (fun _ _ => True) (MapIter.next c I) :=
  steps_skipLoop (steps_listNext c hI) fun a s _ _ => mapIter_body a s

theorem steps_mapNextBack (c : Cfg) (hI : SoundImpl I) :
    Steps (fun _ => True) (fun s : MapIter V => TotalIter.len s) (fun _ _ => True) (MapIter.nextBack c I) :=
  steps_skipLoop (steps_listNextBack c hI) fun a s _ _ => mapIter_body a s

theorem steps_intoNext (c : Cfg) (hI : SoundImpl I) :
    Steps (fun _ => True) (fun s : MapIntoIter V => TotalIntoIter.len s) (fun _ _ => True) (MapIntoIter.next c I) :=
  steps_skipLoop (steps_listNext c hI) fun a s _ _ => mapIter_body a s

theorem steps_intoNextBack (c : Cfg) (hI : SoundImpl I) :
    Steps (fun _ => True) (fun s : MapIntoIter V => TotalIntoIter.len s) (fun _ _ => True) (MapIntoIter.nextBack c I) :=
  steps_skipLoop (steps_listNextBack c hI) fun a s _ _ => mapIter_body a s

theorem steps_intoArrNext (c : Cfg) (hI : SoundImpl I) :
    Steps (fun _ => True) (fun s : MapIntoIterArray V => TotalIntoIterArray.len s) (fun _ _ => True)
      (MapIntoIterArray.next c I) :=
  steps_skipLoop (steps_listNext c hI) fun a s _ _ => mapIter_body a s

theorem steps_intoArrNextBack (c : Cfg) (hI : SoundImpl I) :
    Steps (fun _ => True) (fun s : MapIntoIterArray V => TotalIntoIterArray.len s) (fun _ _ => True)
      (MapIntoIterArray.nextBack c I) :=
  steps_skipLoop (steps_listNextBack c hI) fun a s _ _ => mapIter_body a s

/-- The slot holds a value. -/
def Full (m : List (Option V)) (i : Nat) : Prop := ∃ v, m[i]? = some (some v)

theorem mapIterMut_body (m : List (Option V)) (p : K × Nat) (s : MapIterMut V) (hs : MutInv m s) (hp : p.2 < m.length) :
    Holds (MapIterMut.body p s) fun q =>
      MutInv m q.2 ∧ TotalIterMut.len q.2 ≤ TotalIterMut.len s ∧ ∀ b : K × Nat, q.1 = some b → Full m b.2 := by
  obtain ⟨rfl, h⟩ := hs
  unfold MapIterMut.body
  have : s.mem[p.2]? = some s.mem[p.2] := by simp
  rw [this]
  cases h1 : s.mem[p.2] with
  | none => exact ⟨⟨rfl, h⟩, Nat.le_refl _, by simp⟩
  | some v =>
    refine ⟨⟨rfl, h⟩, Nat.le_refl _, ?_⟩
    rintro b hb
    simp only [Option.some.injEq] at hb
    subst hb
    exact ⟨v, by rw [this, h1]⟩

theorem steps_mapMutNext (c : Cfg) (hI : SoundImpl I) (m : List (Option V)) :
    Steps (MutInv m) TotalIterMut.len (fun p _ => Full m p.2) (MapIterMut.next c I) :=
  steps_skipLoop (steps_mutNext c hI m) fun a s h1 h2 => mapIterMut_body m a s h1 h2

theorem steps_mapMutNextBack (c : Cfg) (hI : SoundImpl I) (m : List (Option V)) :
    Steps (MutInv m) TotalIterMut.len (fun p _ => Full m p.2) (MapIterMut.nextBack c I) :=
  steps_skipLoop (steps_mutNextBack c hI m) fun a s h1 h2 => mapIterMut_body m a s h1 h2

/-! ## `Drain` -/

/-- The invariant of `Drain`. -/
def DrainInv (s : TotalIterMut (Option V)) : Prop := s.it.iter.stop ≤ s.mem.length

theorem steps_drainNext0 (c : Cfg) (hI : SoundImpl I) :
    Steps (DrainInv (V := V)) TotalIterMut.len (fun p s => p.2 < s.mem.length) (TotalIterMut.next (K := K) c I) := by
  intro s hs
  refine (steps_mutNext c hI s.mem s ⟨rfl, hs⟩).mono ?_
  rintro ⟨o, s1⟩ ⟨⟨h1, h2⟩, h3, h4⟩
  exact ⟨by rw [DrainInv]; simp only at h1 h2 ⊢; rw [h1]; exact h2, h3, fun a ha => ⟨(h4 a ha).1, by
    have := (h4 a ha).2; simp only at h1 ⊢; rw [h1]; exact this⟩⟩

theorem steps_drainNextBack0 (c : Cfg) (hI : SoundImpl I) :
    Steps (DrainInv (V := V)) TotalIterMut.len (fun p s => p.2 < s.mem.length) (TotalIterMut.nextBack (K := K) c I) := by
  intro s hs
  refine (steps_mutNextBack c hI s.mem s ⟨rfl, hs⟩).mono ?_
  rintro ⟨o, s1⟩ ⟨⟨h1, h2⟩, h3, h4⟩
  exact ⟨by rw [DrainInv]; simp only at h1 h2 ⊢; rw [h1]; exact h2, h3, fun a ha => ⟨(h4 a ha).1, by
    have := (h4 a ha).2; simp only at h1 ⊢; rw [h1]; exact this⟩⟩

theorem drain_body (p : K × Nat) (s : Drain V) (hs : DrainInv s) (hp : p.2 < s.mem.length) :
    Holds (Drain.body p s) fun q =>
      DrainInv q.2 ∧ TotalIterMut.len q.2 ≤ TotalIterMut.len s ∧ ∀ b, q.1 = some b → True := by
  unfold Drain.body
  have : s.mem[p.2]? = some s.mem[p.2] := by simp
  rw [this]
  cases s.mem[p.2] <;> simp_all [DrainInv, TotalIterMut.len]

theorem steps_drainNext (c : Cfg) (hI : SoundImpl I) :
    Steps (DrainInv (V := V)) TotalIterMut.len (fun _ _ => True) (Drain.next c I) :=
  steps_skipLoop (steps_drainNext0 c hI) fun a s h1 h2 => drain_body a s h1 h2

theorem steps_drainNextBack (c : Cfg) (hI : SoundImpl I) :
    Steps (DrainInv (V := V)) TotalIterMut.len (fun _ _ => True) (Drain.nextBack c I) :=
  steps_skipLoop (steps_drainNextBack0 c hI) fun a s h1 h2 => drain_body a s h1 h2

theorem sound_drainDrop (c : Cfg) (hI : SoundImpl I) (s : Drain V) (hs : DrainInv s) : Sound (Drain.drop c I s) := by
  have key : ∀ fuel (s : TotalIterMut (Option V)), TotalIterMut.len s < fuel → DrainInv s → Sound (Drain.dropLoop c I fuel s) := by
    intro fuel
    induction fuel with
    | zero => intro s h; omega
    | succ fuel ih =>
      intro s hf hi
      unfold Drain.dropLoop
      refine Holds.sound (P := fun _ => True) ((steps_drainNext c hI s hi).bind ?_)
      rintro ⟨o, s1⟩ ⟨h1, h2, h3⟩
      cases o with
      | none => trivial
      | some x =>
        have := (h3 x rfl).1
        simp only at this
        exact (ih s1 (by omega) h1).holds
  exact key _ s (by omega) hs

theorem sound_count (c : Cfg) (hI : SoundImpl I) (s : MapIter V) : Sound (MapIter.count c I s) := by
  have key : ∀ fuel (s : MapIter V) acc, TotalIter.len s < fuel → Sound (MapIter.countLoop c I fuel s acc) := by
    intro fuel
    induction fuel with
    | zero => intro s acc h; omega
    | succ fuel ih =>
      intro s acc hf
      unfold MapIter.countLoop
      refine Holds.sound (P := fun _ => True) ((steps_mapNext c hI s trivial).bind ?_)
      rintro ⟨o, s1⟩ ⟨h1, h2, h3⟩
      cases o with
      | none => trivial
      | some x =>
        have := (h3 x rfl).1
        simp only at this
        exact Sound.bind (sound_addU _ _ _) fun a => (ih s1 a (by omega)).holds
  exact key _ s 0 (by omega)

end OrdinalMap
