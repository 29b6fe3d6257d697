import Verif.Lemmas.SoundIter
import Verif.Model.Atomic
/-! # Soundness of maps, sets, derived impls and atomics -/

namespace OrdinalMap
variable {K V W E τ σ ι A B ρ ω ο : Type}

/-! ## `Iter64` -/

theorem countOnes_clear {w : BitVec 64} {i : Nat} (hi : i < 64) (h : w.getLsbD i = true) :
    countOnes (w &&& ~~~((1 : BitVec 64) <<< i)) < countOnes w := by
  have e : bitsOf (w &&& ~~~((1 : BitVec 64) <<< i)) = (bitsOf w).filter fun j => !decide (j = i) := by
    rw [bitsOf, bitsOf, List.filter_filter]
    apply List.filter_congr
    intro j _
    rw [andNot_mask _ _ _ hi, Bool.and_comm]
  rw [countOnes_eq, countOnes_eq, e]
  have hm : i ∈ bitsOf w := by simp [bitsOf, hi, h]
  have := List.length_filter_lt_length_iff_exists (l := bitsOf w) (p := fun j => !decide (j = i))
  exact this.2 ⟨i, hm, by simp⟩

variable {I : OrdinalImpl τ}

theorem steps_iter64Next (c : Cfg) (hI : SoundImpl I) :
    Steps (fun _ => True) Iter64.len (fun _ _ => True) (Iter64.next c I) := by
  intro w _
  unfold Iter64.next
  dsimp only
  by_cases h : trailingZeros w = 64
  · simp [h]
  · rw [if_neg h]
    have h2 : trailingZeros w < 64 ∧ w.getLsbD (trailingZeros w) = true := by
      have e : trailingZeros w = ((bitsOf w).head?).getD 64 := trailingZeros_eq w
      cases hb : (bitsOf w).head? with
      | none => rw [hb] at e; exact absurd e h
      | some i =>
        rw [hb] at e
        have hi : i ∈ bitsOf w := List.mem_of_head? hb
        simp only [bitsOf, List.mem_filter, List.mem_range] at hi
        rw [e]; exact hi
    rw [shl64_ok c _ h2.1, ok_bind]
    refine Sound.bind (hI.fromOrdinal _) fun o => Sound.bind (sound_unwrap o) fun x => ?_
    have := countOnes_clear h2.1 h2.2
    exact ⟨trivial, by simp only [Iter64.len]; omega, fun _ _ => ⟨this, trivial⟩⟩

theorem steps_iter64NextBack (c : Cfg) (hI : SoundImpl I) :
    Steps (fun _ => True) Iter64.len (fun _ _ => True) (Iter64.nextBack c I) := by
  intro w _
  unfold Iter64.nextBack
  rw [leadingZeros_eq]
  cases hb : (bitsOf w).getLast? with
  | none => simp [checkedSub]
  | some i =>
    have hi : i ∈ bitsOf w := List.mem_of_getLast? hb
    simp only [bitsOf, List.mem_filter, List.mem_range] at hi
    have : checkedSub 63 (63 - i) = some i := by simp [checkedSub]; omega
    simp only [this]
    rw [shl64_ok c _ hi.1, ok_bind]
    refine Sound.bind (hI.fromOrdinal _) fun o => Sound.bind (sound_unwrap o) fun x => ?_
    have := countOnes_clear hi.1 hi.2
    exact ⟨trivial, by simp only [Iter64.len]; omega, fun _ _ => ⟨this, trivial⟩⟩

/-! ## Sets -/

theorem sound_setMutNew (c : Cfg) (hI : SoundImpl I) (ws : List (BitVec 64)) : Sound (SetMut.new c I ws) := by
  unfold SetMut.new ordinalArraySetS; sound

theorem sound_setMutInsert (c : Cfg) (hI : SoundImpl I) (ws : List (BitVec 64)) (x : τ) :
    Sound (SetMut.insert c I ws x) := by
  have := sound_setRefNew c hI
  have := sound_contains c hI
  unfold SetMut.insert; sound

theorem sound_setApi (api : SetApi σ τ) (h1 : ∀ s x, Sound (api.contains s x)) (h2 : ∀ s x, Sound (api.insert s x))
    (ops : List (SetOp τ)) (s : σ) : Sound (api.run s ops) := by
  induction ops generalizing s with
  | nil => exact Sound.mk_ok _
  | cons op ops ih =>
    cases op with
    | insert x =>
      unfold SetApi.run
      sound
    | contains x =>
      unfold SetApi.run
      sound

theorem sound_isSmall (hI : SoundImpl I) : Sound (OrdinalSet.isSmall I) := by unfold OrdinalSet.isSmall; sound
theorem sound_osAsRef (c : Cfg) (hI : SoundImpl I) (s : OrdinalSet) : Sound (OrdinalSet.asRef c I s) := by
  have := sound_isSmall hI
  have := sound_setRefNew c hI
  unfold OrdinalSet.asRef; sound
theorem sound_osContains (c : Cfg) (hI : SoundImpl I) (s : OrdinalSet) (x : τ) : Sound (OrdinalSet.contains c I s x) := by
  have := sound_osAsRef c hI
  have := sound_contains c hI
  unfold OrdinalSet.contains; sound
theorem sound_osAlloc (c : Cfg) (hI : SoundImpl I) (ws : List (BitVec 64)) : Sound (OrdinalSet.alloc c I ws) := by
  unfold OrdinalSet.alloc; sound
theorem sound_osInsert (c : Cfg) (hI : SoundImpl I) (s : OrdinalSet) (x : τ) : Sound (OrdinalSet.insert c I s x) := by
  have := sound_isSmall hI
  have := sound_setMutNew c hI
  have := sound_setMutInsert c hI
  have := sound_osAlloc c hI
  unfold OrdinalSet.insert; sound
theorem sound_osNew (hI : SoundImpl I) : Sound (OrdinalSet.new I) := by
  have := sound_isSmall hI
  unfold OrdinalSet.new; sound
theorem sound_osFromIter (c : Cfg) (hI : SoundImpl I) (xs : List τ) : Sound (OrdinalSet.fromIter c I xs) := by
  have h1 := sound_osInsert c hI
  have h2 := sound_osNew hI
  have key : ∀ xs s, Sound (OrdinalSet.extendLoop c I s xs) := by
    intro xs
    induction xs with
    | nil => intro s; exact Sound.mk_ok _
    | cons x xs ih => intro s; unfold OrdinalSet.extendLoop; sound
  unfold OrdinalSet.fromIter; sound
theorem sound_setIterNew (hI : SoundImpl I) (ws : SetRef) : Sound (SetRef.iter I ws) := by
  unfold SetRef.iter SetIter.new OrdinalValues.new; sound
theorem sound_osIter (c : Cfg) (hI : SoundImpl I) (s : OrdinalSet) : Sound (OrdinalSet.iter c I s) := by
  have := sound_osAsRef c hI
  have := sound_setIterNew hI
  unfold OrdinalSet.iter; sound

theorem sound_asAssert (hI : SoundImpl I) (S : Nat) : Sound (OrdinalArraySet.assertS I S) := by
  unfold OrdinalArraySet.assertS ordinalArraySetS; sound
theorem sound_asAsRef (c : Cfg) (hI : SoundImpl I) (S : Nat) (s : OrdinalArraySet) :
    Sound (OrdinalArraySet.asRef c I S s) := by
  have := sound_asAssert hI
  have := sound_setRefNew c hI
  unfold OrdinalArraySet.asRef; sound
theorem sound_asAsMut (c : Cfg) (hI : SoundImpl I) (S : Nat) (s : OrdinalArraySet) :
    Sound (OrdinalArraySet.asMut c I S s) := by
  have := sound_asAssert hI
  have := sound_setMutNew c hI
  unfold OrdinalArraySet.asMut; sound
theorem sound_asContains (c : Cfg) (hI : SoundImpl I) (S : Nat) (s : OrdinalArraySet) (x : τ) :
    Sound (OrdinalArraySet.contains c I S s x) := by
  have := sound_asAsRef c hI
  have := sound_contains c hI
  unfold OrdinalArraySet.contains; sound
theorem sound_asInsert (c : Cfg) (hI : SoundImpl I) (S : Nat) (s : OrdinalArraySet) (x : τ) :
    Sound (OrdinalArraySet.insert c I S s x) := by
  have := sound_asAsMut c hI
  have := sound_setMutInsert c hI
  unfold OrdinalArraySet.insert; sound
theorem sound_asNew (hI : SoundImpl I) (S : Nat) : Sound (OrdinalArraySet.new I S) := by
  have := sound_asAssert hI
  unfold OrdinalArraySet.new OrdinalArraySet.default; sound
theorem sound_asFromIter (c : Cfg) (hI : SoundImpl I) (S : Nat) (xs : List τ) :
    Sound (OrdinalArraySet.fromIter c I S xs) := by
  have h1 := sound_asInsert c hI
  have h2 := sound_asNew hI
  have key : ∀ xs s, Sound (OrdinalArraySet.extendLoop c I S s xs) := by
    intro xs
    induction xs with
    | nil => intro s; exact Sound.mk_ok _
    | cons x xs ih => intro s; unfold OrdinalArraySet.extendLoop; sound
  unfold OrdinalArraySet.fromIter; sound

theorem sound_assert64 (hI : SoundImpl I) : Sound (OrdinalSet64.assert64 I) := by unfold OrdinalSet64.assert64; sound
theorem sound_64New (hI : SoundImpl I) : Sound (OrdinalSet64.new I) := by
  have := sound_assert64 hI
  unfold OrdinalSet64.new; sound
theorem sound_64All (c : Cfg) (hI : SoundImpl I) : Sound (OrdinalSet64.all c I) := by
  have := sound_assert64 hI
  unfold OrdinalSet64.all; sound
theorem sound_64Contains (c : Cfg) (hI : SoundImpl I) (s : OrdinalSet64) (x : τ) : Sound (OrdinalSet64.contains c I s x) := by
  have := sound_assert64 hI
  unfold OrdinalSet64.contains; sound
theorem sound_64Insert (c : Cfg) (hI : SoundImpl I) (s : OrdinalSet64) (x : τ) : Sound (OrdinalSet64.insert c I s x) := by
  have := sound_assert64 hI
  have := sound_64Contains c hI
  unfold OrdinalSet64.insert; sound
theorem sound_64FromIter (c : Cfg) (hI : SoundImpl I) (xs : List τ) : Sound (OrdinalSet64.fromIter c I xs) := by
  have h2 := sound_64New hI
  have key : ∀ xs s, Sound (OrdinalSet64.extendLoop c I s xs) := by
    intro xs
    induction xs with
    | nil => intro s; exact Sound.mk_ok _
    | cons x xs ih => intro s; unfold OrdinalSet64.extendLoop; sound
  unfold OrdinalSet64.fromIter; sound
theorem sound_64Iter (hI : SoundImpl I) (s : OrdinalSet64) : Sound (OrdinalSet64.iter I s) := by
  have := sound_assert64 hI
  unfold OrdinalSet64.iter; sound

/-! ## Clients of mutable iterators -/

variable {I : OrdinalImpl K}

theorem holds_readSome {m : List (Option V)} {i : Nat} (h : Full m i) : Sound (readSome m i) := by
  obtain ⟨v, h⟩ := h
  simp only [readSome, h]; exact Sound.mk_ok _

theorem Full.lt {m : List (Option V)} {i : Nat} (h : Full m i) : i < m.length := by
  obtain ⟨v, h⟩ := h
  exact (List.getElem?_eq_some_iff.1 h).1

theorem Full.set_some {m : List (Option V)} {i j : Nat} (v : V) (h : Full m j) : Full (m.set i (some v)) j := by
  by_cases e : i = j
  · subst e
    exact ⟨v, List.getElem?_set_self h.lt⟩
  · obtain ⟨w, h⟩ := h
    exact ⟨w, by rw [List.getElem?_set_ne e]; exact h⟩

theorem holds_writeSome {m : List (Option V)} {i : Nat} (v : V) (h : Full m i) :
    Holds (writeSome m i v) fun m' => m' = m.set i (some v) := by
  obtain ⟨w, h⟩ := h
  simp [writeSome, h]

theorem holds_readSlot {m : List V} {i : Nat} (h : i < m.length) : Holds (readSlot m i) fun v => m[i]? = some v := by
  have : m[i]? = some m[i] := by simp [h]
  simp [readSlot, this]

theorem holds_writeSlot {m : List V} {i : Nat} (v : V) (h : i < m.length) :
    Holds (writeSlot m i v) fun m' => m' = m.set i v := by
  simp [writeSlot, h]

theorem holds_slotOf (m : List V) (i : Nat) : Holds (OrdinalTotalMap.slotOf m i) fun j => j < m.length := by
  unfold OrdinalTotalMap.slotOf
  split <;> simp_all

/-- Invariant of a client of `iter_mut` on a sparse map. -/
def ClientInv (s : MutClient V) : Prop := MutInv s.it.mem s.it ∧ ∀ i ∈ s.handed, Full s.it.mem i

theorem holds_clientStep (c : Cfg) (hI : SoundImpl I) (s : MutClient V) (op : MutStep V) (hs : ClientInv s) :
    Holds (MutClient.step c I s op) fun p => ClientInv p.2 := by
  have main : ∀ {next : MapIterMut V → R (Option (K × Nat) × MapIterMut V)},
      Steps (MutInv s.it.mem) TotalIterMut.len (fun p _ => Full s.it.mem p.2) next →
      Holds (do
        let (o, it) ← next s.it
        match o with
        | none => .ok (none, ⟨it, s.handed⟩)
        | some (k, slot) => .ok (some (k, ← readSome it.mem slot), ⟨it, s.handed ++ [slot]⟩) :
          R (Option (K × V) × MutClient V)) fun p => ClientInv p.2 := by
    intro next h
    refine (h s.it hs.1).bind ?_
    rintro ⟨o, it⟩ ⟨h1, -, h3⟩
    simp only at h1
    have hm : it.mem = s.it.mem := h1.1
    cases o with
    | none => exact ⟨⟨rfl, by rw [hm]; exact h1.2⟩, by simp only [hm]; exact hs.2⟩
    | some p =>
      obtain ⟨k, slot⟩ := p
      have hf := (h3 _ rfl).2
      simp only at hf
      refine Sound.bind (holds_readSome (by rw [hm]; exact hf)) fun v => ?_
      refine ⟨⟨rfl, by rw [hm]; exact h1.2⟩, fun i hi => ?_⟩
      simp only [hm]
      simp only [List.mem_append, List.mem_singleton] at hi
      rcases hi with hi | rfl
      · exact hs.2 i hi
      · exact hf
  cases op with
  | front => exact main (steps_mapMutNext c hI _)
  | back => exact main (steps_mapMutNextBack c hI _)
  | write j v =>
    simp only [MutClient.step]
    split
    · exact hs
    · rename_i slot hj
      have hm := List.mem_of_getElem? hj
      refine (holds_writeSome v (hs.2 _ hm)).bind ?_
      rintro _ rfl
      refine ⟨⟨rfl, ?_⟩, fun i hi => (hs.2 i hi).set_some v⟩
      simp only [List.length_set]
      exact hs.1.2

theorem holds_clientStepV (c : Cfg) (hI : SoundImpl I) (s : MutClient V) (op : MutStep V) (hs : ClientInv s) :
    Holds (MutClient.stepV c I s op) fun p => ClientInv p.2 := by
  have main : ∀ {next : MapIterMut V → R (Option Nat × MapIterMut V)},
      Steps (MutInv s.it.mem) TotalIterMut.len (fun i _ => Full s.it.mem i) next →
      Holds (do
        let (o, it) ← next s.it
        match o with
        | none => .ok (none, ⟨it, s.handed⟩)
        | some slot => .ok (some (← readSome it.mem slot), ⟨it, s.handed ++ [slot]⟩) :
          R (Option V × MutClient V)) fun p => ClientInv p.2 := by
    intro next h
    refine (h s.it hs.1).bind ?_
    rintro ⟨o, it⟩ ⟨h1, -, h3⟩
    simp only at h1
    have hm : it.mem = s.it.mem := h1.1
    cases o with
    | none => exact ⟨⟨rfl, by rw [hm]; exact h1.2⟩, by simp only [hm]; exact hs.2⟩
    | some slot =>
      have hf := (h3 _ rfl).2
      simp only at hf
      refine Sound.bind (holds_readSome (by rw [hm]; exact hf)) fun v => ?_
      refine ⟨⟨rfl, by rw [hm]; exact h1.2⟩, fun i hi => ?_⟩
      simp only [hm]
      simp only [List.mem_append, List.mem_singleton] at hi
      rcases hi with hi | rfl
      · exact hs.2 i hi
      · exact hf
  cases op with
  | front => exact main ((steps_mapMutNext c hI s.it.mem).map (fun p => p.2) fun _ _ h => h)
  | back => exact main ((steps_mapMutNextBack c hI s.it.mem).map (fun p => p.2) fun _ _ h => h)
  | write j v =>
    simp only [MutClient.stepV]
    split
    · exact hs
    · rename_i slot hj
      have hm := List.mem_of_getElem? hj
      refine (holds_writeSome v (hs.2 _ hm)).bind ?_
      rintro _ rfl
      refine ⟨⟨rfl, ?_⟩, fun i hi => (hs.2 i hi).set_some v⟩
      simp only [List.length_set]
      exact hs.1.2

/-- Invariant of a client of `iter_mut` on a total map. -/
def ClientTInv (s : MutClientT V) : Prop := MutInv s.it.mem s.it ∧ ∀ i ∈ s.handed, i < s.it.mem.length

theorem holds_clientTStep (c : Cfg) (hI : SoundImpl I) (s : MutClientT V) (op : MutStep V) (hs : ClientTInv s) :
    Holds (MutClientT.step c I s op) fun p => ClientTInv p.2 := by
  have main : ∀ {next : TotalIterMut V → R (Option (K × Nat) × TotalIterMut V)},
      Steps (MutInv s.it.mem) TotalIterMut.len (fun p _ => p.2 < s.it.mem.length) next →
      Holds (do
        let (o, it) ← next s.it
        match o with
        | none => .ok (none, ⟨it, s.handed⟩)
        | some (k, slot) => .ok (some (k, ← readSlot it.mem slot), ⟨it, s.handed ++ [slot]⟩) :
          R (Option (K × V) × MutClientT V)) fun p => ClientTInv p.2 := by
    intro next h
    refine (h s.it hs.1).bind ?_
    rintro ⟨o, it⟩ ⟨h1, -, h3⟩
    simp only at h1
    have hm : it.mem = s.it.mem := h1.1
    cases o with
    | none => exact ⟨⟨rfl, by rw [hm]; exact h1.2⟩, by simp only [hm]; exact hs.2⟩
    | some p =>
      obtain ⟨k, slot⟩ := p
      have hf := (h3 _ rfl).2
      simp only at hf
      refine (holds_readSlot (m := it.mem) (by rw [hm]; exact hf)).bind fun v _ => ?_
      refine ⟨⟨rfl, by rw [hm]; exact h1.2⟩, fun i hi => ?_⟩
      simp only [hm]
      simp only [List.mem_append, List.mem_singleton] at hi
      rcases hi with hi | rfl
      · exact hs.2 i hi
      · exact hf
  cases op with
  | front => exact main (steps_mutNext c hI _)
  | back => exact main (steps_mutNextBack c hI _)
  | write j v =>
    simp only [MutClientT.step]
    split
    · exact hs
    · rename_i slot hj
      have hm := List.mem_of_getElem? hj
      refine (holds_writeSlot v (hs.2 _ hm)).bind ?_
      rintro _ rfl
      refine ⟨⟨rfl, ?_⟩, fun i hi => ?_⟩
      · simp only [List.length_set]; exact hs.1.2
      · simp only [List.length_set]; exact hs.2 i hi

/-- Invariant of a client of `values_mut` on a total map. -/
def SlotInv (s : SlotClient V) : Prop := s.it.stop ≤ s.mem.length ∧ ∀ i ∈ s.handed, i < s.mem.length

theorem holds_slotStep (s : SlotClient V) (op : MutStep V) (hs : SlotInv s) :
    Holds (SlotClient.step s op) fun p => SlotInv p.2 := by
  obtain ⟨m, ⟨lo, hi⟩, hd⟩ := s
  obtain ⟨h1, h2⟩ := hs
  simp only at h1 h2
  cases op with
  | front =>
    unfold SlotClient.step slotIter Range.next
    dsimp only
    by_cases h : lo < hi
    · simp only [h, if_true]
      refine (holds_readSlot (m := m) (by omega)).bind fun v _ => ⟨h1, ?_⟩
      intro i hi
      simp only [List.mem_append, List.mem_singleton] at hi
      rcases hi with hi | rfl
      · exact h2 i hi
      · simp only; omega
    · simp only [h, if_false]; exact ⟨h1, h2⟩
  | back =>
    unfold SlotClient.step slotIter Range.nextBack
    dsimp only
    by_cases h : lo < hi
    · simp only [h, if_true]
      refine (holds_readSlot (m := m) (by omega)).bind fun v _ => ⟨by simp only; omega, ?_⟩
      intro i hi
      simp only [List.mem_append, List.mem_singleton] at hi
      rcases hi with hi | rfl
      · exact h2 i hi
      · simp only; omega
    · simp only [h, if_false]; exact ⟨h1, h2⟩
  | write j v =>
    unfold SlotClient.step
    dsimp only
    cases hj : hd[j]? with
    | none => exact ⟨h1, h2⟩
    | some slot =>
      simp only
      refine (holds_writeSlot v (h2 _ (List.mem_of_getElem? hj))).bind ?_
      rintro _ rfl
      exact ⟨by simp only [List.length_set]; exact h1, fun i hi => by simp only [List.length_set]; exact h2 i hi⟩

/-! ## Entries -/

/-- What an entry promises about its slot. -/
def EntryInv (m : List (Option V)) : Entry K → Prop
  | .occupied _ i => Full m i
  | .vacant _ i => i < m.length

theorem holds_entryNew {m : List (Option V)} (k : K) {i : Nat} (h : i < m.length) :
    Holds (Entry.new m k i) (EntryInv m) := by
  have e : m[i]? = some m[i] := by simp [h]
  unfold Entry.new
  rw [e]
  simp only [holds_ok]
  cases h1 : m[i] with
  | none => simpa [EntryInv] using h
  | some v => exact ⟨v, by rw [e, h1]⟩

theorem holds_orInsert {m : List (Option V)} {e : Entry K} (v : V) (h : EntryInv m e) :
    Holds (e.orInsert m v) fun p => Full p.2 p.1 := by
  cases e with
  | occupied k i =>
    obtain ⟨w, hw⟩ := h
    simp only [Entry.orInsert, Entry.occupiedGetMut, hw, unwrap_some, ok_bind, holds_ok]
    exact ⟨w, hw⟩
  | vacant k i =>
    unfold Entry.orInsert
    refine (holds_writeSlot (some v) h).bind ?_
    rintro _ rfl
    exact ⟨v, List.getElem?_set_self h⟩

theorem sound_entryClient {m : List (Option V)} {e : Entry K} (v w : V) (h : EntryInv m e) :
    Sound (entryClient e m v w) := by
  cases e with
  | occupied k i =>
    obtain ⟨u, hu⟩ := h
    have := (holds_writeSome (m := m) w ⟨u, hu⟩).sound
    simp only [entryClient, Entry.occupiedGet, Entry.occupiedGetMut, hu, unwrap_some, ok_bind]
    sound
  | vacant k i =>
    have := (holds_writeSlot (some v) h).sound
    simp only [entryClient, Entry.vacantInsert]
    sound

theorem sound_getMutClient {m : List (Option V)} {r : Option Nat} (w : V) (h : ∀ i, r = some i → Full m i) :
    Sound (getMutClient (K := K) r m w) := by
  cases r with
  | none => exact Sound.mk_ok _
  | some i =>
    have h1 := holds_readSome (h i rfl)
    have h2 := (holds_writeSome w (h i rfl)).sound
    simp only [getMutClient]
    sound

/-- A fresh client. -/
theorem clientInv_new (m : List (Option V)) : ClientInv (⟨TotalIterMut.new m, []⟩ : MutClient V) :=
  ⟨mutInv_new m, by simp⟩
theorem clientTInv_new (m : List V) : ClientTInv (⟨TotalIterMut.new m, []⟩ : MutClientT V) :=
  ⟨mutInv_new m, by simp⟩
theorem drainInv_new (m : List (Option V)) : DrainInv (Drain.new m) := Nat.le_refl _

/-! ## `OrdinalMap` -/

theorem sound_initFull (c : Cfg) (hI : SoundImpl I) (sz : Nat) (s : OMap V) : Sound (OMap.initFullMap c I sz s) := by
  have hw : ∀ c sz n, Sound (withCapacity c sz n) := by intros; unfold withCapacity; sound
  unfold OMap.initFullMap; sound

theorem sound_omapInsert (c : Cfg) (hI : SoundImpl I) (sz : Nat) (s : OMap V) (k : K) (v : V) :
    Sound (OMap.insert c I sz s k v) := by
  have := sound_initFull (V := V) c hI sz
  unfold OMap.insert; sound

theorem holds_omapEntry (c : Cfg) (hI : SoundImpl I) (sz : Nat) (s : OMap V) (k : K) :
    Holds (OMap.entry c I sz s k) fun p => EntryInv p.2 p.1 := by
  unfold OMap.entry
  refine Sound.bind (sound_initFull c hI sz s) fun m => Sound.bind (hI.ordinal k) fun i =>
    (holds_slotOf m i).bind fun j hj => (holds_entryNew k hj).bind fun e he => he

theorem holds_omapGetMut (hI : SoundImpl I) (s : OMap V) (k : K) :
    Holds (OMap.getMut I s k) fun r => ∀ i, r = some i → Full s i := by
  unfold OMap.getMut
  refine Sound.bind (hI.ordinal k) fun i => ?_
  split
  · simp
  · rename_i o ho
    cases o with
    | none => simp
    | some v =>
      simp only [Option.map_some, holds_ok, Option.some.injEq]
      rintro _ rfl
      exact ⟨v, ho⟩

/-- The part of `step` that both sparse maps share. -/
theorem sound_iterRun (c : Cfg) (hI : SoundImpl I) (s : MapIter V) (ds : List Dir) :
    Sound ((MapIter.it c I).run s ds) ∧ Sound ((Keys.it c I).run s ds) ∧ Sound ((Values.it c I).run s ds) := by
  have h1 := steps_mapNext (V := V) c hI
  have h2 := steps_mapNextBack (V := V) c hI
  exact ⟨(holds_run h1 h2 ds trivial).sound,
    (holds_run (it := Keys.it c I) (h1.map (post := fun _ _ => True) (fun p => p.1) fun _ _ h => h)
      (h2.map (fun p => p.1) fun _ _ h => h) ds trivial).sound,
    (holds_run (it := Values.it c I) (h1.map (post := fun _ _ => True) (fun p => p.2) fun _ _ h => h)
      (h2.map (fun p => p.2) fun _ _ h => h) ds trivial).sound⟩

theorem holds_drainRun (c : Cfg) (hI : SoundImpl I) (m : List (Option V)) (ds : List Dir) :
    Holds ((Drain.it c I).run (Drain.new m) ds) fun p => DrainInv p.2 :=
  holds_run (steps_drainNext c hI) (steps_drainNextBack c hI) ds (drainInv_new m)

theorem sound_drainStep (c : Cfg) (hI : SoundImpl I) (m : List (Option V)) (ds : List Dir) (leak : Bool) :
    Sound (do
      let (os, d) ← (Drain.it c I).run (Drain.new m) ds
      .ok (MapOut.items os, ← if leak then .ok d.mem else Drain.drop c I d) : R (MapOut K V × List (Option V))) := by
  refine Holds.sound (P := fun _ => True) ((holds_drainRun c hI m ds).bind ?_)
  rintro ⟨os, d⟩ hd
  have := sound_drainDrop c hI d hd
  cases leak <;> sound

theorem sound_omapStep (c : Cfg) (hI : SoundImpl I) (sz : Nat) (s : OMap V) (op : MapOp K V) :
    Sound (OMap.step c I sz s op) := by
  cases op with
  | get k => unfold OMap.step OMap.get; sound
  | getMut k w =>
    exact Holds.sound (P := fun _ => True)
      ((holds_omapGetMut hI s k).bind fun r hr => (sound_getMutClient w hr).holds)
  | insert k v =>
    have := sound_omapInsert c hI sz s k v
    unfold OMap.step; sound
  | remove k => unfold OMap.step OMap.remove; sound
  | orInsert k v w =>
    refine Holds.sound (P := fun _ => True) ((holds_omapEntry c hI sz s k).bind ?_)
    rintro ⟨e, m⟩ he
    refine (holds_orInsert v he).bind ?_
    rintro ⟨i, m⟩ hf
    have h1 := holds_readSome hf
    have h2 := (holds_writeSome w hf).sound
    sound
  | entry k v w =>
    refine Holds.sound (P := fun _ => True) ((holds_omapEntry c hI sz s k).bind ?_)
    rintro ⟨e, m⟩ he
    exact (sound_entryClient v w he).holds
  | len =>
    have := sound_count c hI (OMap.iter s)
    unfold OMap.step OMap.len; sound
  | isEmpty =>
    have := (steps_mapNext c hI (OMap.iter s) trivial).sound
    unfold OMap.step OMap.isEmpty; sound
  | iter ds =>
    have := (sound_iterRun c hI (OMap.iter s) ds).1
    unfold OMap.step; sound
  | keys ds =>
    have := (sound_iterRun c hI (OMap.iter s) ds).2.1
    unfold OMap.step OMap.keys; sound
  | values ds =>
    have := (sound_iterRun c hI (OMap.iter s) ds).2.2
    unfold OMap.step OMap.values; sound
  | iterMut steps =>
    have := (holds_runOps (holds_clientStep c hI) steps (clientInv_new s)).sound
    unfold OMap.step OMap.iterMut; sound
  | valuesMut steps =>
    have := (holds_runOps (holds_clientStepV c hI) steps (clientInv_new s)).sound
    unfold OMap.step OMap.iterMut; sound
  | drain ds leak => exact sound_drainStep c hI s ds leak
  | clear =>
    have := sound_drainDrop c hI _ (drainInv_new s)
    unfold OMap.step OMap.clear OMap.drain; sound

theorem sound_runOps {step : σ → ω → R (ο × σ)} (hs : ∀ s op, Sound (step s op)) (s : σ) (ops : List ω) :
    Sound (runOps step s ops) :=
  (holds_runOps (inv := fun _ => True) (fun s op _ => (hs s op).holds.mono fun _ _ => trivial) ops trivial).sound

theorem sound_omapFromIter (c : Cfg) (hI : SoundImpl I) (sz : Nat) (ps : List (K × V)) :
    Sound (OMap.fromIter c I sz ps) := by
  have h1 := sound_omapInsert (V := V) c hI sz
  have key : ∀ (ps : List (K × V)) s, Sound (OMap.extendLoop c I sz s ps) := by
    intro ps
    induction ps with
    | nil => intro s; exact Sound.mk_ok _
    | cons x xs ih => intro s; obtain ⟨k, v⟩ := x; unfold OMap.extendLoop; sound
  exact key ps _

/-! ## Total maps -/

theorem sound_tmTryNew (c : Cfg) (hI : SoundImpl I) (sz : Nat) (init : K → ρ → R (Except E V × ρ))
    (hf : ∀ k r, Sound (init k r)) (r : ρ) : Sound (OrdinalTotalMap.tryNew c I sz init r) := by
  have key : ∀ fuel (it : OrdinalValues) map r, it.len < fuel → Sound (OrdinalTotalMap.tryNewLoop I init fuel it map r) := by
    intro fuel
    induction fuel with
    | zero => intro it map r h; omega
    | succ fuel ih =>
      intro it map r h
      unfold OrdinalTotalMap.tryNewLoop
      refine Holds.sound (P := fun _ => True) ((steps_valuesNext hI it trivial).bind ?_)
      rintro ⟨o, it1⟩ ⟨-, h2, h3⟩
      cases o with
      | none => trivial
      | some k =>
        have := (h3 k rfl).1
        simp only at this
        refine Sound.bind (hf k r) ?_
        rintro ⟨o, r1⟩
        cases o with
        | error e => trivial
        | ok x => exact (ih it1 _ r1 (by omega)).holds
  have hw : ∀ c sz n, Sound (withCapacity c sz n) := by intros; unfold withCapacity; sound
  have hv : Sound (OrdinalValues.new I) := by unfold OrdinalValues.new; sound
  unfold OrdinalTotalMap.tryNew
  refine Holds.sound (P := fun _ => True) (Sound.bind hI.size fun n => Sound.bind (hw _ _ _) fun _ => Sound.bind hv
    fun it => (key _ _ _ _ (by omega)).holds)

theorem sound_wrap {init : K → ρ → R (V × ρ)} (hf : ∀ k r, Sound (init k r)) (k : K) (r : ρ) :
    Sound (do
      let (v, r) ← init k r
      .ok (.ok v, r) : R (Except Empty V × ρ)) := by
  have := hf k r
  sound

theorem sound_tmNew (c : Cfg) (hI : SoundImpl I) (sz : Nat) (init : K → ρ → R (V × ρ))
    (hf : ∀ k r, Sound (init k r)) (r : ρ) : Sound (OrdinalTotalMap.new c I sz init r) := by
  have := sound_tmTryNew (E := Empty) c hI sz _ (sound_wrap hf) r
  unfold OrdinalTotalMap.new
  refine Holds.sound (P := fun _ => True) (Sound.bind this ?_)
  rintro ⟨o, r⟩
  cases o with
  | error e => exact e.elim
  | ok m => trivial

open ArrayBuilder in
theorem sound_taTryNew (hI : SoundImpl I) (S : Nat) (init : K → ρ → R (Except E V × ρ))
    (hf : ∀ k r, Sound (init k r)) (r : ρ) : Sound (OrdinalTotalArrayMap.tryNew I S init r) := by
  have key : ∀ fuel (it : OrdinalValues) vs r, vs.length ≤ S → it.len < fuel →
      Sound (OrdinalTotalArrayMap.tryNewLoop I init fuel it (holding S vs) r) := by
    intro fuel
    induction fuel with
    | zero => intro it vs r _ h; omega
    | succ fuel ih =>
      intro it vs r hl h
      unfold OrdinalTotalArrayMap.tryNewLoop
      refine Holds.sound (P := fun _ => True) ((steps_valuesNext hI it trivial).bind ?_)
      rintro ⟨o, it1⟩ ⟨-, h2, h3⟩
      cases o with
      | none =>
        have := sound_finish hl
        sound
      | some k =>
        have := (h3 k rfl).1
        simp only at this
        refine Sound.bind (hf k r) ?_
        rintro ⟨o, r1⟩
        cases o with
        | error e =>
          have := sound_drop S vs
          sound
        | ok x =>
          refine (holds_push x hl).bind ?_
          rintro b ⟨rfl, hl'⟩
          exact (ih it1 _ r1 hl' (by omega)).holds
  have hv : Sound (OrdinalValues.new I) := by unfold OrdinalValues.new; sound
  have ha : Sound (OrdinalTotalArrayMap.assertS I S) := by unfold OrdinalTotalArrayMap.assertS; sound
  unfold OrdinalTotalArrayMap.tryNew
  rw [ArrayBuilder.new_eq]
  refine Holds.sound (P := fun _ => True) (Sound.bind ha fun _ => Sound.bind hv
    fun it => (key _ _ _ _ (by simp) (by omega)).holds)

theorem sound_taNew (hI : SoundImpl I) (S : Nat) (init : K → ρ → R (V × ρ))
    (hf : ∀ k r, Sound (init k r)) (r : ρ) : Sound (OrdinalTotalArrayMap.new I S init r) := by
  have := sound_taTryNew (E := Empty) hI S _ (sound_wrap hf) r
  have ha : Sound (OrdinalTotalArrayMap.assertS I S) := by unfold OrdinalTotalArrayMap.assertS; sound
  unfold OrdinalTotalArrayMap.new
  refine Holds.sound (P := fun _ => True) (Sound.bind ha fun _ => Sound.bind this ?_)
  rintro ⟨o, r⟩
  cases o with
  | error e => exact e.elim
  | ok m => trivial

open ArrayBuilder in
theorem sound_taMap (c : Cfg) (hI : SoundImpl I) (S : Nat) (s : OrdinalTotalArrayMap V) (f : K → V → ρ → R (W × ρ))
    (hf : ∀ k v r, Sound (f k v r)) (r : ρ) : Sound (OrdinalTotalArrayMap.map c I S s f r) := by
  have key : ∀ fuel (it : TotalIntoIterArray V) vs r, vs.length ≤ S → TotalIntoIterArray.len it < fuel →
      Sound (OrdinalTotalArrayMap.mapLoop c I f fuel it (holding S vs) r) := by
    intro fuel
    induction fuel with
    | zero => intro it vs r _ h; omega
    | succ fuel ih =>
      intro it vs r hl h
      unfold OrdinalTotalArrayMap.mapLoop
      refine Holds.sound (P := fun _ => True) ((steps_listNext c hI it trivial).bind ?_)
      rintro ⟨o, it1⟩ ⟨-, h2, h3⟩
      cases o with
      | none =>
        have := sound_finish hl
        sound
      | some p =>
        obtain ⟨k, v⟩ := p
        have h4 := (h3 _ rfl).1
        refine Sound.bind (hf k v r) ?_
        rintro ⟨w, r1⟩
        refine (holds_push w hl).bind ?_
        rintro b ⟨rfl, hl'⟩
        refine (ih it1 _ r1 hl' ?_).holds
        exact Nat.lt_of_lt_of_le h4 (Nat.le_of_lt_succ h)
  unfold OrdinalTotalArrayMap.map
  rw [ArrayBuilder.new_eq]
  exact key _ _ _ _ (by simp) (by omega)

theorem sound_listRun (l : List V) (ds : List Dir) : Sound ((listIter V).it.run l ds) := by
  have h : ∀ s d, Sound ((listIter V).it.step s d) := by intro s d; cases d <;> exact Sound.mk_ok _
  induction ds generalizing l with
  | nil => exact Sound.mk_ok _
  | cons d ds ih => unfold DEIter.run; sound

theorem sound_totalRun (c : Cfg) (hI : SoundImpl I) (s : TotalIter V) (ds : List Dir) :
    Sound ((TotalIter.it c I).run s ds) :=
  (holds_run (steps_listNext c hI) (steps_listNextBack c hI) ds trivial).sound

theorem sound_valuesRun (hI : SoundImpl I) (s : OrdinalValues) (ds : List Dir) :
    Sound ((OrdinalValues.iter I).run s ds) :=
  (holds_run (it := OrdinalValues.iter I) (steps_valuesNext hI) (steps_valuesNextBack hI) ds trivial).sound

theorem holds_tmGetMut (hI : SoundImpl I) (s : List V) (k : K) :
    Holds (OrdinalTotalMap.getMut I s k) fun i => i < s.length := by
  unfold OrdinalTotalMap.getMut
  exact Sound.bind (hI.ordinal k) fun i => holds_slotOf s i

theorem sound_tmStep (c : Cfg) (hI : SoundImpl I) (s : OrdinalTotalMap V) (op : TotalOp K V) :
    Sound (OrdinalTotalMap.step c I s op) := by
  have hg : ∀ k (w : V), Holds (do
      let slot ← OrdinalTotalMap.getMut I s k
      .ok (.opt (some (← readSlot s slot)), ← writeSlot s slot w) : R (MapOut K V × OrdinalTotalMap V)) fun _ => True :=
    fun k w => (holds_tmGetMut hI s k).bind fun i hi => (holds_readSlot hi).bind fun _ _ =>
      (holds_writeSlot w hi).bind fun _ _ => trivial
  cases op with
  | get k => unfold OrdinalTotalMap.step OrdinalTotalMap.get; sound
  | index k => unfold OrdinalTotalMap.step OrdinalTotalMap.index OrdinalTotalMap.get; sound
  | getMut k w => exact (hg k w).sound
  | indexMut k w => exact (hg k w).sound
  | insert k v => unfold OrdinalTotalMap.step OrdinalTotalMap.insert; sound
  | len => unfold OrdinalTotalMap.step OrdinalTotalMap.len; sound
  | isEmpty => unfold OrdinalTotalMap.step OrdinalTotalMap.isEmpty OrdinalTotalMap.len; sound
  | iter ds =>
    have := sound_totalRun c hI (OrdinalTotalMap.iter s) ds
    unfold OrdinalTotalMap.step; sound
  | keys ds =>
    have := sound_valuesRun hI
    unfold OrdinalTotalMap.step OrdinalTotalMap.keys OrdinalValues.new; sound
  | values ds =>
    have := sound_listRun (OrdinalTotalMap.values s) ds
    unfold OrdinalTotalMap.step; sound
  | iterMut steps =>
    have := (holds_runOps (holds_clientTStep c hI) steps (clientTInv_new s)).sound
    unfold OrdinalTotalMap.step OrdinalTotalMap.iterMut; sound
  | valuesMut steps =>
    have := (holds_runOps holds_slotStep steps (s := ⟨s, ⟨0, s.length⟩, []⟩) ⟨Nat.le_refl _, by simp⟩).sound
    unfold OrdinalTotalMap.step; sound

theorem sound_taStep (c : Cfg) (hI : SoundImpl I) (S : Nat) (s : OrdinalTotalArrayMap V) (op : TotalOp K V) :
    Sound (OrdinalTotalArrayMap.step c I S s op) := by
  have hg : ∀ k (w : V), Holds (do
      let slot ← OrdinalTotalMap.getMut I s k
      .ok (.opt (some (← readSlot s slot)), ← writeSlot s slot w) : R (MapOut K V × OrdinalTotalMap V)) fun _ => True :=
    fun k w => (holds_tmGetMut hI s k).bind fun i hi => (holds_readSlot hi).bind fun _ _ =>
      (holds_writeSlot w hi).bind fun _ _ => trivial
  cases op with
  | get k => unfold OrdinalTotalArrayMap.step OrdinalTotalArrayMap.get; sound
  | index k => unfold OrdinalTotalArrayMap.step OrdinalTotalArrayMap.index; sound
  | getMut k w => exact (hg k w).sound
  | indexMut k w => exact (hg k w).sound
  | insert k v => unfold OrdinalTotalArrayMap.step OrdinalTotalArrayMap.insert; sound
  | len => exact Sound.mk_ok _
  | isEmpty => exact Sound.mk_ok _
  | iter ds =>
    have := sound_totalRun c hI (OrdinalTotalArrayMap.iter s) ds
    unfold OrdinalTotalArrayMap.step; sound
  | keys ds =>
    have := sound_valuesRun hI
    unfold OrdinalTotalArrayMap.step OrdinalTotalArrayMap.keys OrdinalValues.new; sound
  | values ds =>
    have := sound_listRun (OrdinalTotalArrayMap.values s) ds
    unfold OrdinalTotalArrayMap.step; sound
  | iterMut steps =>
    have := (holds_runOps (holds_clientTStep c hI) steps (clientTInv_new s)).sound
    unfold OrdinalTotalArrayMap.step OrdinalTotalArrayMap.iterMut; sound
  | valuesMut steps =>
    have := (holds_runOps holds_slotStep steps (s := ⟨s, ⟨0, s.length⟩, []⟩) ⟨Nat.le_refl _, by simp⟩).sound
    unfold OrdinalTotalArrayMap.step; sound

/-! ## `OrdinalArrayMap` -/

theorem sound_amNew (hI : SoundImpl I) (S : Nat) : Sound (OrdinalArrayMap.new V I S) := by
  have := sound_taNew (V := Option V) hI S (fun _ () => .ok (none, ())) (fun _ _ => Sound.mk_ok _) ()
  unfold OrdinalArrayMap.new; sound

theorem sound_amInsert (hI : SoundImpl I) (s : OrdinalArrayMap V) (k : K) (v : V) : Sound (OrdinalArrayMap.insert I s k v) :=
  Holds.sound (P := fun _ => True) ((holds_tmGetMut hI s k).bind fun _ hi => (holds_readSlot hi).bind fun _ _ =>
      (holds_writeSlot (some v) hi).bind fun _ _ => trivial)

theorem holds_amEntry (hI : SoundImpl I) (s : OrdinalArrayMap V) (k : K) :
    Holds (OrdinalArrayMap.entry I s k) fun p => EntryInv p.2 p.1 :=
  (holds_tmGetMut hI s k).bind fun _ hj => (holds_entryNew k hj).bind fun _ he => he

theorem holds_amGetMut (hI : SoundImpl I) (s : OrdinalArrayMap V) (k : K) :
    Holds (OrdinalArrayMap.getMut I s k) fun r => ∀ i, r = some i → Full s i := by
  refine (holds_tmGetMut hI s k).bind fun j hj => (holds_readSlot hj).bind fun o ho => ?_
  cases o with
  | none => simp
  | some v =>
    simp only [Option.map_some, holds_ok, Option.some.injEq]
    rintro _ rfl
    exact ⟨v, ho⟩

theorem sound_amStep (c : Cfg) (hI : SoundImpl I) (s : OrdinalArrayMap V) (op : MapOp K V) :
    Sound (OrdinalArrayMap.step c I s op) := by
  cases op with
  | get k => unfold OrdinalArrayMap.step OrdinalArrayMap.get OrdinalTotalArrayMap.get; sound
  | getMut k w =>
    exact Holds.sound (P := fun _ => True)
      ((holds_amGetMut hI s k).bind fun r hr => (sound_getMutClient w hr).holds)
  | insert k v =>
    have := sound_amInsert hI s k v
    unfold OrdinalArrayMap.step; sound
  | remove k =>
    have : Sound (OrdinalArrayMap.remove I s k) :=
      Holds.sound (P := fun _ => True) ((holds_tmGetMut hI s k).bind fun i hi => (holds_readSlot hi).bind fun _ _ =>
        (holds_writeSlot none hi).bind fun _ _ => trivial)
    unfold OrdinalArrayMap.step; sound
  | orInsert k v w =>
    refine Holds.sound (P := fun _ => True) ((holds_amEntry hI s k).bind ?_)
    rintro ⟨e, m⟩ he
    refine (holds_orInsert v he).bind ?_
    rintro ⟨i, m⟩ hf
    have h1 := holds_readSome hf
    have h2 := (holds_writeSome w hf).sound
    sound
  | entry k v w =>
    refine Holds.sound (P := fun _ => True) ((holds_amEntry hI s k).bind ?_)
    rintro ⟨e, m⟩ he
    exact (sound_entryClient v w he).holds
  | len =>
    have := sound_count c hI (OrdinalArrayMap.iter s)
    unfold OrdinalArrayMap.step OrdinalArrayMap.len; sound
  | isEmpty =>
    have := (steps_mapNext c hI (OrdinalArrayMap.iter s) trivial).sound
    unfold OrdinalArrayMap.step OrdinalArrayMap.isEmpty; sound
  | iter ds =>
    have := (sound_iterRun c hI (OrdinalArrayMap.iter s) ds).1
    unfold OrdinalArrayMap.step; sound
  | keys ds =>
    have := (sound_iterRun c hI (OrdinalArrayMap.iter s) ds).2.1
    unfold OrdinalArrayMap.step OrdinalArrayMap.keys; sound
  | values ds =>
    have := (sound_iterRun c hI (OrdinalArrayMap.iter s) ds).2.2
    unfold OrdinalArrayMap.step OrdinalArrayMap.values; sound
  | iterMut steps =>
    have := (holds_runOps (holds_clientStep c hI) steps (clientInv_new s)).sound
    unfold OrdinalArrayMap.step OrdinalArrayMap.iterMut OrdinalTotalArrayMap.iterMut; sound
  | valuesMut steps =>
    have := (holds_runOps (holds_clientStepV c hI) steps (clientInv_new s)).sound
    unfold OrdinalArrayMap.step OrdinalArrayMap.iterMut OrdinalTotalArrayMap.iterMut; sound
  | drain ds leak => exact sound_drainStep c hI s ds leak
  | clear =>
    have := sound_drainDrop c hI _ (drainInv_new s)
    unfold OrdinalArrayMap.step OrdinalArrayMap.clear OrdinalArrayMap.drain; sound

theorem sound_amFromIter (hI : SoundImpl I) (S : Nat) (ps : List (K × V)) :
    Sound (OrdinalArrayMap.fromIter I S ps) := by
  have h1 := sound_amInsert (V := V) hI
  have h2 := sound_amNew (V := V) hI S
  have key : ∀ (ps : List (K × V)) s, Sound (OrdinalArrayMap.extendLoop I s ps) := by
    intro ps
    induction ps with
    | nil => intro s; exact Sound.mk_ok _
    | cons x xs ih => intro s; obtain ⟨k, v⟩ := x; unfold OrdinalArrayMap.extendLoop; sound
  unfold OrdinalArrayMap.fromIter; sound

theorem sound_retain (c : Cfg) (hI : SoundImpl I) (s : OrdinalArrayMap V) (f : K → V → ρ → R (Bool × V × ρ))
    (hf : ∀ k v r, Sound (f k v r)) (r : ρ) : Sound (OrdinalArrayMap.retain c I s f r) := by
  have key : ∀ fuel (s : MapIterMut V) r, MutInv s.mem s → TotalIterMut.len s < fuel →
      Sound (OrdinalArrayMap.retainLoop c I f fuel s r) := by
    intro fuel
    induction fuel with
    | zero => intro it r _ h; omega
    | succ fuel ih =>
      intro s r hi h
      unfold OrdinalArrayMap.retainLoop
      refine Holds.sound (P := fun _ => True) ((steps_mutNext c hI s.mem s hi).bind ?_)
      rintro ⟨o, s1⟩ ⟨h1, h2, h3⟩
      cases o with
      | none => trivial
      | some p =>
        obtain ⟨k, i⟩ := p
        obtain ⟨h4, h5⟩ := h3 _ rfl
        simp only at h4 h5 h1
        have hm : s1.mem = s.mem := h1.1
        have h1' : MutInv s1.mem s1 := ⟨rfl, by rw [hm]; exact h1.2⟩
        rw [← hm] at h5
        refine (holds_readSlot h5).bind fun o ho => ?_
        cases o with
        | none => exact (ih s1 r h1' (by omega)).holds
        | some v =>
          refine Sound.bind (hf k v r) ?_
          rintro ⟨keep, v', r'⟩
          refine (holds_writeSome v' ⟨v, ho⟩).bind ?_
          rintro m rfl
          have hlen : (s1.mem.set i (some v')).length = s1.mem.length := List.length_set
          have fin : ∀ m : List (Option V), m.length = s1.mem.length →
              Holds (OrdinalArrayMap.retainLoop c I f fuel ⟨m, s1.it⟩ r') fun _ => True := by
            intro m hml
            refine (ih ⟨m, s1.it⟩ r' ⟨rfl, by simp only [hml]; exact h1'.2⟩ ?_).holds
            have : TotalIterMut.len ⟨m, s1.it⟩ = TotalIterMut.len s1 := rfl
            omega
          cases keep with
          | true => exact fin _ hlen
          | false =>
            refine (holds_writeSlot none (by rw [hlen]; exact h5)).bind ?_
            rintro m rfl
            exact fin _ (by simp)
  exact key _ _ r (mutInv_new s) (by omega)

/-! ## Derived impls -/

namespace Derive

variable {Ty : Types ι}

theorem sound_eval (c : Cfg) (hT : ∀ t, SoundImpl (Ty.impl t)) (refs : RefEnv Ty) (env : Env Ty) (m : Mode) (e : Expr ι) :
    Sound (e.eval c Ty refs env m) := by
  have h1 := fun t => (hT t).size
  have h2 := fun t => (hT t).ordinal
  induction e generalizing refs env m with
  | lit n => cases m <;> (unfold Expr.eval; sound)
  | sizeOf t => cases m <;> (unfold Expr.eval; exact h1 t)
  | ordinalOf r =>
    cases m with
    | const => exact Sound.mk_compileError
    | runtime =>
      unfold Expr.eval
      split
      · exact h2 _ _
      · exact Sound.mk_compileError
  | add a b iha ihb => cases m <;> (unfold Expr.eval; sound)
  | mul a b iha ihb => cases m <;> (unfold Expr.eval; sound)
  | var x => cases m <;> (unfold Expr.eval; sound)
  | sub a b iha ihb => cases m <;> (unfold Expr.eval; sound)
  | rem a b iha ihb => cases m <;> (unfold Expr.eval; sound)
  | constBlock e ih => cases m <;> (unfold Expr.eval; exact ih _ _ _)

theorem sound_stmtExec (c : Cfg) (hT : ∀ t, SoundImpl (Ty.impl t)) (env : Env Ty) (s : Stmt ι) :
    Sound (s.exec c Ty env) := by
  have h := sound_eval c hT
  have h3 := fun t => (hT t).fromOrdinal
  cases s <;> (unfold Stmt.exec; sound)

theorem sound_execStmts (c : Cfg) (hT : ∀ t, SoundImpl (Ty.impl t)) (env : Env Ty) (ss : List (Stmt ι)) :
    Sound (execStmts c Ty env ss) := by
  have h := sound_stmtExec c hT
  induction ss generalizing env with
  | nil => exact Sound.mk_ok _
  | cons s ss ih => unfold execStmts; sound

variable [DecidableEq ι]

theorem sound_readVar (env : Env Ty) (x : Ident) (t : ι) : Sound (readVar Ty env x t) := by
  unfold readVar; sound

theorem sound_readVars (env : Env Ty) (l : List (Ident × ι)) : Sound (readVars Ty env l) := by
  have h := sound_readVar env
  induction l with
  | nil => exact Sound.mk_ok _
  | cons p l ih => obtain ⟨x, t⟩ := p; unfold readVars; sound

theorem sound_mapM (f : A → R B) (hf : ∀ a, Sound (f a)) (l : List A) : Sound (l.mapM f) := by
  induction l with
  | nil => exact Sound.mk_ok _
  | cons a l ih =>
    rw [List.mapM_cons]
    exact Holds.sound (P := fun _ => True) (Sound.bind (hf a) fun _ => Sound.bind ih fun _ => trivial)

theorem sound_buildEval (env : Env Ty) (fs : Fields ι) (b : Build) : Sound (b.eval Ty env fs) := by
  have h := sound_readVars env
  have h2 := sound_readVar env
  have h3 : ∀ (xs : List (String × Ident)) (l : List (String × ι)), Sound (l.mapM fun f =>
      match xs.lookup f.1 with
      | some x => readVar Ty env x f.2
      | none => .error .compileError) := by
    intro xs l
    refine sound_mapM _ (fun f => ?_) _
    split
    · exact h2 _ _
    · exact Sound.mk_compileError
  cases b <;> cases fs <;> (simp only [Build.eval]; sound)

theorem sound_blockExec (c : Cfg) (hT : ∀ t, SoundImpl (Ty.impl t)) (env : Env Ty) (fs : Fields ι) (b : Block ι) :
    Sound (b.exec c Ty env fs) := by
  have h := sound_execStmts c hT
  have h2 := sound_buildEval (Ty := Ty)
  unfold Block.exec; sound

theorem sound_genStruct (c : Cfg) (hT : ∀ t, SoundImpl (Ty.impl t)) (g : GenStruct ι) (fs : Fields ι) :
    SoundImpl (g.toImpl c Ty fs) := by
  have h := sound_eval c hT
  have h2 := sound_blockExec c hT
  constructor <;> (intros; unfold GenStruct.toImpl; dsimp only; sound)

theorem sound_rejected (α : Type) : SoundImpl (rejected α) :=
  ⟨Sound.mk_compileError, fun _ => Sound.mk_compileError, fun _ => Sound.mk_compileError⟩

theorem sound_ite {p : Prop} [Decidable p] {α : Type} {X Y : OrdinalImpl α} (hX : SoundImpl X) (hY : SoundImpl Y) :
    SoundImpl (if p then X else Y) := by
  split <;> assumption

theorem sound_structImpl (c : Cfg) (hT : ∀ t, SoundImpl (Ty.impl t)) (fs : Fields ι) :
    SoundImpl (structImpl c Ty fs) := by
  unfold structImpl
  repeat' split
  all_goals first | exact sound_rejected _ | exact sound_genStruct c hT _ _

theorem sound_tupleImpl (c : Cfg) (hT : ∀ t, SoundImpl (Ty.impl t)) (tys : List ι) :
    SoundImpl (tupleImpl c Ty tys) := by
  unfold tupleImpl
  split
  · split
    · exact sound_rejected _
    · exact sound_ite (sound_genStruct c hT _ (.unnamed tys)) (sound_rejected _)
  · exact sound_rejected _

theorem sound_execEnumStmts (c : Cfg) (hT : ∀ t, SoundImpl (Ty.impl t)) (i k : Nat) (vs : List (Fields ι))
    (l : List (Expr ι × Block ι)) : Sound (execEnumStmts c Ty i k vs l) := by
  have h := sound_eval c hT
  have h2 := sound_blockExec c hT
  induction vs generalizing k l with
  | nil => unfold execEnumStmts; exact Sound.mk_ok _
  | cons v vs ih =>
    cases l with
    | nil => unfold execEnumStmts; exact Sound.mk_ok _
    | cons p l => obtain ⟨e, b⟩ := p; unfold execEnumStmts; sound

theorem sound_enumImpl (c : Cfg) (hT : ∀ t, SoundImpl (Ty.impl t)) (vs : List (Fields ι)) :
    SoundImpl (enumImpl c Ty vs) := by
  have h := sound_eval c hT
  have h2 := sound_execEnumStmts c hT
  unfold enumImpl
  repeat' split
  all_goals first | exact sound_rejected _ | skip
  constructor <;> (intros; unfold GenEnum.toImpl; dsimp only; sound)

end Derive

/-! ## Atomics -/

theorem sound_atomicStep {I : OrdinalImpl τ} (hI : SoundImpl I) (cell : Nat) (op : AtomicOp τ) :
    Sound (AtomicOrdinal.step I cell op).1 := by
  have hc : Sound (AtomicOrdinal.call I op) := by cases op <;> (unfold AtomicOrdinal.call; sound)
  have hr : ∀ r, Sound (AtomicOrdinal.ret I r) := by intro r; cases r <;> (unfold AtomicOrdinal.ret; sound)
  have he : ∀ p, Sound (Prim.exec cell p) := by
    intro p
    cases p <;> (unfold Prim.exec; sound)
  unfold AtomicOrdinal.step
  cases h1 : AtomicOrdinal.call I op with
  | error e => rw [h1] at hc; simpa [Sound] using hc
  | ok p =>
    simp only
    have := he p
    cases h2 : Prim.exec cell p with
    | error e => rw [h2] at this; simpa [Sound] using this
    | ok q => obtain ⟨raw, cell'⟩ := q; exact hr raw

theorem sound_atomicDebug {I : OrdinalImpl τ} (hI : SoundImpl I) (show_ : τ → String) (cell : Nat) :
    Sound (AtomicOrdinal.debug I show_ cell) := by
  have h1 := (hI.fromOrdinal cell).holds
  simp only [AtomicOrdinal.debug, AtomicOrdinal.step, AtomicOrdinal.call, Prim.exec, AtomicOrdinal.ret]
  cases h : I.fromOrdinal cell with
  | error e => rw [h] at h1; cases e <;> simp_all [Holds, Sound]
  | ok o => cases o <;> simp [Sound]

end OrdinalMap
