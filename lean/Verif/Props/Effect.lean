import Verif.Lemmas.EffectImpls
/-!
# C80, C81: implementations of `Ordinal` with state

`trait Ordinal` is safe, and safe functions may have state: two calls with the same argument may answer
differently, and a call may panic the second time.  C80: with every such implementation (and with closures
that have state) the operations of the crate return or panic; there is no undefined behaviour and no endless
loop.  C81: how the crate calls the implementation.  An operation on a key calls `ordinal` on this key once and
nothing else; an operation without a key calls `from_ordinal` on different positions; `len` and `clear` on
all of them in order, `is_empty` up to the first value.
-/

namespace OrdinalMap

variable {σ α K V W E : Type}

/-! ## An implementation with state -/

/-- Every call flips a bit.  `ordinal` answers with the bit, whatever the value; `from_ordinal` finds something
every other time. -/
def flipImpl : SImpl Bool Bool where
  size := .ok 2
  ordinal _ := fun st => (.ok st.toNat, !st)
  fromOrdinal _ := fun st => (.ok (if st then some false else none), !st)

theorem flipImpl_sound (c : Cfg) : SoundSImpl c flipImpl := by
  refine ⟨Sound.mk_ok _, ?_, fun _ _ => Sound.mk_ok _, fun _ _ => Sound.mk_ok _⟩
  intro n hn
  cases hn
  have := c.M_ge
  omega

/-- Counts the calls of `from_ordinal` and panics after three of them. -/
def tiredImpl : SImpl Nat Bool where
  size := .ok 2
  ordinal b := fun st => (.ok b.toNat, st)
  fromOrdinal i := fun st =>
    if st < 3 then (.ok (if i = 0 then some false else if i = 1 then some true else none), st + 1)
    else (.error .panic, st)

theorem tiredImpl_sound (c : Cfg) : SoundSImpl c tiredImpl := by
  refine ⟨Sound.mk_ok _, ?_, fun _ _ => Sound.mk_ok _, fun i st => ?_⟩
  · intro n hn
    cases hn
    have := c.M_ge
    omega
  · unfold tiredImpl
    dsimp only
    split
    · exact Sound.mk_ok _
    · exact Sound.mk_panic

/-! ## From the program logic to plain statements -/

theorem MHolds.post {x : M σ α} {st : σ} {P : α → σ → Prop} {Q : σ → Prop} (h : MHolds x st P Q) {a : α} {st' : σ}
    (hx : x st = (.ok a, st')) : P a st' := by
  unfold MHolds at h
  rw [hx] at h
  exact h

theorem MHolds.all {x : M σ α} {st : σ} {P : α → σ → Prop} {Q : σ → Prop} {G : σ → Prop} (h : MHolds x st P Q)
    (hP : ∀ a st', P a st' → G st') (hQ : ∀ st', Q st' → G st') : G (x st).2 := by
  unfold MHolds at h
  rcases hx : x st with ⟨(_ | _ | _ | _) | a, st'⟩ <;> simp only [hx] at h
  · exact hQ _ h
  · exact hQ _ h
  · exact hP _ _ h

/-- Code with state that returns or panics. -/
def SoundM (x : M σ α) : Prop := ∀ st, Sound (x st).1

theorem SoundM.keeps {x : M σ α} (h : SoundM x) : Keeps (K := K) (fun _ _ => True) x :=
  fun st _ _ => mholds_of_sound (h st) (fun _ => trivial) trivial

theorem SoundM.quiet_keeps {x : M σ α} (h : SoundM x) (l₀ : List (Call K)) :
    Keeps (fun st l => st.2 = l₀ ++ l) (M.quiet (K := K) x) :=
  fun st _ hl => mholds_of_sound (h st.1) (fun _ => hl) hl

variable {c : Cfg} {J : SImpl σ K}

namespace Props

/-! ## C80: no undefined behaviour and no endless loop -/

/-- Whole histories of operations of the four maps, with the implementation in any state and changing between
calls.  The sparse map may start with any slots. -/
theorem C80_maps (hJ : SoundSImpl c J) (sz : Nat) (st : σ) :
    (∀ (m : OMap V) (ops : List (MapOp K V)), m.length < c.M → Sound (Eff.runOps (Eff.omapStep c J sz) m ops st).1) ∧
    (∀ (m : OrdinalArrayMap V) (ops : List (MapOp K V)), List.length m < c.M →
      Sound (Eff.runOps (Eff.amapStep c J) m ops st).1) ∧
    (∀ (len : R Nat) (m : List V) (ops : List (TotalOp K V)), Sound len → m.length < c.M →
      Sound (Eff.runOps (Eff.totalStep c J len) m ops st).1) := by
  have hT := hJ.traced
  refine ⟨fun m ops hm => ?_, fun m ops hm => ?_, fun len m ops hlen hm => ?_⟩
  · refine (mholds_runOps (Inv := fun (m : OMap V) _ => m.length < c.M) (Q := fun _ => True) ?_ ops hm).sound
    intro m st op hm
    cases hk : op.key? with
    | some k => exact (mholds_omapKeyed hT sz m hm trivial op hk).mono (fun _ _ h => h.1) fun _ _ => trivial
    | none =>
      rw [omapStep_keyless sz m op hk]
      exact (mholds_keyless hT m hm trivial op).mono (fun _ _ h => by rw [h.1]; exact hm) fun _ _ => trivial
  · refine (mholds_runOps (Inv := fun (m : OrdinalArrayMap V) _ => List.length m < c.M) (Q := fun _ => True) ?_ ops hm).sound
    intro m st op hm
    cases hk : op.key? with
    | some k => exact (mholds_amapKeyed hT m trivial op hk).mono (fun _ _ h => by rw [h.1]; exact hm) fun _ _ => trivial
    | none =>
      rw [amapStep_keyless m op hk]
      exact (mholds_keyless hT m hm trivial op).mono (fun _ _ h => by rw [h.1]; exact hm) fun _ _ => trivial
  · refine (mholds_runOps (Inv := fun (m : List V) _ => m.length < c.M) (Q := fun _ => True) ?_ ops hm).sound
    intro m st op hm
    cases hk : op.key? with
    | some k =>
      exact (mholds_totalKeyed hT len m trivial op hk).mono (fun _ _ h => by rw [h.1]; exact hm) fun _ _ => trivial
    | none =>
      exact (mholds_totalKeyless hT len hlen m hm trivial op hk).mono (fun _ _ h => by rw [h.1]; exact hm)
        fun _ _ => trivial

example := C80_maps (V := Nat) (flipImpl_sound debug64) 8 true

/-- `contains_key`, which is not among the operations of the histories. -/
theorem C80_contains_key (hJ : SoundSImpl c J) (st : σ) (k : K) :
    (∀ m : OMap V, Sound (Eff.omapContainsKey J m k st).1) ∧
    (∀ m : OrdinalArrayMap V, Sound (Eff.amapContainsKey J m k st).1) :=
  ⟨fun m => (mholds_omapContainsKey hJ.traced m k trivial).sound,
    fun m => (mholds_amapContainsKey hJ.traced m k trivial).sound⟩

example := C80_contains_key (V := Nat) (flipImpl_sound debug64) true false

/-- Constructors, `from_iter`, `map`, `as_ref` and `retain` with closures that share the state. -/
theorem C80_closures (hJ : SoundSImpl c J) (sz S : Nat) (st : σ) :
    (∀ init : K → M σ (Except E V), (∀ k, SoundM (init k)) →
      Sound (Eff.tryNew c J sz init st).1 ∧ Sound (Eff.tryNewArray J S init st).1) ∧
    (∀ init : K → M σ V, (∀ k, SoundM (init k)) →
      Sound (Eff.newMap c J sz init st).1 ∧ Sound (Eff.newArray J S init st).1) ∧
    (∀ m : List V, Sound (Eff.asRef J S m st).1) ∧
    (∀ (m : List V) (f : K → V → M σ W), m.length < c.M → (∀ k v, SoundM (f k v)) →
      Sound (Eff.map c J m.length m f st).1) ∧
    (∀ (m : OrdinalArrayMap V) (f : K → V → M σ (Bool × V)), List.length m < c.M → (∀ k v, SoundM (f k v)) →
      Sound (Eff.retain c J m f st).1) ∧
    (∀ ps : List (K × V), Sound (Eff.omapExtend c J sz [] ps st).1) ∧
    (∀ (m : OrdinalArrayMap V) (ps : List (K × V)), Sound (Eff.amapExtend J m ps st).1) ∧
    Sound (Eff.arrayMapNew V J S st).1 := by
  have hT := hJ.traced
  have hM := c.M_ge
  refine ⟨fun init hi => ⟨(mholds_tryNew_up hT sz init (fun k => (hi k).keeps) trivial).sound,
      (mholds_tryNewArray_up hT S init (fun k => (hi k).keeps) trivial).sound⟩,
    fun init hi => ⟨(mholds_newMap_up hT sz init (fun k => (hi k).keeps) trivial).sound,
      (mholds_newArray_up hT S init (fun k => (hi k).keeps) trivial).sound⟩,
    fun m => (mholds_newArray_up hT S (Eff.totalGet J m) (fun k => ?_) trivial).sound,
    fun m f hm hf => (mholds_mapArr_up hT m hm f (fun k v => (hf k v).keeps) trivial).sound,
    fun m f hm hf => (mholds_retain_up hT m hm f (fun k v => (hf k v).keeps) trivial).sound,
    fun ps => (mholds_omapExtend hT sz ps [] (by simp only [List.length_nil]; omega) trivial).sound,
    fun m ps => (mholds_amapExtend hT ps m trivial).sound,
    (mholds_newArray_up hT S (fun _ => .of (.ok none)) (fun _ => SoundM.keeps fun _ => Sound.mk_ok _) trivial).sound⟩
  exact fun st l _ => (mholds_totalGet hT m k trivial).mono (fun _ _ _ => trivial) fun _ _ => trivial

example := C80_closures (V := Nat) (W := String) (E := String) (tiredImpl_sound debug64) 8 2 0

/-- The sets: `contains`, `insert`, `from_iter`, and walks in any direction. -/
theorem C80_sets (hJ : SoundSImpl c J) (st : σ) (x : K) :
    (∀ t, Sound (Eff.osetContains c J t x st).1 ∧ Sound (Eff.osetInsert c J t x st).1) ∧
    (∀ S ws, Sound (Eff.asetContains c J S ws x st).1 ∧ Sound (Eff.asetInsert c J S ws x st).1) ∧
    (∀ w, Sound (Eff.set64Contains c J w x st).1 ∧ Sound (Eff.set64Insert c J w x st).1) ∧
    (∀ xs, Sound (Eff.osetFromIter c J xs st).1) ∧
    (∀ S ws xs, Sound (Eff.asetExtend c J S ws xs st).1) ∧
    (∀ w xs, Sound (Eff.set64Extend c J w xs st).1) ∧
    (∀ n ws ds, Sound (Eff.run (Eff.setNext c J) (Eff.setNextBack c J) ⟨⟨0, n⟩, ws⟩ ds st).1) ∧
    (∀ w ds, Sound (Eff.run (Eff.iter64Next c J) (Eff.iter64NextBack c J) w ds st).1) := by
  have hT := hJ.traced
  exact ⟨fun t => ⟨(mholds_osetContains hT t x trivial).sound, (mholds_osetInsert hT t x trivial).sound⟩,
    fun S ws => ⟨(mholds_asetContains hT S ws x trivial).sound, (mholds_asetInsert hT S ws x trivial).sound⟩,
    fun w => ⟨(mholds_set64Contains hT w x (Nat.le_refl _) trivial).sound, (mholds_set64Insert hT w x trivial).sound⟩,
    fun xs => (mholds_osetFromIter hT xs trivial).sound,
    fun S ws xs => (mholds_asetExtend hT S xs ws trivial).sound,
    fun w xs => (mholds_set64Extend hT xs w trivial).sound,
    fun n ws ds => (mholds_setRun hT n ws ds trivial).sound,
    fun w ds => (mholds_run64 hT w ds trivial).sound⟩

example := C80_sets (flipImpl_sound debug64) false true

/-- `Ordinal` for arrays over an element type with state: the unsafe `ArrayBuilder` is used correctly. -/
theorem C80_arrays (hJ : SoundSImpl c J) (st : σ) :
    (∀ N i, Sound (Eff.arrayFrom J N i st).1) ∧ (∀ vs r, Sound (Eff.arrayOrdinalLoop c J vs r st).1) :=
  ⟨fun N i => (mholds_arrayFrom hJ.traced N i trivial).sound,
    fun vs r => (mholds_arrayOrdinal hJ.traced vs r trivial).sound⟩

example := C80_arrays (tiredImpl_sound debug64) 1

/-- The impls for `Option`, `Result` and `Either`, `Box` and arrays keep the hypothesis, so the other theorems apply to
types built with them. -/
theorem C80_impls {α β : Type} {A : SImpl σ α} {B : SImpl σ β} (hA : SoundSImpl c A) (hB : SoundSImpl c B) (N : Nat) :
    SoundSImpl c (A.option c) ∧ SoundSImpl c (A.sum c B) ∧ SoundSImpl c A.box ∧ SoundSImpl c (A.array c N) :=
  ⟨hA.option, hA.sum hB, hA.box, hA.array N⟩

example := C80_impls (tiredImpl_sound debug64) (tiredImpl_sound debug64) 3

/-- On implementations without state these are the models of the other properties: maps and types. -/
theorem C80_agrees (I : OrdinalImpl K) (sz S : Nat) :
    (∀ (m : OMap V) op, Eff.omapStep (σ := σ) c (.ofPure I) sz m op = .of (OMap.step c I sz m op)) ∧
    (∀ (m : OrdinalArrayMap V) op, Eff.amapStep (σ := σ) c (.ofPure I) m op = .of (OrdinalArrayMap.step c I m op)) ∧
    (∀ (m : OMap V) ps, Eff.omapExtend (σ := σ) c (.ofPure I) sz m ps = .of (OMap.extendLoop c I sz m ps)) ∧
    (∀ (init : K → σ → R (Except E V × σ)) st,
      (Eff.tryNewArray (.ofPure I) S (fun k => .ofState (init k))).result st = OrdinalTotalArrayMap.tryNew I S init st) ∧
    (∀ (m : OrdinalArrayMap V) (f : K → V → σ → R (Bool × V × σ)) st,
      (Eff.retain c (.ofPure I) m (fun k v => .ofState fun st => do
        let (b, v, st) ← f k v st
        .ok ((b, v), st))).result st = OrdinalArrayMap.retain c I m f st) ∧
    (∀ (t : OrdinalSet) x, Eff.osetContains (σ := σ) c (.ofPure I) t x = .of (OrdinalSet.contains c I t x)) ∧
    (∀ (t : OrdinalSet) x, Eff.osetInsert (σ := σ) c (.ofPure I) t x = .of (OrdinalSet.insert c I t x)) ∧
    (∀ it : SetIter, Eff.setNext (σ := σ) c (.ofPure I) it = .of (it.next c I)) ∧
    (∀ N, (SImpl.ofPure (σ := σ) I).array c N = .ofPure (arrayImpl c N I)) ∧
    (SImpl.ofPure (σ := σ) I).option c = .ofPure (optionImpl c I) :=
  ⟨Eff.pure_omapStep c sz, Eff.pure_amapStep c, Eff.pure_omapExtend c sz, Eff.pure_tryNewArray S, Eff.pure_retain c,
    Eff.pure_osetContains c, Eff.pure_osetInsert c, Eff.pure_setNext c, pure_array I, pure_option I⟩

/-- The same for total maps, `contains_key`, `from_iter` of the array map, and constructors. -/
theorem C80_agrees_maps (I : OrdinalImpl K) (sz S : Nat) :
    (∀ (m : List V) op, Eff.totalStep (σ := σ) c (.ofPure I) I.size m op = .of (OrdinalTotalMap.step c I m op)) ∧
    (∀ (m : List V) op, Eff.totalStep (σ := σ) c (.ofPure I) (.ok S) m op = .of (OrdinalTotalArrayMap.step c I S m op)) ∧
    (∀ (m : OMap V) k, Eff.omapContainsKey (σ := σ) (.ofPure I) m k = .of (OMap.containsKey I m k)) ∧
    (∀ (m : OrdinalArrayMap V) k, Eff.amapContainsKey (σ := σ) (.ofPure I) m k = .of (OrdinalArrayMap.containsKey I m k)) ∧
    (∀ (m : OrdinalArrayMap V) ps, Eff.amapExtend (σ := σ) (.ofPure I) m ps = .of (OrdinalArrayMap.extendLoop I m ps)) ∧
    (∀ (init : K → σ → R (Except E V × σ)) st,
      (Eff.tryNew c (.ofPure I) sz (fun k => .ofState (init k))).result st = OrdinalTotalMap.tryNew c I sz init st) ∧
    (∀ (init : K → σ → R (V × σ)) st,
      (Eff.newMap c (.ofPure I) sz (fun k => .ofState (init k))).result st = OrdinalTotalMap.new c I sz init st) ∧
    (∀ (init : K → σ → R (V × σ)) st,
      (Eff.newArray (.ofPure I) S (fun k => .ofState (init k))).result st = OrdinalTotalArrayMap.new I S init st) ∧
    (∀ m : List V, Eff.asRef (.ofPure I) S m = (.of (OrdinalTotalArrayMap.asRef I S m) : M Unit _)) ∧
    (∀ (m : List V) (f : K → V → σ → R (W × σ)) st,
      (Eff.map c (.ofPure I) S m (fun k v => .ofState (f k v))).result st = OrdinalTotalArrayMap.map c I S m f st) ∧
    Eff.arrayMapNew V (.ofPure I) S = (.of (OrdinalArrayMap.new V I S) : M Unit _) :=
  ⟨fun m op => (Eff.pure_totalStep_aux c m op).1, fun m op => (Eff.pure_totalStep_aux c m op).2 S,
    Eff.pure_omapContainsKey, Eff.pure_amapContainsKey, Eff.pure_amapExtend, Eff.pure_tryNew c sz, Eff.pure_newMap c sz,
    Eff.pure_newArray S, Eff.pure_asRef S, Eff.pure_map c S, Eff.pure_arrayMapNew S⟩

example := C80_agrees_maps (σ := Nat) (V := Nat) (W := Nat) (E := String) (c := debug64) boolImpl 8 2

/-- The same for the sets and for types built from others. -/
theorem C80_agrees_sets (I : OrdinalImpl K) (S : Nat) :
    (∀ (ws : OrdinalArraySet) x, Eff.asetContains (σ := σ) c (.ofPure I) S ws x = .of (OrdinalArraySet.contains c I S ws x)) ∧
    (∀ (ws : OrdinalArraySet) x, Eff.asetInsert (σ := σ) c (.ofPure I) S ws x = .of (OrdinalArraySet.insert c I S ws x)) ∧
    (∀ (w : OrdinalSet64) x, Eff.set64Contains (σ := σ) c (.ofPure I) w x = .of (OrdinalSet64.contains c I w x)) ∧
    (∀ (w : OrdinalSet64) x, Eff.set64Insert (σ := σ) c (.ofPure I) w x = .of (OrdinalSet64.insert c I w x)) ∧
    (∀ xs, Eff.osetFromIter (σ := σ) c (.ofPure I) xs = .of (OrdinalSet.fromIter c I xs)) ∧
    (∀ ws xs, Eff.asetExtend (σ := σ) c (.ofPure I) S ws xs = .of (OrdinalArraySet.extendLoop c I S ws xs)) ∧
    (∀ w xs, Eff.set64Extend (σ := σ) c (.ofPure I) w xs = .of (OrdinalSet64.extendLoop c I w xs)) ∧
    (∀ it : SetIter, Eff.setNextBack (σ := σ) c (.ofPure I) it = .of (it.nextBack c I)) ∧
    (∀ w : Iter64, Eff.iter64Next (σ := σ) c (.ofPure I) w = .of (Iter64.next c I w)) ∧
    (∀ w : Iter64, Eff.iter64NextBack (σ := σ) c (.ofPure I) w = .of (Iter64.nextBack c I w)) ∧
    (∀ r : OrdinalValues, Eff.valuesNext (σ := σ) (.ofPure I) r = .of (r.next I)) ∧
    (∀ r : OrdinalValues, Eff.valuesNextBack (σ := σ) (.ofPure I) r = .of (r.nextBack I)) ∧
    (∀ {β : Type} (B : OrdinalImpl β), (SImpl.ofPure (σ := σ) I).sum c (.ofPure B) = .ofPure (resultImpl c I B)) ∧
    (SImpl.ofPure (σ := σ) I).box = .ofPure (boxImpl I) :=
  ⟨Eff.pure_asetContains c S, Eff.pure_asetInsert c S, Eff.pure_set64Contains c, Eff.pure_set64Insert c,
    Eff.pure_osetFromIter, Eff.pure_asetExtend S, Eff.pure_set64Extend c, Eff.pure_setNextBack c, Eff.pure_iter64Next c,
    Eff.pure_iter64NextBack c, Eff.pure_valuesNext, Eff.pure_valuesNextBack, pure_sum I, pure_box I⟩

example := C80_agrees_sets (σ := Nat) (c := debug64) boolImpl 1

-- The bit flips between the two calls of `insert` and `get`: the value is written to slot 0, looked for in
-- slot 1, and found the next time.  `len` panics: `from_ordinal` answers `None` the second time.
example : Eff.runOps (Eff.omapStep debug64 flipImpl 8) ([] : OMap Nat)
    [.insert true 5, .get true, .get true] false = (.ok ([.opt none, .opt none, .opt (some 5)], [some 5, none]), true) := by rfl
example : Eff.runOps (Eff.omapStep debug64 flipImpl 8) ([] : OMap Nat) [.insert true 5, .len] false =
    (.error .panic, true) := by rfl
-- The set asks four times for the ordinal of the same value: it looks at bit 1 of word 0 and sets bit 0.
example : Eff.osetInsert debug64 flipImpl (.small 2) true false = (.ok (false, .small 3), false) := by rfl
-- A panic in the middle of a walk, at the fourth call of `from_ordinal`.
example : Eff.runOps (Eff.omapStep debug64 tiredImpl 8) [some 1, some (2 : Nat)]
    [.len, .iter [.front, .front]] 0 = (.error .panic, 3) := by rfl
-- The builder is dropped halfway when `from_ordinal` panics in the second element.
example : (Eff.arrayFrom tiredImpl 2 3 2).1 = .error .panic := by decide
example : (Eff.arrayFrom tiredImpl 2 3 0).1 = .ok (some [true, true]) := by decide

-- An array of options of the type that gets tired: two elements other than `None` are found, the third panics.
example : SoundSImpl debug64 ((tiredImpl.option debug64).array debug64 3) := ((tiredImpl_sound _).option).array 3
example : (((tiredImpl.option debug64).array debug64 3).fromOrdinal 1 2).1 =
    .ok (some ⟨[none, none, some false], rfl⟩) := by rfl
example : (((tiredImpl.option debug64).array debug64 3).fromOrdinal 13 2).1 = .error .panic := by rfl

/-! ## C81: the calls -/

/-- The calls that a run makes, from state `st`. -/
def callsOf (x : M (σ × List (Call K)) α) (st : σ) : List (Call K) := (x (st, [])).2.2

theorem calls_of {x : M (σ × List (Call K)) α} {st : σ} {P : α → σ × List (Call K) → Prop}
    {Q : σ × List (Call K) → Prop} {G : List (Call K) → Prop} (h : MHolds x (st, []) P Q)
    (hP : ∀ a st', P a st' → G st'.2) (hQ : ∀ st', Q st' → G st'.2) : G (callsOf x st) :=
  h.all (G := fun st' => G st'.2) hP hQ

theorem calls_ok {x : M (σ × List (Call K)) α} {st : σ} {P : α → σ × List (Call K) → Prop}
    {Q : σ × List (Call K) → Prop} {l : List (Call K)} (h : MHolds x (st, []) P Q)
    (hP : ∀ a st', P a st' → st'.2 = l) (hx : ∃ a, (x (st, [])).1 = .ok a) : callsOf x st = l := by
  obtain ⟨a, hx⟩ := hx
  exact hP a _ (h.post (a := a) (st' := (x (st, [])).2) (by rw [← hx]))

/-- An operation of a sparse map on a key calls `ordinal` on this key, once, and nothing else; if it does not
return it may have made no call. -/
theorem C81_map_key (hJ : SoundSImpl c J) (sz : Nat) (st : σ) (op : MapOp K V) (k : K) (hk : op.key? = some k) :
    (∀ m : OMap V, m.length < c.M →
      (callsOf (Eff.omapStep c J.logged sz m op) st = [] ∨ callsOf (Eff.omapStep c J.logged sz m op) st = [.ordinal k]) ∧
      ((∃ r, (Eff.omapStep c J.logged sz m op (st, [])).1 = .ok r) →
        callsOf (Eff.omapStep c J.logged sz m op) st = [.ordinal k])) ∧
    (∀ m : OrdinalArrayMap V,
      (callsOf (Eff.amapStep c J.logged m op) st = [] ∨ callsOf (Eff.amapStep c J.logged m op) st = [.ordinal k]) ∧
      ((∃ r, (Eff.amapStep c J.logged m op (st, [])).1 = .ok r) →
        callsOf (Eff.amapStep c J.logged m op) st = [.ordinal k])) := by
  have hT := hJ.logged []
  refine ⟨fun m hm => ?_, fun m => ?_⟩
  · have h := mholds_omapKeyed hT sz m hm (st := (st, [])) rfl op hk
    exact ⟨calls_of (G := fun l => l = [] ∨ l = [.ordinal k]) h (fun _ _ h => .inr h.2) fun _ h => h,
      calls_ok h fun _ _ h => h.2⟩
  · have h := mholds_amapKeyed (c := c) hT m (st := (st, [])) rfl op hk
    exact ⟨calls_of (G := fun l => l = [] ∨ l = [.ordinal k]) h (fun _ _ h => .inr h.2) fun _ h => h,
      calls_ok h fun _ _ h => h.2⟩

example := C81_map_key (flipImpl_sound debug64) 8 true (.insert false 7) false rfl

/-- `contains_key` too. -/
theorem C81_contains_key (hJ : SoundSImpl c J) (st : σ) (k : K) :
    (∀ m : OMap V, (∃ b, (Eff.omapContainsKey J.logged m k (st, [])).1 = .ok b) →
      callsOf (Eff.omapContainsKey J.logged m k) st = [.ordinal k]) ∧
    (∀ m : OrdinalArrayMap V, (∃ b, (Eff.amapContainsKey J.logged m k (st, [])).1 = .ok b) →
      callsOf (Eff.amapContainsKey J.logged m k) st = [.ordinal k]) :=
  ⟨fun m => calls_ok (mholds_omapContainsKey (hJ.logged []) m k (st := (st, [])) rfl) fun _ _ h => h,
    fun m => calls_ok (mholds_amapContainsKey (hJ.logged []) m k (st := (st, [])) rfl) fun _ _ h => h⟩

example := C81_contains_key (V := Nat) (flipImpl_sound debug64) true false

/-- The same for the total maps. -/
theorem C81_total_key (hJ : SoundSImpl c J) (len : R Nat) (m : List V) (st : σ) (op : TotalOp K V) (k : K)
    (hk : op.key? = some k) :
    (callsOf (Eff.totalStep c J.logged len m op) st = [] ∨
      callsOf (Eff.totalStep c J.logged len m op) st = [.ordinal k]) ∧
    ((∃ r, (Eff.totalStep c J.logged len m op (st, [])).1 = .ok r) →
      callsOf (Eff.totalStep c J.logged len m op) st = [.ordinal k]) := by
  have h := mholds_totalKeyed (c := c) (hJ.logged []) len m (st := (st, [])) rfl op hk
  exact ⟨calls_of (G := fun l => l = [] ∨ l = [.ordinal k]) h (fun _ _ h => .inr h.2) fun _ h => h,
    calls_ok h fun _ _ h => h.2⟩

example := C81_total_key (flipImpl_sound debug64) (.ok 2) [5, 6] true (.insert false 7) false rfl

/-- An operation of a sparse map without a key calls `from_ordinal` only, on positions of the map, on none
twice.  This holds for `iter_mut` clients and drains too, whatever they do, and if the operation panics. -/
theorem C81_map_walk (hJ : SoundSImpl c J) (sz : Nat) (st : σ) (m : List (Option V)) (hm : m.length < c.M)
    (op : MapOp K V) (hk : op.key? = none) :
    Walk m.length (callsOf (Eff.omapStep c J.logged sz m op) st) ∧
    Walk m.length (callsOf (Eff.amapStep c J.logged m op) st) := by
  have hw : ∀ st' : σ × List (Call K), Walked (fun st l => st.2 = [] ++ l) m.length st' → Walk m.length st'.2 := by
    rintro st' ⟨l, h1, h2⟩
    simp only [List.nil_append] at h1
    rw [h1]; exact h2
  have h := mholds_keyless (hJ.logged []) m hm (st := (st, [])) rfl op
  rw [omapStep_keyless sz m op hk, amapStep_keyless m op hk]
  exact ⟨calls_of h (fun _ _ h => hw _ h.2) hw, calls_of h (fun _ _ h => hw _ h.2) hw⟩

example := C81_map_walk (tiredImpl_sound debug64) 8 1 [none, some 7] (by decide) (.drain [.back] false) rfl

/-- An operation of a total map without a key: the same; for `keys()` the positions are below
`ORDINAL_SIZE`. -/
theorem C81_total_walk (hJ : SoundSImpl c J) (len : R Nat) (hlen : Sound len) (m : List V) (hm : m.length < c.M)
    (st : σ) (op : TotalOp K V) (hk : op.key? = none) :
    Walk m.length (callsOf (Eff.totalStep c J.logged len m op) st) ∨
    ∃ n, J.size = .ok n ∧ Walk n (callsOf (Eff.totalStep c J.logged len m op) st) := by
  have h := mholds_totalKeyless (hJ.logged []) len hlen m hm (st := (st, [])) rfl op hk
  have hw : ∀ st' : σ × List (Call K), WalkedOr (fun st l => st.2 = [] ++ l) m.length J.logged st' →
      Walk m.length st'.2 ∨ ∃ n, J.size = .ok n ∧ Walk n st'.2 := by
    rintro st' (⟨l, h1, h2⟩ | ⟨n, hn, l, h1, h2⟩)
    · simp only [List.nil_append] at h1
      rw [h1]; exact .inl h2
    · simp only [List.nil_append] at h1
      rw [h1]; exact .inr ⟨n, hn, h2⟩
  exact calls_of (G := fun l => Walk m.length l ∨ ∃ n, J.size = .ok n ∧ Walk n l) h (fun _ _ h => hw _ h.2) hw

example := C81_total_walk (tiredImpl_sound debug64) (.ok 2) (by simp [Sound]) [5, 6] (by decide) 1 (.iter [.back, .front]) rfl

/-- `len` and `clear` of a sparse map call `from_ordinal` on every position, in order; `is_empty` on the positions
up to the first value.  A map that has not allocated makes no calls. -/
theorem C81_full_walk (hJ : SoundSImpl c J) (sz : Nat) (st : σ) (m : List (Option V)) (hm : m.length < c.M)
    (op : MapOp K V) (l : List (Call K))
    (h : (op = .len ∧ l = upTo m.length) ∨ (op = .clear ∧ l = upTo m.length) ∨
      (op = .isEmpty ∧ l = upTo (slotsToFirst m))) :
    ((∃ r, (Eff.omapStep c J.logged sz m op (st, [])).1 = .ok r) → callsOf (Eff.omapStep c J.logged sz m op) st = l) ∧
    ((∃ r, (Eff.amapStep c J.logged m op (st, [])).1 = .ok r) → callsOf (Eff.amapStep c J.logged m op) st = l) := by
  have hT := hJ.logged []
  have key : MHolds (Eff.keyless c J.logged m op) (st, []) (fun _ st' => st'.2 = l) (fun _ => True) := by
    rcases h with ⟨rfl, rfl⟩ | ⟨rfl, rfl⟩ | ⟨rfl, rfl⟩
    · exact ((mholds_mapLen_up hT m hm (st := (st, [])) rfl).mono (fun _ _ h => h) fun _ _ => trivial).bind
        fun _ _ h => mholds_ok h
    · exact ((mholds_clear_up hT m hm (st := (st, [])) rfl).mono (fun _ _ h => h) fun _ _ => trivial).bind
        fun _ _ h => mholds_ok h
    · exact ((mholds_mapIsEmpty_up hT m hm (st := (st, [])) rfl).mono (fun _ _ h => h) fun _ _ => trivial).bind
        fun _ _ h => mholds_ok h.2
  have hk : op.key? = none := by rcases h with ⟨rfl, -⟩ | ⟨rfl, -⟩ | ⟨rfl, -⟩ <;> rfl
  rw [omapStep_keyless sz m op hk, amapStep_keyless m op hk]
  exact ⟨calls_ok key fun _ _ h => h, calls_ok key fun _ _ h => h⟩

example := C81_full_walk (tiredImpl_sound debug64) 8 1 [none, some 7] (by decide) .len _ (.inl ⟨rfl, rfl⟩)

/-- `from_iter` calls `ordinal` on each key in turn. -/
theorem C81_from_iter (hJ : SoundSImpl c J) (sz : Nat) (st : σ) :
    (∀ (ps : List (K × V)), (∃ r, (Eff.omapExtend c J.logged sz ([] : OMap V) ps (st, [])).1 = .ok r) →
      callsOf (Eff.omapExtend c J.logged sz ([] : OMap V) ps) st = ps.map fun p => .ordinal p.1) ∧
    (∀ (m : OrdinalArrayMap V) (ps : List (K × V)), (∃ r, (Eff.amapExtend J.logged m ps (st, [])).1 = .ok r) →
      callsOf (Eff.amapExtend J.logged m ps) st = ps.map fun p => .ordinal p.1) ∧
    (∀ (w : OrdinalSet64) (xs : List K), (∃ r, (Eff.set64Extend c J.logged w xs (st, [])).1 = .ok r) →
      callsOf (Eff.set64Extend c J.logged w xs) st = xs.map .ordinal) := by
  have hT := hJ.logged []
  have hM := c.M_ge
  exact ⟨fun ps => calls_ok (mholds_omapExtend hT sz ps [] (by simp only [List.length_nil]; omega) (st := (st, [])) rfl)
      fun _ _ h => h.2,
    fun m ps => calls_ok (mholds_amapExtend (c := c) hT ps m (st := (st, [])) rfl) fun _ _ h => h.2,
    fun w xs => calls_ok (mholds_set64Extend hT xs w (st := (st, [])) rfl) fun _ _ h => h⟩

example := C81_from_iter (V := Nat) (tiredImpl_sound debug64) 8 1

/-- `from_iter` of the other sets makes three or four calls of `ordinal` for each item. -/
theorem C81_from_iter_sets (hJ : SoundSImpl c J) (st : σ) (xs : List K) :
    ((∃ r, (Eff.osetFromIter c J.logged xs (st, [])).1 = .ok r) → EachOf 3 4 xs (callsOf (Eff.osetFromIter c J.logged xs) st)) ∧
    (∀ S ws, (∃ r, (Eff.asetExtend c J.logged S ws xs (st, [])).1 = .ok r) →
      EachOf 3 4 xs (callsOf (Eff.asetExtend c J.logged S ws xs) st)) := by
  have hT := hJ.logged []
  refine ⟨?_, fun S ws => ?_⟩
  · rintro ⟨r, hx⟩
    obtain ⟨l, h1, h2⟩ := (mholds_osetFromIter hT xs (st := (st, [])) rfl).post (a := r) (by rw [← hx])
    rw [callsOf, show _ = l from h1]
    exact h2
  · rintro ⟨r, hx⟩
    obtain ⟨l, h1, h2⟩ := (mholds_asetExtend hT S xs ws (st := (st, [])) rfl).post (a := r) (by rw [← hx])
    rw [callsOf, show _ = l from h1]
    exact h2

example := C81_from_iter_sets (flipImpl_sound debug64) false [true, false, true]

/-- A constructor that returns a map has called `from_ordinal` on `0`, …, `ORDINAL_SIZE - 1` in order, once each,
and the closure in between.  `map` and `retain` do the same on the positions of the map. -/
theorem C81_closures (hJ : SoundSImpl c J) (sz S : Nat) (st : σ) :
    (∀ (init : K → M σ (Except E V)), (∀ k, SoundM (init k)) → ∀ m,
      (Eff.tryNew c J.logged sz (fun k => (init k).quiet) (st, [])).1 = .ok (.ok m) →
      callsOf (Eff.tryNew c J.logged sz fun k => (init k).quiet) st = upTo m.length ∧ J.size = .ok m.length) ∧
    (∀ (init : K → M σ (Except E V)), (∀ k, SoundM (init k)) → ∀ m,
      (Eff.tryNewArray J.logged S (fun k => (init k).quiet) (st, [])).1 = .ok (.ok m) →
      callsOf (Eff.tryNewArray J.logged S fun k => (init k).quiet) st = upTo m.length ∧ J.size = .ok m.length) ∧
    (∀ (m : List V) (f : K → V → M σ W), m.length < c.M → (∀ k v, SoundM (f k v)) →
      (∃ r, (Eff.map c J.logged m.length m (fun k v => (f k v).quiet) (st, [])).1 = .ok r) →
      callsOf (Eff.map c J.logged m.length m fun k v => (f k v).quiet) st = upTo m.length) ∧
    (∀ (m : OrdinalArrayMap V) (f : K → V → M σ (Bool × V)), List.length m < c.M → (∀ k v, SoundM (f k v)) →
      (∃ r, (Eff.retain c J.logged m (fun k v => (f k v).quiet) (st, [])).1 = .ok r) →
      callsOf (Eff.retain c J.logged m fun k v => (f k v).quiet) st = upTo (List.length m)) := by
  have hT := hJ.logged []
  refine ⟨fun init hi m hx => ?_, fun init hi m hx => ?_,
    fun m f hm hf => calls_ok (mholds_mapArr_up hT m hm _ (fun k v => (hf k v).quiet_keeps []) (st := (st, [])) rfl)
      fun _ _ h => h.2,
    fun m f hm hf => calls_ok (mholds_retain_up hT m hm _ (fun k v => (hf k v).quiet_keeps []) (st := (st, [])) rfl)
      fun _ _ h => h.2⟩
  · obtain ⟨n, h1, h2, h3⟩ := (mholds_tryNew_up hT sz _ (fun k => (hi k).quiet_keeps []) (st := (st, [])) rfl).post
      (a := .ok m) (by rw [← hx])
    rw [h2]
    exact ⟨h3, h1⟩
  · obtain ⟨n, h1, h2, h3⟩ := (mholds_tryNewArray_up hT S _ (fun k => (hi k).quiet_keeps []) (st := (st, [])) rfl).post
      (a := .ok m) (by rw [← hx])
    rw [h2]
    exact ⟨h3, h1⟩

example := C81_closures (V := Nat) (W := Nat) (E := String) (tiredImpl_sound debug64) 8 2 0

/-- `new` calls `from_ordinal` on `0`, …, `ORDINAL_SIZE - 1` too.  A constructor that fails, by an
error or a panic of the closure, has done so on a beginning of these. -/
theorem C81_constructors (hJ : SoundSImpl c J) (sz S : Nat) (st : σ) :
    (∀ (init : K → M σ V), (∀ k, SoundM (init k)) → ∀ m,
      (Eff.newMap c J.logged sz (fun k => (init k).quiet) (st, [])).1 = .ok m →
      callsOf (Eff.newMap c J.logged sz fun k => (init k).quiet) st = upTo m.length ∧ J.size = .ok m.length) ∧
    (∀ (init : K → M σ V), (∀ k, SoundM (init k)) → ∀ m,
      (Eff.newArray J.logged S (fun k => (init k).quiet) (st, [])).1 = .ok m →
      callsOf (Eff.newArray J.logged S fun k => (init k).quiet) st = upTo m.length ∧ J.size = .ok m.length) ∧
    (∀ m : OrdinalArrayMap V, (Eff.arrayMapNew V J.logged S (st, [])).1 = .ok m →
      callsOf (Eff.arrayMapNew V J.logged S) st = upTo (List.length m) ∧ J.size = .ok (List.length m)) ∧
    (∀ (init : K → M σ (Except E V)), (∀ k, SoundM (init k)) →
      (∃ i, callsOf (Eff.tryNew c J.logged sz fun k => (init k).quiet) st = upTo i ∧
        ∀ n, J.size = .ok n → i ≤ n) ∧
      ∃ i, callsOf (Eff.tryNewArray J.logged S fun k => (init k).quiet) st = upTo i ∧
        ∀ n, J.size = .ok n → i ≤ n) := by
  have hT := hJ.logged []
  have built : ∀ (r : Except E (List V)) (st' : σ × List (Call K)), Built (fun st l => st.2 = [] ++ l) J.logged r st' →
      ∃ i, st'.2 = upTo i ∧ ∀ n, J.size = .ok n → i ≤ n := by
    rintro (e | m) st' h
    · exact h
    · obtain ⟨n, h1, -, h3⟩ := h
      refine ⟨n, h3, fun n' hn' => ?_⟩
      have : J.size = .ok n := h1
      rw [this] at hn'
      cases hn'
      exact Nat.le_refl _
  refine ⟨fun init hi m hx => ?_, fun init hi m hx => ?_, fun m hx => ?_, fun init hi =>
    ⟨calls_of (G := fun l => ∃ i, l = upTo i ∧ ∀ n, J.size = .ok n → i ≤ n)
      (mholds_tryNew_up hT sz _ (fun k => (hi k).quiet_keeps []) (st := (st, [])) rfl) built fun _ h => h,
    calls_of (G := fun l => ∃ i, l = upTo i ∧ ∀ n, J.size = .ok n → i ≤ n)
      (mholds_tryNewArray_up hT S _ (fun k => (hi k).quiet_keeps []) (st := (st, [])) rfl) built fun _ h => h⟩⟩
  · obtain ⟨n, h1, h2, h3⟩ := (mholds_newMap_up hT sz _ (fun k => (hi k).quiet_keeps []) (st := (st, [])) rfl).post
      (a := m) (by rw [← hx])
    rw [h2]
    exact ⟨h3, h1⟩
  · obtain ⟨n, h1, h2, h3⟩ := (mholds_newArray_up hT S _ (fun k => (hi k).quiet_keeps []) (st := (st, [])) rfl).post
      (a := m) (by rw [← hx])
    rw [h2]
    exact ⟨h3, h1⟩
  · obtain ⟨n, h1, h2, h3⟩ := (mholds_newArray_up hT S (fun _ => .of (.ok (none : Option V)))
      (fun _ _ _ hl => mholds_ok hl) (st := (st, [])) rfl).post (a := m) (st' := (Eff.arrayMapNew V J.logged S (st, [])).2)
      (by rw [← hx]; rfl)
    rw [h2]
    exact ⟨h3, h1⟩

example := C81_constructors (V := Nat) (E := String) (tiredImpl_sound debug64) 8 2 0

/-- `contains` and `insert` of the sets call `ordinal` on the value only: at most two and four times;
`OrdinalSet64` once and twice. -/
theorem C81_set (hJ : SoundSImpl c J) (st : σ) (x : K) :
    (∀ t, ∃ j ≤ 2, callsOf (Eff.osetContains c J.logged t x) st = List.replicate j (.ordinal x)) ∧
    (∀ t, ∃ j ≤ 4, callsOf (Eff.osetInsert c J.logged t x) st = List.replicate j (.ordinal x)) ∧
    (∀ S ws, ∃ j ≤ 2, callsOf (Eff.asetContains c J.logged S ws x) st = List.replicate j (.ordinal x)) ∧
    (∀ S ws, ∃ j ≤ 4, callsOf (Eff.asetInsert c J.logged S ws x) st = List.replicate j (.ordinal x)) ∧
    (∀ w, (∃ r, (Eff.set64Contains c J.logged w x (st, [])).1 = .ok r) →
      callsOf (Eff.set64Contains c J.logged w x) st = [.ordinal x]) ∧
    (∀ w, (∃ r, (Eff.set64Insert c J.logged w x (st, [])).1 = .ok r) →
      callsOf (Eff.set64Insert c J.logged w x) st = [.ordinal x, .ordinal x]) := by
  have hT := hJ.logged []
  have hr : ∀ {lo hi n : Nat} {st' : σ × List (Call K)}, hi ≤ n → Reps (fun st l => st.2 = [] ++ l) x lo hi st' →
      ∃ j ≤ n, st'.2 = List.replicate j (.ordinal x) := by
    rintro lo hi n st' hn ⟨j, -, h1, h2⟩
    exact ⟨j, by omega, h2⟩
  refine ⟨fun t => calls_of (G := fun l => ∃ j ≤ 2, l = List.replicate j (.ordinal x))
      (mholds_osetContains hT t x (st := (st, [])) rfl) (fun _ _ h => hr (by omega) h) fun _ h => hr (by omega) h,
    fun t => calls_of (G := fun l => ∃ j ≤ 4, l = List.replicate j (.ordinal x))
      (mholds_osetInsert hT t x (st := (st, [])) rfl) (fun _ _ h => hr (by omega) h) fun _ h => hr (by omega) h,
    fun S ws => calls_of (G := fun l => ∃ j ≤ 2, l = List.replicate j (.ordinal x))
      (mholds_asetContains hT S ws x (st := (st, [])) rfl) (fun _ _ h => hr (by omega) h) fun _ h => hr (by omega) h,
    fun S ws => calls_of (G := fun l => ∃ j ≤ 4, l = List.replicate j (.ordinal x))
      (mholds_asetInsert hT S ws x (st := (st, [])) rfl) (fun _ _ h => hr (by omega) h) fun _ h => hr (by omega) h,
    fun w => calls_ok (mholds_set64Contains hT w x (n := 1) (Nat.le_refl _) (st := (st, [])) rfl) ?_,
    fun w => calls_ok (mholds_set64Insert hT w x (st := (st, [])) rfl) ?_⟩
  · rintro _ _ ⟨j, h1, h2, h3⟩
    obtain rfl : j = 1 := by omega
    exact h3
  · rintro _ _ ⟨j, h1, h2, h3⟩
    obtain rfl : j = 2 := by omega
    exact h3

example := C81_set (flipImpl_sound debug64) false true

/-- A walk over a set calls `from_ordinal` on no number twice, and `ordinal` at most twice for each; a walk over an
`OrdinalSet64` calls `from_ordinal` on members only. -/
theorem C81_set_walk (hJ : SoundSImpl c J) (st : σ) (ds : List Dir) :
    (∀ n ws, SetWalk n (callsOf (Eff.run (Eff.setNext c J.logged) (Eff.setNextBack c J.logged) ⟨⟨0, n⟩, ws⟩ ds) st)) ∧
    (∀ w, BitWalk w (callsOf (Eff.run (Eff.iter64Next c J.logged) (Eff.iter64NextBack c J.logged) w ds) st)) := by
  have hT := hJ.logged []
  refine ⟨fun n ws => calls_of (mholds_setRun hT n ws ds (st := (st, [])) rfl) ?_ ?_,
    fun w => calls_of (mholds_run64 hT w ds (st := (st, [])) rfl) ?_ ?_⟩
  · rintro _ st' ⟨l, h1, h2⟩
    rw [show st'.2 = l from h1]; exact h2
  · rintro st' ⟨l, h1, h2⟩
    rw [show st'.2 = l from h1]; exact h2
  · rintro _ st' ⟨l, h1, h2⟩
    rw [show st'.2 = l from h1]; exact h2
  · rintro st' ⟨l, h1, h2⟩
    rw [show st'.2 = l from h1]; exact h2

example := C81_set_walk (tiredImpl_sound debug64) 0 [.back, .front]

/-- `Ordinal` for arrays: `ordinal` asks each element once, in order; `from_ordinal` makes one call for each element
of an array it returns, and never more than `N`. -/
theorem C81_array (hJ : SoundSImpl c J) (st : σ) :
    (∀ vs r, (∃ i, (Eff.arrayOrdinalLoop c J.logged vs r (st, [])).1 = .ok i) →
      callsOf (Eff.arrayOrdinalLoop c J.logged vs r) st = vs.map .ordinal) ∧
    (∀ N i, ∃ is : List Nat, is.length ≤ N ∧ callsOf (Eff.arrayFrom J.logged N i) st = is.map .from ∧
      ((∃ vs, (Eff.arrayFrom J.logged N i (st, [])).1 = .ok (some vs)) → is.length = N)) := by
  have hT := hJ.logged []
  refine ⟨fun vs r => calls_ok (mholds_arrayOrdinal hT vs r (st := (st, [])) rfl) fun _ _ h => h, fun N i => ?_⟩
  have h := mholds_arrayFrom hT N i (st := (st, [])) rfl
  by_cases hx : ∃ vs, (Eff.arrayFrom J.logged N i (st, [])).1 = .ok (some vs)
  · obtain ⟨vs, hx⟩ := hx
    obtain ⟨-, h2⟩ := h.post (a := some vs) (st' := (Eff.arrayFrom J.logged N i (st, [])).2) (by rw [← hx])
    obtain ⟨is, h3, h4⟩ := h2 rfl
    exact ⟨is, by omega, h4, fun _ => h3⟩
  · obtain ⟨is, h1, h2⟩ := calls_of (G := fun l => ∃ is : List Nat, is.length ≤ N ∧ l = is.map .from) h
      (fun _ _ h => h.1) fun _ h => h
    exact ⟨is, h1, h2, fun h => absurd h hx⟩

example := C81_array (tiredImpl_sound debug64) 1

-- The calls of some operations, on `bool` and on the implementations above.
example : callsOf (Eff.omapStep debug64 (SImpl.ofPure (σ := Unit) boolImpl).logged 8 [none, some (7 : Nat)]
    (.get true)) () = [.ordinal true] := by decide
example : callsOf (Eff.omapStep debug64 (SImpl.ofPure (σ := Unit) boolImpl).logged 8 [none, some (7 : Nat)]
    .len) () = [.from 0, .from 1] := by decide
example : callsOf (Eff.omapStep debug64 (SImpl.ofPure (σ := Unit) boolImpl).logged 8 [some 3, some (7 : Nat)]
    .isEmpty) () = [.from 0] := by decide
example : callsOf (Eff.omapStep debug64 (SImpl.ofPure (σ := Unit) boolImpl).logged 8 ([] : OMap Nat)
    .len) () = [] := by decide
example : callsOf (Eff.omapStep debug64 tiredImpl.logged 8 [none, some (7 : Nat)]
    (.drain [.back] false)) 0 = [.from 1, .from 0] := by decide
example : callsOf (Eff.omapStep debug64 tiredImpl.logged 8 [none, some (7 : Nat)]
    (.drain [.back] false)) 2 = [.from 1, .from 0] := by decide
example : callsOf (Eff.osetInsert debug64 (SImpl.ofPure (σ := Unit) boolImpl).logged (.small 0) true) () =
    List.replicate 4 (.ordinal true) := by decide
example : callsOf (Eff.arrayFrom (SImpl.ofPure (σ := Unit) boolImpl).logged 3 6) () =
    [.from 0, .from 1, .from 1] := by decide
example : callsOf (Eff.omapExtend debug64 (SImpl.ofPure (σ := Unit) boolImpl).logged 8 []
    [(true, 1), (false, 2), (true, (3 : Nat))]) () = [.ordinal true, .ordinal false, .ordinal true] := by decide
-- A closure with state that fails at the second key: no further key is asked for.
example : callsOf (Eff.tryNew debug64 (SImpl.ofPure (σ := Nat) (optionImpl debug64 boolImpl)).logged 8 fun _ =>
    M.quiet fun st => (.ok (if st = 1 then .error () else .ok st), st + 1)) 0 = [.from 0, .from 1] := by decide
example : callsOf (Eff.run (Eff.iter64Next debug64 (SImpl.ofPure (σ := Unit) boolImpl).logged)
    (Eff.iter64NextBack debug64 (SImpl.ofPure (σ := Unit) boolImpl).logged) 2 [.front, .front]) () = [.from 1] := by decide

end Props
end OrdinalMap
