import Verif.Lemmas.SoundMap
/-!
# C55: a wrong `Ordinal` implementation cannot cause undefined behaviour or an endless loop

`SoundImpl I` says only that the functions of `I` return or panic; nothing relates them to each other
or to the declared size.  States are arbitrary, so the statements cover every history, also one that
used another implementation before or left garbage in the unused bits.  Closures and constant
parameters are arbitrary too.
-/

namespace OrdinalMap.Props
open OrdinalMap

variable {K V W E τ ρ ι α β : Type} {I : OrdinalImpl K} {J : OrdinalImpl τ} {A : OrdinalImpl α} {B : OrdinalImpl β}

theorem bogus_sound : SoundImpl bogusImpl := by
  refine ⟨Sound.mk_ok _, fun _ => Sound.mk_ok _, fun i => ?_⟩
  unfold bogusImpl; dsimp only; sound

/-- C55 for the impls of `Ordinal` in the crate: `[T; N]` with a wrong `T` does not read memory it has
not written. -/
theorem C55_impls (c : Cfg) :
    (SoundImpl boolImpl ∧ SoundImpl (u8Impl c) ∧ SoundImpl (i8Impl c) ∧ SoundImpl (u16Impl c) ∧ SoundImpl (i16Impl c) ∧
      SoundImpl (u32Impl c) ∧ SoundImpl (i32Impl c) ∧ SoundImpl (charImpl c) ∧ SoundImpl orderingImpl ∧
      SoundImpl infallibleImpl) ∧
    (SoundImpl (nzU8Impl c) ∧ SoundImpl (nzI8Impl c) ∧ SoundImpl (nzU16Impl c) ∧ SoundImpl (nzI16Impl c) ∧
      SoundImpl (nzU32Impl c) ∧ SoundImpl (nzI32Impl c) ∧ SoundImpl (nzU64Impl c) ∧ SoundImpl (nzI64Impl c) ∧
      SoundImpl (nzUsizeImpl c) ∧ SoundImpl (nzIsizeImpl c)) ∧
    (SoundImpl A → SoundImpl (optionImpl c A) ∧ SoundImpl (boxImpl A) ∧ (∀ N, SoundImpl (arrayImpl c N A)) ∧
      (SoundImpl B → SoundImpl (resultImpl c A B) ∧ SoundImpl (eitherImpl c A B))) :=
  ⟨⟨sound_boolImpl, sound_u8Impl c, sound_i8Impl c, sound_u16Impl c, sound_i16Impl c, sound_u32Impl c, sound_i32Impl c,
      sound_charImpl c, sound_orderingImpl, sound_infallibleImpl⟩,
    ⟨sound_nzU8Impl c, sound_nzI8Impl c, sound_nzU16Impl c, sound_nzI16Impl c, sound_nzU32Impl c, sound_nzI32Impl c,
      sound_nzU64Impl c, sound_nzI64Impl c, sound_nzUsizeImpl c, sound_nzIsizeImpl c⟩,
    fun hA => ⟨sound_optionImpl c hA, sound_boxImpl hA, fun N => sound_arrayImpl c N hA, fun hB =>
      ⟨sound_resultImpl c hA hB, sound_eitherImpl c hA hB⟩⟩⟩

example := C55_impls (A := bogusImpl) (B := charImpl debug32) debug32

/-- C55 for derived impls and tuples over fields with wrong impls. -/
theorem C55_derive [DecidableEq ι] (c : Cfg) (Ty : Derive.Types ι) (hT : ∀ t, SoundImpl (Ty.impl t)) :
    (∀ fs, SoundImpl (Derive.structImpl c Ty fs)) ∧ (∀ vs, SoundImpl (Derive.enumImpl c Ty vs)) ∧
    ∀ tys, SoundImpl (Derive.tupleImpl c Ty tys) :=
  ⟨Derive.sound_structImpl c hT, Derive.sound_enumImpl c hT, Derive.sound_tupleImpl c hT⟩

example := C55_derive (ι := Unit) debug64 ⟨fun _ => Bool, fun _ => bogusImpl⟩ fun _ => bogus_sound

/-- C55 for `all_values`. -/
theorem C55_values (hI : SoundImpl I) (show_ : K → String) :
    Sound (OrdinalValues.new I) ∧ ∀ s : OrdinalValues, (∀ ds, Sound ((OrdinalValues.iter I).run s ds)) ∧
      Sound (OrdinalValues.last I s) ∧ Sound (OrdinalValues.debug I show_ s) := by
  have h1 := fun s => (steps_valuesNext hI s trivial).sound
  have h2 := fun s => (steps_valuesNextBack hI s trivial).sound
  refine ⟨by unfold OrdinalValues.new; sound, fun s => ⟨sound_valuesRun hI s, ?_, ?_⟩⟩
  · unfold OrdinalValues.last; sound
  · unfold OrdinalValues.debug; sound

example := C55_values bogus_sound fun b => if b then "true" else "false"

/-- C55 for the sets: constructors, every history from every state, iteration from every iterator
state, `Debug`. -/
theorem C55_sets (c : Cfg) (hJ : SoundImpl J) (alt : Bool) (item : τ → String) :
    (Sound (OrdinalSet.new J) ∧ (∀ xs, Sound (OrdinalSet.fromIter c J xs)) ∧
      ∀ s, (∀ ops, Sound ((OrdinalSet.api c J).run s ops)) ∧ Sound (OrdinalSet.iter c J s) ∧
        Sound (OrdinalSet.debug c J alt item s)) ∧
    (∀ S, Sound (OrdinalArraySet.new J S) ∧ (∀ xs, Sound (OrdinalArraySet.fromIter c J S xs)) ∧
      ∀ s, (∀ ops, Sound ((OrdinalArraySet.api c J S).run s ops)) ∧ Sound (OrdinalArraySet.asRef c J S s) ∧
        Sound (OrdinalArraySet.asMut c J S s) ∧ Sound (OrdinalArraySet.debug c J S alt item s)) ∧
    (Sound (OrdinalSet64.new J) ∧ Sound (OrdinalSet64.all c J) ∧ (∀ xs, Sound (OrdinalSet64.fromIter c J xs)) ∧
      ∀ s, (∀ ops, Sound ((OrdinalSet64.api c J).run s ops)) ∧ Sound (OrdinalSet64.iter J s) ∧
        Sound (OrdinalSet64.debug c J alt item s)) ∧
    (∀ ws, Sound (SetRef.new c J ws) ∧ Sound (SetRef.iter J ws) ∧ ∀ x, Sound (SetRef.contains c J ws x)) ∧
    (∀ s ds, Sound ((SetIter.it c J).run s ds) ∧ Sound (SetIter.debug c J alt item s)) ∧
    ∀ s ds, Sound ((Iter64.it c J).run s ds) ∧ Sound (Iter64.debug c J alt item s) := by
  have hd : ∀ ws, Sound (SetRef.debug c J alt item ws) := by
    intro ws
    unfold SetRef.debug
    exact Holds.sound (P := fun _ => True) (Sound.bind (sound_setIterNew hJ ws) fun it =>
      (sound_debugSeq (steps_setNext c hJ) "{" "}" alt item trivial).holds)
  refine ⟨⟨sound_osNew hJ, sound_osFromIter c hJ, fun s => ⟨?_, sound_osIter c hJ s, ?_⟩⟩, fun S =>
    ⟨sound_asNew hJ S, sound_asFromIter c hJ S, fun s => ⟨?_, sound_asAsRef c hJ S s, sound_asAsMut c hJ S s, ?_⟩⟩,
    ⟨sound_64New hJ, sound_64All c hJ, sound_64FromIter c hJ, fun s => ⟨?_, sound_64Iter hJ s, ?_⟩⟩,
    fun ws => ⟨sound_setRefNew c hJ ws, sound_setIterNew hJ ws, sound_contains c hJ ws⟩, fun s ds => ⟨?_, ?_⟩,
    fun s ds => ⟨?_, ?_⟩⟩
  · exact fun ops => sound_setApi _ (sound_osContains c hJ) (sound_osInsert c hJ) ops s
  · have := sound_osAsRef c hJ
    unfold OrdinalSet.debug; sound
  · exact fun ops => sound_setApi _ (sound_asContains c hJ S) (sound_asInsert c hJ S) ops s
  · have := sound_asAsRef c hJ
    unfold OrdinalArraySet.debug; sound
  · exact fun ops => sound_setApi _ (sound_64Contains c hJ) (sound_64Insert c hJ) ops s
  · have := sound_setRefNew c hJ
    unfold OrdinalSet64.debug OrdinalSet64.asRef; sound
  · exact (holds_run (steps_setNext c hJ) (steps_setNextBack c hJ) ds trivial).sound
  · exact sound_debugSeq (steps_setNext c hJ) "[" "]" alt item (s := s.clone) trivial
  · exact (holds_run (steps_iter64Next c hJ) (steps_iter64NextBack c hJ) ds trivial).sound
  · exact sound_debugSeq (steps_iter64Next c hJ) "[" "]" alt item (s := Iter64.clone s) trivial

example := C55_sets debug64 bogus_sound true fun b => if b then "true" else "false"

/-- C55 for the sparse maps: constructors (`S` is arbitrary), every history from every state (with reads
and writes through every reference handed out), `retain`, consuming iteration from every state. -/
theorem C55_maps (c : Cfg) (hI : SoundImpl I) :
    (∀ sz, (∀ ps : List (K × V), Sound (OMap.fromIter c I sz ps)) ∧
      ∀ (s : OMap V) ops, Sound (runOps (OMap.step c I sz) s ops)) ∧
    (∀ S, Sound (OrdinalArrayMap.new V I S) ∧ ∀ ps : List (K × V), Sound (OrdinalArrayMap.fromIter I S ps)) ∧
    (∀ (s : OrdinalArrayMap V) ops, Sound (runOps (OrdinalArrayMap.step c I) s ops)) ∧
    (∀ (s : OrdinalArrayMap V) (f : K → V → ρ → R (Bool × V × ρ)), (∀ k v r, Sound (f k v r)) →
      ∀ r, Sound (OrdinalArrayMap.retain c I s f r)) ∧
    (∀ (s : MapIntoIter V) ds, Sound ((MapIntoIter.it c I).run s ds)) ∧
    ∀ (s : MapIntoIterArray V) ds, Sound ((MapIntoIterArray.it c I).run s ds) :=
  ⟨fun sz => ⟨sound_omapFromIter c hI sz, sound_runOps (sound_omapStep c hI sz)⟩,
    fun S => ⟨sound_amNew hI S, sound_amFromIter hI S⟩, sound_runOps (sound_amStep c hI),
    fun s f hf r => sound_retain c hI s f hf r,
    fun _ ds => (holds_run (steps_intoNext c hI) (steps_intoNextBack c hI) ds trivial).sound,
    fun _ ds => (holds_run (steps_intoArrNext c hI) (steps_intoArrNextBack c hI) ds trivial).sound⟩

example := C55_maps (V := Nat) (ρ := Nat) debug64 bogus_sound

/-- C55 for the total maps: constructors with fallible, stateful, panicking closures, every history from
every state, `as_ref`, `as_mut`, `zip`, `map`, consuming iteration.  `S` is arbitrary: it need not be
the size of `K`, nor the length of the other arguments. -/
theorem C55_total (c : Cfg) (hI : SoundImpl I) :
    (∀ sz (init : K → ρ → R (Except E V × ρ)), (∀ k r, Sound (init k r)) → ∀ r,
      Sound (OrdinalTotalMap.tryNew c I sz init r)) ∧
    (∀ sz (init : K → ρ → R (V × ρ)), (∀ k r, Sound (init k r)) → ∀ r, Sound (OrdinalTotalMap.new c I sz init r)) ∧
    (∀ (s : OrdinalTotalMap V) ops, Sound (runOps (OrdinalTotalMap.step c I) s ops)) ∧
    (∀ (s : TotalIntoIter V) ds, Sound ((TotalIntoIter.it c I).run s ds)) ∧
    (∀ S (init : K → ρ → R (Except E V × ρ)), (∀ k r, Sound (init k r)) → ∀ r,
      Sound (OrdinalTotalArrayMap.tryNew I S init r)) ∧
    (∀ S (init : K → ρ → R (V × ρ)), (∀ k r, Sound (init k r)) → ∀ r, Sound (OrdinalTotalArrayMap.new I S init r)) ∧
    (∀ S (s : OrdinalTotalArrayMap V) ops, Sound (runOps (OrdinalTotalArrayMap.step c I S) s ops)) ∧
    (∀ (s : TotalIntoIterArray V) ds, Sound ((TotalIntoIterArray.it c I).run s ds)) ∧
    (∀ S (s : OrdinalTotalArrayMap V) (t : OrdinalTotalArrayMap W), Sound (OrdinalTotalArrayMap.asRef I S s) ∧
      Sound (OrdinalTotalArrayMap.asMut S s) ∧ Sound (OrdinalTotalArrayMap.zip S s t)) ∧
    ∀ S (s : OrdinalTotalArrayMap V) (f : K → V → ρ → R (W × ρ)), (∀ k v r, Sound (f k v r)) → ∀ r,
      Sound (OrdinalTotalArrayMap.map c I S s f r) := by
  refine ⟨fun sz => sound_tmTryNew c hI sz, fun sz => sound_tmNew c hI sz, sound_runOps (sound_tmStep c hI),
    fun s ds => (holds_run (steps_listNext c hI) (steps_listNextBack c hI) ds trivial).sound,
    fun S => sound_taTryNew hI S, fun S => sound_taNew hI S, fun S => sound_runOps (sound_taStep c hI S),
    fun s ds => (holds_run (steps_listNext c hI) (steps_listNextBack c hI) ds trivial).sound,
    fun S s t => ⟨?_, ?_, sound_arrayFromIter S _⟩, fun S s f hf r => sound_taMap c hI S s f hf r⟩
  · have hg : ∀ k (r : Unit), Sound (do .ok (← OrdinalTotalArrayMap.get I s k, ()) : R (V × Unit)) := by
      intro k r; unfold OrdinalTotalArrayMap.get; sound
    have := sound_taNew hI S _ hg ()
    unfold OrdinalTotalArrayMap.asRef; sound
  · unfold OrdinalTotalArrayMap.asMut OrdinalTotalArrayMap.fromArray
    rw [arrayAsMut_eq]
    sound

example := C55_total (V := Nat) (W := String) (E := String) (ρ := Nat) debug64 bogus_sound

/-- C55 for `Debug` of maps and map iterators in every state. -/
theorem C55_debug (c : Cfg) (hI : SoundImpl I) (alt : Bool) (key : K → String) (value : V → String) :
    (∀ s, Sound (OMap.debug c I alt key value s)) ∧ (∀ s, Sound (OrdinalArrayMap.debug c I alt key value s)) ∧
    (∀ s, Sound (OrdinalTotalMap.debug c I alt key value s)) ∧
    (∀ s, Sound (OrdinalTotalArrayMap.debug c I alt key value s)) ∧
    (∀ s, Sound (MapIter.debug c I alt key value s)) ∧ (∀ s, Sound (MapIterMut.debug c I alt key value s)) ∧
    (∀ s, Sound (Keys.debug c I alt key s)) ∧ (∀ s, Sound (Values.debug c I alt value s)) ∧
    (∀ s, Sound (ValuesMut.debug c I alt value s)) ∧ (∀ s, Sound (MapIntoIter.debug c I alt key value s)) ∧
    (∀ s, Sound (MapIntoIterArray.debug c I alt key value s)) ∧ (∀ s, Sound (TotalIter.debug c I alt key value s)) ∧
    (∀ s, Sound (TotalIterMut.debug c I alt key value s)) ∧ (∀ s, Sound (TotalIntoIter.debug c I alt key value s)) ∧
    ∀ s, Sound (TotalIntoIterArray.debug c I alt key value s) := by
  have h1 := steps_mapNext (V := V) c hI
  have h2 := steps_listNext (V := V) c hI
  have hk := (steps_mapNext (V := Unit) c hI).map (post := fun _ _ => True) (fun p => p.1) fun _ _ h => h
  have hv := h1.map (post := fun _ _ => True) (fun p => p.2) fun _ _ h => h
  exact ⟨fun s => sound_debugSeq h1 "{" "}" alt _ (s := OMap.iter s) trivial,
    fun s => sound_debugSeq h1 "{" "}" alt _ (s := OrdinalArrayMap.iter s) trivial,
    fun s => sound_debugSeq h2 "{" "}" alt _ (s := OrdinalTotalMap.iter s) trivial,
    fun s => sound_debugSeq h2 "{" "}" alt _ (s := OrdinalTotalArrayMap.iter s) trivial,
    fun s => sound_debugSeq h1 "[" "]" alt _ (s := MapIter.clone s) trivial,
    fun s => sound_debugSeq h1 "[" "]" alt _ (s := MapIterMut.iter s) trivial,
    fun s => sound_debugSeq hk "[" "]" alt _ (s := Keys.clone s) trivial,
    fun s => sound_debugSeq hv "[" "]" alt _ (s := Values.clone s) trivial,
    fun s => sound_debugSeq hv "[" "]" alt _ (s := ValuesMut.iter s) trivial,
    fun s => sound_debugSeq h1 "[" "]" alt _ (s := MapIntoIter.iter s) trivial,
    fun s => sound_debugSeq h1 "[" "]" alt _ (s := MapIntoIterArray.iter s) trivial,
    fun s => sound_debugSeq h2 "[" "]" alt _ (s := TotalIter.clone s) trivial,
    fun s => sound_debugSeq h2 "[" "]" alt _ (s := TotalIterMut.iter s) trivial,
    fun s => sound_debugSeq h2 "[" "]" alt _ (s := TotalIntoIter.iter s) trivial,
    fun s => sound_debugSeq h2 "[" "]" alt _ (s := TotalIntoIterArray.iter s) trivial⟩

example := C55_debug (V := Nat) debug64 bogus_sound true (fun b => if b then "true" else "false") toString

/-- C55 for `AtomicOrdinal`, whatever is in the cell. -/
theorem C55_atomic (hJ : SoundImpl J) (show_ : τ → String) (cell : Nat) (op : AtomicOp τ) :
    (∀ v, Sound (AtomicOrdinal.new J v)) ∧ Sound (AtomicOrdinal.step J cell op).1 ∧
    Sound (AtomicOrdinal.debug J show_ cell) :=
  ⟨hJ.ordinal, sound_atomicStep hJ cell op, sound_atomicDebug hJ show_ cell⟩

example := C55_atomic bogus_sound (fun b => if b then "true" else "false") 9 (.load .seqCst)

/-! ## Concrete cases -/

/-- The wrong impl does make the collections panic: the statement is not about `Ok` alone. -/
example : OMap.insert debug64 bogusImpl 1 (OMap.new Nat) true 3 = .error .panic := by rfl
example : (OrdinalValues.iter bogusImpl).run ⟨0, 5⟩ [.front, .front, .back] = .error .panic := by rfl
example : (OrdinalArrayMap.new Nat bogusImpl 5) = .error .panic := by rfl
example : (arrayImpl debug64 2 bogusImpl).fromOrdinal 18 = .error .panic := by rfl
/-- Faults other than panics exist in the model. -/
example : ¬ Sound (readSlot [1, 2] 2) := by simp [Sound, readSlot]

end OrdinalMap.Props
