import Verif.Lemmas.EffectDebug
import Verif.Lemmas.EffectDebugCalls
import Verif.Props.Effect
/-!
# C85: `Debug` and `AtomicOrdinal` over user code with state

`Debug` of a collection runs user code of two kinds: `from_ordinal` (and for sets `ordinal`) of the key type and `Debug`
of the keys and values.  All of it may have state and may panic, and `Debug` may return an error.  The methods of
`AtomicOrdinal` are given as what happens before and after the access to the `AtomicUsize`; in between, and between
the calls, other threads may do anything.
-/

namespace OrdinalMap.Props
open OrdinalMap OrdinalMap.Eff

variable {σ K V : Type} {c : Cfg} {J : SImpl σ K} {key : K → Fmt σ} {value : V → Fmt σ}

/-! ## User code for the examples -/

/-- `Debug` of a key that fails from the second time on. -/
def onceDebug (b : Bool) : Fmt Nat := fun st => (.ok (if st = 0 then some (toString b) else none), st + 1)

/-- `Debug` of a value that panics for 13. -/
def superstitious (n : Nat) : Fmt Nat := fun st => (if n = 13 then .error .panic else .ok (some (toString n)), st)

theorem onceDebug_sound (b : Bool) : SoundM (onceDebug b) := fun _ => Sound.mk_ok _

theorem superstitious_sound (n : Nat) : SoundM (superstitious n) := fun _ => by
  unfold superstitious
  dsimp only
  split
  · exact Sound.mk_panic
  · exact Sound.mk_ok _

/-! ## Safety -/

theorem Sound.err {α β : Type} {e : Fault} (h : Sound (.error e : R α)) : Sound (.error e : R β) := by
  cases e <;> simp_all [Sound]

theorem sound_ordinalValuesDebug (hJ : SoundSImpl c J) (hk : ∀ k, Keeps (fun _ (_ : List (Call K)) => True) (key k))
    (r : OrdinalValues) (st : σ) : Sound (ordinalValuesDebug J key r st).1 := by
  have hT := hJ.traced
  rcases hs : J.size with e | n
  · have h : MHolds (ordinalValuesDebug J key r) st (fun _ _ => True) fun _ => True := by
      unfold ordinalValuesDebug valuesNext Range.next OrdinalValues.clone
      split
      · rename_i h
        split at h
        · cases h
        · exact trivial
      · rename_i i r' h
        refine (mholds_valuesEnd hT i (l := []) trivial _).bind ?_
        rintro p st1 ⟨⟨x, rfl⟩, h1⟩
        have hh : Holds J.size (fun _ => False) := by
          have := hJ.size
          rw [hs] at this ⊢
          cases e <;> simp_all [Sound, Holds]
        exact hh.mbind trivial fun _ h => h.elim
    exact h.sound
  · exact (mholds_ordinalValuesDebug hT hk r.start r.stop trivial hs).sound

/-- `Debug` of every map, set and iterator returns or panics, whatever the user code does. -/
theorem C85_debug_sound (hJ : SoundSImpl c J) (hk : ∀ k, SoundM (key k)) (hv : ∀ v, SoundM (value v)) (alt : Bool)
    (st : σ) :
    (∀ m : List (Option V), m.length < c.M → Sound (mapDebug c J alt key value m st).1) ∧
    (∀ m : List V, m.length < c.M → Sound (totalDebug c J alt key value m st).1) ∧
    (∀ a (l : List (Option V)), a + l.length < c.M → Sound (mapIterDebug c J alt key value ⟨a, l⟩ st).1 ∧
      Sound (valuesDebug c J alt value ⟨a, l⟩ st).1) ∧
    (∀ a (l : List (Option Unit)), a + l.length < c.M → Sound (keysDebug c J alt key ⟨a, l⟩ st).1) ∧
    (∀ a (l : List V), a + l.length < c.M → Sound (totalIterDebug c J alt key value ⟨a, l⟩ st).1) ∧
    (∀ t, Sound (osetDebug c J alt key t st).1) ∧ (∀ S ws, Sound (asetDebug c J S alt key ws st).1) ∧
    (∀ w, Sound (set64Debug c J alt key w st).1) ∧ (∀ ws, Sound (refDebug c J alt key ws st).1) ∧
    (∀ it, Sound (setIterDebug c J alt key it st).1) ∧ (∀ w, Sound (iter64Debug c J alt key w st).1) ∧
    ∀ r, Sound (ordinalValuesDebug J key r st).1 := by
  have hT := hJ.traced
  have hk := fun k => (hk k).keeps (K := K)
  have hv := fun v => (hv v).keeps (K := K)
  exact ⟨fun m hm => (mholds_mapDebug hT alt trivial hk hv m hm).sound,
    fun m hm => (mholds_totalDebug hT alt trivial hk hv m hm).sound,
    fun a l hl => ⟨(mholds_mapIterDebug hT alt trivial hk hv a l hl).sound,
      (mholds_valuesDebug hT alt trivial hv a l hl).sound⟩,
    fun a l hl => (mholds_keysDebug hT alt trivial hk a l hl).sound,
    fun a l hl => (mholds_totalIterDebug hT alt trivial hk hv a l hl).sound,
    fun t => (mholds_osetDebug hT hk alt trivial t).sound,
    fun S ws => (mholds_asetDebug hT hk alt trivial S ws).sound,
    fun w => (mholds_set64Debug hT hk alt trivial w).sound,
    fun ws => (mholds_refDebug hT hk alt trivial ws).sound,
    fun it => (mholds_setSeq hT hk _ _ alt it trivial).sound,
    fun w => (mholds_iter64Debug hT hk alt w trivial).sound,
    fun r => sound_ordinalValuesDebug hJ hk r st⟩

example := C85_debug_sound (tiredImpl_sound debug64) onceDebug_sound superstitious_sound true 0

/-- The methods and `Debug` of `AtomicOrdinal` return or panic, whatever the cell holds. -/
theorem C85_atomic_sound (hJ : SoundSImpl c J) (hk : ∀ k, SoundM (key k)) (st : σ) :
    (∀ op, Sound (atomicCall J op st).1) ∧ (∀ r, Sound (atomicRet J r st).1) ∧
    (∀ v, Sound (atomicDebug J key v st).1) ∧ ∀ cell op, Sound (atomicStep J cell op st).1.1 := by
  have hT := hJ.traced
  have h1 : ∀ op, Sound (atomicCall J op st).1 := fun op => (mholds_atomicCall hT op (st := st) trivial _ rfl).sound
  have h2 : ∀ r st, Sound (atomicRet J r st).1 := fun r st => (mholds_atomicRet hT r (st := st) trivial _ rfl).sound
  refine ⟨h1, fun r => h2 r st, fun v => (mholds_atomicDebug hT (fun k => (hk k).keeps) v trivial).sound,
    fun cell op => ?_⟩
  unfold atomicStep
  have h3 := h1 op
  rcases hx : atomicCall J op st with ⟨e | p, st1⟩
  · rw [hx] at h3
    exact Sound.err h3
  · dsimp only
    have h4 : Sound (Prim.exec cell p) := by
      unfold Prim.exec
      repeat' split
      all_goals first | exact Sound.mk_panic | exact Sound.mk_ok _
    rcases hy : Prim.exec cell p with e | q
    · rw [hy] at h4
      exact Sound.err h4
    · exact h2 _ _

example := C85_atomic_sound (tiredImpl_sound debug64) onceDebug_sound 0

/-! ## Agreement -/

/-- With user code without state this is `Debug` as in C52, and `AtomicOrdinal` as in C49 to C51. -/
theorem C85_agrees (c : Cfg) (I : OrdinalImpl K) (alt : Bool) (key : K → String) (value : V → String) :
    (∀ m, mapDebug (σ := σ) c (.ofPure I) alt (fun k => .text (key k)) (fun v => .text (value v)) m =
      .of (some <$> OMap.debug c I alt key value m)) ∧
    (∀ m, totalDebug (σ := σ) c (.ofPure I) alt (fun k => .text (key k)) (fun v => .text (value v)) m =
      .of (some <$> OrdinalTotalMap.debug c I alt key value m)) ∧
    (∀ it, mapIterDebug (σ := σ) c (.ofPure I) alt (fun k => .text (key k)) (fun v => .text (value v)) it =
      .of (some <$> MapIter.debug c I alt key value it)) ∧
    (∀ it, totalIterDebug (σ := σ) c (.ofPure I) alt (fun k => .text (key k)) (fun v => .text (value v)) it =
      .of (some <$> TotalIter.debug c I alt key value it)) ∧
    (∀ it, keysDebug (σ := σ) c (.ofPure I) alt (fun k => .text (key k)) it =
      .of (some <$> Keys.debug c I alt key it)) ∧
    (∀ it, valuesDebug (σ := σ) c (.ofPure I) alt (fun v => .text (value v)) it =
      .of (some <$> Values.debug c I alt value it)) ∧
    (∀ t, osetDebug (σ := σ) c (.ofPure I) alt (fun k => .text (key k)) t =
      .of (some <$> OrdinalSet.debug c I alt key t)) ∧
    (∀ S ws, asetDebug (σ := σ) c (.ofPure I) S alt (fun k => .text (key k)) ws =
      .of (some <$> OrdinalArraySet.debug c I S alt key ws)) ∧
    (∀ w, set64Debug (σ := σ) c (.ofPure I) alt (fun k => .text (key k)) w =
      .of (some <$> OrdinalSet64.debug c I alt key w)) ∧
    (∀ ws, refDebug (σ := σ) c (.ofPure I) alt (fun k => .text (key k)) ws =
      .of (some <$> SetRef.debug c I alt key ws)) ∧
    (∀ it, setIterDebug (σ := σ) c (.ofPure I) alt (fun k => .text (key k)) it =
      .of (some <$> SetIter.debug c I alt key it)) ∧
    (∀ w, iter64Debug (σ := σ) c (.ofPure I) alt (fun k => .text (key k)) w =
      .of (some <$> Iter64.debug c I alt key w)) ∧
    (∀ r, ordinalValuesDebug (σ := σ) (.ofPure I) (fun k => .text (key k)) r =
      .of (some <$> OrdinalValues.debug I key r)) ∧
    (∀ cell op st, atomicStep (σ := σ) (.ofPure I) cell op st = (AtomicOrdinal.step I cell op, st)) ∧
    ∀ cell, atomicDebug (σ := σ) (.ofPure I) (fun k => .text (key k)) cell =
      .of (some <$> AtomicOrdinal.debug I key cell) :=
  ⟨pure_mapDebug c alt key value, pure_totalDebug c alt key value, pure_mapIterDebug c alt key value,
    pure_totalIterDebug c alt key value, pure_keysDebug c alt key, pure_valuesDebug c alt value, pure_osetDebug c alt key,
    pure_asetDebug c alt key, pure_set64Debug c alt key, pure_refDebug c alt key, pure_setIterDebug c alt key,
    pure_iter64Debug c alt key, pure_ordinalValuesDebug key, pure_atomicStep, pure_atomicDebug key⟩

example := C85_agrees (σ := Nat) (V := Nat) debug64 boolImpl false toString toString

/-! ## Calls -/

/-- The user's `Debug`, which does not call `Ordinal`. -/
local notation "q[" f "]" => fun x => M.quiet (K := K) (f x)

theorem fromTo_prefix (a : Nat) {i n : Nat} (h : i ≤ n) : (fromTo a i : List (Call K)) <+: fromTo a n := by
  obtain ⟨m, rfl⟩ := Nat.exists_eq_add_of_le h
  refine ⟨fromTo (a + i) m, ?_⟩
  simp only [fromTo, ← List.map_append, List.range'_append_1]

theorem dcalls {α : Type} {x : M (σ × List (Call K)) α} {st : σ} {a n : Nat}
    (h : MHolds x (st, []) (fun _ st' => st'.2 = [] ++ fromTo a n) (UpFrom (fun st l => st.2 = [] ++ l) a n)) :
    callsOf x st <+: fromTo a n ∧ ((∃ r, (x (st, [])).1 = .ok r) → callsOf x st = fromTo a n) := by
  refine ⟨calls_of (G := fun l => l <+: fromTo a n) h ?_ ?_, calls_ok h fun _ _ h => h⟩
  · intro _ _ h
    rw [h]
    exact List.prefix_refl _
  · rintro st' ⟨i, hi, h⟩
    rw [h]
    exact fromTo_prefix a hi

/-- `Debug` of a map calls `from_ordinal` on all positions of the map in increasing order, each once, and `ordinal`
never.  This is so for empty slots too, and also if `Debug` of a key or a value returns an error; if user code panics it
stops there. -/
theorem C85_map_calls (hJ : SoundSImpl c J) (hk : ∀ k, SoundM (key k)) (hv : ∀ v, SoundM (value v)) (alt : Bool)
    (st : σ) :
    (∀ m : List (Option V), m.length < c.M →
      callsOf (mapDebug c J.logged alt q[key] q[value] m) st <+: fromTo 0 m.length ∧
      ((∃ r, (mapDebug c J.logged alt q[key] q[value] m (st, [])).1 = .ok r) →
        callsOf (mapDebug c J.logged alt q[key] q[value] m) st = fromTo 0 m.length)) ∧
    (∀ m : List V, m.length < c.M →
      callsOf (totalDebug c J.logged alt q[key] q[value] m) st <+: fromTo 0 m.length ∧
      ((∃ r, (totalDebug c J.logged alt q[key] q[value] m (st, [])).1 = .ok r) →
        callsOf (totalDebug c J.logged alt q[key] q[value] m) st = fromTo 0 m.length)) :=
  ⟨fun m hm => dcalls (mholds_mapDebug (hJ.logged []) alt (st := (st, [])) rfl (fun k => (hk k).quiet_keeps [])
      (fun v => (hv v).quiet_keeps []) m hm),
    fun m hm => dcalls (mholds_totalDebug (hJ.logged []) alt (st := (st, [])) rfl (fun k => (hk k).quiet_keeps [])
      (fun v => (hv v).quiet_keeps []) m hm)⟩

example := (C85_map_calls (tiredImpl_sound debug64) onceDebug_sound superstitious_sound true 0).1
  [none, some 13] (by decide)

/-- The second key's `Debug` fails: the result is an error, and yet the third position is decoded. -/
example :
    let x := mapDebug debug64 (SImpl.ofPure orderingImpl).logged false
      (fun k => M.quiet (onceDebug (k == .lt))) (fun v => M.quiet (superstitious v)) [some 1, some 2, some 13]
    x (0, []) = (.ok none, 2, [.from 0, .from 1, .from 2]) := by rfl

/-- The same for an iterator that has come to position `a`. -/
theorem C85_iter_calls (hJ : SoundSImpl c J) (hk : ∀ k, SoundM (key k)) (hv : ∀ v, SoundM (value v)) (alt : Bool)
    (st : σ) (a : Nat) :
    (∀ l : List (Option V), a + l.length < c.M →
      (callsOf (mapIterDebug c J.logged alt q[key] q[value] ⟨a, l⟩) st <+: fromTo a l.length ∧
        ((∃ r, (mapIterDebug c J.logged alt q[key] q[value] ⟨a, l⟩ (st, [])).1 = .ok r) →
          callsOf (mapIterDebug c J.logged alt q[key] q[value] ⟨a, l⟩) st = fromTo a l.length)) ∧
      (callsOf (valuesDebug c J.logged alt q[value] ⟨a, l⟩) st <+: fromTo a l.length ∧
        ((∃ r, (valuesDebug c J.logged alt q[value] ⟨a, l⟩ (st, [])).1 = .ok r) →
          callsOf (valuesDebug c J.logged alt q[value] ⟨a, l⟩) st = fromTo a l.length))) ∧
    (∀ l : List (Option Unit), a + l.length < c.M →
      callsOf (keysDebug c J.logged alt q[key] ⟨a, l⟩) st <+: fromTo a l.length ∧
        ((∃ r, (keysDebug c J.logged alt q[key] ⟨a, l⟩ (st, [])).1 = .ok r) →
          callsOf (keysDebug c J.logged alt q[key] ⟨a, l⟩) st = fromTo a l.length)) ∧
    (∀ l : List V, a + l.length < c.M →
      callsOf (totalIterDebug c J.logged alt q[key] q[value] ⟨a, l⟩) st <+: fromTo a l.length ∧
        ((∃ r, (totalIterDebug c J.logged alt q[key] q[value] ⟨a, l⟩ (st, [])).1 = .ok r) →
          callsOf (totalIterDebug c J.logged alt q[key] q[value] ⟨a, l⟩) st = fromTo a l.length)) := by
  have hT := hJ.logged []
  have hk := fun k => (hk k).quiet_keeps (K := K) []
  have hv := fun v => (hv v).quiet_keeps (K := K) []
  exact ⟨fun l hl => ⟨dcalls (mholds_mapIterDebug hT alt (st := (st, [])) rfl hk hv a l hl),
      dcalls (mholds_valuesDebug hT alt (st := (st, [])) rfl hv a l hl)⟩,
    fun l hl => dcalls (mholds_keysDebug hT alt (st := (st, [])) rfl hk a l hl),
    fun l hl => dcalls (mholds_totalIterDebug hT alt (st := (st, [])) rfl hk hv a l hl)⟩

example := (C85_iter_calls (tiredImpl_sound debug64) onceDebug_sound superstitious_sound true 0 1).1 [some 5] (by decide)

theorem scalls {α : Type} {x : M (σ × List (Call K)) α} {st : σ} {n : Nat} (hs : J.size = .ok n)
    (h : MHolds x (st, []) (fun _ st' => ∃ n, J.logged.size = .ok n ∧ SetUpAll (fun st l => st.2 = [] ++ l) 0 n st')
      (fun st' => st'.2 = [] ++ [] ∨ ∃ n, J.logged.size = .ok n ∧ SetUpped (fun st l => st.2 = [] ++ l) 0 n st')) :
    (∃ i ≤ n, SetUpTo 0 i (callsOf x st)) ∧ ((∃ r, (x (st, [])).1 = .ok r) → SetUpTo 0 n (callsOf x st)) := by
  have hs' : J.logged.size = .ok n := hs
  refine ⟨calls_of (G := fun l => ∃ i ≤ n, SetUpTo 0 i l) h ?_ ?_, ?_⟩
  · rintro _ st' ⟨m, hm, l, h1, h2⟩
    rw [hs'] at hm
    cases hm
    exact ⟨n, Nat.le_refl _, h1 ▸ h2⟩
  · rintro st' (h1 | ⟨m, hm, l, h1, i, hi, h2⟩)
    · exact ⟨0, Nat.zero_le _, h1 ▸ setUpTo_nil 0⟩
    · rw [hs'] at hm
      cases hm
      exact ⟨i, hi, h1 ▸ h2⟩
  · rintro ⟨r, hr⟩
    obtain ⟨m, hm, l, h1, h2⟩ := h.post (a := r) (st' := (x (st, [])).2) (by rw [← hr])
    rw [hs'] at hm
    cases hm
    have h1 : callsOf x st = l := h1
    rw [h1]
    exact h2

/-- `Debug` of a set calls `from_ordinal` on all numbers below `ORDINAL_SIZE` in increasing order, each once, and after
each at most twice `ordinal`.  `OrdinalSet64` does so too, although its iterator goes through the members only. -/
theorem C85_set_calls (hJ : SoundSImpl c J) (hk : ∀ k, SoundM (key k)) (alt : Bool) (st : σ) {n : Nat}
    (hs : J.size = .ok n) :
    (∀ t, (∃ i ≤ n, SetUpTo 0 i (callsOf (osetDebug c J.logged alt q[key] t) st)) ∧
      ((∃ r, (osetDebug c J.logged alt q[key] t (st, [])).1 = .ok r) →
        SetUpTo 0 n (callsOf (osetDebug c J.logged alt q[key] t) st))) ∧
    (∀ S ws, (∃ i ≤ n, SetUpTo 0 i (callsOf (asetDebug c J.logged S alt q[key] ws) st)) ∧
      ((∃ r, (asetDebug c J.logged S alt q[key] ws (st, [])).1 = .ok r) →
        SetUpTo 0 n (callsOf (asetDebug c J.logged S alt q[key] ws) st))) ∧
    (∀ w, (∃ i ≤ n, SetUpTo 0 i (callsOf (set64Debug c J.logged alt q[key] w) st)) ∧
      ((∃ r, (set64Debug c J.logged alt q[key] w (st, [])).1 = .ok r) →
        SetUpTo 0 n (callsOf (set64Debug c J.logged alt q[key] w) st))) ∧
    (∀ ws, (∃ i ≤ n, SetUpTo 0 i (callsOf (refDebug c J.logged alt q[key] ws) st)) ∧
      ((∃ r, (refDebug c J.logged alt q[key] ws (st, [])).1 = .ok r) →
        SetUpTo 0 n (callsOf (refDebug c J.logged alt q[key] ws) st))) := by
  have hT := hJ.logged []
  have hk := fun k => (hk k).quiet_keeps (K := K) []
  exact ⟨fun t => scalls hs (mholds_osetDebug hT hk alt (st := (st, [])) rfl t),
    fun S ws => scalls hs (mholds_asetDebug hT hk alt (st := (st, [])) rfl S ws),
    fun w => scalls hs (mholds_set64Debug hT hk alt (st := (st, [])) rfl w),
    fun ws => scalls hs (mholds_refDebug hT hk alt (st := (st, [])) rfl ws)⟩

example := C85_set_calls (tiredImpl_sound debug64) onceDebug_sound true 0 (n := 2) rfl

example : callsOf (set64Debug debug64 (SImpl.ofPure boolImpl).logged false (fun k => M.quiet (onceDebug k)) 2) 0 =
    [.from 0, .ordinal false, .ordinal false, .from 1, .ordinal true, .ordinal true] := by rfl

/-- The iterators of sets: the same from where they are; `Iter64` calls `from_ordinal` on the bits it has left, in
increasing order. -/
theorem C85_set_iter_calls (hJ : SoundSImpl c J) (hk : ∀ k, SoundM (key k)) (alt : Bool) (st : σ) :
    (∀ a b ws, a ≤ b →
      (∃ i ≤ b - a, SetUpTo a i (callsOf (setIterDebug c J.logged alt q[key] ⟨⟨a, b⟩, ws⟩) st)) ∧
      ((∃ r, (setIterDebug c J.logged alt q[key] ⟨⟨a, b⟩, ws⟩ (st, [])).1 = .ok r) →
        SetUpTo a (b - a) (callsOf (setIterDebug c J.logged alt q[key] ⟨⟨a, b⟩, ws⟩) st))) ∧
    (∀ w : BitVec 64, ∀ l, l = ((List.range 64).filter fun i => w.getLsbD i).map Call.from →
      callsOf (iter64Debug c J.logged alt q[key] w) st <+: l ∧
      ((∃ r, (iter64Debug c J.logged alt q[key] w (st, [])).1 = .ok r) →
        callsOf (iter64Debug c J.logged alt q[key] w) st = l)) := by
  have hT := hJ.logged []
  have hk := fun k => (hk k).quiet_keeps (K := K) []
  constructor
  · intro a b ws hab
    have h := mholds_setSeq hT hk "[" "]" alt ⟨⟨a, b⟩, ws⟩ (st := (st, [])) rfl
    have e : OrdinalValues.len ⟨a, b⟩ = b - a := by
      simp only [OrdinalValues.len, Range.len]
      split <;> omega
    rw [show (SetIter.iter ⟨⟨a, b⟩, ws⟩) = ⟨a, b⟩ from rfl, e] at h
    have h : MHolds (setIterDebug c J.logged alt q[key] ⟨⟨a, b⟩, ws⟩) (st, [])
        (fun _ st' => SetUpAll (fun st l => st.2 = [] ++ l) a (b - a) st')
        (SetUpped (fun st l => st.2 = [] ++ l) a (b - a)) := by
      unfold setIterDebug
      rw [e]
      exact h
    refine ⟨calls_of (G := fun l => ∃ i ≤ b - a, SetUpTo a i l) h ?_ ?_, ?_⟩
    · rintro _ st' ⟨l, h1, h2⟩
      exact ⟨_, Nat.le_refl _, h1 ▸ h2⟩
    · rintro st' ⟨l, h1, i, hi, h2⟩
      exact ⟨i, hi, h1 ▸ h2⟩
    · rintro ⟨r, hr⟩
      obtain ⟨l, h1, h2⟩ := h.post (a := r) (st' := (setIterDebug c J.logged alt q[key] ⟨⟨a, b⟩, ws⟩ (st, [])).2)
        (by rw [← hr])
      have h1 : callsOf (setIterDebug c J.logged alt q[key] ⟨⟨a, b⟩, ws⟩) st = l := h1
      rw [h1]
      exact h2
  · rintro w l rfl
    have h := mholds_iter64Debug hT hk alt w (st := (st, [])) rfl
    refine ⟨calls_of (G := fun l => l <+: _) h (fun _ _ h => by rw [h]; exact List.prefix_refl _) ?_,
      calls_ok h fun _ _ h => h⟩
    rintro st' ⟨l, h1, h2⟩
    rw [h2]
    exact h1

example := C85_set_iter_calls (tiredImpl_sound debug64) onceDebug_sound true 0

/-- `Debug` of `OrdinalValues` (`all_values()`, or what is left of it: the numbers from `a` to before `b`) calls
`from_ordinal` on the first number and then on the last, except that the last is not looked at if nothing was taken from
the back or only one number is left. -/
theorem C85_values_calls (hJ : SoundSImpl c J) (hk : ∀ k, SoundM (key k)) (st : σ) {n : Nat} (hs : J.size = .ok n)
    (a b : Nat) (l : List (Call K)) (hl : l =
      if a < b then
        if b = n ∨ b = a + 1 then [.from a] else [.from a, .from (b - 1)]
      else []) :
    callsOf (ordinalValuesDebug J.logged q[key] ⟨a, b⟩) st <+: l ∧
      ((∃ r, (ordinalValuesDebug J.logged q[key] ⟨a, b⟩ (st, [])).1 = .ok r) →
        callsOf (ordinalValuesDebug J.logged q[key] ⟨a, b⟩) st = l) := by
  have hT := hJ.logged []
  have hk := fun k => (hk k).quiet_keeps (K := K) []
  have h := mholds_ordinalValuesDebug hT hk a b (st := (st, [])) rfl (n := n) hs
  have e : endsOf n a b = l := by
    rw [hl]
    unfold endsOf
    split
    · split <;> rfl
    · rfl
  rw [e] at h
  refine ⟨calls_of (G := fun l' => l' <+: l) h (fun _ _ h => by rw [h]; exact List.prefix_refl _) ?_,
    calls_ok h fun _ _ h => h⟩
  rintro st' ⟨l', h1, h2⟩
  rw [h2]
  exact h1

example := C85_values_calls (tiredImpl_sound debug64) onceDebug_sound 0 (n := 2) rfl 0 1 [.from 0] (by decide)

example : callsOf (ordinalValuesDebug (SImpl.ofPure orderingImpl).logged
      (fun k => M.quiet (onceDebug (k == .lt))) ⟨0, 3⟩) 0 = [.from 0] ∧
    callsOf (ordinalValuesDebug (SImpl.ofPure orderingImpl).logged
      (fun k => M.quiet (onceDebug (k == .lt))) ⟨0, 2⟩) 0 = [.from 0, .from 1] :=
  ⟨by rfl, by rfl⟩

/-- A method of `AtomicOrdinal` calls `ordinal` once on each value it is given, in the order of the arguments, before it
touches the cell, and `from_ordinal` once, on the number the cell gave, afterwards; `compare_exchange` does so
whether or not it has exchanged.  `store` calls `from_ordinal` not at all, `Debug` once. -/
theorem C85_atomic_calls (hJ : SoundSImpl c J) (hk : ∀ k, SoundM (key k)) (st : σ) :
    (∀ o, callsOf (atomicCall J.logged (.load o)) st = []) ∧
    (∀ v o, callsOf (atomicCall J.logged (.store v o)) st = [.ordinal v]) ∧
    (∀ v w o o', callsOf (atomicCall J.logged (.cas v w o o')) st <+: [.ordinal v, .ordinal w] ∧
      ((∃ p, (atomicCall J.logged (.cas v w o o') (st, [])).1 = .ok p) →
        callsOf (atomicCall J.logged (.cas v w o o')) st = [.ordinal v, .ordinal w])) ∧
    callsOf (atomicRet J.logged .unit) st = [] ∧
    (∀ i, callsOf (atomicRet J.logged (.val i)) st = [.from i] ∧ callsOf (atomicRet J.logged (.ok i)) st = [.from i] ∧
      callsOf (atomicRet J.logged (.err i)) st = [.from i]) ∧
    (∀ i, callsOf (atomicDebug J.logged q[key] i) st = [.from i]) := by
  have hT := hJ.logged []
  have hr : ∀ r q, (q = match r with
      | .unit => []
      | .val v | .ok v | .err v => [.from v]) → callsOf (atomicRet J.logged r) st = q := fun r q hq =>
    calls_of (G := fun l => l = q) (mholds_atomicRet hT r (st := (st, [])) rfl q hq) (fun _ _ h => h) fun _ h => h
  refine ⟨fun o => rfl, fun v o => ?_, fun v w o o' => ?_, hr _ _ rfl, fun i => ⟨hr _ _ rfl, hr _ _ rfl, hr _ _ rfl⟩,
    fun i => ?_⟩
  · have h : MHolds (atomicCall J.logged (.store v o)) (st, []) (fun _ st' => st'.2 = [] ++ [.ordinal v])
        (fun st' => st'.2 = [] ++ [.ordinal v]) :=
      (hT.mordinal (l := []) (st := (st, [])) rfl v).bind fun _ _ h => mholds_ok h
    exact calls_of (G := fun l => l = [.ordinal v]) h (fun _ _ h => h) fun _ h => h
  · have h := mholds_atomicCall hT (.cas v w o o') (st := (st, [])) rfl _ rfl
    refine ⟨calls_of (G := fun l => l <+: _) h (fun _ _ h => by rw [h]; exact List.prefix_refl _) ?_,
      calls_ok h fun _ _ h => h⟩
    rintro st' ⟨l, h1, h2⟩
    rw [h2]
    exact h1
  · exact calls_of (G := fun l => l = [.from i])
      (mholds_atomicDebug hT (fun k => (hk k).quiet_keeps (K := K) []) i (st := (st, [])) rfl) (fun _ _ h => h) fun _ h => h

example := C85_atomic_calls (tiredImpl_sound debug64) onceDebug_sound 0

end OrdinalMap.Props
