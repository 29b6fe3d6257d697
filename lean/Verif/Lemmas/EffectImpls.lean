import Verif.Model.EffectImpls
import Verif.Lemmas.Effect
import Verif.Lemmas.EffectSet
/-! # Impls for compound types, and `from_iter` of sets, with state -/

namespace OrdinalMap

variable {σ α β K V : Type} {c : Cfg}

theorem holds_addC (c : Cfg) (a b : Nat) : Holds (addC c a b) fun n => n < c.M := by
  unfold addC
  split
  · assumption
  · trivial

theorem SoundSImpl.option {A : SImpl σ α} (h : SoundSImpl c A) : SoundSImpl c (A.option c) := by
  have hT := h.traced
  have hs : Holds (A.option c).size fun n => n < c.M := Sound.bind h.size fun n => holds_addC c n 1
  refine ⟨hs.sound, fun n hn => by rw [hn] at hs; exact hs, fun o st => ?_, fun i st => ?_⟩
  · cases o with
    | none => exact Sound.mk_ok _
    | some a =>
      exact ((hT.mordinal (l := []) trivial a).bind fun i st1 _ =>
        mholds_of (P := fun _ _ => True) (sound_addU c i 1).holds trivial).sound
  · unfold SImpl.option
    dsimp only
    split
    · exact Sound.mk_ok _
    · exact ((sound_subU c i 1).mbind (Q := fun _ => True) trivial fun j =>
        (hT.mfrom (l := []) trivial j).bind fun a st1 _ => mholds_ok (P := fun _ _ => True) trivial).sound

theorem SoundSImpl.sum {A : SImpl σ α} {B : SImpl σ β} (hA : SoundSImpl c A) (hB : SoundSImpl c B) :
    SoundSImpl c (A.sum c B) := by
  have hs : Holds (A.sum c B).size fun n => n < c.M :=
    Sound.bind hA.size fun n => Sound.bind hB.size fun m => holds_addC c n m
  refine ⟨hs.sound, fun n hn => by rw [hn] at hs; exact hs, fun o st => ?_, fun i st => ?_⟩
  · cases o with
    | inl a => exact hA.ordinal a st
    | inr b =>
      exact (hA.size.mbind (Q := fun _ => True) trivial fun s => (hB.traced.mordinal (l := []) trivial b).bind
        fun i st1 _ => mholds_of (P := fun _ _ => True) (sound_addU c s i).holds trivial).sound
  · refine (hA.size.mbind (Q := fun _ => True) (P' := fun _ _ => True) trivial fun s => ?_).sound
    split
    · exact (hA.traced.mfrom (l := []) trivial i).bind fun a st1 _ =>
        (sound_unwrap a).mbind trivial fun a => mholds_ok trivial
    · exact (sound_subU c i s).mbind trivial fun j =>
        (hB.traced.mfrom (l := []) trivial j).bind fun a st1 _ => mholds_ok trivial

theorem SoundSImpl.box {A : SImpl σ α} (hA : SoundSImpl c A) : SoundSImpl c A.box := by
  refine ⟨hA.size, hA.size_lt, fun b st => hA.ordinal b.unbox st, fun i st => ?_⟩
  refine ((hA.traced.mfrom (l := []) trivial i).bind (P' := fun _ _ => True) fun a st1 _ => ?_).sound
  cases a with
  | none => exact mholds_ok trivial
  | some a => exact mholds_ok trivial

theorem holds_arraySize {A : SImpl σ α} (hA : SoundSImpl c A) (k s : Nat) (hs : s < c.M) :
    Holds (Eff.arraySizeLoop c A k s) fun n => n < c.M := by
  induction k generalizing s with
  | zero => exact hs
  | succ k ih =>
    unfold Eff.arraySizeLoop
    refine Sound.bind hA.size fun n => ?_
    unfold checkedMul
    split
    · trivial
    · rename_i s' h
      split at h
      · cases h; exact ih _ (by assumption)
      · cases h

theorem mholds_arrayFrom_len {A : SImpl σ α} (hA : SoundSImpl c A) (N i : Nat) (st : σ) :
    MHolds (Eff.arrayFrom A N i) st (fun r _ => ∀ vs, r = some vs → vs.length = N) (fun _ => True) := by
  unfold Eff.arrayFrom
  rw [ArrayBuilder.new_eq]
  refine ((mholds_arrayFromLoop hA.traced N N i [] (by simp) [] rfl (st := st) trivial).mono (fun _ _ h => h.2)
    fun _ _ => trivial).bind fun r st1 h2 => ?_
  cases r with
  | none => exact mholds_ok (by simp)
  | some p =>
    obtain ⟨n, b⟩ := p
    obtain ⟨ws, rfl, hl, -⟩ := h2 _ _ rfl
    dsimp only
    split
    · exact mholds_of (Sound.bind (sound_drop _ _) fun _ => by simp) trivial
    · rw [ArrayBuilder.finish_full hl]
      exact mholds_ok fun vs hv => by
        simp only [Option.some.injEq] at hv
        rw [← hv]; simpa using hl

theorem SoundSImpl.array {A : SImpl σ α} (hA : SoundSImpl c A) (N : Nat) : SoundSImpl c (A.array c N) := by
  have hM := c.M_ge
  have hs : Holds (A.array c N).size fun n => n < c.M := holds_arraySize hA N 1 (by omega)
  refine ⟨hs.sound, fun n hn => by rw [hn] at hs; exact hs, fun a st =>
    (mholds_arrayOrdinal hA.traced a.1 0 (st := st) trivial).sound, fun i st => ?_⟩
  refine ((mholds_arrayFrom_len hA N i st).bind (P' := fun _ _ => True) fun r st1 h => ?_).sound
  cases r with
  | none => exact mholds_ok trivial
  | some vs =>
    dsimp only
    rw [dif_pos (h vs rfl)]
    exact mholds_ok trivial

variable {J : SImpl σ K} {T : σ → List (Call K) → Prop}

theorem mholds_osetExtend (hJ : Traced c J T) (xs : List K) (t : OrdinalSet) {st : σ} (h : T st []) :
    MHolds (Eff.osetExtend c J t xs) st (fun _ st' => ∃ l, T st' l ∧ EachOf 3 4 xs l) (fun _ => True) := by
  induction xs generalizing T t st with
  | nil => exact mholds_ok ⟨[], h, rfl⟩
  | cons x xs ih =>
    unfold Eff.osetExtend
    refine ((mholds_osetInsert hJ t x h).mono (fun _ _ h => h) fun _ _ => trivial).bind ?_
    rintro ⟨b, t'⟩ st1 ⟨j, h1, h2, h3⟩
    refine (ih (hJ.shift (List.replicate j (.ordinal x))) t' (st := st1) (by simpa using h3)).mono ?_ fun _ h => h
    rintro _ st2 ⟨l, h4, h5⟩
    exact ⟨_, h4, j, l, h1, h2, rfl, h5⟩

theorem mholds_osetFromIter (hJ : Traced c J T) (xs : List K) {st : σ} (h : T st []) :
    MHolds (Eff.osetFromIter c J xs) st (fun _ st' => ∃ l, T st' l ∧ EachOf 3 4 xs l) (fun _ => True) := by
  unfold Eff.osetFromIter
  refine Sound.mbind ?_ trivial fun t => mholds_osetExtend hJ xs t h
  have h1 := hJ.size
  sound

theorem mholds_asetExtend (hJ : Traced c J T) (S : Nat) (xs : List K) (t : OrdinalArraySet) {st : σ} (h : T st []) :
    MHolds (Eff.asetExtend c J S t xs) st (fun _ st' => ∃ l, T st' l ∧ EachOf 3 4 xs l) (fun _ => True) := by
  induction xs generalizing T t st with
  | nil => exact mholds_ok ⟨[], h, rfl⟩
  | cons x xs ih =>
    unfold Eff.asetExtend
    refine ((mholds_asetInsert hJ S t x h).mono (fun _ _ h => h) fun _ _ => trivial).bind ?_
    rintro ⟨b, t'⟩ st1 ⟨j, h1, h2, h3⟩
    refine (ih (hJ.shift (List.replicate j (.ordinal x))) t' (st := st1) (by simpa using h3)).mono ?_ fun _ h => h
    rintro _ st2 ⟨l, h4, h5⟩
    exact ⟨_, h4, j, l, h1, h2, rfl, h5⟩

theorem mholds_newMap_up (hJ : Traced c J T) (sz : Nat) (init : K → M σ V) (hf : ∀ k, Keeps T (init k))
    {st : σ} (h : T st []) :
    MHolds (Eff.newMap c J sz init) st (fun m st' => ∃ n, J.size = .ok n ∧ m.length = n ∧ T st' (upTo n))
      (UpSize T J) := by
  unfold Eff.newMap
  refine (mholds_tryNew_up hJ sz _ (fun k st l hl => ?_) h).bind fun r st1 h1 => ?_
  · exact (hf k st l hl).bind fun v st1 h1 => mholds_ok h1
  · cases r with
    | error e => exact e.elim
    | ok m => exact mholds_ok h1

theorem mholds_omapContainsKey (hJ : Traced c J T) (m : OMap V) (k : K) {st : σ} (h : T st []) :
    MHolds (Eff.omapContainsKey J m k) st (fun _ st' => T st' [.ordinal k]) (AtMost T k) :=
  ((hJ.mordinal h k).mono (fun _ _ h => h) fun _ h => .inr h).bind fun _ _ h => mholds_ok h

theorem mholds_amapContainsKey (hJ : Traced c J T) (m : OrdinalArrayMap V) (k : K) {st : σ} (h : T st []) :
    MHolds (Eff.amapContainsKey J m k) st (fun _ st' => T st' [.ordinal k]) (AtMost T k) :=
  (mholds_totalGet hJ m k h).bind fun _ _ h => mholds_ok h

/-! ## Agreement with the pure models -/

open M

namespace Eff

variable {I : OrdinalImpl K}

theorem pure_newMap (c : Cfg) (sz : Nat) (init : K → σ → R (V × σ)) (st : σ) :
    (newMap c (SImpl.ofPure I) sz (fun k => .ofState (init k))).result st = OrdinalTotalMap.new c I sz init st := by
  have e : (fun k => (do let v ← M.ofState (init k); .of (.ok (.ok v)) : M σ (Except Empty V))) =
      fun k => .ofState fun r => (do let (v, r) ← init k r; .ok (.ok v, r)) := by
    funext k st
    change M.bind _ _ st = _
    unfold M.bind M.ofState
    dsimp only
    rcases init k st with _ | ⟨v, st'⟩ <;> rfl
  unfold newMap OrdinalTotalMap.new
  simp only [result_bind, e, pure_tryNew]
  rcases OrdinalTotalMap.tryNew c I sz _ st with _ | ⟨e | m, st'⟩
  · rfl
  · exact e.elim
  · rfl

theorem pure_osetExtend (t : OrdinalSet) (xs : List K) :
    osetExtend (σ := σ) c (.ofPure I) t xs = .of (OrdinalSet.extendLoop c I t xs) := by
  induction xs generalizing t with
  | nil => rfl
  | cons x xs ih => exact bind_of (pure_osetInsert c t x) fun q => ih q.2

theorem pure_osetFromIter (xs : List K) :
    osetFromIter (σ := σ) c (.ofPure I) xs = .of (OrdinalSet.fromIter c I xs) := by
  unfold osetFromIter OrdinalSet.fromIter OrdinalSet.new OrdinalSet.isSmall
  rw [pure_size]
  cases I.size with
  | error e => rfl
  | ok n =>
    by_cases hn : n ≤ 64
    · simpa [hn] using pure_osetExtend _ xs
    · simpa [hn] using pure_osetExtend _ xs

theorem pure_asetExtend (S : Nat) (t : OrdinalArraySet) (xs : List K) :
    asetExtend (σ := σ) c (.ofPure I) S t xs = .of (OrdinalArraySet.extendLoop c I S t xs) := by
  induction xs generalizing t with
  | nil => rfl
  | cons x xs ih => exact bind_of (pure_asetInsert c S t x) fun q => ih q.2

end Eff

theorem pure_option (A : OrdinalImpl α) : (SImpl.ofPure (σ := σ) A).option c = .ofPure (optionImpl c A) := by
  unfold SImpl.option
  rw [Eff.pure_size]
  unfold SImpl.ofPure optionImpl
  congr 1
  · funext o
    cases o with
    | none => rfl
    | some a => exact of_cong fun _ => rfl
  · funext i
    by_cases hi : i = 0
    · simp [hi]
    · simp only [hi, if_false]
      exact of_cong fun _ => of_cong fun _ => rfl

theorem pure_sum (A : OrdinalImpl α) (B : OrdinalImpl β) :
    (SImpl.ofPure (σ := σ) A).sum c (.ofPure B) = .ofPure (resultImpl c A B) := by
  unfold SImpl.sum
  rw [Eff.pure_size, Eff.pure_size]
  unfold SImpl.ofPure resultImpl
  congr 1
  · funext o
    cases o with
    | inl a => rfl
    | inr b => exact of_cong fun _ => of_cong fun _ => rfl
  · funext i
    cases A.size with
    | error e => rfl
    | ok s =>
      simp only [M.ok_bind, OrdinalMap.ok_bind]
      by_cases hi : i < s
      · simp only [hi, if_true]
        exact of_cong fun _ => of_cong fun _ => rfl
      · simp only [hi, if_false]
        exact of_cong fun _ => of_cong fun _ => rfl

theorem pure_box (A : OrdinalImpl α) : (SImpl.ofPure (σ := σ) A).box = .ofPure (boxImpl A) := by
  unfold SImpl.box SImpl.ofPure boxImpl
  congr 1
  funext i
  refine of_cong fun a => ?_
  cases a <;> rfl

theorem pure_arraySizeLoop (A : OrdinalImpl α) (k s : Nat) :
    Eff.arraySizeLoop c (SImpl.ofPure (σ := σ) A) k s = arraySizeLoop c A k s := by
  induction k generalizing s with
  | zero => rfl
  | succ k ih =>
    unfold Eff.arraySizeLoop arraySizeLoop
    rw [Eff.pure_size]
    cases A.size with
    | error e => rfl
    | ok n =>
      simp only [OrdinalMap.ok_bind]
      cases checkedMul c s n with
      | none => rfl
      | some s' => exact ih s'

theorem pure_array (A : OrdinalImpl α) (N : Nat) : (SImpl.ofPure (σ := σ) A).array c N = .ofPure (arrayImpl c N A) := by
  unfold SImpl.array
  rw [pure_arraySizeLoop]
  have h1 : (fun a : Arr α N => Eff.arrayOrdinalLoop c (SImpl.ofPure (σ := σ) A) a.1 0) =
      fun a => .of (arrayOrdinalLoop c A a.1 0) := funext fun a => Eff.pure_arrayOrdinal c a.1 0
  have h2 : (fun i => Eff.arrayFrom (SImpl.ofPure (σ := σ) A) N i) =
      fun i => .of ((arrayImpl c N A).fromOrdinal i >>= fun o => .ok (o.map fun a => a.1)) :=
    funext fun i => Eff.pure_arrayFrom c N i
  have h3 : ∀ i, Eff.arrayFrom (SImpl.ofPure (σ := σ) A) N i =
      .of ((arrayImpl c N A).fromOrdinal i >>= fun o => .ok (o.map fun a => a.1)) := fun i => congrFun h2 i
  simp only [h1, h3]
  unfold SImpl.ofPure
  congr 1
  funext i
  rcases (arrayImpl c N A).fromOrdinal i with e | o | a
  · rfl
  · rfl
  · simp only [OrdinalMap.ok_bind, Option.map_some, M.ok_bind]
    rw [dif_pos a.2]

end OrdinalMap
