import Verif.SpecEffectDebug
import Verif.Model.EffectDebug
import Verif.Lemmas.EffectUp
import Verif.Lemmas.EffectSet
/-! # Safety of `Debug` and `AtomicOrdinal` with state, and the calls they make -/

namespace OrdinalMap
open Eff

variable {σ s α β ι K V W A B τ : Type}
variable {c : Cfg} {J : SImpl σ K} {T : σ → List (Call K) → Prop}

/-! ## Builders -/

theorem mholds_entry {alt : Bool} {b : Option Builder} {text : Fmt σ} {st : σ} {P Q : σ → Prop} (hst : P st)
    (h : MHolds text st (fun _ => P) Q) : MHolds (entry alt b text) st (fun _ => P) Q := by
  cases b with
  | none => exact mholds_ok hst
  | some b => exact h.bind fun o st1 h1 => mholds_ok h1

/-- The loop of `entries`: it ends where the iterator ends. -/
theorem mholds_entriesLoop {Inv : s → σ → Prop} {Q : σ → Prop} {mu : s → Nat} {item : A → s → Prop} {fin : s → Prop}
    {next : s → M σ (Option A × s)} (hn : MStepsF Inv Q mu item fin next) {text : A → Fmt σ}
    (ht : ∀ a x st, Inv x st → MHolds (text a) st (fun _ st' => Inv x st') Q) (alt : Bool) (fuel : Nat) (x : s)
    (b : Option Builder) {st : σ} (hf : mu x < fuel) (hi : Inv x st) :
    MHolds (Eff.entriesLoop alt next text fuel x b) st (fun _ st' => ∃ x', Inv x' st' ∧ fin x') Q := by
  induction fuel generalizing x b st with
  | zero => omega
  | succ fuel ih =>
    unfold Eff.entriesLoop
    refine (hn x st hi).bind ?_
    rintro ⟨o, x1⟩ st1 ⟨h1, h2, h3, h0⟩
    cases o with
    | none => exact mholds_ok ⟨x1, h1, h0 rfl⟩
    | some a =>
      have h4 := (h3 a rfl).1
      refine (mholds_entry (P := Inv x1) h1 (ht a x1 st1 h1)).bind fun b' st2 h5 => ?_
      exact ih x1 b' (by simp only at h4; omega) h5

theorem mholds_debugSeq {Inv : s → σ → Prop} {Q : σ → Prop} {mu : s → Nat} {item : A → s → Prop} {fin : s → Prop}
    {next : s → M σ (Option A × s)} (hn : MStepsF Inv Q mu item fin next) {text : A → Fmt σ}
    (ht : ∀ a x st, Inv x st → MHolds (text a) st (fun _ st' => Inv x st') Q) (opn cls : String) (alt : Bool) (x : s)
    {st : σ} (hi : Inv x st) :
    MHolds (Eff.debugSeq opn cls alt next text (mu x + 1) x) st (fun _ st' => ∃ x', Inv x' st' ∧ fin x') Q :=
  (mholds_entriesLoop hn ht alt _ x _ (Nat.lt_succ_self _) hi).bind fun _ _ h => mholds_ok h

theorem MSteps.fin {Inv : s → σ → Prop} {Q : σ → Prop} {mu : s → Nat} {item : A → s → Prop}
    {next : s → M σ (Option A × s)} (hn : MSteps Inv Q mu item next) :
    MStepsF Inv Q mu item (fun _ => True) next := fun x st hi =>
  (hn x st hi).mono (fun _ _ h => ⟨h.1, h.2.1, h.2.2, fun _ => trivial⟩) fun _ h => h

theorem MStepsF.mapItem {step : s → M σ (Option A × s)} {Inv : s → σ → Prop} {Q : σ → Prop} {mu : s → Nat}
    {item : A → s → Prop} {fin : s → Prop} (hs : MStepsF Inv Q mu item fin step) (f : A → B) :
    MStepsF Inv Q mu (fun _ _ => True) fin (Eff.mapItem f step) := by
  intro x st hi
  refine (hs x st hi).bind ?_
  rintro ⟨o, x1⟩ st1 ⟨h1, h2, h3, h0⟩
  refine mholds_ok ⟨h1, h2, fun b hb => ?_, fun h => ?_⟩
  · cases o with
    | none => simp at hb
    | some a => exact ⟨(h3 a rfl).1, trivial⟩
  · cases o with
    | none => exact h0 rfl
    | some a => simp at h

/-- `Keeps` for a property of the state alone. -/
theorem Keeps.then {a : Fmt σ} {f : String → Fmt σ} (ha : Keeps T a) (hf : ∀ t, Keeps T (f t)) : Keeps T (a.then f) :=
  fun st l h => (ha st l h).bind fun o st1 h1 => by
    cases o with
    | none => exact mholds_ok h1
    | some t => exact hf t st1 l h1

theorem keeps_pairEntry {key : K → Fmt σ} {value : V → Fmt σ} (hk : ∀ k, Keeps T (key k)) (hv : ∀ v, Keeps T (value v))
    (p : K × V) : Keeps T (pairEntry key value p) :=
  (hk p.1).then fun _ => (hv p.2).then fun _ _ _ h => mholds_ok h

theorem keeps_debugPair (alt : Bool) {key : K → Fmt σ} {value : V → Fmt σ} (hk : ∀ k, Keeps T (key k))
    (hv : ∀ v, Keeps T (value v)) (p : K × V) : Keeps T (Eff.debugPair alt key value p) := fun st l h =>
  (mholds_entry (P := fun st => T st l) h (hk p.1 st l h)).bind fun _ st1 h1 =>
    (mholds_entry (P := fun st => T st l) h1 (hv p.2 st1 l h1)).bind fun _ _ h2 => mholds_ok h2

/-! ## Maps -/

/-- Calls that come after those on `0`, …, `a - 1`. -/
theorem Traced.from (hJ : Traced c J T) (a : Nat) : Traced c J fun st l => ∃ l', l = upTo a ++ l' ∧ T st l' :=
  ⟨hJ.size, hJ.size_lt,
    fun k st l ⟨l', e, h⟩ => ⟨(hJ.ordinal k st l' h).1, l' ++ [.ordinal k], by simp [e], (hJ.ordinal k st l' h).2⟩,
    fun i st l ⟨l', e, h⟩ => ⟨(hJ.fromOrdinal i st l' h).1, l' ++ [.from i], by simp [e], (hJ.fromOrdinal i st l' h).2⟩⟩

theorem Keeps.from {x : M σ α} (h : Keeps T x) (a : Nat) : Keeps (fun st l => ∃ l', l = upTo a ++ l' ∧ T st l') x :=
  fun st _ ⟨l', e, hT⟩ => (h st l' hT).mono (fun _ _ h => ⟨l', e, h⟩) fun _ h => ⟨l', e, h⟩

theorem upTo_split {a i : Nat} {l : List (Call K)} (h : upTo i = upTo a ++ l) : l = fromTo a (i - a) := by
  have hle : a ≤ i := by
    have := congrArg List.length h
    simp [upTo] at this
    omega
  have : (upTo i : List (Call K)) = upTo a ++ fromTo a (i - a) := by
    simp only [upTo, fromTo, ← List.map_append]
    congr 1
    rw [List.range_eq_range', List.range_eq_range']
    have := (List.range'_append_1 (s := 0) (m := a) (n := i - a)).symm
    rwa [Nat.zero_add, show a + (i - a) = i by omega] at this
  rw [this] at h
  exact (List.append_cancel_left h).symm

/-- The calls so far are the first of `a`, …, `a + n - 1`. -/
def UpFrom (T : σ → List (Call K) → Prop) (a n : Nat) (st : σ) : Prop := ∃ i, i ≤ n ∧ T st (fromTo a i)

theorem up_from {a n : Nat} {st : σ} (h : Up (fun st l => ∃ l', l = upTo a ++ l' ∧ T st l') n st) :
    UpFrom T a (n - a) st := by
  obtain ⟨i, hi, l', e, hT⟩ := h
  rw [upTo_split e] at hT
  exact ⟨i - a, by omega, hT⟩

/-- `Debug` of something that goes through an enumerator from where it is. -/
theorem mholds_listDebug {c : Cfg} {T : σ → List (Call K) → Prop} {text : A → Fmt σ} (ht : ∀ a, Keeps T (text a))
    {next : TotalIter V → M σ (Option A × TotalIter V)} (a : Nat) (l : List V)
    (hn : ∀ T' : σ → List (Call K) → Prop, Traced c J T' → MStepsF (ListUp T' V (a + l.length)) (Up T' (a + l.length))
      (Enumerate.len (listIter V)) (fun _ _ => True) (fun e => e.next = a + l.length) next)
    (hJ : Traced c J T) (opn cls : String) (alt : Bool) {st : σ} (h : T st []) :
    MHolds (Eff.debugSeq opn cls alt next text (l.length + 1) ⟨a, l⟩) st
      (fun _ st' => T st' (fromTo a l.length)) (UpFrom T a l.length) := by
  have hx := mholds_debugSeq (hn _ (hJ.from a)) (text := text) (fun x it st' hs => ?_) opn cls alt ⟨a, l⟩ (st := st)
    ⟨trivial, rfl, [], by simp, h⟩
  · refine hx.mono ?_ ?_
    · rintro _ st' ⟨x', ⟨-, -, l', e, hT⟩, hfin⟩
      rw [hfin] at e
      rw [upTo_split e, Nat.add_sub_cancel_left] at hT
      exact hT
    · intro st' hu
      have := up_from hu
      rwa [Nat.add_sub_cancel_left] at this
  · obtain ⟨h1, h2, h3⟩ := hs
    exact ((ht x).from a st' _ h3).mono (fun _ _ h => ⟨h1, h2, h⟩) fun st2 h =>
      EnumUp.up (S := listIter V) (I := fun _ => True) (e := it) (st := st2) ⟨h1, h2, h⟩

section maps
variable (hJ : Traced c J T) {key : K → Fmt σ} {value : V → Fmt σ} (hk : ∀ k, Keeps T (key k))
  (hv : ∀ v, Keeps T (value v)) (alt : Bool) {st : σ} (h : T st [])
include hJ h

theorem mholds_totalIterDebug (hk : ∀ k, Keeps T (key k)) (hv : ∀ v, Keeps T (value v)) (a : Nat) (l : List V)
    (hm : a + l.length < c.M) :
    MHolds (totalIterDebug c J alt key value ⟨a, l⟩) st (fun _ st' => T st' (fromTo a (l.length)))
      (UpFrom T a (l.length)) :=
  mholds_listDebug (keeps_debugPair alt hk hv) a l (fun _ hJ' => mstepsF_listNext hJ' hm) hJ _ _ alt h

theorem mholds_mapIterDebug (hk : ∀ k, Keeps T (key k)) (hv : ∀ v, Keeps T (value v)) (a : Nat) (l : List (Option V))
    (hm : a + l.length < c.M) :
    MHolds (mapIterDebug c J alt key value ⟨a, l⟩) st (fun _ st' => T st' (fromTo a (l.length)))
      (UpFrom T a (l.length)) :=
  mholds_listDebug (keeps_debugPair alt hk hv) a l (fun _ hJ' => mstepsF_mapNext hJ' hm) hJ _ _ alt h

theorem mholds_keysDebug (hk : ∀ k, Keeps T (key k)) (a : Nat) (l : List (Option Unit)) (hm : a + l.length < c.M) :
    MHolds (keysDebug c J alt key ⟨a, l⟩) st (fun _ st' => T st' (fromTo a (l.length)))
      (UpFrom T a (l.length)) :=
  mholds_listDebug hk a l (fun _ hJ' => (mstepsF_mapNext hJ' hm).mapItem _) hJ _ _ alt h

theorem mholds_valuesDebug (hv : ∀ v, Keeps T (value v)) (a : Nat) (l : List (Option V)) (hm : a + l.length < c.M) :
    MHolds (valuesDebug c J alt value ⟨a, l⟩) st (fun _ st' => T st' (fromTo a (l.length)))
      (UpFrom T a (l.length)) :=
  mholds_listDebug hv a l (fun _ hJ' => (mstepsF_mapNext hJ' hm).mapItem _) hJ _ _ alt h

theorem mholds_totalDebug (hk : ∀ k, Keeps T (key k)) (hv : ∀ v, Keeps T (value v)) (m : List V) (hm : m.length < c.M) :
    MHolds (totalDebug c J alt key value m) st (fun _ st' => T st' (fromTo 0 m.length)) (UpFrom T 0 m.length) :=
  mholds_listDebug (keeps_pairEntry hk hv) 0 m
    (fun _ hJ' => mstepsF_listNext hJ' ((Nat.zero_add m.length).symm ▸ hm)) hJ _ _ alt h

theorem mholds_mapDebug (hk : ∀ k, Keeps T (key k)) (hv : ∀ v, Keeps T (value v)) (m : List (Option V))
    (hm : m.length < c.M) :
    MHolds (mapDebug c J alt key value m) st (fun _ st' => T st' (fromTo 0 m.length)) (UpFrom T 0 m.length) :=
  mholds_listDebug (keeps_pairEntry hk hv) 0 m
    (fun _ hJ' => mstepsF_mapNext hJ' ((Nat.zero_add m.length).symm ▸ hm)) hJ _ _ alt h

end maps

/-! ## Sets -/

/-- The first `n` steps at most, or within the next. -/
def SetUpTop (a n : Nat) (l : List (Call K)) : Prop := ∃ i, i ≤ n ∧ SetUpTo a i l

theorem setUpTo_nil (a : Nat) : SetUpTo a 0 ([] : List (Call K)) := rfl

theorem asks_replicate {j : Nat} (x : K) (h : j ≤ 2) : Asks (List.replicate j (Call.ordinal x)) := by
  match j, h with
  | 0, _ => exact .inl rfl
  | 1, _ => exact .inr ⟨x, .inl rfl⟩
  | 2, _ => exact .inr ⟨x, .inr rfl⟩

/-- The calls so far are those on `a`, … up to where the iterator is. -/
def SetUpInv (T : σ → List (Call K) → Prop) (a n : Nat) (it : SetIter) (st : σ) : Prop :=
  a ≤ it.iter.start ∧ it.iter.start + OrdinalValues.len it.iter = a + n ∧
    ∃ l, T st l ∧ SetUpTo a (it.iter.start - a) l

/-- `SetUpTop` of the calls so far. -/
def SetUpped (T : σ → List (Call K) → Prop) (a n : Nat) (st : σ) : Prop := ∃ l, T st l ∧ SetUpTop a n l

theorem SetUpInv.upped {a n : Nat} {it : SetIter} {st : σ} (h : SetUpInv T a n it st) : SetUpped T a n st := by
  obtain ⟨h1, h2, l, h3, h4⟩ := h
  exact ⟨l, h3, _, by omega, h4⟩

theorem mstepsF_setNext (hJ : Traced c J T) (a n : Nat) :
    MStepsF (SetUpInv T a n) (SetUpped T a n) (fun it => OrdinalValues.len it.iter) (fun _ _ => True)
      (fun it => it.iter.start = a + n) (Eff.setNext c J) := by
  have key : ∀ fuel it st, OrdinalValues.len it.iter < fuel → SetUpInv T a n it st →
      MHolds (Eff.setLoop c J (Eff.valuesNext J) fuel it) st (fun p st' => SetUpInv T a n p.2 st' ∧
        OrdinalValues.len p.2.iter ≤ OrdinalValues.len it.iter ∧
        (∀ x, p.1 = some x → OrdinalValues.len p.2.iter < OrdinalValues.len it.iter ∧ True) ∧
        (p.1 = none → p.2.iter.start = a + n)) (SetUpped T a n) := by
    intro fuel
    induction fuel with
    | zero => intro it st h; omega
    | succ fuel ih =>
      rintro ⟨⟨lo, hi⟩, ws⟩ st hf hs
      have hs0 := hs
      obtain ⟨hlo, hlen, l, hT, hw⟩ := hs
      unfold Eff.setLoop Eff.valuesNext Range.next
      dsimp only at hlo hlen hw hf ⊢
      by_cases h1 : lo < hi
      · have el : OrdinalValues.len ⟨lo, hi⟩ = hi - lo := by simp [OrdinalValues.len, Range.len, h1]
        have el' : OrdinalValues.len ⟨lo + 1, hi⟩ = hi - (lo + 1) := by
          simp only [OrdinalValues.len, Range.len]; split <;> omega
        rw [el] at hlen hf
        simp only [h1, if_true]
        have hw' : ∀ rs : List (Call K), Asks rs →
            SetUpTo a (lo + 1 - a) (l ++ .from lo :: rs) := by
          intro rs h2
          rw [show lo + 1 - a = lo - a + 1 by omega]
          exact ⟨l, rs, by rw [show a + (lo - a) = lo by omega], hw, h2⟩
        have hq : ∀ st' rs, Asks rs → T st' (l ++ .from lo :: rs) →
            SetUpInv T a n ⟨⟨lo + 1, hi⟩, ws⟩ st' := fun st' rs h2 h =>
          ⟨by simp only; omega, by simp only [el']; omega, _, h, hw' rs h2⟩
        refine MHolds.bind (P := fun p st' => (∃ x, p.1 = some x) ∧ p.2 = ⟨lo + 1, hi⟩ ∧ T st' (l ++ [.from lo])) ?_ ?_
        · refine ((hJ.mfrom hT lo).mono (fun _ _ h => h) fun st' h => (hq st' [] (.inl rfl) h).upped).bind
            fun o st1 hT1 => ?_
          refine (sound_unwrap o).mbind (hq st1 [] (.inl rfl) hT1).upped fun k => mholds_ok ⟨⟨k, rfl⟩, rfl, hT1⟩
        · rintro ⟨_, _⟩ st1 ⟨⟨x, rfl⟩, rfl, hT1⟩
          dsimp only
          have hr : ∀ {lo' hi' st'}, hi' ≤ 2 → Reps (fun st l' => T st (l ++ [.from lo] ++ l')) x lo' hi' st' →
              SetUpInv T a n ⟨⟨lo + 1, hi⟩, ws⟩ st' := by
            rintro lo' hi' st' hhi ⟨j, -, hj, ht⟩
            rw [List.append_assoc] at ht
            exact hq st' _ (asks_replicate x (by omega)) ht
          refine ((mholds_refContains (hJ.shift (l ++ [.from lo])) ws x (n := 2) (Nat.le_refl _)
            (by simpa using hT1)).mono (fun _ _ h => h) fun st' h => (hr (Nat.le_refl _) h).upped).bind
            fun b st2 h5 => ?_
          cases b with
          | true =>
            refine mholds_ok ⟨hr (Nat.le_refl _) h5, ?_, fun _ _ => ⟨?_, trivial⟩, by simp⟩ <;>
              (simp only [el, el']; omega)
          | false =>
            refine (ih ⟨⟨lo + 1, hi⟩, ws⟩ st2 (by simp only [el']; omega) (hr (Nat.le_refl _) h5)).mono ?_ fun _ h => h
            rintro ⟨o, it'⟩ st3 ⟨k1, k2, k3, k0⟩
            simp only [el'] at k2
            refine ⟨k1, by simp only [el]; omega, fun x hx => ⟨?_, trivial⟩, k0⟩
            have := (k3 x hx).1
            simp only [el, el'] at this ⊢
            omega
      · simp only [h1, if_false]
        have el : OrdinalValues.len ⟨lo, hi⟩ = 0 := by simp [OrdinalValues.len, Range.len, h1]
        rw [el] at hlen
        refine mholds_ok ⟨hs0, Nat.le_refl _, by simp, fun _ => ?_⟩
        simp only
        omega
  intro it st hi
  exact key _ it st (Nat.lt_succ_self _) hi

/-- The calls so far are those on `a`, …, `a + n - 1`. -/
def SetUpAll (T : σ → List (Call K) → Prop) (a n : Nat) (st : σ) : Prop := ∃ l, T st l ∧ SetUpTo a n l

theorem mholds_setSeq (hJ : Traced c J T) {item : K → Fmt σ} (hk : ∀ k, Keeps T (item k)) (opn cls : String)
    (alt : Bool) (it : SetIter) {st : σ} (h : T st []) :
    MHolds (Eff.debugSeq opn cls alt (Eff.setNext c J) item (OrdinalValues.len it.iter + 1) it) st
      (fun _ st' => SetUpAll T it.iter.start (OrdinalValues.len it.iter) st')
      (SetUpped T it.iter.start (OrdinalValues.len it.iter)) := by
  have hx := mholds_debugSeq (mstepsF_setNext hJ it.iter.start (OrdinalValues.len it.iter)) (text := item)
    (fun x it' st' hs => ?_) opn cls alt it (st := st)
    ⟨Nat.le_refl _, rfl, [], h, by rw [Nat.sub_self]; exact setUpTo_nil _⟩
  · refine hx.mono ?_ fun _ h => h
    rintro _ st' ⟨x', ⟨h1, h2, l, h3, h4⟩, hfin⟩
    rw [hfin, Nat.add_sub_cancel_left] at h4
    exact ⟨l, h3, h4⟩
  · obtain ⟨h1, h2, l, h3, h4⟩ := hs
    exact (hk x st' l h3).mono (fun _ _ h => ⟨h1, h2, l, h, h4⟩) fun st2 h =>
      SetUpInv.upped (it := it') ⟨h1, h2, l, h, h4⟩

theorem len_zero_to (n : Nat) : OrdinalValues.len ⟨0, n⟩ = n := by
  simp only [OrdinalValues.len, Range.len]
  split <;> omega

section sets
variable (hJ : Traced c J T) {item : K → Fmt σ} (hk : ∀ k, Keeps T (item k)) (alt : Bool) {st : σ} (h : T st [])
include hJ hk h

/-- The whole set was walked, up to `ORDINAL_SIZE`. -/
theorem mholds_refDebug (ws : SetRef) :
    MHolds (refDebug c J alt item ws) st (fun _ st' => ∃ n, J.size = .ok n ∧ SetUpAll T 0 n st')
      (fun st' => T st' [] ∨ ∃ n, J.size = .ok n ∧ SetUpped T 0 n st') := by
  unfold refDebug valuesNew
  have hs := hJ.size
  cases hn : J.size with
  | error e =>
    rw [hn] at hs
    exact mholds_of (show Holds (Except.error e) _ by cases e <;> first | trivial | exact hs.holds) (.inl h)
  | ok n =>
    refine (mholds_setSeq hJ hk _ _ alt ⟨⟨0, n⟩, ws⟩ h).mono ?_ ?_
    · rintro _ st' hx
      refine ⟨n, rfl, ?_⟩
      simpa only [len_zero_to] using hx
    · intro st' hx
      refine .inr ⟨n, rfl, ?_⟩
      simpa only [len_zero_to] using hx

theorem mholds_osetDebug (t : OrdinalSet) :
    MHolds (osetDebug c J alt item t) st (fun _ st' => ∃ n, J.size = .ok n ∧ SetUpAll T 0 n st')
      (fun st' => T st' [] ∨ ∃ n, J.size = .ok n ∧ SetUpped T 0 n st') := by
  unfold osetDebug
  refine Sound.mbind ?_ (.inl h) fun ws => mholds_refDebug hJ hk alt h ws
  have h1 := hJ.size
  have h2 := sound_refNew hJ
  sound

theorem mholds_asetDebug (S : Nat) (ws : OrdinalArraySet) :
    MHolds (asetDebug c J S alt item ws) st (fun _ st' => ∃ n, J.size = .ok n ∧ SetUpAll T 0 n st')
      (fun st' => T st' [] ∨ ∃ n, J.size = .ok n ∧ SetUpped T 0 n st') := by
  unfold asetDebug
  refine Sound.mbind ?_ (.inl h) fun ws => mholds_refDebug hJ hk alt h ws
  have h1 := hJ.size
  have h2 := sound_refNew hJ
  sound

theorem mholds_set64Debug (w : OrdinalSet64) :
    MHolds (set64Debug c J alt item w) st (fun _ st' => ∃ n, J.size = .ok n ∧ SetUpAll T 0 n st')
      (fun st' => T st' [] ∨ ∃ n, J.size = .ok n ∧ SetUpped T 0 n st') := by
  unfold set64Debug
  exact (sound_refNew hJ _).mbind (.inl h) fun ws => mholds_refDebug hJ hk alt h ws

end sets

theorem bitsOf_clear {w : BitVec 64} {i : Nat} {is : List Nat} (h : bitsOf w = i :: is) :
    bitsOf (w &&& ~~~(1#64 <<< i)) = is := by
  have hnd : (bitsOf w).Nodup := List.Pairwise.filter _ List.nodup_range
  have h1 : bitsOf (w &&& ~~~(1#64 <<< i)) = (bitsOf w).filter fun j => decide (j ≠ i) := by
    unfold bitsOf
    rw [List.filter_filter]
    refine List.filter_congr fun j hj => ?_
    simp only [List.mem_range] at hj
    by_cases hji : j = i
    · subst hji; simp [hj]
    · simp [hj]
      have : j < i ∨ ¬ (j - i = 0) := by omega
      rcases this with h | h <;> simp [h, hji]
  rw [h] at hnd h1
  rw [h1, List.filter_cons]
  simp only [ne_eq, not_true_eq_false, decide_false, Bool.false_eq_true, if_false]
  rw [List.filter_eq_self]
  intro j hj
  have := (List.nodup_cons.1 hnd).1
  simp only [decide_eq_true_eq]
  rintro rfl
  exact this hj

/-- The calls so far are the first bits of the word, the others are left. -/
def BitUp (T : σ → List (Call K) → Prop) (w₀ w : BitVec 64) (st : σ) : Prop :=
  ∃ is : List Nat, T st (is.map .from) ∧ is ++ bitsOf w = bitsOf w₀

theorem BitUp.pre {w₀ w : BitVec 64} {st : σ} (h : BitUp T w₀ w st) : Pre T ((bitsOf w₀).map .from) st := by
  obtain ⟨is, h1, h2⟩ := h
  exact ⟨_, by rw [← h2, List.map_append]; exact List.prefix_append _ _, h1⟩

theorem mstepsF_iter64Next (hJ : Traced c J T) (w₀ : BitVec 64) :
    MStepsF (BitUp T w₀) (Pre T ((bitsOf w₀).map .from)) Iter64.len (fun _ _ => True) (fun w => bitsOf w = [])
      (Eff.iter64Next c J) := by
  intro w st hs
  unfold Eff.iter64Next
  dsimp only
  cases hb : bitsOf w with
  | nil =>
    rw [if_pos (by rw [trailingZeros_eq, hb]; rfl)]
    exact mholds_ok ⟨hs, Nat.le_refl _, by simp, fun _ => hb⟩
  | cons i is =>
    have e : trailingZeros w = i := by rw [trailingZeros_eq, hb]; rfl
    have hi : i ∈ bitsOf w := by rw [hb]; simp
    simp only [bitsOf, List.mem_filter, List.mem_range] at hi
    rw [e, if_neg (by omega), shl64_ok c _ hi.1]
    obtain ⟨js, hT, hj⟩ := hs
    have hx : ∀ st', T st' (js.map .from ++ [.from i]) → BitUp T w₀ (w &&& ~~~(1#64 <<< i)) st' := fun st' h =>
      ⟨js ++ [i], by simpa using h, by rw [bitsOf_clear hb, ← hj, hb]; simp⟩
    change MHolds (J.fromOrdinal i >>= _) st _ _
    refine ((hJ.mfrom hT i).mono (fun _ _ h => h) fun st' h => (hx st' h).pre).bind fun o st1 hT1 => ?_
    refine (sound_unwrap o).mbind (hx _ hT1).pre fun x => ?_
    have := countOnes_clear hi.1 hi.2
    exact mholds_ok ⟨hx _ hT1, by simp only [Iter64.len]; omega, fun _ _ => ⟨this, trivial⟩, by simp⟩

theorem mholds_iter64Debug (hJ : Traced c J T) {item : K → Fmt σ} (hk : ∀ k, Keeps T (item k)) (alt : Bool)
    (w : Iter64) {st : σ} (h : T st []) :
    MHolds (iter64Debug c J alt item w) st (fun _ st' => T st' ((bitsOf w).map .from))
      (Pre T ((bitsOf w).map .from)) := by
  have hx := mholds_debugSeq (mstepsF_iter64Next hJ w) (text := item) (fun x w' st' hs => ?_) "[" "]" alt w (st := st)
    ⟨[], h, rfl⟩
  · refine hx.mono ?_ fun _ h => h
    rintro _ st' ⟨w', ⟨is, h1, h2⟩, hfin⟩
    rw [hfin, List.append_nil] at h2
    rw [h2] at h1
    exact h1
  · obtain ⟨is, h1, h2⟩ := hs
    exact (hk x st' _ h1).mono (fun _ _ h => ⟨is, h, h2⟩) fun st2 h => BitUp.pre (w := w') ⟨is, h, h2⟩

/-! ## `OrdinalValues` -/

/-- The calls of `Debug` of a range `a..b`: its first number, and its last unless the range has only one or goes up to
`ORDINAL_SIZE`. -/
def endsOf (n a b : Nat) : List (Call K) :=
  if a < b then .from a :: (if b = n ∨ b = a + 1 then [] else [.from (b - 1)]) else []

theorem mholds_valuesEnd (hJ : Traced c J T) (i : Nat) {l : List (Call K)} {st : σ} (h : T st l) (r : OrdinalValues) :
    MHolds (do
        let a ← M.of (unwrap (← J.fromOrdinal i))
        (.of (.ok (some a, r)) : M σ (Option K × OrdinalValues))) st
      (fun p st' => (∃ x, p = (some x, r)) ∧ T st' (l ++ [.from i])) fun st' => T st' (l ++ [.from i]) :=
  (hJ.mfrom h i).bind fun o _ h1 => (sound_unwrap o).holds.mbind h1 fun x _ => mholds_ok ⟨⟨x, rfl⟩, h1⟩

theorem mholds_ordinalValuesDebug (hJ : Traced c J T) {item : K → Fmt σ} (hk : ∀ k, Keeps T (item k)) (a b : Nat)
    {st : σ} (h : T st []) {n : Nat} (hs : J.size = .ok n) :
    MHolds (ordinalValuesDebug J item ⟨a, b⟩) st (fun _ st' => T st' (endsOf n a b)) (Pre T (endsOf n a b)) := by
  have hitem : ∀ (x : K) (f : String → String) (l : List (Call K)) (st : σ), T st l →
      MHolds ((item x).then fun t => .text (f t)) st (fun _ st' => T st' l) fun st' => T st' l := fun x f l st hT =>
    (Keeps.then (hk x) fun t => fun st l h => mholds_ok h) st l hT
  unfold ordinalValuesDebug valuesNext Range.next OrdinalValues.clone endsOf
  by_cases hab : a < b
  · simp only [hab, if_true]
    refine ((mholds_valuesEnd hJ a h ⟨a + 1, b⟩).mono (fun _ _ h => h) fun _ h => ⟨[.from a], ⟨_, rfl⟩, h⟩).bind ?_
    rintro p st1 ⟨⟨x, rfl⟩, h1⟩
    rw [List.nil_append] at h1
    dsimp only
    rw [hs]
    by_cases hn : b = n
    · refine Holds.mbind (P := fun m => m = n) (rfl : n = n) ⟨_, ⟨_, rfl⟩, h1⟩ ?_
      rintro m rfl
      simp only [hn, true_or, if_true]
      exact (hitem x (fun t => "[" ++ t ++ "..]") _ _ h1).mono (fun _ _ h => h) fun _ h => ⟨_, List.prefix_refl _, h⟩
    · refine Holds.mbind (P := fun m => m = n) (rfl : n = n) ⟨_, ⟨_, rfl⟩, h1⟩ ?_
      rintro m rfl
      simp only [hn, if_false, false_or]
      unfold valuesNextBack Range.nextBack
      by_cases h2 : b = a + 1
      · have h3 : ¬ a + 1 < b := by omega
        simp only [h3, if_false]
        rw [if_pos h2]
        refine MHolds.bind (P := fun p st' => p.1 = none ∧ T st' [.from a]) (mholds_ok ⟨rfl, h1⟩) ?_
        rintro ⟨_, _⟩ st2 ⟨rfl, h1⟩
        exact (hitem x (fun t => "[" ++ t ++ "]") _ _ h1).mono (fun _ _ h => h)
          fun _ h => ⟨_, List.prefix_refl _, h⟩
      · have h3 : a + 1 < b := by omega
        simp only [h3, if_true, h2, if_false]
        refine ((mholds_valuesEnd hJ (b - 1) h1 ⟨a + 1, b - 1⟩).mono (fun _ _ h => h)
          fun _ h => ⟨_, List.prefix_refl _, h⟩).bind ?_
        rintro p st2 ⟨⟨y, rfl⟩, h4⟩
        have h5 : Keeps T ((item x).then fun a => (item y).then fun b => .text ("[" ++ a ++ "..=" ++ b ++ "]")) :=
          Keeps.then (hk x) fun t => Keeps.then (hk y) fun t => fun st l h => mholds_ok h
        exact (h5 st2 _ h4).mono (fun _ _ h => h) fun _ h => ⟨_, List.prefix_refl _, h⟩
  · simp only [hab, if_false]
    exact mholds_ok h

/-! ## `AtomicOrdinal` -/

theorem mholds_atomicCall (hJ : Traced c J T) (op : AtomicOp K) {st : σ} (h : T st []) (q : List (Call K))
    (hq : q = match op with
      | .load _ => []
      | .store v _ => [.ordinal v]
      | .cas a b _ _ => [.ordinal a, .ordinal b]) :
    MHolds (atomicCall J op) st (fun _ st' => T st' q) (Pre T q) := by
  subst hq
  cases op with
  | load o => exact mholds_ok h
  | store v o =>
    exact ((hJ.mordinal h v).mono (fun _ _ h => h) fun _ h => ⟨_, List.prefix_refl _, h⟩).bind fun i st1 h1 =>
      mholds_ok h1
  | cas a b o o' =>
    refine ((hJ.mordinal h a).mono (fun _ _ h => h) fun _ h => ⟨[.ordinal a], by simp, h⟩).bind fun i st1 h1 => ?_
    exact ((hJ.mordinal h1 b).mono (fun _ _ h => h) fun _ h => ⟨_, List.prefix_refl _, h⟩).bind fun i st1 h1 =>
      mholds_ok h1

theorem mholds_atomicValue (hJ : Traced c J T) (v : Nat) {st : σ} (h : T st []) :
    MHolds (atomicValue J v) st (fun _ st' => T st' [.from v]) fun st' => T st' [.from v] :=
  (hJ.mfrom h v).bind fun o _ h1 => mholds_of ((sound_unwrap o).holds.mono fun _ _ => h1) h1

theorem mholds_atomicRet (hJ : Traced c J T) (r : RawRes) {st : σ} (h : T st []) (q : List (Call K))
    (hq : q = match r with
      | .unit => []
      | .val v | .ok v | .err v => [.from v]) :
    MHolds (atomicRet J r) st (fun _ st' => T st' q) fun st' => T st' q := by
  subst hq
  cases r with
  | unit => exact mholds_ok h
  | val v => exact (mholds_atomicValue hJ v h).bind fun _ _ h1 => mholds_ok h1
  | ok v => exact (mholds_atomicValue hJ v h).bind fun _ _ h1 => mholds_ok h1
  | err v => exact (mholds_atomicValue hJ v h).bind fun _ _ h1 => mholds_ok h1

theorem mholds_atomicDebug (hJ : Traced c J T) {item : K → Fmt σ} (hk : ∀ k, Keeps T (item k)) (v : Nat) {st : σ}
    (h : T st []) : MHolds (atomicDebug J item v) st (fun _ st' => T st' [.from v]) fun st' => T st' [.from v] :=
  (mholds_atomicValue hJ v h).bind fun x st1 h1 => hk x st1 _ h1

end OrdinalMap
