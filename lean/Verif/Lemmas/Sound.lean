import Verif.SpecSound
import Verif.Lemmas.ArrayBuilder
import Verif.Model.Ordinal
import Verif.Model.Derive
/-! # A small program logic for soundness: `Holds r P` -/

namespace OrdinalMap
variable {α β γ δ σ ι : Type}

/-- `r` is sound, and `P` holds of the value if there is one. -/
def Holds (r : R α) (P : α → Prop) : Prop :=
  match r with
  | .ok a => P a
  | .error .panic => True
  | .error .compileError => True
  | .error .diverge => False
  | .error .ub => False

theorem holds_iff (r : R α) : Holds r (fun _ => True) ↔ Sound r := by
  unfold Sound
  rcases r with (_ | _ | _ | _) | _ <;> simp [Holds]

theorem Sound.holds {r : R α} (h : Sound r) : Holds r (fun _ => True) := (holds_iff r).2 h

/-- The value, if there is one, is what the function returned. -/
theorem Sound.holds' {r : R α} (h : Sound r) : Holds r (fun a => r = .ok a) := by
  have := h.holds
  rcases r with (_ | _ | _ | _) | _ <;> simp_all [Holds]

theorem Holds.sound {r : R α} {P : α → Prop} (h : Holds r P) : Sound r := by
  rw [← holds_iff]
  rcases r with (_ | _ | _ | _) | _ <;> simp_all [Holds]

theorem Holds.mono {r : R α} {P Q : α → Prop} (h : Holds r P) (hPQ : ∀ a, P a → Q a) : Holds r Q := by
  rcases r with (_ | _ | _ | _) | _ <;> simp_all [Holds]

@[simp] theorem holds_ok (a : α) (P : α → Prop) : Holds (.ok a : R α) P ↔ P a := .rfl
@[simp] theorem holds_panic (P : α → Prop) : Holds (.error .panic : R α) P := trivial
@[simp] theorem holds_compileError (P : α → Prop) : Holds (.error .compileError : R α) P := trivial

theorem Holds.bind {r : R α} {P : α → Prop} {f : α → R β} {Q : β → Prop} (h : Holds r P)
    (hf : ∀ a, P a → Holds (f a) Q) : Holds (r >>= f) Q := by
  rcases r with (_ | _ | _ | _) | a
  · simp
  · simp
  · exact h.elim
  · exact h.elim
  · exact hf a h

theorem Sound.bind {r : R α} {f : α → R β} {Q : β → Prop} (h : Sound r)
    (hf : ∀ a, Holds (f a) Q) : Holds (r >>= f) Q := h.holds.bind fun a _ => hf a

theorem Sound.mk_ok (a : α) : Sound (.ok a : R α) := by simp [Sound]
theorem Sound.mk_panic : Sound (.error .panic : R α) := by simp [Sound]
theorem Sound.mk_compileError : Sound (.error .compileError : R α) := by simp [Sound]

theorem sound_addU (c : Cfg) (a b : Nat) : Sound (addU c a b) := by unfold addU Sound; repeat' split <;> simp
theorem sound_subU (c : Cfg) (a b : Nat) : Sound (subU c a b) := by unfold subU Sound; repeat' split <;> simp
theorem sound_mulU (c : Cfg) (a b : Nat) : Sound (mulU c a b) := by unfold mulU Sound; repeat' split <;> simp
theorem sound_divU (a b : Nat) : Sound (divU a b) := by unfold divU Sound; repeat' split <;> simp
theorem sound_remU (a b : Nat) : Sound (remU a b) := by unfold remU Sound; repeat' split <;> simp
theorem sound_addC (c : Cfg) (a b : Nat) : Sound (addC c a b) := by unfold addC Sound; repeat' split <;> simp
theorem sound_subC (a b : Nat) : Sound (subC a b) := by unfold subC Sound; repeat' split <;> simp
theorem sound_mulC (c : Cfg) (a b : Nat) : Sound (mulC c a b) := by unfold mulC Sound; repeat' split <;> simp
theorem sound_remC (a b : Nat) : Sound (remC a b) := by unfold remC Sound; repeat' split <;> simp
theorem sound_unwrap (o : Option α) : Sound (unwrap o) := by unfold unwrap Sound; split <;> simp
theorem sound_assert (b : Bool) : Sound (assert b) := by unfold assert Sound; split <;> simp
theorem sound_debugAssert (c : Cfg) (b : Bool) : Sound (debugAssert c b) := by
  unfold debugAssert Sound; split <;> simp
theorem sound_constAssert (b : Bool) : Sound (constAssert b) := by unfold constAssert Sound; split <;> simp
theorem sound_constS (w : Nat) (x : Int) : Sound (constS w x) := by unfold constS Sound; split <;> simp
theorem sound_shl64 (c : Cfg) (x : BitVec 64) (s : Nat) : Sound (shl64 c x s) := by
  unfold shl64 Sound; repeat' split <;> simp
theorem sound_sub64 (c : Cfg) (a b : BitVec 64) : Sound (sub64 c a b) := by
  unfold sub64 Sound; repeat' split <;> simp
theorem sound_getIdx (l : List α) (i : Nat) : Sound (getIdx l i) := by unfold getIdx Sound; split <;> simp
theorem sound_setIdx (l : List α) (i : Nat) (x : α) : Sound (setIdx l i x) := by
  unfold setIdx Sound; split <;> simp

/-- Soundness of one operation. -/
syntax "sound1" : tactic
macro_rules | `(tactic| sound1) => `(tactic| first
  | assumption
  | exact Sound.mk_ok _
  | exact Sound.mk_panic
  | exact Sound.mk_compileError
  | exact sound_addU _ _ _ | exact sound_subU _ _ _ | exact sound_mulU _ _ _ | exact sound_divU _ _
  | exact sound_remU _ _ | exact sound_addC _ _ _ | exact sound_subC _ _ | exact sound_mulC _ _ _ | exact sound_remC _ _
  | exact sound_unwrap _ | exact sound_assert _ | exact sound_debugAssert _ _ | exact sound_constAssert _
  | exact sound_constS _ _ | exact sound_shl64 _ _ _ | exact sound_sub64 _ _ _ | exact sound_getIdx _ _
  | exact sound_setIdx _ _ _
  | exact SoundImpl.size (by assumption) | exact SoundImpl.ordinal (by assumption) _
  | exact SoundImpl.fromOrdinal (by assumption) _
  | solve_by_elim)

/-- Close soundness goals of straight-line code. -/
macro "sound" : tactic => `(tactic| repeat' first
  | exact trivial
  | sound1
  | exact Sound.holds (by sound1)
  | refine Sound.bind ?_ (fun _ => ?_)
  | refine (holds_iff _).1 (Sound.bind ?_ (fun _ => ?_))
  | split)

/-! ## The builder -/

open ArrayBuilder

theorem holds_push {S : Nat} {vs : List α} (v : α) (h : vs.length ≤ S) :
    Holds ((holding S vs).push v) fun b => b = holding S (vs ++ [v]) ∧ (vs ++ [v]).length ≤ S := by
  rcases Nat.lt_or_ge vs.length S with h1 | h1
  · rw [push_holding v h1]; simp; omega
  · rw [push_full v (by omega)]; simp

theorem sound_drop (S : Nat) (vs : List α) : Sound (holding S vs).drop := by
  rw [drop_holding]; exact Sound.mk_ok _

theorem sound_finish {S : Nat} {vs : List α} (h : vs.length ≤ S) : Sound (holding S vs).finish := by
  rcases Nat.lt_or_ge vs.length S with h1 | h1
  · simp only [finish, tryFinish_partial h1, ok_bind, unwrap_none]; exact Sound.mk_panic
  · rw [finish_full (by omega)]; exact Sound.mk_ok _

theorem sound_arrayFromIter (S : Nat) (l : List α) : Sound (arrayFromIter S l) := by
  by_cases h : l.length = S
  · rw [arrayFromIter_ok h]; exact Sound.mk_ok _
  · rw [arrayFromIter_panic h]; exact Sound.mk_panic

/-! ## The impls -/

theorem sound_boolImpl : SoundImpl boolImpl := ⟨Sound.mk_ok _, fun _ => Sound.mk_ok _, fun _ => Sound.mk_ok _⟩
theorem sound_u8Impl (c : Cfg) : SoundImpl (u8Impl c) :=
  ⟨sound_addC _ _ _, fun _ => Sound.mk_ok _, fun _ => Sound.mk_ok _⟩
theorem sound_i8Impl (c : Cfg) : SoundImpl (i8Impl c) := by
  refine ⟨?_, fun _ => Sound.mk_ok _, fun _ => Sound.mk_ok _⟩
  unfold i8Impl; sound
theorem sound_u16Impl (c : Cfg) : SoundImpl (u16Impl c) :=
  ⟨sound_addC _ _ _, fun _ => Sound.mk_ok _, fun _ => Sound.mk_ok _⟩
theorem sound_i16Impl (c : Cfg) : SoundImpl (i16Impl c) := by
  refine ⟨?_, fun _ => Sound.mk_ok _, fun _ => Sound.mk_ok _⟩
  unfold i16Impl; sound
theorem sound_u32Size (c : Cfg) : Sound (u32Size c) := sound_addC _ _ _
theorem sound_u32Impl (c : Cfg) : SoundImpl (u32Impl c) := by
  have := sound_u32Size c
  refine ⟨this, fun _ => ?_, fun _ => Sound.mk_ok _⟩
  unfold u32Impl; dsimp only; sound
theorem sound_i32Impl (c : Cfg) : SoundImpl (i32Impl c) := by
  have := sound_u32Size c
  constructor <;> (intros; unfold i32Impl; dsimp only; sound)
theorem sound_nzU8Impl (c : Cfg) : SoundImpl (nzU8Impl c) := by
  constructor <;> (intros; unfold nzU8Impl; dsimp only; sound)
theorem sound_nzI8Impl (c : Cfg) : SoundImpl (nzI8Impl c) := by
  have := sound_nzU8Impl c
  constructor <;> (intros; unfold nzI8Impl; dsimp only; sound)
theorem sound_nzU16Impl (c : Cfg) : SoundImpl (nzU16Impl c) := by
  constructor <;> (intros; unfold nzU16Impl; dsimp only; sound)
theorem sound_nzI16Impl (c : Cfg) : SoundImpl (nzI16Impl c) := by
  have := sound_nzU16Impl c
  constructor <;> (intros; unfold nzI16Impl; dsimp only; sound)
theorem sound_nzU32Impl (c : Cfg) : SoundImpl (nzU32Impl c) := by
  constructor <;> (intros; unfold nzU32Impl; dsimp only; sound)
theorem sound_nzI32Impl (c : Cfg) : SoundImpl (nzI32Impl c) := by
  have := sound_nzU32Impl c
  constructor <;> (intros; unfold nzI32Impl; dsimp only; sound)
theorem sound_nzUsizeImpl (c : Cfg) : SoundImpl (nzUsizeImpl c) := by
  constructor <;> (intros; unfold nzUsizeImpl; dsimp only; sound)
theorem sound_nzIsizeImpl (c : Cfg) : SoundImpl (nzIsizeImpl c) := by
  have := sound_nzUsizeImpl c
  constructor <;> (intros; unfold nzIsizeImpl; dsimp only; sound)
theorem sound_nzU64Size (c : Cfg) : Sound (nzU64Size c) := by unfold nzU64Size; sound
theorem sound_nzU64Impl (c : Cfg) : SoundImpl (nzU64Impl c) := by
  have := sound_nzUsizeImpl c
  have := sound_nzU64Size c
  constructor <;> (intros; unfold nzU64Impl; dsimp only; sound)
theorem sound_nzI64Impl (c : Cfg) : SoundImpl (nzI64Impl c) := by
  have := sound_nzIsizeImpl c
  have := sound_nzU64Size c
  constructor <;> (intros; unfold nzI64Impl; dsimp only; sound)
theorem sound_charImpl (c : Cfg) : SoundImpl (charImpl c) := by
  constructor <;> (intros; unfold charImpl; dsimp only; sound)
theorem sound_orderingImpl : SoundImpl orderingImpl := by
  constructor <;> (intros; unfold orderingImpl; dsimp only; sound)
theorem sound_infallibleImpl : SoundImpl infallibleImpl :=
  ⟨Sound.mk_ok _, fun x => x.elim, fun _ => Sound.mk_ok _⟩

variable {A : OrdinalImpl α} {B : OrdinalImpl β}

theorem sound_optionImpl (c : Cfg) (hA : SoundImpl A) : SoundImpl (optionImpl c A) := by
  constructor <;> (intros; unfold optionImpl; dsimp only; sound)
theorem sound_resultImpl (c : Cfg) (hA : SoundImpl A) (hB : SoundImpl B) : SoundImpl (resultImpl c A B) := by
  constructor <;> (intros; unfold resultImpl; dsimp only; sound)
theorem sound_eitherImpl (c : Cfg) (hA : SoundImpl A) (hB : SoundImpl B) : SoundImpl (eitherImpl c A B) := by
  have := (sound_resultImpl c hA hB).size
  constructor <;> (intros; unfold eitherImpl; dsimp only; sound)
theorem sound_boxImpl (hA : SoundImpl A) : SoundImpl (boxImpl A) := by
  constructor <;> (intros; unfold boxImpl; dsimp only; sound)

theorem sound_arraySizeLoop (c : Cfg) (hA : SoundImpl A) (k s : Nat) : Sound (arraySizeLoop c A k s) := by
  induction k generalizing s with
  | zero => exact Sound.mk_ok _
  | succ k ih => unfold arraySizeLoop; sound

theorem sound_arrayOrdinalLoop (c : Cfg) (hA : SoundImpl A) (l : List α) (r : Nat) :
    Sound (arrayOrdinalLoop c A l r) := by
  induction l generalizing r with
  | nil => exact Sound.mk_ok _
  | cons v l ih => unfold arrayOrdinalLoop; sound

theorem holds_arrayFromLoop (hA : SoundImpl A) (N k n : Nat) (vs : List α) (h : vs.length ≤ N) :
    Holds (arrayFromLoop A k n (holding N vs)) fun o => ∀ n' b, o = some (n', b) →
      ∃ vs', b = holding N vs' ∧ vs'.length ≤ N ∧ vs'.length = vs.length + k := by
  induction k generalizing n vs with
  | zero =>
    simp only [arrayFromLoop, holds_ok, Option.some.injEq, Prod.mk.injEq]
    rintro n' b ⟨-, rfl⟩
    exact ⟨vs, rfl, h, rfl⟩
  | succ k ih =>
    unfold arrayFromLoop
    refine Sound.bind hA.size fun s => ?_
    split
    · simp
    · refine Sound.bind (hA.fromOrdinal _) fun o => Sound.bind (sound_unwrap o) fun a => ?_
      refine (holds_push a h).bind ?_
      rintro b ⟨rfl, hl⟩
      refine Sound.bind hA.size fun _ => Sound.bind (sound_divU _ _) fun m => ?_
      refine (ih m _ hl).mono fun o ho n' b hb => ?_
      obtain ⟨vs', h1, h2, h3⟩ := ho n' b hb
      exact ⟨vs', h1, h2, by simp at h3; omega⟩

theorem sound_arrayImpl (c : Cfg) (N : Nat) (hA : SoundImpl A) : SoundImpl (arrayImpl c N A) := by
  refine ⟨sound_arraySizeLoop c hA _ _, fun _ => sound_arrayOrdinalLoop c hA _ _, fun i => ?_⟩
  unfold arrayImpl
  dsimp only
  rw [new_eq]
  refine Holds.sound (P := fun _ => True) (Holds.bind (holds_arrayFromLoop hA N N i [] (by simp)) fun o ho => ?_)
  split
  · trivial
  · rename_i n b
    obtain ⟨vs, rfl, -, hl⟩ := ho n b rfl
    have hl : vs.length = N := by simpa using hl
    split
    · trivial
    · rw [finish_full hl, ok_bind]
      have : vs.reverse.length = N := by simpa using hl
      simp [this]

end OrdinalMap
