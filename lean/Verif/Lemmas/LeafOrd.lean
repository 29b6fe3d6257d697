import Verif.Lemmas.NonZero
import Verif.Lemmas.Composite
/-! # Order compatibility of leaf types; oversize composite types -/

namespace OrdinalMap

theorem ordCompat_of {α : Type} {I : OrdinalImpl α} {lt : α → α → Prop} (f : α → Nat)
    (h : ∀ a, I.ordinal a = .ok (f a)) (hlt : ∀ a b, lt a b ↔ f a < f b) : OrdCompat lt I :=
  fun a b => ⟨f a, f b, h a, h b, hlt a b⟩

theorem u8_ordinal (c : Cfg) (x : U 8) : (u8Impl c).ordinal x = .ok x.1 := by
  have := x.2; simp only [u8Impl]; rw [asUsize_lt (by omega)]
theorem u16_ordinal (c : Cfg) (x : U 16) : (u16Impl c).ordinal x = .ok x.1 := by
  have := x.2; simp only [u16Impl]; rw [asUsize_lt (by omega)]
theorem u32_ordinal (c : Cfg) (h : c.bits = 64) (x : U 32) : (u32Impl c).ordinal x = .ok x.1 := by
  have := x.2; simp only [u32Impl, u32Size_64 h, ok_bind]; rw [asUsize_lt (by omega)]
theorem i8_ordinal (c : Cfg) (x : S 8) : (i8Impl c).ordinal x = .ok (x.1 + 128).toNat := by
  have := x.2; simp only [i8Impl, absDiff]; rw [asUsize_lt (by omega)]; congr 1; omega
theorem i16_ordinal (c : Cfg) (x : S 16) : (i16Impl c).ordinal x = .ok (x.1 + 32768).toNat := by
  have := x.2; simp only [i16Impl, absDiff]; rw [asUsize_lt (by omega)]; congr 1; omega
theorem i32_ordinal (c : Cfg) (h : c.bits = 64) (x : S 32) :
    (i32Impl c).ordinal x = .ok (x.1 + 2147483648).toNat := by
  have := x.2; simp only [i32Impl, absDiff, u32Size_64 h, ok_bind]
  rw [asUsize_lt (by omega)]; congr 1; omega

theorem nzuGen_ordinal (c : Cfg) (n : Nat) (hn : 2 ^ n ≤ c.M) (x : NZU n) :
    (nzuGen c n).ordinal x = .ok (x.1 - 1) := by
  have := x.2; simp only [nzuGen, asUsize]; rw [Nat.mod_eq_of_lt (by omega), subU_ok (by omega)]
theorem nzUsize_ordinal (c : Cfg) (x : NZU c.bits) : (nzUsizeImpl c).ordinal x = .ok (x.1 - 1) := by
  have := x.2; simp only [nzUsizeImpl]; rw [subU_ok (by omega)]
theorem nzU64_ordinal (c : Cfg) (h : c.bits = 64) (x : NZU 64) :
    (nzU64Impl c).ordinal x = .ok (x.1 - 1) := by
  obtain ⟨b, ok, o, d⟩ := c
  subst h
  have hM : (⟨64, ok, o, d⟩ : Cfg).M = 2 ^ 64 := rfl
  obtain ⟨x, hx, h0⟩ := x
  simp only [nzU64Impl, nzU64Size_64 (c := ⟨64, ok, o, d⟩) rfl, ok_bind, asUsize]
  rw [Nat.mod_eq_of_lt (by omega)]
  simp only [tryFromU]
  rw [dif_pos (by omega)]
  simp only [Option.bind_eq_bind, Option.bind_some, nzuNew]
  rw [dif_pos h0, unwrap_some, ok_bind, nzUsize_ordinal]

theorem nzsGen_ordinal (c : Cfg) (n mx : Nat) (hmx : 2 ^ (n - 1) = mx + 1)
    (hn : 2 * (mx + 1) ≤ c.M) (x : NZS n) : (nzsGen c n mx).ordinal x =
      .ok (if x.1 > 0 then (x.1 + mx).toNat else (x.1 + mx + 1).toNat) := by
  have hI : (2 : Int) ^ (n - 1) = mx + 1 := by exact_mod_cast hmx
  obtain ⟨x, hx, h0⟩ := x
  rw [hI] at hx
  simp only [nzsGen, absDiff]
  split
  · rw [asUsizeS_of_nonneg (by omega) (by omega), addU_ok (by omega)]; congr 1; omega
  · rw [asUsize, Nat.mod_eq_of_lt (by omega)]; congr 1; omega

theorem nzIsize_ordinal (c : Cfg) : ∃ mx : Nat, ∀ x : NZS c.bits,
    -((mx : Int) + 1) ≤ x.1 ∧ (nzIsizeImpl c).ordinal x =
      .ok (if x.1 > 0 then (x.1 + mx).toNat else (x.1 + mx + 1).toNat) := by
  obtain ⟨mx, hI, hMm, hmax, hmin, hhalf⟩ := isize_facts c
  refine ⟨mx, ?_⟩
  rintro ⟨x, hx, h0⟩
  rw [hI] at hx
  refine ⟨by dsimp only; omega, ?_⟩
  simp only [nzIsizeImpl, absDiff, hhalf, hmin]
  split
  · rw [asUsizeS_of_nonneg (by omega) (by omega), addU_ok (by omega)]; congr 1; omega
  · congr 1; omega

theorem nzI64_ordinal {ok o d} (x : NZS 64) :
    (nzI64Impl ⟨64, ok, o, d⟩).ordinal x = (nzIsizeImpl ⟨64, ok, o, d⟩).ordinal x := by
  have hs := nzU64Size_64 (c := ⟨64, ok, o, d⟩) rfl
  have hid : asSigned 64 x.1 = x.1 :=
    asSigned_id (n := 64) (H := 9223372036854775808) (by decide) (by decide) x.2.1
  simp only [nzI64Impl, hs, ok_bind, hid, nzsOfInt]
  rw [dif_pos x.2]; rfl

theorem nzs_order {mx : Nat} {x y : Int} (hx : x ≠ 0) (hy : y ≠ 0) (hx' : -((mx : Int) + 1) ≤ x)
    (hy' : -((mx : Int) + 1) ≤ y) : x < y ↔
      (if x > 0 then (x + mx).toNat else (x + mx + 1).toNat) <
        (if y > 0 then (y + mx).toNat else (y + mx + 1).toNat) := by
  split <;> split <;> omega

/-! ## Oversize types -/

/-- With overflow checks an addition that returns, returns the exact sum. -/
theorem addU_checked {c : Cfg} (h : c.overflowChecks = true) {a b r : Nat} (e : addU c a b = .ok r) :
    r = a + b := by
  unfold addU at e
  split at e
  · simpa using e.symm
  · simp [h] at e

variable {α β : Type} {c : Cfg} {A : OrdinalImpl α} {B : OrdinalImpl β} {n m : Nat}

theorem arrayOrdinalLoop_checked (L : Lawful c A n) (h : c.overflowChecks = true) (vs : List α)
    (r i : Nat) (e : arrayOrdinalLoop c A vs r = .ok i) :
    i = r * n ^ vs.length + encBE n (vs.map (ordOf A)) := by
  induction vs generalizing r with
  | nil => simp [arrayOrdinalLoop] at e; simp [encBE, e]
  | cons v vs ih =>
    simp only [arrayOrdinalLoop, L.size, L.ordinal_eq, ok_bind, checkedMul] at e
    split at e
    · rw [unwrap_some, ok_bind] at e
      cases e2 : addU c (r * n) (ordOf A v) with
      | error => rw [e2] at e; simp at e
      | ok r' =>
        rw [e2, ok_bind] at e
        have := addU_checked h e2
        rw [ih r' e, this]
        simp only [encBE, List.map_cons, List.length_map, List.length_cons, Nat.pow_succ, Nat.add_mul]
        rw [Nat.mul_comm (n ^ vs.length) n, ← Nat.mul_assoc]; omega
    · simp at e

theorem arraySizeLoop_err (L : Lawful c A n) (k s : Nat) (hs : s < c.M)
    (h : c.M ≤ s * n ^ k) : arraySizeLoop c A k s = .error .compileError := by
  induction k generalizing s with
  | zero => simp at h; omega
  | succ k ih =>
    simp only [arraySizeLoop, L.size, ok_bind, checkedMul]
    split
    · rfl
    · rename_i s' h2
      split at h2
      · simp only [Option.some.injEq] at h2
        subst h2
        apply ih
        · assumption
        · rwa [Nat.pow_succ, Nat.mul_comm (n ^ k) n, ← Nat.mul_assoc] at h
      · simp at h2

end OrdinalMap
