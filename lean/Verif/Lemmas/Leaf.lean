import Verif.Model.Ordinal
/-! # Lawfulness of the leaf `Ordinal` impls -/

namespace OrdinalMap

theorem asUsize_lt {c : Cfg} {x : Nat} (h : x < 4294967296) : asUsize c x = x :=
  Nat.mod_eq_of_lt (by have := c.M_ge; omega)

theorem asUsizeS_of_nonneg {c : Cfg} {x : Int} (h0 : 0 ≤ x) (h : x < (c.M : Int)) :
    asUsizeS c x = x.toNat := by
  unfold asUsizeS; rw [Int.emod_eq_of_lt h0 h]

/-- How the leaf proofs are assembled. -/
theorem lawful_of {α : Type} {c : Cfg} {I : OrdinalImpl α} {n : Nat} (size : I.size = .ok n)
    (fits : n < c.M) (ord : α → Nat) (hord : ∀ a, ord a < n ∧ I.ordinal a = .ok (ord a) ∧ I.fromOrdinal (ord a) = .ok (some a))
    (hfrom : ∀ i, i < n → ∃ a, I.fromOrdinal i = .ok (some a) ∧ ord a = i) : Lawful c I n where
  size := size
  fits := fits
  ordinal a := ⟨ord a, hord a⟩
  fromOrdinal i hi := by
    obtain ⟨a, h1, h2⟩ := hfrom i hi
    exact ⟨a, h1, by rw [(hord a).2.1, h2]⟩

theorem bool_lawful (c : Cfg) : Lawful c boolImpl 2 ∧ Strict c boolImpl 2 := by
  refine ⟨lawful_of rfl (by have := c.M_ge; omega) Bool.toNat ?_ ?_, ?_⟩
  · intro a; cases a <;> simp [boolImpl]
  · intro i hi
    match i, hi with
    | 0, _ => exact ⟨false, rfl, rfl⟩
    | 1, _ => exact ⟨true, rfl, rfl⟩
  · intro i hi _
    match i, hi with
    | i + 2, _ => rfl

theorem ordering_lawful (c : Cfg) : Lawful c orderingImpl 3 ∧ Strict c orderingImpl 3 := by
  refine ⟨lawful_of rfl (by have := c.M_ge; omega) (fun | .lt => 0 | .eq => 1 | .gt => 2) ?_ ?_, ?_⟩
  · intro a; cases a <;> simp [orderingImpl]
  · intro i hi
    match i, hi with
    | 0, _ => exact ⟨.lt, rfl, rfl⟩
    | 1, _ => exact ⟨.eq, rfl, rfl⟩
    | 2, _ => exact ⟨.gt, rfl, rfl⟩
  · intro i hi _
    match i, hi with
    | i + 3, _ => rfl

theorem infallible_lawful (c : Cfg) : Lawful c infallibleImpl 0 ∧ Strict c infallibleImpl 0 := by
  refine ⟨⟨rfl, c.M_pos, (fun a => nomatch a), fun i hi => absurd hi (by omega)⟩, ?_⟩
  intro i _ _; rfl

theorem u8_lawful (c : Cfg) : Lawful c (u8Impl c) 256 ∧ Strict c (u8Impl c) 256 := by
  have hM := c.M_ge
  refine ⟨lawful_of ?_ (by omega) (·.1) ?_ ?_, ?_⟩
  · simp only [u8Impl]; rw [asUsize_lt (by omega), addC_ok (by omega)]
  · rintro ⟨x, hx⟩; simp [u8Impl, tryFromU]; rw [asUsize_lt (by omega)]; omega
  · intro i hi; exact ⟨⟨i, hi⟩, by simp [u8Impl, tryFromU, hi], rfl⟩
  · intro i hi _; simp [u8Impl, tryFromU]; omega

theorem u16_lawful (c : Cfg) : Lawful c (u16Impl c) 65536 ∧ Strict c (u16Impl c) 65536 := by
  have hM := c.M_ge
  refine ⟨lawful_of ?_ (by omega) (·.1) ?_ ?_, ?_⟩
  · simp only [u16Impl]; rw [asUsize_lt (by omega), addC_ok (by omega)]
  · rintro ⟨x, hx⟩; simp [u16Impl, tryFromU]; rw [asUsize_lt (by omega)]; omega
  · intro i hi; exact ⟨⟨i, hi⟩, by simp [u16Impl, tryFromU, hi], rfl⟩
  · intro i hi _; simp [u16Impl, tryFromU]; omega

theorem u32Size_64 {c : Cfg} (h : c.bits = 64) : u32Size c = .ok 4294967296 := by
  have hM : c.M = 18446744073709551616 := by simp [Cfg.M, h]
  unfold u32Size; rw [asUsize_lt (by omega), addC_ok (by omega)]

theorem u32Size_32 {c : Cfg} (h : c.bits = 32) : u32Size c = .error .compileError := by
  have hM : c.M = 4294967296 := by simp [Cfg.M, h]
  unfold u32Size; rw [asUsize_lt (by omega)]; simp [addC, hM]

theorem u32_lawful (c : Cfg) (h : c.bits = 64) :
    Lawful c (u32Impl c) 4294967296 ∧ Strict c (u32Impl c) 4294967296 := by
  have hM : c.M = 18446744073709551616 := by simp [Cfg.M, h]
  refine ⟨lawful_of (u32Size_64 h) (by omega) (·.1) ?_ ?_, ?_⟩
  · rintro ⟨x, hx⟩; simp [u32Impl, tryFromU, u32Size_64 h]; rw [asUsize_lt (by omega)]; omega
  · intro i hi; exact ⟨⟨i, hi⟩, by simp [u32Impl, tryFromU, hi], rfl⟩
  · intro i hi _; simp [u32Impl, tryFromU]; omega

theorem checkedAddUnsigned_ok {n : Nat} {a : Int} {b : Nat}
    (h : -(2 ^ (n - 1)) ≤ a + b ∧ a + b < 2 ^ (n - 1)) :
    checkedAddUnsigned n a b = some ⟨a + b, h⟩ := by simp [checkedAddUnsigned, h]

theorem i8_lawful (c : Cfg) : Lawful c (i8Impl c) 256 ∧ Strict c (i8Impl c) 256 := by
  have hM := c.M_ge
  refine ⟨lawful_of ?_ (by omega) (fun x => (x.1 + 128).toNat) ?_ ?_, ?_⟩
  · simp [i8Impl, constS]; rw [asUsizeS_of_nonneg (by omega) (by omega)]; rfl
  · rintro ⟨x, hx⟩
    simp only [i8Impl, absDiff, tryFromU]
    refine ⟨by omega, ?_, ?_⟩
    · rw [asUsize_lt (by omega)]; congr 1; omega
    · rw [dif_pos (by omega)]
      simp only [Option.bind_eq_bind, Option.bind_some]
      rw [checkedAddUnsigned_ok (by omega)]
      simp; omega
  · intro i hi
    refine ⟨⟨(i : Int) - 128, by omega⟩, ?_, by simp⟩
    simp only [i8Impl, tryFromU]
    rw [dif_pos (by omega)]
    simp only [Option.bind_eq_bind, Option.bind_some]
    rw [checkedAddUnsigned_ok (by omega)]
    simp; omega
  · intro i hi _
    simp only [i8Impl, tryFromU]
    rw [dif_neg (by omega)]; rfl

theorem i16_lawful (c : Cfg) : Lawful c (i16Impl c) 65536 ∧ Strict c (i16Impl c) 65536 := by
  have hM := c.M_ge
  refine ⟨lawful_of ?_ (by omega) (fun x => (x.1 + 32768).toNat) ?_ ?_, ?_⟩
  · have e : ∀ z : Int, 0 ≤ z → z < 70000 → constS c.bits z = .ok z := by
      intro z h0 h1
      unfold constS
      rcases c.bits_ok with h | h <;> rw [h] <;> rw [if_pos] <;> omega
    simp only [i16Impl]
    rw [e _ (by omega) (by omega), ok_bind, e _ (by omega) (by omega), ok_bind,
      asUsizeS_of_nonneg (by omega) (by omega)]; rfl
  · rintro ⟨x, hx⟩
    simp only [i16Impl, absDiff, tryFromU]
    refine ⟨by omega, ?_, ?_⟩
    · rw [asUsize_lt (by omega)]; congr 1; omega
    · rw [dif_pos (by omega)]
      simp only [Option.bind_eq_bind, Option.bind_some]
      rw [checkedAddUnsigned_ok (by omega)]
      simp; omega
  · intro i hi
    refine ⟨⟨(i : Int) - 32768, by omega⟩, ?_, by simp⟩
    simp only [i16Impl, tryFromU]
    rw [dif_pos (by omega)]
    simp only [Option.bind_eq_bind, Option.bind_some]
    rw [checkedAddUnsigned_ok (by omega)]
    simp; omega
  · intro i hi _
    simp only [i16Impl, tryFromU]
    rw [dif_neg (by omega)]; rfl

theorem i32_lawful (c : Cfg) (h : c.bits = 64) :
    Lawful c (i32Impl c) 4294967296 ∧ Strict c (i32Impl c) 4294967296 := by
  have hM : c.M = 18446744073709551616 := by simp [Cfg.M, h]
  refine ⟨lawful_of (u32Size_64 h) (by omega) (fun x => (x.1 + 2147483648).toNat) ?_ ?_, ?_⟩
  · rintro ⟨x, hx⟩
    simp only [i32Impl, absDiff, tryFromU, u32Size_64 h, ok_bind]
    refine ⟨by omega, ?_, ?_⟩
    · rw [asUsize_lt (by omega)]; congr 1; omega
    · rw [dif_pos (by omega)]
      simp only [Option.bind_eq_bind, Option.bind_some]
      rw [checkedAddUnsigned_ok (by omega)]
      simp; omega
  · intro i hi
    refine ⟨⟨(i : Int) - 2147483648, by omega⟩, ?_, by simp⟩
    simp only [i32Impl, tryFromU, u32Size_64 h, ok_bind]
    rw [dif_pos (by omega)]
    simp only [Option.bind_eq_bind, Option.bind_some]
    rw [checkedAddUnsigned_ok (by omega)]
    simp; omega
  · intro i hi _
    simp only [i32Impl, tryFromU, u32Size_64 h, ok_bind]
    rw [dif_neg (by omega)]; rfl

end OrdinalMap
