import Verif.Lemmas.Leaf
/-! # Lawfulness of the `NonZero*` and `char` impls -/

namespace OrdinalMap

/-- The common shape of `NonZeroU8/16/32`. -/
def nzuGen (c : Cfg) (n : Nat) : OrdinalImpl (NZU n) where
  size := .ok (asUsize c (2 ^ n - 1))
  ordinal x := subU c (asUsize c x.1) 1
  fromOrdinal i := .ok (do
    let j ← checkedAdd c i 1
    let u ← tryFromU n j
    nzuNew u)

theorem nzuGen_lawful (c : Cfg) (n : Nat) (hn : 2 ^ n ≤ c.M) :
    Lawful c (nzuGen c n) (2 ^ n - 1) ∧ Strict c (nzuGen c n) (2 ^ n - 1) := by
  have hM := c.M_ge
  have hp : 0 < 2 ^ n := Nat.pow_pos (by omega)
  have from_ok : ∀ i, (h : i + 1 < 2 ^ n) →
      (nzuGen c n).fromOrdinal i = .ok (some ⟨i + 1, h, by omega⟩) := by
    intro i h
    simp [nzuGen, checkedAdd, show i + 1 < c.M by omega, tryFromU, h, nzuNew]
  refine ⟨lawful_of ?_ (by omega) (fun x => x.1 - 1) ?_ ?_, ?_⟩
  · simp only [nzuGen, asUsize]; rw [Nat.mod_eq_of_lt (by omega)]
  · rintro ⟨x, hx, h0⟩
    refine ⟨by simp; omega, ?_, ?_⟩
    · simp only [nzuGen, asUsize]; rw [Nat.mod_eq_of_lt (by omega), subU_ok (by omega)]
    · simp only; rw [from_ok _ (by omega)]; congr 3; omega
  · intro i hi
    exact ⟨_, from_ok i (by omega), by simp⟩
  · intro i hi _
    simp only [nzuGen, checkedAdd]
    split
    · simp [tryFromU, show ¬ (i + 1 < 2 ^ n) by omega]
    · rfl

theorem nzU8_lawful (c : Cfg) : Lawful c (nzU8Impl c) 255 ∧ Strict c (nzU8Impl c) 255 :=
  nzuGen_lawful c 8 (by have := c.M_ge; omega)
theorem nzU16_lawful (c : Cfg) : Lawful c (nzU16Impl c) 65535 ∧ Strict c (nzU16Impl c) 65535 :=
  nzuGen_lawful c 16 (by have := c.M_ge; omega)
theorem nzU32_lawful (c : Cfg) :
    Lawful c (nzU32Impl c) 4294967295 ∧ Strict c (nzU32Impl c) 4294967295 :=
  nzuGen_lawful c 32 (by have := c.M_ge; omega)

theorem nzUsize_lawful (c : Cfg) :
    Lawful c (nzUsizeImpl c) (c.M - 1) ∧ Strict c (nzUsizeImpl c) (c.M - 1) := by
  have hM := c.M_ge
  have hb : 2 ^ c.bits = c.M := rfl
  have from_ok : ∀ i, (h : i + 1 < c.M) →
      (nzUsizeImpl c).fromOrdinal i = .ok (some ⟨i + 1, h, by omega⟩) := by
    intro i h
    simp [nzUsizeImpl, checkedAdd, h, tryFromU, hb, nzuNew]
  refine ⟨lawful_of rfl (by omega) (fun x => x.1 - 1) ?_ ?_, ?_⟩
  · rintro ⟨x, hx, h0⟩
    refine ⟨by simp; omega, ?_, ?_⟩
    · simp only [nzUsizeImpl]; rw [subU_ok (by omega)]
    · simp only; rw [from_ok _ (by omega)]; congr 3; omega
  · intro i hi
    exact ⟨_, from_ok i (by omega), by simp⟩
  · intro i hi _
    simp only [nzUsizeImpl, checkedAdd]
    rw [if_neg (by omega)]; rfl

/-- The common shape of `NonZeroI8/16/32`. -/
def nzsGen (c : Cfg) (n : Nat) (mx : Nat) : OrdinalImpl (NZS n) where
  size := .ok (asUsize c (2 ^ n - 1))
  ordinal x :=
    if x.1 > 0 then addU c mx (asUsizeS c x.1)
    else .ok (asUsize c (absDiff x.1 (-((mx : Int) + 1))))
  fromOrdinal i := do
    match checkedSub i (← addU c (asUsizeS c (mx : Int)) 1) with
    | none => do
      let u ← unwrap (tryFromU n i)
      let s ← unwrap (checkedAddUnsigned n (-((mx : Int) + 1)) u.1)
      .ok (nzsNew s)
    | some rem => do
      let r ← addU c rem 1
      .ok (do
        let s ← tryFromS n r
        nzsNew s)

theorem nzsGen_lawful (c : Cfg) (n mx : Nat) (hmx : 2 ^ (n - 1) = mx + 1)
    (hn2 : 2 ^ n = 2 * (mx + 1)) (hn : 2 * (mx + 1) ≤ c.M) :
    Lawful c (nzsGen c n mx) (2 ^ n - 1) ∧ Strict c (nzsGen c n mx) (2 ^ n - 1) := by
  have hI : (2 : Int) ^ (n - 1) = mx + 1 := by exact_mod_cast hmx
  have hM := c.M_ge
  have hsz : asUsizeS c (mx : Int) = mx := by
    rw [asUsizeS_of_nonneg (by omega) (by omega)]; omega
  have from_lo : ∀ i : Nat, i ≤ mx → ∃ h, (nzsGen c n mx).fromOrdinal i =
      .ok (some ⟨(i : Int) - (mx + 1), h⟩) := by
    intro i h
    refine ⟨by rw [hI]; omega, ?_⟩
    simp only [nzsGen, hsz]
    rw [addU_ok (by omega), ok_bind]
    simp only [checkedSub]
    rw [if_neg (by omega)]
    simp only [tryFromU]
    rw [dif_pos (by omega), unwrap_some, ok_bind, checkedAddUnsigned_ok (by rw [hI]; simp only; omega)]
    simp only [unwrap_some, ok_bind, nzsNew]
    rw [dif_pos (by omega)]; congr 3; try omega
  have from_hi : ∀ i : Nat, mx < i → i < 2 * mx + 1 → ∃ h, (nzsGen c n mx).fromOrdinal i =
      .ok (some ⟨(i : Int) - mx, h⟩) := by
    intro i h h2
    refine ⟨by rw [hI]; omega, ?_⟩
    simp only [nzsGen, hsz]
    rw [addU_ok (by omega), ok_bind]
    simp only [checkedSub]
    rw [if_pos (by omega)]
    simp only []
    rw [addU_ok (by omega), ok_bind]
    simp only [tryFromS]
    rw [dif_pos (by rw [hI]; omega)]
    simp only [Option.bind_eq_bind, Option.bind_some, nzsNew]
    rw [dif_pos (by omega)]; congr 3; omega
  refine ⟨lawful_of ?_ (by omega) (fun x => if x.1 > 0 then (x.1 + mx).toNat else (x.1 + mx + 1).toNat) ?_ ?_, ?_⟩
  · simp only [nzsGen, asUsize]; rw [Nat.mod_eq_of_lt (by omega)]
  · rintro ⟨x, hx, h0⟩
    rw [hI] at hx
    refine ⟨by dsimp only; split <;> omega, ?_, ?_⟩
    · simp only [nzsGen, absDiff]
      split
      · rw [asUsizeS_of_nonneg (by omega) (by omega), addU_ok (by omega)]; congr 1; omega
      · rw [asUsize, Nat.mod_eq_of_lt (by omega)]; congr 1; omega
    · dsimp only
      split
      · obtain ⟨_, e⟩ := from_hi (x + mx).toNat (by omega) (by omega)
        rw [e]; congr 3; omega
      · obtain ⟨_, e⟩ := from_lo (x + mx + 1).toNat (by omega)
        rw [e]; congr 3; omega
  · intro i hi
    rcases Nat.lt_or_ge mx i with h | h
    · obtain ⟨_, e⟩ := from_hi i (by omega) (by omega)
      exact ⟨_, e, by dsimp only; split <;> omega⟩
    · obtain ⟨_, e⟩ := from_lo i (by omega)
      exact ⟨_, e, by dsimp only; split <;> omega⟩
  · intro i hi hi2
    simp only [nzsGen, hsz]
    rw [addU_ok (by omega), ok_bind]
    simp only [checkedSub]
    rw [if_pos (by omega)]
    simp only []
    rw [addU_ok (by omega), ok_bind]
    simp only [tryFromS]
    rw [dif_neg (by rw [hI]; omega)]
    rfl

theorem nzI8_lawful (c : Cfg) : Lawful c (nzI8Impl c) 255 ∧ Strict c (nzI8Impl c) 255 :=
  nzsGen_lawful c 8 127 (by decide) (by decide) (by have := c.M_ge; omega)
theorem nzI16_lawful (c : Cfg) : Lawful c (nzI16Impl c) 65535 ∧ Strict c (nzI16Impl c) 65535 :=
  nzsGen_lawful c 16 32767 (by decide) (by decide) (by have := c.M_ge; omega)
theorem nzI32_lawful (c : Cfg) :
    Lawful c (nzI32Impl c) 4294967295 ∧ Strict c (nzI32Impl c) 4294967295 :=
  nzsGen_lawful c 32 2147483647 (by decide) (by decide) (by have := c.M_ge; omega)

/-- `isize::MAX` as a natural number, and the facts the proofs use about it. -/
theorem isize_facts (c : Cfg) : ∃ mx : Nat, (2 : Int) ^ (c.bits - 1) = mx + 1 ∧
    c.M = 2 * (mx + 1) ∧ isizeMax c = mx ∧ isizeMin c = -((mx : Int) + 1) ∧ usizeMax c / 2 = mx := by
  rcases c.M_cases with ⟨hb, hM⟩ | ⟨hb, hM⟩
  · exact ⟨2147483647, by simp [hb], by omega, by simp [isizeMax, hb], by simp [isizeMin, hb],
      by simp [usizeMax, hM]⟩
  · exact ⟨9223372036854775807, by simp [hb], by omega, by simp [isizeMax, hb],
      by simp [isizeMin, hb], by simp [usizeMax, hM]⟩

theorem nzIsize_lawful (c : Cfg) :
    Lawful c (nzIsizeImpl c) (c.M - 1) ∧ Strict c (nzIsizeImpl c) (c.M - 1) := by
  obtain ⟨mx, hI, hMm, hmax, hmin, hhalf⟩ := isize_facts c
  have hM := c.M_ge
  have hsz : asUsizeS c (mx : Int) = mx := by
    rw [asUsizeS_of_nonneg (by omega) (by omega)]; omega
  have from_lo : ∀ i : Nat, i ≤ mx → ∃ h, (nzIsizeImpl c).fromOrdinal i =
      .ok (some ⟨(i : Int) - (mx + 1), h⟩) := by
    intro i h
    refine ⟨by rw [hI]; omega, ?_⟩
    simp only [nzIsizeImpl, hmax, hmin, hsz]
    rw [addU_ok (by omega), ok_bind]
    simp only [checkedSub]
    rw [if_neg (by omega)]
    simp only []
    rw [checkedAddUnsigned_ok (by rw [hI]; omega)]
    simp only [unwrap_some, ok_bind, nzsNew]
    rw [dif_pos (by omega)]; congr 3; try omega
  have from_hi : ∀ i : Nat, mx < i → i < 2 * mx + 1 → ∃ h, (nzIsizeImpl c).fromOrdinal i =
      .ok (some ⟨(i : Int) - mx, h⟩) := by
    intro i h h2
    refine ⟨by rw [hI]; omega, ?_⟩
    simp only [nzIsizeImpl, hmax, hmin, hsz]
    rw [addU_ok (by omega), ok_bind]
    simp only [checkedSub]
    rw [if_pos (by omega)]
    simp only []
    rw [addU_ok (by omega), ok_bind]
    simp only [tryFromS]
    rw [dif_pos (by rw [hI]; omega)]
    simp only [Option.bind_eq_bind, Option.bind_some, nzsNew]
    rw [dif_pos (by omega)]; congr 3; omega
  refine ⟨lawful_of rfl (by omega) (fun x => if x.1 > 0 then (x.1 + mx).toNat else (x.1 + mx + 1).toNat) ?_ ?_, ?_⟩
  · rintro ⟨x, hx, h0⟩
    rw [hI] at hx
    refine ⟨by dsimp only; split <;> omega, ?_, ?_⟩
    · simp only [nzIsizeImpl, absDiff, hhalf, hmin]
      split
      · rw [asUsizeS_of_nonneg (by omega) (by omega), addU_ok (by omega)]; congr 1; omega
      · congr 1; omega
    · dsimp only
      split
      · obtain ⟨_, e⟩ := from_hi (x + mx).toNat (by omega) (by omega)
        rw [e]; congr 3; omega
      · obtain ⟨_, e⟩ := from_lo (x + mx + 1).toNat (by omega)
        rw [e]; congr 3; omega
  · intro i hi
    rcases Nat.lt_or_ge mx i with h | h
    · obtain ⟨_, e⟩ := from_hi i (by omega) (by omega)
      exact ⟨_, e, by dsimp only; split <;> omega⟩
    · obtain ⟨_, e⟩ := from_lo i (by omega)
      exact ⟨_, e, by dsimp only; split <;> omega⟩
  · intro i hi hi2
    simp only [nzIsizeImpl, hmax, hsz]
    rw [addU_ok (by omega), ok_bind]
    simp only [checkedSub]
    rw [if_pos (by omega)]
    simp only []
    rw [addU_ok (by omega), ok_bind]
    simp only [tryFromS]
    rw [dif_neg (by rw [hI]; omega)]
    rfl

theorem nzU64Size_64 {c : Cfg} (h : c.bits = 64) : nzU64Size c = .ok (c.M - 1) := by
  have hM : c.M = 18446744073709551616 := by simp [Cfg.M, h]
  simp [nzU64Size, usizeMax, hM]

theorem nzU64Size_32 {c : Cfg} (h : c.bits = 32) : nzU64Size c = .error .compileError := by
  have hM : c.M = 4294967296 := by simp [Cfg.M, h]
  simp [nzU64Size, usizeMax, hM]

theorem nzU64_lawful (c : Cfg) (h : c.bits = 64) :
    Lawful c (nzU64Impl c) (c.M - 1) ∧ Strict c (nzU64Impl c) (c.M - 1) := by
  have hM : c.M = 18446744073709551616 := by simp [Cfg.M, h]
  have hb : 2 ^ c.bits = c.M := rfl
  have hs := nzU64Size_64 h
  obtain ⟨L, St⟩ := nzUsize_lawful c
  have ho : ∀ x : NZU 64, (nzU64Impl c).ordinal x = .ok (x.1 - 1) := by
    rintro ⟨x, hx, h0⟩
    simp only [nzU64Impl, hs, ok_bind, asUsize]
    rw [Nat.mod_eq_of_lt (by omega)]
    simp only [tryFromU]
    rw [dif_pos (by omega)]
    simp only [Option.bind_eq_bind, Option.bind_some, nzuNew]
    rw [dif_pos h0, unwrap_some, ok_bind]
    simp only [nzUsizeImpl]
    rw [subU_ok (by omega)]
  have hf : ∀ i, (hi : i + 1 < 2 ^ 64) →
      (nzU64Impl c).fromOrdinal i = .ok (some ⟨i + 1, hi, by omega⟩) := by
    intro i hi
    simp only [nzU64Impl, hs, ok_bind, nzUsizeImpl, checkedAdd]
    rw [if_pos (by omega)]
    simp only [tryFromU, Option.bind_eq_bind, Option.bind_some]
    rw [dif_pos (by omega)]
    simp only [nzuNew, Option.bind_some]
    rw [dif_pos (by omega)]
    simp only []
    rw [dif_pos hi]
    simp
  refine ⟨lawful_of hs (by omega) (fun x => x.1 - 1) ?_ ?_, ?_⟩
  · rintro ⟨x, hx, h0⟩
    refine ⟨by dsimp only; omega, ho _, ?_⟩
    dsimp only
    rw [hf _ (by omega)]; congr 3; omega
  · intro i hi
    exact ⟨_, hf i (by omega), by simp⟩
  · intro i hi hi2
    simp only [nzU64Impl, hs, ok_bind, St i hi hi2]

theorem asSigned_id {n : Nat} {x H : Int} (hH : (2 : Int) ^ (n - 1) = H) (h2 : (2 : Int) ^ n = 2 * H)
    (h : -H ≤ x ∧ x < H) : asSigned n x = x := by
  unfold asSigned
  rw [hH, h2, Int.emod_eq_of_lt (by omega) (by omega)]; omega

theorem nzI64_lawful (c : Cfg) (h : c.bits = 64) :
    Lawful c (nzI64Impl c) (c.M - 1) ∧ Strict c (nzI64Impl c) (c.M - 1) := by
  obtain ⟨b, ok, o, d⟩ := c
  subst h
  have hs := nzU64Size_64 (c := ⟨64, ok, o, d⟩) rfl
  obtain ⟨L, St⟩ := nzIsize_lawful ⟨64, ok, o, d⟩
  have hid : ∀ x : NZS 64, asSigned 64 x.1 = x.1 := fun x =>
    asSigned_id (n := 64) (H := 9223372036854775808) (by decide) (by decide) x.2.1
  have ho : ∀ x, (nzI64Impl ⟨64, ok, o, d⟩).ordinal x = (nzIsizeImpl ⟨64, ok, o, d⟩).ordinal x := by
    intro x
    simp only [nzI64Impl, hs, ok_bind, hid, nzsOfInt]
    rw [dif_pos x.2]; rfl
  have hf : ∀ i a, (nzIsizeImpl ⟨64, ok, o, d⟩).fromOrdinal i = .ok (some a) →
      (nzI64Impl ⟨64, ok, o, d⟩).fromOrdinal i = .ok (some a) := by
    intro i a e
    simp only [nzI64Impl, hs, ok_bind, e]
    rw [hid a]
    simp only [nzsOfInt]
    rw [dif_pos a.2]; rfl
  refine ⟨⟨hs, L.fits, ?_, ?_⟩, ?_⟩
  · intro a
    obtain ⟨i, h1, h2, h3⟩ := L.ordinal a
    exact ⟨i, h1, by rw [ho, h2], hf _ _ h3⟩
  · intro i hi
    obtain ⟨a, h1, h2⟩ := L.fromOrdinal i hi
    exact ⟨a, hf _ _ h1, by rw [ho, h2]⟩
  · intro i hi hi2
    simp only [nzI64Impl, hs, ok_bind, St i hi hi2]

/-! ## char -/

/-- `char::ORDINAL_SIZE`. -/
def charCount : Nat := 1112064

theorem char_ordinal (c : Cfg) (x : RChar) :
    (charImpl c).ordinal x = .ok (if x.1 < 0xD800 then x.1 else x.1 - 0x800) := by
  obtain ⟨x, hx, hs⟩ := x
  have e : asUsize c x = x := asUsize_lt (by omega)
  by_cases h : x < 0xD800
  · simp [charImpl, surrogateStart, e, h]
  · simp [charImpl, surrogateStart, e, h, subU_ok (c := c) (show 2048 ≤ x by omega)]

theorem char_from (c : Cfg) (i : Nat) (hi : i < 4294967296) :
    (charImpl c).fromOrdinal i = .ok (if h : i < charCount then
      some ⟨if i < 0xD800 then i else i + 0x800, by unfold charCount at h; split <;> omega⟩ else none) := by
  have hM := c.M_ge
  have e : asUsize c surrogateStart = 0xD800 := asUsize_lt (by decide)
  simp only [charImpl, e, asU32, charCount]
  rw [Nat.mod_eq_of_lt (by omega)]
  by_cases hs : i < 0xD800
  · simp only [hs, if_true]
    rw [dif_pos (by omega), charFromU32, dif_pos (by omega)]
  · simp only [hs, if_false, checkedAddU32]
    split
    · simp only [Option.bind_eq_bind, Option.bind_some, charFromU32]
      split
      · rw [dif_pos (by omega)]
      · rw [dif_neg (by omega)]
    · rw [dif_neg (by omega)]; rfl

theorem char_lawful (c : Cfg) : Lawful c (charImpl c) charCount := by
  have hM := c.M_ge
  have hc : charCount = 1112064 := rfl
  refine lawful_of ?_ (by omega) (fun x => if x.1 < 0xD800 then x.1 else x.1 - 0x800) ?_ ?_
  · simp only [charImpl]
    rw [asUsize_lt (by omega), addC_ok (by omega), ok_bind]; rfl
  · rintro x
    have := x.2
    refine ⟨by rw [hc]; split <;> omega, char_ordinal c x, ?_⟩
    rw [char_from c _ (by split <;> omega), dif_pos (by rw [hc]; split <;> omega)]
    congr 2
    apply Subtype.ext
    dsimp only
    split <;> (try split) <;> omega
  · intro i hi
    refine ⟨_, by rw [char_from c i (by omega), dif_pos hi], ?_⟩
    dsimp only
    split <;> (try split) <;> omega

end OrdinalMap
