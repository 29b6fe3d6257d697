import Verif.Text.Impls
/-!
# The impls of `Ordinal` for `NonZero` types, run from their text
-/

namespace OrdinalMap.Text

variable {P : Nat → Type} {c : Cfg} {J : (p : Nat) → OrdinalImpl (P p)} {N : Nat}

/-- `NonZeroU8::ORDINAL_SIZE` -/
theorem const_nzU8 (n : Nat) : (outside c J (tyParams N) impls (n + 1)).const (.nzu .w8) "ORDINAL_SIZE" =
    (.uint .size ·) <$> (nzU8Impl c).size := by
  rw [outside_const (e := nonZeroConst0_0) (ty := .path ["usize"] .nil) n rfl rfl]
  run [nonZeroConst0_0, nzU8Impl]

theorem nzU8_agrees : TextAgrees c J N impls (.nzu .w8) (fun x : NZU 8 => Val.nzu .w8 x.1) (nzU8Impl c) where
  inj a b h := by injection h with _ h; exact Subtype.ext h
  size := const_nzU8 3
  ordinal a := by
    refine (run_ordinal (b := nonZeroFn0_0.body) _ rfl rfl).trans ?_
    have h := a.2
    obtain ⟨b, hb, oc, da⟩ := c
    rcases hb with rfl | rfl
    · have h1 : 1 ≤ a.1 % 4294967296 := by omega
      run [nonZeroFn0_0, nzU8Impl, h1]
    · have h1 : 1 ≤ a.1 % 18446744073709551616 := by omega
      run [nonZeroFn0_0, nzU8Impl, h1]
  fromOrdinal i hi := by
    refine (run_from (b := nonZeroFn0_1.body) _ rfl rfl).trans ?_
    by_cases h1 : i + 1 < 2 ^ c.bits
    · by_cases h : i + 1 < 256 <;> run [nonZeroFn0_1, nzU8Impl, h, h1]
    · run [nonZeroFn0_1, nzU8Impl, h1]

theorem nzI8_agrees : TextAgrees c J N impls (.nzs .w8) (fun x : NZS 8 => Val.nzs .w8 x.1) (nzI8Impl c) where
  inj a b h := by injection h with _ h; exact Subtype.ext h
  size := by
    refine (run_size (e := nonZeroConst1_0) rfl rfl).trans ?_
    run [nonZeroConst1_0, nzI8Impl, const_nzU8 2, nzU8Impl]
  ordinal a := by
    refine (run_ordinal (b := nonZeroFn1_0.body) _ rfl rfl).trans ?_
    have h := a.2
    obtain ⟨b, hb, oc, da⟩ := c
    by_cases hp : 0 < a.1
    · rcases hb with rfl | rfl
      · have h1 : 127 + (a.1 % 4294967296).toNat < 4294967296 := by omega
        run [nonZeroFn1_0, nzI8Impl, hp, h1]
      · have h1 : 127 + (a.1 % 18446744073709551616).toNat < 18446744073709551616 := by omega
        run [nonZeroFn1_0, nzI8Impl, hp, h1]
    · run [nonZeroFn1_0, nzI8Impl, hp]
  fromOrdinal i hi := by
    refine (run_from (b := nonZeroFn1_1.body) _ rfl rfl).trans ?_
    obtain ⟨b, hb, oc, da⟩ := c
    by_cases h : 128 ≤ i
    · have h0 : i - 128 + 1 < 2 ^ b := by simp [Cfg.M] at hi; omega
      have h3 : -128 ≤ ((i - 128 : Nat) : Int) + 1 := by omega
      have h4 : ((i - 128 : Nat) : Int) + 1 ≠ 0 := by omega
      by_cases h1 : ((i - 128 : Nat) : Int) + 1 < 128
      · rcases hb with rfl | rfl <;> run [nonZeroFn1_1, nzI8Impl, h, h0, h1, h3, h4]
      · rcases hb with rfl | rfl <;> run [nonZeroFn1_1, nzI8Impl, h, h0, h1, h3]
    · have h0 : i < 256 := by omega
      have h1 : -128 ≤ -128 + (i : Int) := by omega
      have h2 : -128 + (i : Int) < 128 := by omega
      have h3 : -128 + (i : Int) ≠ 0 := by omega
      rcases hb with rfl | rfl <;> run [nonZeroFn1_1, nzI8Impl, h, h0, h1, h2, h3]

/-- `NonZeroU16::ORDINAL_SIZE` -/
theorem const_nzU16 (n : Nat) : (outside c J (tyParams N) impls (n + 1)).const (.nzu .w16) "ORDINAL_SIZE" =
    (.uint .size ·) <$> (nzU16Impl c).size := by
  rw [outside_const (e := nonZeroConst2_0) (ty := .path ["usize"] .nil) n rfl rfl]
  run [nonZeroConst2_0, nzU16Impl]

theorem nzU16_agrees : TextAgrees c J N impls (.nzu .w16) (fun x : NZU 16 => Val.nzu .w16 x.1) (nzU16Impl c) where
  inj a b h := by injection h with _ h; exact Subtype.ext h
  size := const_nzU16 3
  ordinal a := by
    refine (run_ordinal (b := nonZeroFn2_0.body) _ rfl rfl).trans ?_
    have h := a.2
    obtain ⟨b, hb, oc, da⟩ := c
    rcases hb with rfl | rfl
    · have h1 : 1 ≤ a.1 % 4294967296 := by omega
      run [nonZeroFn2_0, nzU16Impl, h1]
    · have h1 : 1 ≤ a.1 % 18446744073709551616 := by omega
      run [nonZeroFn2_0, nzU16Impl, h1]
  fromOrdinal i hi := by
    refine (run_from (b := nonZeroFn2_1.body) _ rfl rfl).trans ?_
    by_cases h1 : i + 1 < 2 ^ c.bits
    · by_cases h : i + 1 < 65536 <;> run [nonZeroFn2_1, nzU16Impl, h, h1]
    · run [nonZeroFn2_1, nzU16Impl, h1]

theorem nzI16_agrees : TextAgrees c J N impls (.nzs .w16) (fun x : NZS 16 => Val.nzs .w16 x.1) (nzI16Impl c) where
  inj a b h := by injection h with _ h; exact Subtype.ext h
  size := by
    refine (run_size (e := nonZeroConst3_0) rfl rfl).trans ?_
    run [nonZeroConst3_0, nzI16Impl, const_nzU16 2, nzU16Impl]
  ordinal a := by
    refine (run_ordinal (b := nonZeroFn3_0.body) _ rfl rfl).trans ?_
    have h := a.2
    obtain ⟨b, hb, oc, da⟩ := c
    by_cases hp : 0 < a.1
    · rcases hb with rfl | rfl
      · have h1 : 32767 + (a.1 % 4294967296).toNat < 4294967296 := by omega
        run [nonZeroFn3_0, nzI16Impl, hp, h1]
      · have h1 : 32767 + (a.1 % 18446744073709551616).toNat < 18446744073709551616 := by omega
        run [nonZeroFn3_0, nzI16Impl, hp, h1]
    · run [nonZeroFn3_0, nzI16Impl, hp]
  fromOrdinal i hi := by
    refine (run_from (b := nonZeroFn3_1.body) _ rfl rfl).trans ?_
    obtain ⟨b, hb, oc, da⟩ := c
    by_cases h : 32768 ≤ i
    · have h0 : i - 32768 + 1 < 2 ^ b := by simp [Cfg.M] at hi; omega
      have h3 : -32768 ≤ ((i - 32768 : Nat) : Int) + 1 := by omega
      have h4 : ((i - 32768 : Nat) : Int) + 1 ≠ 0 := by omega
      by_cases h1 : ((i - 32768 : Nat) : Int) + 1 < 32768
      · rcases hb with rfl | rfl <;> run [nonZeroFn3_1, nzI16Impl, h, h0, h1, h3, h4]
      · rcases hb with rfl | rfl <;> run [nonZeroFn3_1, nzI16Impl, h, h0, h1, h3]
    · have h0 : i < 65536 := by omega
      have h1 : -32768 ≤ -32768 + (i : Int) := by omega
      have h2 : -32768 + (i : Int) < 32768 := by omega
      have h3 : -32768 + (i : Int) ≠ 0 := by omega
      rcases hb with rfl | rfl <;> run [nonZeroFn3_1, nzI16Impl, h, h0, h1, h2, h3]

/-- `NonZeroU32::ORDINAL_SIZE` -/
theorem const_nzU32 (n : Nat) : (outside c J (tyParams N) impls (n + 1)).const (.nzu .w32) "ORDINAL_SIZE" =
    (.uint .size ·) <$> (nzU32Impl c).size := by
  rw [outside_const (e := nonZeroConst4_0) (ty := .path ["usize"] .nil) n rfl rfl]
  run [nonZeroConst4_0, nzU32Impl]

theorem nzU32_agrees : TextAgrees c J N impls (.nzu .w32) (fun x : NZU 32 => Val.nzu .w32 x.1) (nzU32Impl c) where
  inj a b h := by injection h with _ h; exact Subtype.ext h
  size := const_nzU32 3
  ordinal a := by
    refine (run_ordinal (b := nonZeroFn4_0.body) _ rfl rfl).trans ?_
    have h := a.2
    obtain ⟨b, hb, oc, da⟩ := c
    rcases hb with rfl | rfl
    · have h1 : 1 ≤ a.1 % 4294967296 := by omega
      run [nonZeroFn4_0, nzU32Impl, h1]
    · have h1 : 1 ≤ a.1 % 18446744073709551616 := by omega
      run [nonZeroFn4_0, nzU32Impl, h1]
  fromOrdinal i hi := by
    refine (run_from (b := nonZeroFn4_1.body) _ rfl rfl).trans ?_
    by_cases h1 : i + 1 < 2 ^ c.bits
    · by_cases h : i + 1 < 4294967296 <;> run [nonZeroFn4_1, nzU32Impl, h, h1]
    · run [nonZeroFn4_1, nzU32Impl, h1]

theorem nzI32_agrees : TextAgrees c J N impls (.nzs .w32) (fun x : NZS 32 => Val.nzs .w32 x.1) (nzI32Impl c) where
  inj a b h := by injection h with _ h; exact Subtype.ext h
  size := by
    refine (run_size (e := nonZeroConst5_0) rfl rfl).trans ?_
    run [nonZeroConst5_0, nzI32Impl, const_nzU32 2, nzU32Impl]
  ordinal a := by
    refine (run_ordinal (b := nonZeroFn5_0.body) _ rfl rfl).trans ?_
    have h := a.2
    obtain ⟨b, hb, oc, da⟩ := c
    by_cases hp : 0 < a.1
    · rcases hb with rfl | rfl
      · have h1 : 2147483647 + (a.1 % 4294967296).toNat < 4294967296 := by omega
        run [nonZeroFn5_0, nzI32Impl, hp, h1]
      · have h1 : 2147483647 + (a.1 % 18446744073709551616).toNat < 18446744073709551616 := by omega
        run [nonZeroFn5_0, nzI32Impl, hp, h1]
    · run [nonZeroFn5_0, nzI32Impl, hp]
  fromOrdinal i hi := by
    refine (run_from (b := nonZeroFn5_1.body) _ rfl rfl).trans ?_
    obtain ⟨b, hb, oc, da⟩ := c
    by_cases h : 2147483648 ≤ i
    · have h0 : i - 2147483648 + 1 < 2 ^ b := by simp [Cfg.M] at hi; omega
      have h3 : -2147483648 ≤ ((i - 2147483648 : Nat) : Int) + 1 := by omega
      have h4 : ((i - 2147483648 : Nat) : Int) + 1 ≠ 0 := by omega
      by_cases h1 : ((i - 2147483648 : Nat) : Int) + 1 < 2147483648
      · rcases hb with rfl | rfl <;> run [nonZeroFn5_1, nzI32Impl, h, h0, h1, h3, h4]
      · rcases hb with rfl | rfl <;> run [nonZeroFn5_1, nzI32Impl, h, h0, h1, h3]
    · have h0 : i < 4294967296 := by omega
      have h1 : -2147483648 ≤ -2147483648 + (i : Int) := by omega
      have h2 : -2147483648 + (i : Int) < 2147483648 := by omega
      have h3 : -2147483648 + (i : Int) ≠ 0 := by omega
      rcases hb with rfl | rfl <;> run [nonZeroFn5_1, nzI32Impl, h, h0, h1, h2, h3]

/-- `NonZeroUsize::ORDINAL_SIZE` -/
theorem const_nzUsize (n : Nat) : (outside c J (tyParams N) impls (n + 1)).const (.nzu .size) "ORDINAL_SIZE" =
    (.uint .size ·) <$> (nzUsizeImpl c).size := by
  rw [outside_const (e := nonZeroConst6_0) (ty := .path ["usize"] .nil) n rfl rfl]
  run [nonZeroConst6_0, nzUsizeImpl]

/-- `NonZeroUsize::ordinal` -/
theorem ordinal_nzUsize (n : Nat) (x : NZU c.bits) (h : Heap P) :
    (outside c J (tyParams N) impls (n + 1)).call (.nzu .size) "ordinal" [.ref (.nzu .size x.1)] h =
      (fun k => (.uint .size k, h)) <$> (nzUsizeImpl c).ordinal x := by
  rw [outside_call (d := nonZeroFn6_0) n _ _ rfl rfl]
  have h1 : 1 ≤ x.1 := by have := x.2; omega
  run [nonZeroFn6_0, nzUsizeImpl, h1]

/-- `NonZeroUsize::from_ordinal` -/
theorem from_nzUsize (n i : Nat) (h : Heap P) :
    (outside c J (tyParams N) impls (n + 1)).call (.nzu .size) "from_ordinal" [.uint .size i] h =
      (fun q => (.opt (q.map fun x => .nzu .size x.1), h)) <$> (nzUsizeImpl c).fromOrdinal i := by
  rw [outside_call (d := nonZeroFn6_1) n _ _ rfl rfl]
  by_cases h1 : i + 1 < 2 ^ c.bits <;> run [nonZeroFn6_1, nzUsizeImpl, h1]

theorem nzUsize_agrees : TextAgrees c J N impls (.nzu .size) (fun x : NZU c.bits => Val.nzu .size x.1) (nzUsizeImpl c) where
  inj a b h := by injection h with _ h; exact Subtype.ext h
  size := const_nzUsize 3
  ordinal a := by
    rw [runOrdinal, ordinal_nzUsize 3]
    cases (nzUsizeImpl c).ordinal a <;> rfl
  fromOrdinal i hi := by
    rw [runFromOrdinal, from_nzUsize 3]
    cases (nzUsizeImpl c).fromOrdinal i with
    | error f => rfl
    | ok q => cases q <;> rfl

/-- `NonZeroIsize::ordinal` -/
theorem ordinal_nzIsize (n : Nat) (x : NZS c.bits) (h : Heap P) :
    (outside c J (tyParams N) impls (n + 1)).call (.nzs .size) "ordinal" [.ref (.nzs .size x.1)] h =
      (fun k => (.uint .size k, h)) <$> (nzIsizeImpl c).ordinal x := by
  rw [outside_call (d := nonZeroFn7_0) n _ _ rfl rfl]
  obtain ⟨b, hb, oc, da⟩ := c
  have hx := x.2
  by_cases hp : 0 < x.1
  · rcases hb with rfl | rfl
    · simp at hx
      have h1 : 2147483647 + (x.1 % 4294967296).toNat < 4294967296 := by omega
      run [nonZeroFn7_0, nzIsizeImpl, hp, h1]
    · simp at hx
      have h1 : 9223372036854775807 + (x.1 % 18446744073709551616).toNat < 18446744073709551616 := by omega
      run [nonZeroFn7_0, nzIsizeImpl, hp, h1]
  · rcases hb with rfl | rfl <;> run [nonZeroFn7_0, nzIsizeImpl, hp]

/-- `NonZeroIsize::from_ordinal` -/
theorem from_nzIsize (n i : Nat) (hi : i < c.M) (h : Heap P) :
    (outside c J (tyParams N) impls (n + 1)).call (.nzs .size) "from_ordinal" [.uint .size i] h =
      (fun q => (.opt (q.map fun x => .nzs .size x.1), h)) <$> (nzIsizeImpl c).fromOrdinal i := by
  rw [outside_call (d := nonZeroFn7_1) n _ _ rfl rfl]
  obtain ⟨b, hb, oc, da⟩ := c
  rcases hb with rfl | rfl
  · simp [Cfg.M] at hi
    by_cases h : 2147483648 ≤ i
    · have h0 : i - 2147483648 + 1 < 4294967296 := by omega
      have h3 : -2147483648 ≤ ((i - 2147483648 : Nat) : Int) + 1 := by omega
      have h4 : ((i - 2147483648 : Nat) : Int) + 1 ≠ 0 := by omega
      by_cases h1 : ((i - 2147483648 : Nat) : Int) + 1 < 2147483648
      · run [nonZeroFn7_1, nzIsizeImpl, h, h0, h1, h3, h4]
      · run [nonZeroFn7_1, nzIsizeImpl, h, h0, h1, h3]
    · have h1 : -2147483648 ≤ -2147483648 + (i : Int) := by omega
      have h2 : -2147483648 + (i : Int) < 2147483648 := by omega
      have h3 : -2147483648 + (i : Int) ≠ 0 := by omega
      run [nonZeroFn7_1, nzIsizeImpl, h, h1, h2, h3]
  · simp [Cfg.M] at hi
    by_cases h : 9223372036854775808 ≤ i
    · have h0 : i - 9223372036854775808 + 1 < 18446744073709551616 := by omega
      have h3 : -9223372036854775808 ≤ ((i - 9223372036854775808 : Nat) : Int) + 1 := by omega
      have h4 : ((i - 9223372036854775808 : Nat) : Int) + 1 ≠ 0 := by omega
      by_cases h1 : ((i - 9223372036854775808 : Nat) : Int) + 1 < 9223372036854775808
      · run [nonZeroFn7_1, nzIsizeImpl, h, h0, h1, h3, h4]
      · run [nonZeroFn7_1, nzIsizeImpl, h, h0, h1, h3]
    · have h1 : -9223372036854775808 ≤ -9223372036854775808 + (i : Int) := by omega
      have h2 : -9223372036854775808 + (i : Int) < 9223372036854775808 := by omega
      have h3 : -9223372036854775808 + (i : Int) ≠ 0 := by omega
      run [nonZeroFn7_1, nzIsizeImpl, h, h1, h2, h3]

theorem nzIsize_agrees : TextAgrees c J N impls (.nzs .size) (fun x : NZS c.bits => Val.nzs .size x.1) (nzIsizeImpl c) where
  inj a b h := by injection h with _ h; exact Subtype.ext h
  size := by
    refine (run_size (e := nonZeroConst7_0) rfl rfl).trans ?_
    run [nonZeroConst7_0, nzIsizeImpl, const_nzUsize 2, nzUsizeImpl]
  ordinal a := by
    rw [runOrdinal, ordinal_nzIsize 3]
    cases (nzIsizeImpl c).ordinal a <;> rfl
  fromOrdinal i hi := by
    rw [runFromOrdinal, from_nzIsize 3 i hi]
    cases (nzIsizeImpl c).fromOrdinal i with
    | error f => rfl
    | ok q => cases q <;> rfl

/-- `NonZeroU64::ORDINAL_SIZE` -/
theorem const_nzU64 (n : Nat) : (outside c J (tyParams N) impls (n + 1)).const (.nzu .w64) "ORDINAL_SIZE" =
    (.uint .size ·) <$> nzU64Size c := by
  rw [outside_const (e := nonZeroConst8_0) (ty := .path ["usize"] .nil) n rfl rfl]
  obtain ⟨b, hb, oc, da⟩ := c
  rcases hb with rfl | rfl <;> run [nonZeroConst8_0, nzU64Size]

/-- `NonZeroI64::ORDINAL_SIZE` -/
theorem const_nzI64 (n : Nat) : (outside c J (tyParams N) impls (n + 2)).const (.nzs .w64) "ORDINAL_SIZE" =
    (.uint .size ·) <$> nzU64Size c := by
  rw [outside_const (e := nonZeroConst9_0) (ty := .path ["usize"] .nil) (n + 1) rfl rfl]
  obtain ⟨b, hb, oc, da⟩ := c
  rcases hb with rfl | rfl <;> run [nonZeroConst9_0, const_nzU64 n, nzU64Size]

theorem nzU64_agrees : TextAgrees c J N impls (.nzu .w64) (fun x : NZU 64 => Val.nzu .w64 x.1) (nzU64Impl c) where
  inj a b h := by injection h with _ h; exact Subtype.ext h
  size := const_nzU64 3
  ordinal a := by
    refine (run_ordinal (b := nonZeroFn8_0.body) _ rfl rfl).trans ?_
    obtain ⟨b, hb, oc, da⟩ := c
    rcases hb with rfl | rfl
    · run [nonZeroFn8_0, nzU64Impl, const_nzU64 2, nzU64Size]
    · have h1 : a.1 % 18446744073709551616 = a.1 := Nat.mod_eq_of_lt a.2.1
      have h2 : a.1 ≠ 0 := a.2.2
      have h3 : a.1 < 18446744073709551616 := a.2.1
      have ho := ordinal_nzUsize (c := ⟨64, .inr rfl, oc, da⟩) (J := J) (N := N) 2 a [.ref (.nzu .w64 a.1)]
      have hs : (outside ⟨64, .inr rfl, oc, da⟩ J (tyParams N) impls 3).self (.nzu .size) "ordinal" = some .ref :=
        outside_self (d := nonZeroFn6_0) 2 rfl rfl
      have e : (nzU64Impl ⟨64, .inr rfl, oc, da⟩).ordinal a = (nzUsizeImpl ⟨64, .inr rfl, oc, da⟩).ordinal a := by
        run [nzU64Impl, nzU64Size, h1, h2, h3]
      rw [e]
      cases hq : (nzUsizeImpl ⟨64, .inr rfl, oc, da⟩).ordinal a <;>
        run [nonZeroFn8_0, const_nzU64 2, nzU64Size, h1, h2, h3, ho, hs, hq]
  fromOrdinal i hi := by
    refine (run_from (b := nonZeroFn8_1.body) _ rfl rfl).trans ?_
    obtain ⟨b, hb, oc, da⟩ := c
    rcases hb with rfl | rfl
    · run [nonZeroFn8_1, nzU64Impl, const_nzU64 2, nzU64Size]
    · have ho := from_nzUsize (c := ⟨64, .inr rfl, oc, da⟩) (J := J) (N := N) 2 i [.uint .size i]
      cases hq : (nzUsizeImpl ⟨64, .inr rfl, oc, da⟩).fromOrdinal i with
      | error f =>
        rw [hq] at ho
        run [nonZeroFn8_1, nzU64Impl, const_nzU64 2, nzU64Size, ho, hq]
      | ok q => cases q with
        | none =>
          rw [hq] at ho
          run [nonZeroFn8_1, nzU64Impl, const_nzU64 2, nzU64Size, ho, hq]
        | some x =>
          rw [hq] at ho
          simp only [Functor.map, Except.map, Option.map_some, Val.opt, Val.some] at ho
          have h1 : x.1 % 18446744073709551616 = x.1 := Nat.mod_eq_of_lt x.2.1
          have h2 : x.1 ≠ 0 := x.2.2
          have h3 : x.1 < 18446744073709551616 := x.2.1
          run [nonZeroFn8_1, nzU64Impl, const_nzU64 2, nzU64Size, ho, hq, h1, h2, h3]

theorem nzI64_agrees : TextAgrees c J N impls (.nzs .w64) (fun x : NZS 64 => Val.nzs .w64 x.1) (nzI64Impl c) where
  inj a b h := by injection h with _ h; exact Subtype.ext h
  size := const_nzI64 2
  ordinal a := by
    refine (run_ordinal (b := nonZeroFn9_0.body) _ rfl rfl).trans ?_
    obtain ⟨b, hb, oc, da⟩ := c
    rcases hb with rfl | rfl
    · run [nonZeroFn9_0, nzI64Impl, const_nzI64 1, nzU64Size]
    · have h2 : a.1 ≠ 0 := a.2.2
      have h3 : -9223372036854775808 ≤ a.1 := a.2.1.1
      have h4 : a.1 < 9223372036854775808 := a.2.1.2
      have h1 : (a.1 + 9223372036854775808) % 18446744073709551616 - 9223372036854775808 = a.1 := by omega
      have ho := ordinal_nzIsize (c := ⟨64, .inr rfl, oc, da⟩) (J := J) (N := N) 2 a [.ref (.nzs .w64 a.1)]
      have hs : (outside ⟨64, .inr rfl, oc, da⟩ J (tyParams N) impls 3).self (.nzs .size) "ordinal" = some .ref :=
        outside_self (d := nonZeroFn7_0) 2 rfl rfl
      have e : (nzI64Impl ⟨64, .inr rfl, oc, da⟩).ordinal a = (nzIsizeImpl ⟨64, .inr rfl, oc, da⟩).ordinal a := by
        run [nzI64Impl, nzU64Size, nzsOfInt, asSigned, h1, h2, h3, h4]
        rfl
      rw [e]
      cases hq : (nzIsizeImpl ⟨64, .inr rfl, oc, da⟩).ordinal a <;>
        run [nonZeroFn9_0, const_nzI64 1, nzU64Size, h1, h2, h3, h4, ho, hs, hq]
  fromOrdinal i hi := by
    refine (run_from (b := nonZeroFn9_1.body) _ rfl rfl).trans ?_
    obtain ⟨b, hb, oc, da⟩ := c
    rcases hb with rfl | rfl
    · run [nonZeroFn9_1, nzI64Impl, const_nzI64 1, nzU64Size]
    · have ho := from_nzIsize (c := ⟨64, .inr rfl, oc, da⟩) (J := J) (N := N) 2 i hi [.uint .size i]
      cases hq : (nzIsizeImpl ⟨64, .inr rfl, oc, da⟩).fromOrdinal i with
      | error f =>
        rw [hq] at ho
        run [nonZeroFn9_1, nzI64Impl, const_nzI64 1, nzU64Size, ho, hq]
      | ok q => cases q with
        | none =>
          rw [hq] at ho
          run [nonZeroFn9_1, nzI64Impl, const_nzI64 1, nzU64Size, ho, hq]
        | some x =>
          rw [hq] at ho
          simp only [Functor.map, Except.map, Option.map_some, Val.opt, Val.some] at ho
          have h2 : x.1 ≠ 0 := x.2.2
          have h3 : -9223372036854775808 ≤ x.1 := x.2.1.1
          have h4 : x.1 < 9223372036854775808 := x.2.1.2
          have h1 : (x.1 + 9223372036854775808) % 18446744073709551616 - 9223372036854775808 = x.1 := by omega
          run [nonZeroFn9_1, nzI64Impl, nzsOfInt, asSigned, const_nzI64 1, nzU64Size, ho, hq, h1, h2, h3, h4]

end OrdinalMap.Text
