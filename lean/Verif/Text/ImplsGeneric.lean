import Verif.Text.Impls
/-!
# The other impls of `Ordinal`, run from their text
-/

namespace OrdinalMap.Text

variable {P : Nat → Type} {c : Cfg} {J : (p : Nat) → OrdinalImpl (P p)} {N : Nat}

/-! ## char.rs -/

/-- `SURROGATE_START` -/
theorem glob_surrogate (n : Nat) : (outside c J (tyParams N) impls (n + 1)).glob "SURROGATE_START" =
    .ok (.uint .w32 surrogateStart) := by
  rw [outside_glob (ty := .path ["u32"] .nil) (e := .num 0xd800 "") n rfl]
  run [surrogateStart]

theorem isChar_true {y : Nat} (h : y ≤ 0x10FFFF ∧ ¬ (0xD800 ≤ y ∧ y ≤ 0xDFFF)) : isChar y = true := by
  simp only [isChar, decide_eq_true_eq]
  exact h

theorem isChar_false {y : Nat} (h : ¬ (y ≤ 0x10FFFF ∧ ¬ (0xD800 ≤ y ∧ y ≤ 0xDFFF))) : isChar y = false := by
  simp only [isChar, decide_eq_false_iff_not]
  exact h

theorem charFromU32_some {y : Nat} (h : y ≤ 0x10FFFF ∧ ¬ (0xD800 ≤ y ∧ y ≤ 0xDFFF)) : charFromU32 y = some ⟨y, h⟩ :=
  dif_pos h

theorem charFromU32_none {y : Nat} (h : ¬ (y ≤ 0x10FFFF ∧ ¬ (0xD800 ≤ y ∧ y ≤ 0xDFFF))) : charFromU32 y = none :=
  dif_neg h

theorem char_agrees : TextAgrees c J N impls (.con "char") (fun x : RChar => Val.chr x.1) (charImpl c) where
  inj a b h := by injection h with h; exact Subtype.ext h
  size := by
    refine (run_size (e := charConst1_0) rfl rfl).trans ?_
    obtain ⟨b, hb, oc, da⟩ := c
    rcases hb with rfl | rfl <;> run [charConst1_0, charImpl]
  ordinal a := by
    refine (run_ordinal (b := charFn1_0.body) _ rfl rfl).trans ?_
    obtain ⟨x, hx⟩ := a
    have h0 : x % 4294967296 = x := Nat.mod_eq_of_lt (by omega)
    have h2 : x % 18446744073709551616 = x := Nat.mod_eq_of_lt (by omega)
    obtain ⟨b, hb, oc, da⟩ := c
    by_cases h : x < 55296
    · rcases hb with rfl | rfl <;> run [charFn1_0, charImpl, glob_surrogate 2, surrogateStart, h0, h, h2]
    · have h1 : 2048 ≤ x := by omega
      rcases hb with rfl | rfl <;> run [charFn1_0, charImpl, glob_surrogate 2, surrogateStart, h0, h, h1, h2]
  fromOrdinal i hi := by
    refine (run_from (b := charFn1_1.body) _ rfl rfl).trans ?_
    obtain ⟨b, hb, oc, da⟩ := c
    by_cases h : i < 55296
    · have h0 : i % 4294967296 = i := Nat.mod_eq_of_lt (by omega)
      have hy : i ≤ 0x10FFFF ∧ ¬ (0xD800 ≤ i ∧ i ≤ 0xDFFF) := by omega
      have hk := isChar_true hy
      have hk' := charFromU32_some hy
      rcases hb with rfl | rfl <;> run [charFn1_1, charImpl, glob_surrogate 2, surrogateStart, asU32, h0, h, hk, hk']
    · by_cases h0 : i % 4294967296 + 2048 < 4294967296
      · by_cases hy : i % 4294967296 + 2048 ≤ 0x10FFFF ∧ ¬ (0xD800 ≤ i % 4294967296 + 2048 ∧ i % 4294967296 + 2048 ≤ 0xDFFF)
        · have hk := isChar_true hy
          have hk' := charFromU32_some hy
          rcases hb with rfl | rfl <;>
            run [charFn1_1, charImpl, glob_surrogate 2, surrogateStart, asU32, checkedAddU32, h0, h, hk, hk']
        · have hk := isChar_false hy
          have hk' := charFromU32_none hy
          rcases hb with rfl | rfl <;>
            run [charFn1_1, charImpl, glob_surrogate 2, surrogateStart, asU32, checkedAddU32, h0, h, hk, hk']
      · rcases hb with rfl | rfl <;>
          run [charFn1_1, charImpl, glob_surrogate 2, surrogateStart, asU32, checkedAddU32, h0, h]

/-! ## ordering.rs -/

theorem ordering_agrees : TextAgrees c J N impls (.con "Ordering") ordVal orderingImpl where
  inj a b h := by cases a <;> cases b <;> simp [ordVal] at h ⊢
  size := by
    refine (run_size (e := orderingConst0_0) rfl rfl).trans ?_
    run [orderingConst0_0, orderingImpl]
  ordinal a := by
    refine (run_ordinal (b := orderingFn0_0.body) _ rfl rfl).trans ?_
    cases a <;> run [orderingFn0_0, orderingImpl, ordVal]
  fromOrdinal i hi := by
    refine (run_from (b := orderingFn0_1.body) _ rfl rfl).trans ?_
    match i with
    | 0 => run [orderingFn0_1, orderingImpl, ordVal]
    | 1 => run [orderingFn0_1, orderingImpl, ordVal]
    | 2 => run [orderingFn0_1, orderingImpl, ordVal]
    | i + 3 => run [orderingFn0_1, orderingImpl, ordVal]

/-! ## std.rs -/

theorem option_agrees : TextAgrees c J N impls (.con "Option") optVal (optionImpl c (J 0)) where
  inj a b h := by cases a <;> cases b <;> simp_all [optVal]
  size := by
    refine (run_size (e := stdConst0_0) rfl rfl).trans ?_
    have ho := outside_par_const (c := c) (J := J) (te := tyParams N) (prog := impls) (U := noFns) 2 0
    cases hs : (J 0).size with
    | error f => run [stdConst0_0, optionImpl, ho, hs]
    | ok n => by_cases h : n + 1 < 2 ^ c.bits <;> run [stdConst0_0, optionImpl, ho, hs, h]
  ordinal a := by
    refine (run_ordinal (b := stdFn0_0.body) _ rfl rfl).trans ?_
    cases a with
    | none => run [stdFn0_0, optionImpl, optVal]
    | some a =>
      have ho := outside_par_ordinal (c := c) (J := J) (te := tyParams N) (prog := impls) (U := noFns) 2 0 a
      have hf := outside_par_self (c := c) (J := J) (te := tyParams N) (prog := impls) (U := noFns) 2 0 "ordinal"
      cases hs : (J 0).ordinal a with
      | error f => run [stdFn0_0, optionImpl, optVal, ho, hs, hf]
      | ok n => 
        by_cases h : n + 1 < 2 ^ c.bits
        · run [stdFn0_0, optionImpl, optVal, ho, hs, hf, h]
        · cases hc : c.overflowChecks <;> run [stdFn0_0, optionImpl, optVal, ho, hs, hf, h, hc]
  fromOrdinal i hi := by
    refine (run_from (b := stdFn0_1.body) _ rfl rfl).trans ?_
    by_cases h : i = 0
    · run [stdFn0_1, optionImpl, optVal, h]
    · have h1 : 1 ≤ i := by omega
      have hb : (i == 0) = false := by simp [h]
      have ho := outside_par_from (c := c) (J := J) (te := tyParams N) (prog := impls) (U := noFns) 2 0 (i - 1)
      cases hs : (J 0).fromOrdinal (i - 1) with
      | error f => run [stdFn0_1, optionImpl, optVal, ho, hs, h, h1, hb]
      | ok q => cases q <;> run [stdFn0_1, optionImpl, optVal, ho, hs, h, h1, hb]

/-- `Result::ORDINAL_SIZE` -/
theorem const_result (n : Nat) : (outside c J (tyParams N) impls (n + 2)).const (.con "Result") "ORDINAL_SIZE" =
    (.uint .size ·) <$> (resultImpl c (J 0) (J 1)).size := by
  rw [outside_const (e := stdConst1_0) (ty := .path ["usize"] .nil) (n + 1) rfl rfl]
  have ho p := outside_par_const (c := c) (J := J) (te := tyParams N) (prog := impls) (U := noFns) n p
  cases h0 : (J 0).size with
  | error f => run [stdConst1_0, resultImpl, ho, h0]
  | ok k => cases h1 : (J 1).size with
    | error f => run [stdConst1_0, resultImpl, ho, h0, h1]
    | ok m => by_cases h : k + m < 2 ^ c.bits <;> run [stdConst1_0, resultImpl, ho, h0, h1, h]

theorem result_agrees : TextAgrees c J N impls (.con "Result") resVal (resultImpl c (J 0) (J 1)) where
  inj a b h := by cases a <;> cases b <;> simp_all [resVal]
  size := const_result 2
  ordinal a := by
    refine (run_ordinal (b := stdFn1_0.body) _ rfl rfl).trans ?_
    have hf p := outside_par_self (c := c) (J := J) (te := tyParams N) (prog := impls) (U := noFns) 2 p "ordinal"
    have hc := outside_par_const (c := c) (J := J) (te := tyParams N) (prog := impls) (U := noFns) 2 0
    cases a with
    | inl a =>
      have ho := outside_par_ordinal (c := c) (J := J) (te := tyParams N) (prog := impls) (U := noFns) 2 0 a
      cases hs : (J 0).ordinal a <;> run [stdFn1_0, resultImpl, resVal, ho, hs, hf]
    | inr b =>
      have ho := outside_par_ordinal (c := c) (J := J) (te := tyParams N) (prog := impls) (U := noFns) 2 1 b
      cases h0 : (J 0).size with
      | error f => run [stdFn1_0, resultImpl, resVal, hc, h0]
      | ok m => cases hs : (J 1).ordinal b with
        | error f => run [stdFn1_0, resultImpl, resVal, hc, h0, ho, hs, hf]
        | ok n =>
          by_cases h : m + n < 2 ^ c.bits
          · run [stdFn1_0, resultImpl, resVal, hc, h0, ho, hs, hf, h]
          · cases hq : c.overflowChecks <;> run [stdFn1_0, resultImpl, resVal, hc, h0, ho, hs, hf, h, hq]
  fromOrdinal i hi := by
    refine (run_from (b := stdFn1_1.body) _ rfl rfl).trans ?_
    have hc := outside_par_const (c := c) (J := J) (te := tyParams N) (prog := impls) (U := noFns) 2 0
    cases h0 : (J 0).size with
    | error f => run [stdFn1_1, resultImpl, resVal, hc, h0]
    | ok m =>
      by_cases h : i < m
      · have ho := outside_par_from (c := c) (J := J) (te := tyParams N) (prog := impls) (U := noFns) 2 0 i
        cases hs : (J 0).fromOrdinal i with
        | error f => run [stdFn1_1, resultImpl, resVal, hc, h0, h, ho, hs]
        | ok q => cases q <;> run [stdFn1_1, resultImpl, resVal, hc, h0, h, ho, hs]
      · have ho := outside_par_from (c := c) (J := J) (te := tyParams N) (prog := impls) (U := noFns) 2 1 (i - m)
        have h1 : m ≤ i := by omega
        cases hs : (J 1).fromOrdinal (i - m) with
        | error f => run [stdFn1_1, resultImpl, resVal, hc, h0, h, h1, ho, hs]
        | ok q => cases q <;> run [stdFn1_1, resultImpl, resVal, hc, h0, h, h1, ho, hs]

theorem infallible_agrees : TextAgrees c J N impls (.con "Infallible") (fun x : Empty => nomatch x) infallibleImpl where
  inj a := nomatch a
  size := by
    refine (run_size (e := stdConst2_0) rfl rfl).trans ?_
    run [stdConst2_0, infallibleImpl]
  ordinal a := nomatch a
  fromOrdinal i hi := by
    rw [runFromOrdinal, outside_call (d := stdFn2_1) 3 _ _ rfl rfl]
    run [stdFn2_1, infallibleImpl]

/-! ## either.rs -/

theorem either_agrees : TextAgrees c J N impls (.con "Either") eithVal (eitherImpl c (J 0) (J 1)) where
  inj a b h := by cases a <;> cases b <;> simp_all [eithVal]
  size := by
    refine (run_size (e := eitherConst0_0) rfl rfl).trans ?_
    cases hs : (resultImpl c (J 0) (J 1)).size <;> run [eitherConst0_0, eitherImpl, const_result 1, hs]
  ordinal a := by
    refine (run_ordinal (b := eitherFn0_0.body) _ rfl rfl).trans ?_
    have hf p := outside_par_self (c := c) (J := J) (te := tyParams N) (prog := impls) (U := noFns) 2 p "ordinal"
    have hc := outside_par_const (c := c) (J := J) (te := tyParams N) (prog := impls) (U := noFns) 2 0
    cases a with
    | inl a =>
      have ho := outside_par_ordinal (c := c) (J := J) (te := tyParams N) (prog := impls) (U := noFns) 2 0 a
      cases hs : (J 0).ordinal a <;> run [eitherFn0_0, eitherImpl, eithVal, ho, hs, hf]
    | inr b =>
      have ho := outside_par_ordinal (c := c) (J := J) (te := tyParams N) (prog := impls) (U := noFns) 2 1 b
      cases h0 : (J 0).size with
      | error f => run [eitherFn0_0, eitherImpl, eithVal, hc, h0]
      | ok m => cases hs : (J 1).ordinal b with
        | error f => run [eitherFn0_0, eitherImpl, eithVal, hc, h0, ho, hs, hf]
        | ok n =>
          by_cases h : m + n < 2 ^ c.bits
          · run [eitherFn0_0, eitherImpl, eithVal, hc, h0, ho, hs, hf, h]
          · cases hq : c.overflowChecks <;> run [eitherFn0_0, eitherImpl, eithVal, hc, h0, ho, hs, hf, h, hq]
  fromOrdinal i hi := by
    refine (run_from (b := eitherFn0_1.body) _ rfl rfl).trans ?_
    have hc := outside_par_const (c := c) (J := J) (te := tyParams N) (prog := impls) (U := noFns) 2 0
    cases h0 : (J 0).size with
    | error f => run [eitherFn0_1, eitherImpl, eithVal, hc, h0]
    | ok m =>
      by_cases h : i < m
      · have ho := outside_par_from (c := c) (J := J) (te := tyParams N) (prog := impls) (U := noFns) 2 0 i
        cases hs : (J 0).fromOrdinal i with
        | error f => run [eitherFn0_1, eitherImpl, eithVal, hc, h0, h, ho, hs]
        | ok q => cases q <;> run [eitherFn0_1, eitherImpl, eithVal, hc, h0, h, ho, hs]
      · have ho := outside_par_from (c := c) (J := J) (te := tyParams N) (prog := impls) (U := noFns) 2 1 (i - m)
        have h1 : m ≤ i := by omega
        cases hs : (J 1).fromOrdinal (i - m) with
        | error f => run [eitherFn0_1, eitherImpl, eithVal, hc, h0, h, h1, ho, hs]
        | ok q => cases q <;> run [eitherFn0_1, eitherImpl, eithVal, hc, h0, h, h1, ho, hs]

/-! ## boxed.rs -/

theorem box_agrees : TextAgrees c J N impls (.con "Box") boxVal (boxImpl (J 0)) where
  inj a b h := by cases a; cases b; simp_all [boxVal]
  size := by
    refine (run_size (e := boxedConst0_0) rfl rfl).trans ?_
    have hc := outside_par_const (c := c) (J := J) (te := tyParams N) (prog := impls) (U := noFns) 2 0
    cases h0 : (J 0).size <;> run [boxedConst0_0, boxImpl, hc, h0]
  ordinal a := by
    refine (run_ordinal (b := boxedFn0_0.body) _ rfl rfl).trans ?_
    have ho := outside_par_ordinal (c := c) (J := J) (te := tyParams N) (prog := impls) (U := noFns) 2 0 a.unbox
    have hf := outside_par_self (c := c) (J := J) (te := tyParams N) (prog := impls) (U := noFns) 2 0 "ordinal"
    cases hs : (J 0).ordinal a.unbox <;> run [boxedFn0_0, boxImpl, boxVal, ho, hs, hf]
  fromOrdinal i hi := by
    refine (run_from (b := boxedFn0_1.body) _ rfl rfl).trans ?_
    have ho := outside_par_from (c := c) (J := J) (te := tyParams N) (prog := impls) (U := noFns) 2 0 i
    cases hs : (J 0).fromOrdinal i with
    | error f => run [boxedFn0_1, boxImpl, boxVal, ho, hs]
    | ok q => cases q <;> run [boxedFn0_1, boxImpl, boxVal, ho, hs]

end OrdinalMap.Text
