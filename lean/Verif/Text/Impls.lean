import Verif.SpecText
import Verif.Text.Trees
import Verif.Text.Lemmas
/-!
# The impls of `Ordinal` for primitive types, run from their text
-/

namespace OrdinalMap.Text

variable {P : Nat → Type} {c : Cfg} {J : (p : Nat) → OrdinalImpl (P p)} {N : Nat}

/-- The program of all files in `ordinal/impls`. -/
def impls : Prog := primitiveTree ++ (nonZeroTree ++ (charTree ++ (orderingTree ++ (stdTree ++ (eitherTree ++
  (boxedTree ++ (arrayTree ++ [])))))))

/-- Rules to start a function of the program. -/
theorem run_size {t : RT} {e : Ex} (hp : impls.const t "ORDINAL_SIZE" = some (.path ["usize"] .nil, e))
    (ht : t.isPar = false) : runSize c J N impls t =
      Prod.fst <$> (eval c (("Self", t) :: tyParams N) (outside c J (tyParams N) impls 3) e .const [] []).out .const 0
        (some (.uint .size)) := by
  rw [runSize, outside_const 3 hp ht]
  rfl

theorem run_ordinal {t : RT} {b : Blk} (v : Val P)
    (hp : impls.fn t "ordinal" = some ⟨"ordinal", .ref, [], .path ["usize"] .nil, b⟩)
    (ht : t.isPar = false) : runOrdinal c J N impls t v =
      Prod.fst <$> (evalBlk c (("Self", t) :: tyParams N) (outside c J (tyParams N) impls 3) b .run [("self", 0)] [.ref v]).out
        .run 0 (some (.uint .size)) := by
  rw [runOrdinal, outside_call 3 _ _ hp ht]
  rfl

theorem run_from {t : RT} {b : Blk} (i : Nat)
    (hp : impls.fn t "from_ordinal" = some ⟨"from_ordinal", .none, [(.path ["ordinal"], .path ["usize"] .nil)],
      .path ["Option"] (.cons (.path ["Self"] .nil) .nil), b⟩)
    (ht : t.isPar = false) : runFromOrdinal c J N impls t i =
      Prod.fst <$> (evalBlk c (("Self", t) :: tyParams N) (outside c J (tyParams N) impls 3) b .run [("ordinal", 0)]
        [.uint .size i]).out .run 0 (some (.con "Option")) := by
  rw [runFromOrdinal, outside_call 3 _ _ hp ht]
  rfl

/-- The meaning of names in `tyParams`. -/
@[text] theorem find_tyParams (x : String) : TyEnv.find x (tyParams N) = if x = "A" then some (.par 0) else
    if x = "T" then some (.par 0) else if x = "B" then some (.par 1) else if x = "N" then some (.num N) else none := rfl

/-- Run the program, computing with integers. -/
macro "run" "[" ts:Lean.Parser.Tactic.simpLemma,* "]" : tactic =>
  `(tactic| simp -implicitDefEqProofs [text, ↓onValArg, ↓onLocArg, ↓liftArg, ↓branchArg, ↓armArg, ↓whileArg, fitsS, wrapS, overflow, addC, subC, addU, subU, asUsize, asUsizeS, absDiff, checkedAdd, checkedSub, tryFromU,
    tryFromS, checkedAddUnsigned, nzuNew, nzsNew, constS, unwrap, usizeMax, isizeMin, isizeMax, Cfg.M, List.take_take, $ts,*])

/-! ## primitive.rs -/

theorem bool_agrees : TextAgrees c J N impls (.con "bool") Val.bool boolImpl where
  inj a b h := by injection h
  size := by
    refine (run_size (e := primitiveConst0_0) rfl rfl).trans ?_
    run [primitiveConst0_0, boolImpl]
  ordinal a := by
    refine (run_ordinal (b := primitiveFn0_0.body) _ rfl rfl).trans ?_
    run [primitiveFn0_0, boolImpl]
  fromOrdinal i hi := by
    refine (run_from (b := primitiveFn0_1.body) _ rfl rfl).trans ?_
    match i with
    | 0 => run [primitiveFn0_1, boolImpl]
    | 1 => run [primitiveFn0_1, boolImpl]
    | i + 2 => run [primitiveFn0_1, boolImpl]

theorem u8_agrees : TextAgrees c J N impls (.uint .w8) (fun x : U 8 => Val.uint .w8 x.1) (u8Impl c) where
  inj a b h := by injection h with _ h; exact Subtype.ext h
  size := by
    refine (run_size (e := primitiveConst1_0) rfl rfl).trans ?_
    obtain ⟨b, hb, oc, da⟩ := c
    rcases hb with rfl | rfl <;> run [primitiveConst1_0, u8Impl]
  ordinal a := by
    refine (run_ordinal (b := primitiveFn1_0.body) _ rfl rfl).trans ?_
    run [primitiveFn1_0, u8Impl]
  fromOrdinal i hi := by
    refine (run_from (b := primitiveFn1_1.body) _ rfl rfl).trans ?_
    by_cases h : i < 256 <;> run [primitiveFn1_1, u8Impl, h]

theorem i8_agrees : TextAgrees c J N impls (.sint .w8) (fun x : S 8 => Val.sint .w8 x.1) (i8Impl c) where
  inj a b h := by injection h with _ h; exact Subtype.ext h
  size := by
    refine (run_size (e := primitiveConst2_0) rfl rfl).trans ?_
    obtain ⟨b, hb, oc, da⟩ := c
    rcases hb with rfl | rfl <;> run [primitiveConst2_0, i8Impl]
  ordinal a := by
    refine (run_ordinal (b := primitiveFn2_0.body) _ rfl rfl).trans ?_
    run [primitiveFn2_0, i8Impl]
  fromOrdinal i hi := by
    refine (run_from (b := primitiveFn2_1.body) _ rfl rfl).trans ?_
    by_cases h : i < 256
    · have h1 : -128 ≤ -128 + (i : Int) := by omega
      have h2 : -128 + (i : Int) < 128 := by omega
      run [primitiveFn2_1, i8Impl, h, h1, h2]
    · run [primitiveFn2_1, i8Impl, h]

theorem u16_agrees : TextAgrees c J N impls (.uint .w16) (fun x : U 16 => Val.uint .w16 x.1) (u16Impl c) where
  inj a b h := by injection h with _ h; exact Subtype.ext h
  size := by
    refine (run_size (e := primitiveConst3_0) rfl rfl).trans ?_
    obtain ⟨b, hb, oc, da⟩ := c
    rcases hb with rfl | rfl <;> run [primitiveConst3_0, u16Impl]
  ordinal a := by
    refine (run_ordinal (b := primitiveFn3_0.body) _ rfl rfl).trans ?_
    run [primitiveFn3_0, u16Impl]
  fromOrdinal i hi := by
    refine (run_from (b := primitiveFn3_1.body) _ rfl rfl).trans ?_
    by_cases h : i < 65536 <;> run [primitiveFn3_1, u16Impl, h]

theorem i16_agrees : TextAgrees c J N impls (.sint .w16) (fun x : S 16 => Val.sint .w16 x.1) (i16Impl c) where
  inj a b h := by injection h with _ h; exact Subtype.ext h
  size := by
    refine (run_size (e := primitiveConst4_0) rfl rfl).trans ?_
    obtain ⟨b, hb, oc, da⟩ := c
    rcases hb with rfl | rfl <;> run [primitiveConst4_0, i16Impl]
  ordinal a := by
    refine (run_ordinal (b := primitiveFn4_0.body) _ rfl rfl).trans ?_
    run [primitiveFn4_0, i16Impl]
  fromOrdinal i hi := by
    refine (run_from (b := primitiveFn4_1.body) _ rfl rfl).trans ?_
    by_cases h : i < 65536
    · have h1 : -32768 ≤ -32768 + (i : Int) := by omega
      have h2 : -32768 + (i : Int) < 32768 := by omega
      run [primitiveFn4_1, i16Impl, h, h1, h2]
    · run [primitiveFn4_1, i16Impl, h]

/-- `u32::ORDINAL_SIZE` -/
theorem const_u32 (n : Nat) : (outside c J (tyParams N) impls (n + 1)).const (.uint .w32) "ORDINAL_SIZE" =
    (.uint .size ·) <$> u32Size c := by
  rw [outside_const (e := primitiveConst5_0) (ty := .path ["usize"] .nil) n rfl rfl]
  obtain ⟨b, hb, oc, da⟩ := c
  rcases hb with rfl | rfl <;> run [primitiveConst5_0, u32Size]

/-- `i32::ORDINAL_SIZE` -/
theorem const_i32 (n : Nat) : (outside c J (tyParams N) impls (n + 2)).const (.sint .w32) "ORDINAL_SIZE" =
    (.uint .size ·) <$> u32Size c := by
  rw [outside_const (e := primitiveConst6_0) (ty := .path ["usize"] .nil) (n + 1) rfl rfl]
  obtain ⟨b, hb, oc, da⟩ := c
  rcases hb with rfl | rfl <;> run [primitiveConst6_0, const_u32 n, u32Size]

theorem u32_agrees : TextAgrees c J N impls (.uint .w32) (fun x : U 32 => Val.uint .w32 x.1) (u32Impl c) where
  inj a b h := by injection h with _ h; exact Subtype.ext h
  size := by
    exact const_u32 3
  ordinal a := by
    refine (run_ordinal (b := primitiveFn5_0.body) _ rfl rfl).trans ?_
    obtain ⟨b, hb, oc, da⟩ := c
    rcases hb with rfl | rfl <;> run [primitiveFn5_0, u32Impl, const_u32 2, u32Size]
  fromOrdinal i hi := by
    refine (run_from (b := primitiveFn5_1.body) _ rfl rfl).trans ?_
    by_cases h : i < 4294967296 <;> run [primitiveFn5_1, u32Impl, h]

theorem i32_agrees : TextAgrees c J N impls (.sint .w32) (fun x : S 32 => Val.sint .w32 x.1) (i32Impl c) where
  inj a b h := by injection h with _ h; exact Subtype.ext h
  size := by
    exact const_i32 2
  ordinal a := by
    refine (run_ordinal (b := primitiveFn6_0.body) _ rfl rfl).trans ?_
    obtain ⟨b, hb, oc, da⟩ := c
    rcases hb with rfl | rfl <;> run [primitiveFn6_0, i32Impl, const_i32 1, u32Size]
  fromOrdinal i hi := by
    refine (run_from (b := primitiveFn6_1.body) _ rfl rfl).trans ?_
    by_cases h : i < 4294967296
    · have h1 : -2147483648 ≤ -2147483648 + (i : Int) := by omega
      have h2 : -2147483648 + (i : Int) < 2147483648 := by omega
      obtain ⟨b, hb, oc, da⟩ := c
      rcases hb with rfl | rfl <;> run [primitiveFn6_1, i32Impl, h, h1, h2, const_i32 1, u32Size]
    · obtain ⟨b, hb, oc, da⟩ := c
      rcases hb with rfl | rfl <;> run [primitiveFn6_1, i32Impl, h, const_i32 1, u32Size]

end OrdinalMap.Text
