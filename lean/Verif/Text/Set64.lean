import Verif.Text.SetArray
/-!
# `set/set64.rs`, run from its text
-/

namespace OrdinalMap.Text

variable {P : Nat → Type} {c : Cfg} {J : (p : Nat) → OrdinalImpl (P p)} {S : Nat} {h : Heap P} {a : Nat} {ps : List Proj}

/-! ## Bits -/

theorem count_bits (w : BitVec 64) : (bitsOf 64 w.toNat).count true = countOnes w := by
  rw [bitsOf, List.count_eq_countP, List.countP_map, countOnes]
  congr 1
  funext i
  simp [BitVec.getLsbD]

theorem take_false (f : Nat → Bool) : ∀ k s, ((List.range' s k).map f |>.takeWhile (· == false)).length =
    ((List.range' s k).find? f).getD (s + k) - s
  | 0, s => by simp
  | k + 1, s => by
    rw [List.range'_succ, List.map_cons, List.takeWhile_cons, List.find?_cons]
    cases hf : f s with
    | true => simp
    | false =>
      simp only [beq_self_eq_true, if_true, List.length_cons, take_false f k (s + 1)]
      cases hh : (List.range' (s + 1) k).find? f with
      | none => simp only [Option.getD_none]; omega
      | some i =>
        have := List.mem_of_find?_eq_some hh
        have := List.mem_range'_1.1 this
        simp only [Option.getD_some]
        omega

theorem trailing_bits (w : BitVec 64) : ((bitsOf 64 w.toNat).takeWhile (· == false)).length = trailingZeros w := by
  rw [bitsOf, List.range_eq_range', take_false, trailingZeros, List.range_eq_range']
  rfl

theorem take_false_rev (f : Nat → Bool) : ∀ k, ((List.range k).reverse.map f |>.takeWhile (· == false)).length =
    match (List.range k).reverse.find? f with
    | none => k
    | some i => k - 1 - i
  | 0 => rfl
  | k + 1 => by
    rw [List.range_succ, List.reverse_append, List.reverse_singleton, List.singleton_append, List.map_cons,
      List.takeWhile_cons, List.find?_cons]
    cases hf : f k with
    | true => simp
    | false =>
      simp only [beq_self_eq_true, if_true, List.length_cons, take_false_rev f k]
      cases hh : (List.range k).reverse.find? f with
      | none => rfl
      | some i =>
        have := List.mem_of_find?_eq_some hh
        simp only [List.mem_reverse, List.mem_range] at this
        show k - 1 - i + 1 = k + 1 - 1 - i
        omega

theorem leading_bits (w : BitVec 64) : ((bitsOf 64 w.toNat).reverse.takeWhile (· == false)).length = leadingZeros w := by
  rw [bitsOf, ← List.map_reverse, take_false_rev]
  rfl

theorem trailing_not (w : BitVec 64) : ((bitsOf 64 w.toNat).takeWhile fun x => !x).length = trailingZeros w := by
  rw [← trailing_bits]
  congr
  funext x
  cases x <;> rfl

theorem leading_not (w : BitVec 64) : ((bitsOf 64 w.toNat).reverse.takeWhile fun x => !x).length = leadingZeros w := by
  rw [← leading_bits]
  congr
  funext x
  cases x <;> rfl

theorem trailing_le (w : BitVec 64) : trailingZeros w ≤ 64 := by
  rw [trailingZeros]
  cases hh : (List.range 64).find? fun i => w.getLsbD i with
  | none => simp
  | some i =>
    have := List.mem_of_find?_eq_some hh
    simp only [List.mem_range] at this
    simp only [Option.getD_some]
    omega

theorem countOnes_le (w : BitVec 64) : countOnes w ≤ 64 := by
  rw [countOnes]
  exact Nat.le_trans List.countP_le_length (by simp)

theorem small_mod {k : Nat} (hk : k ≤ 64) : k % 2 ^ c.bits = k := by
  apply Nat.mod_eq_of_lt
  rcases c.bits_ok with h | h <;> rw [h] <;> omega

/-- `w & !(1 << s)` -/
theorem and_not_word (w : BitVec 64) (s : Nat) :
    w.toNat &&& (2 ^ 64 - 1 - 2 ^ s % 2 ^ 64) = (w &&& ~~~(1#64 <<< s)).toNat := by
  rw [BitVec.toNat_and, BitVec.toNat_not, BitVec.toNat_shiftLeft, Nat.shiftLeft_eq]
  simp

/-! ## Writing back what is there -/

theorem setField_same {x : String} {u : Val P} {fs : List (String × Val P)} (hf : findField x fs = some u) : setField x u fs = fs := by
  induction fs with
  | nil => rfl
  | cons y fs ih =>
    simp only [findField] at hf
    simp only [setField]
    split at hf
    · rename_i e
      cases hf
      simp [e]
    · rename_i e
      simp [e, ih hf]

theorem part_same {v u : Val P} {md : Mode} {p : Proj} (hp : part md v p = .ok u) : setPart v p u = .ok v := by
  cases p with
  | single => cases v <;> (cases hp; rfl)
  | field x =>
    cases v
    case obj y fs =>
      simp only [part] at hp
      cases hf : findField x fs with
      | none => exact absurd hp (by simp [hf, stuck])
      | some u =>
        rw [hf] at hp
        cases hp
        simp [setPart, setField_same hf]
    all_goals exact absurd hp (by simp [part, stuck])
  | idx i =>
    cases v
    case con y vs =>
      simp only [part] at hp
      cases hf : vs[i]? with
      | none => exact absurd hp (by simp [hf, stuck])
      | some u =>
        rw [hf] at hp
        cases hp
        obtain ⟨_, rfl⟩ := List.getElem?_eq_some_iff.mp hf
        simp [setPart]
    case arr vs =>
      simp only [part] at hp
      cases hf : vs[i]? with
      | none => cases md <;> exact absurd hp (by simp [hf, fail])
      | some u =>
        rw [hf] at hp
        cases hp
        obtain ⟨_, rfl⟩ := List.getElem?_eq_some_iff.mp hf
        simp [setPart]
    all_goals exact absurd hp (by simp [part, stuck])

theorem path_same {md : Mode} {u : Val P} : ∀ {ps : List Proj} {v : Val P}, getPath md v ps = .ok u → setPath md u v ps = .ok v
  | [], v, hp => by cases hp; rfl
  | p :: ps, v, hp => by
    simp only [getPath] at hp
    cases hq : part md v p with
    | error f => exact absurd hp (by simp [hq])
    | ok y =>
      rw [hq, ok_bind] at hp
      simp only [setPath, hq, ok_bind, path_same hp]
      exact part_same hq

theorem Place.same {v : Val P} (hp : Place h a ps v) : put h a ps v = h := by
  have hl := hp.lt
  have hg := hp.1
  have e : h[a]? = some h[a] := List.getElem?_eq_getElem hl
  simp only [Loc.get, e] at hg
  simp [put, Loc.set, e, path_same hg]

/-! ## `Iter64` -/

@[text] theorem struct_iter64 : (out c J S (n + 1)).struct "Iter64" =
    some [("set", .path ["u64"] .nil), ("_phantom", .path ["PhantomData"] (.cons (.path ["T"] .nil) .nil))] := rfl
@[text] theorem struct_set64 : (out c J S (n + 1)).struct "OrdinalSet64" =
    some [("set", .path ["u64"] .nil), ("_phantom", .path ["PhantomData"] (.cons (.path ["T"] .nil) .nil))] := rfl
@[text] theorem self_iter64_len : (out c J S (n + 1)).self (.con "Iter64") "len" = some .ref := rfl
@[text] theorem self_set64_contains : (out c J S (n + 1)).self (.con "OrdinalSet64") "contains" = some .ref := rfl

theorem iter64_len (n : Nat) (s : Iter64) : (out c J S (n + 2)).call (.con "Iter64") "len" [.ref (iter64Val s)] h =
    .ok (.uint .size s.len, h) := by
  refine (outside_call (d := set64Fn2_0) (n + 1) _ _ rfl rfl).trans ?_
  runs [set64Fn2_0, iter64Val, wordVal, Iter64.len, count_bits, small_mod (countOnes_le _)]

theorem iter64_sizeHint (n : Nat) (s : Iter64) : (out c J S (n + 3)).call (.con "Iter64") "size_hint" [.ref (iter64Val s)] h =
    .ok (hintVal s.sizeHint, h) := by
  refine (outside_call (d := set64Fn1_1) (n + 2) _ _ rfl rfl).trans ?_
  have h1 := iter64_len (c := c) (J := J) (S := S) (h := h ++ [.ref (iter64Val s)]) n s
  simp only [iter64Val, phantom] at h1
  runs [set64Fn1_1, iter64Val, h1, Iter64.sizeHint, hintVal]

theorem iter64_clone (n : Nat) (s : Iter64) : (out c J S (n + 2)).call (.con "Iter64") "clone" [.ref (iter64Val s)] h =
    .ok (iter64Val s.clone, h) := by
  refine (outside_call (d := set64Fn4_0) (n + 1) _ _ rfl rfl).trans ?_
  runs [set64Fn4_0, iter64Val, wordVal, Iter64.clone]

/-- Clearing a bit of the iterator. -/
theorem iter64_clear {s : Iter64} (hp : Place h a ps (iter64Val s)) (k : Nat) {v : Nat} (hv : v = 2 ^ 64 - 1) :
    Loc.set .run h (.obj "Iter64" [("set", .uint .w64 (s.toNat &&& v - 2 ^ k % 18446744073709551616)), phantom]) (.heap a ps) =
      .ok (put h a ps (iter64Val (s &&& ~~~(1#64 <<< k)))) := by
  subst hv
  rw [← hp.set, iter64Val, wordVal, ← and_not_word]

theorem iter64_next (n : Nat) {s : Iter64} (hp : Place h a ps (iter64Val s)) :
    (out c J S (n + 2)).call (.con "Iter64") "next" [.mref a ps] h =
      (fun r => (optVal r.1, put h a ps (iter64Val r.2))) <$> Iter64.next c (J 0) s := by
  refine (outside_call (d := set64Fn1_0) (n + 1) _ _ rfl rfl).trans ?_
  have hl := hp.lt
  by_cases ht : trailingZeros s = 64
  · have hg := Place.same hp
    simp only [iter64Val, wordVal, phantom] at hg
    runs [set64Fn1_0, iter64Val, wordVal, hl, hp.get, get_append, trailing_not, Iter64.next, ht, optVal, hg]
  · have h0 : trailingZeros s < 64 := Nat.lt_of_le_of_ne (trailing_le s) ht
    have hb : (trailingZeros s == 64) = false := by simpa using ht
    have hs := iter64_clear hp (trailingZeros s) rfl
    have hm : Iter64.next c (J 0) s = (do
        let x ← unwrap (← (J 0).fromOrdinal (trailingZeros s))
        .ok (some x, s &&& ~~~(1#64 <<< trailingZeros s))) := by
      simp only [Iter64.next, ht, if_false, shl64, h0, if_true, ok_bind]
      rfl
    have hlen := hp.len (iter64Val (s &&& ~~~(1#64 <<< trailingZeros s)))
    rw [hm]
    generalize s &&& ~~~(1#64 <<< trailingZeros s) = w at *
    generalize hh : put h a ps (iter64Val w) = h' at *
    simp only [phantom, Nat.reducePow, Nat.reduceSub] at hs
    simp only [iter64Val, wordVal, phantom] at hh
    cases hf : (J 0).fromOrdinal (trailingZeros s) with
    | error f => runs [set64Fn1_0, iter64Val, wordVal, hl, hp.get, hlen, get_append, set_append, trailing_not, hb, h0, hf, hs, hh, outside_par_from, small_mod (trailing_le s)]
    | ok o => cases o <;> runs [set64Fn1_0, iter64Val, wordVal, hl, hp.get, hlen, get_append, set_append, trailing_not, hb, h0, hf, hs, hh, outside_par_from, small_mod (trailing_le s), optVal, unwrap]

theorem iter64_nextBack (n : Nat) {s : Iter64} (hp : Place h a ps (iter64Val s)) :
    (out c J S (n + 2)).call (.con "Iter64") "next_back" [.mref a ps] h =
      (fun r => (optVal r.1, put h a ps (iter64Val r.2))) <$> Iter64.nextBack c (J 0) s := by
  refine (outside_call (d := set64Fn3_0) (n + 1) _ _ rfl rfl).trans ?_
  have hl := hp.lt
  by_cases ht : leadingZeros s ≤ 63
  · have h0 : 63 - leadingZeros s < 64 := by omega
    have h1 : 63 - leadingZeros s ≤ 64 := by omega
    have hs := iter64_clear hp (63 - leadingZeros s) rfl
    have hm : Iter64.nextBack c (J 0) s = (do
        let x ← unwrap (← (J 0).fromOrdinal (63 - leadingZeros s))
        .ok (some x, s &&& ~~~(1#64 <<< (63 - leadingZeros s)))) := by
      simp only [Iter64.nextBack, checkedSub, ht, if_true, shl64, h0, ok_bind]
      rfl
    have hlen := hp.len (iter64Val (s &&& ~~~(1#64 <<< (63 - leadingZeros s))))
    rw [hm]
    generalize s &&& ~~~(1#64 <<< (63 - leadingZeros s)) = w at *
    generalize hh : put h a ps (iter64Val w) = h' at *
    simp only [phantom, Nat.reducePow, Nat.reduceSub] at hs
    simp only [iter64Val, wordVal, phantom] at hh
    cases hf : (J 0).fromOrdinal (63 - leadingZeros s) with
    | error f => runs [set64Fn3_0, iter64Val, wordVal, hl, hp.get, hlen, get_append, set_append, leading_not, ht, h0, hf, hs, hh, outside_par_from, small_mod h1]
    | ok o => cases o <;> runs [set64Fn3_0, iter64Val, wordVal, hl, hp.get, hlen, get_append, set_append, leading_not, ht, h0, hf, hs, hh, outside_par_from, small_mod h1, optVal, unwrap]
  · have hg := Place.same hp
    simp only [iter64Val, wordVal, phantom] at hg
    runs [set64Fn3_0, iter64Val, wordVal, hl, hp.get, get_append, leading_not, Iter64.nextBack, checkedSub, ht, optVal, hg]

/-! ## `OrdinalSet64` -/

theorem set64_assert (n : Nat) : (out c J S (n + 2)).const (.con "OrdinalSet64") "ASSERT" =
    (fun _ => .unit) <$> OrdinalSet64.assert64 (J 0) := by
  refine (outside_const (ty := .tuple .nil) (e := set64Const7_0) (n + 1) rfl rfl).trans ?_
  cases hs : (J 0).size with
  | error f => runs [set64Const7_0, outside_par_const, OrdinalSet64.assert64, hs]
  | ok k => by_cases hk : k ≤ 64 <;> runs [set64Const7_0, outside_par_const, OrdinalSet64.assert64, hs, hk, constAssert]

theorem set64_new (n : Nat) : (out c J S (n + 3)).call (.con "OrdinalSet64") "new" [] h =
    (fun s => (set64Val s, h)) <$> OrdinalSet64.new (J 0) := by
  refine (outside_call (d := set64Fn7_0) (n + 2) _ _ rfl rfl).trans ?_
  cases ha : OrdinalSet64.assert64 (J 0) <;> runs [set64Fn7_0, set64_assert, OrdinalSet64.new, ha, set64Val, wordVal]

theorem set64_default (n : Nat) : (out c J S (n + 4)).call (.con "OrdinalSet64") "default" [] h =
    (fun s => (set64Val s, h)) <$> OrdinalSet64.new (J 0) := by
  refine (outside_call (d := set64Fn8_0) (n + 3) _ _ rfl rfl).trans ?_
  cases hs : OrdinalSet64.new (J 0) <;> runs [set64Fn8_0, set64_new, hs, set64Val]

theorem set64_asRef (n : Nat) (s : OrdinalSet64) (hs : (J 0).size = .ok m) :
    (out c J S (n + 4)).call (.con "OrdinalSet64") "as_ref" [.ref (set64Val s)] h =
      (fun r => (setRefVal r, h)) <$> OrdinalSet64.asRef c (J 0) s := by
  refine (outside_call (d := set64Fn7_1) (n + 3) _ _ rfl rfl).trans ?_
  have h1 := setRef_new (c := c) (J := J) (S := S) (h := h ++ [.ref (set64Val s)]) n [s] hs
  simp only [set64Val, wordVal, wordsVal, phantom, List.map] at h1
  cases hr : SetRef.new c (J 0) [s] <;> runs [set64Fn7_1, set64Val, wordVal, h1, hr, OrdinalSet64.asRef, setRefVal]

theorem set64_all (n : Nat) : (out c J S (n + 3)).call (.con "OrdinalSet64") "all" [] h =
    (fun s => (set64Val s, h)) <$> OrdinalSet64.all c (J 0) := by
  refine (outside_call (d := set64Fn7_2) (n + 2) _ _ rfl rfl).trans ?_
  cases ha : OrdinalSet64.assert64 (J 0) with
  | error f => runs [set64Fn7_2, set64_assert, OrdinalSet64.all, ha]
  | ok u => cases hs : (J 0).size with
    | error f => simp [OrdinalSet64.assert64, hs] at ha
    | ok k =>
      have hk : k ≤ 64 := by
        simpa [OrdinalSet64.assert64, hs, constAssert] using ha
      by_cases h0 : k < 64
      · have h1 : 2 ^ k < 2 ^ 64 := Nat.pow_lt_pow_right (by omega) h0
        have h2 : 1 ≤ 2 ^ k := Nat.one_le_two_pow
        have h3 : 2 ^ k % 18446744073709551616 = 2 ^ k := Nat.mod_eq_of_lt h1
        have h4 : (1#64 <<< k).toNat = 2 ^ k := by
          rw [BitVec.toNat_shiftLeft, Nat.shiftLeft_eq]
          simpa using h3
        have hm : OrdinalSet64.all c (J 0) = .ok (1#64 <<< k - 1#64) := by
          simp only [OrdinalSet64.all, ha, hs, ok_bind, shl64, h0, if_true, sub64]
          rw [if_pos (by rw [show ((1 : BitVec 64) <<< k).toNat = 2 ^ k from h4]; exact h2)]
          rfl
        have h5 : (1#64 <<< k - 1#64).toNat = 2 ^ k - 1 := by
          rw [BitVec.toNat_sub_of_le (by rw [BitVec.le_def, h4]; exact h2), h4]
          rfl
        rw [hm]
        generalize 1#64 <<< k - 1#64 = w at *
        runs [set64Fn7_2, set64_assert, ha, outside_par_const, hs, set64Val, wordVal, h0, h2, h3, h5]
      · obtain rfl : k = 64 := by omega
        cases ho : c.overflowChecks <;>
        runs [set64Fn7_2, set64_assert, ha, outside_par_const, hs, set64Val, wordVal, OrdinalSet64.all, shl64, sub64, ho, overflow]

theorem set64_iter (n : Nat) (s : OrdinalSet64) : (out c J S (n + 3)).call (.con "OrdinalSet64") "iter" [.ref (set64Val s)] h =
    (fun s => (iter64Val s, h)) <$> OrdinalSet64.iter (J 0) s := by
  refine (outside_call (d := set64Fn7_4) (n + 2) _ _ rfl rfl).trans ?_
  cases ha : OrdinalSet64.assert64 (J 0) <;>
  runs [set64Fn7_4, set64_assert, OrdinalSet64.iter, ha, set64Val, iter64Val, wordVal]

theorem set64_clone (n : Nat) (s : OrdinalSet64) : (out c J S (n + 2)).call (.con "OrdinalSet64") "clone" [.ref (set64Val s)] h =
    .ok (set64Val s.clone, h) := by
  refine (outside_call (d := set64Fn10_0) (n + 1) _ _ rfl rfl).trans ?_
  runs [set64Fn10_0, set64Val, wordVal, OrdinalSet64.clone]

/-- `1 << s` as the model has it. -/
theorem shl_model (k : Nat) : (if k < 64 then .ok (2 ^ k % 18446744073709551616)
    else if c.overflowChecks = true then .error .panic else .ok (2 ^ (k % 64) % 18446744073709551616)) =
      BitVec.toNat <$> shl64 c 1 k := by
  have (j : Nat) : ((1 : BitVec 64) <<< j).toNat = 2 ^ j % 18446744073709551616 := by
    rw [BitVec.toNat_shiftLeft, Nat.shiftLeft_eq]
    simp
  simp only [shl64]
  split
  · rw [ok_map, this]
  · split
    · rfl
    · rw [ok_map, this]

theorem set64_contains (n : Nat) (s : OrdinalSet64) (x : P 0) :
    (out c J S (n + 3)).call (.con "OrdinalSet64") "contains" [.ref (set64Val s), .ref (.usr 0 x)] h =
      (fun b => (.bool b, h)) <$> OrdinalSet64.contains c (J 0) s x := by
  refine (outside_call (d := set64Fn7_5) (n + 2) _ _ rfl rfl).trans ?_
  cases ha : OrdinalSet64.assert64 (J 0) with
  | error f => runs [set64Fn7_5, set64_assert, OrdinalSet64.contains, ha]
  | ok u => cases ho : (J 0).ordinal x with
    | error f => runs [set64Fn7_5, set64_assert, OrdinalSet64.contains, ha, ho, set64Val, outside_par_self, outside_par_ordinal]
    | ok k =>
      have hm : OrdinalSet64.contains c (J 0) s x = (do
          let mask ← shl64 c 1 k
          .ok (s &&& mask != 0)) := by
        simp only [OrdinalSet64.contains, ha, ho, ok_bind]
      rw [hm]
      have h1 := shl_model (c := c) k
      cases hs : shl64 c 1 k with
      | error f => 
        rw [hs, error_map] at h1
        runs [set64Fn7_5, set64_assert, ha, ho, set64Val, wordVal, outside_par_self, outside_par_ordinal, h1]
      | ok w =>
        rw [hs, ok_map] at h1
        runs [set64Fn7_5, set64_assert, ha, ho, set64Val, wordVal, outside_par_self, outside_par_ordinal, h1]

theorem set64_insert (n : Nat) {s : OrdinalSet64} (hp : Place h a ps (set64Val s)) (x : P 0) :
    (out c J S (n + 4)).call (.con "OrdinalSet64") "insert" [.mref a ps, .usr 0 x] h =
      (fun r => (.bool r.1, put h a ps (set64Val r.2))) <$> OrdinalSet64.insert c (J 0) s x := by
  refine (outside_call (d := set64Fn7_3) (n + 3) _ _ rfl rfl).trans ?_
  have hl := hp.lt
  have h2 := set64_contains (c := c) (J := J) (S := S) (h := h ++ [.mref a ps, .usr 0 x]) n s x
  simp only [set64Val, wordVal, phantom] at h2
  cases ha : OrdinalSet64.assert64 (J 0) with
  | error f => runs [set64Fn7_3, set64_assert, OrdinalSet64.insert, ha]
  | ok u => cases hc : OrdinalSet64.contains c (J 0) s x with
    | error f => runs [set64Fn7_3, set64_assert, OrdinalSet64.insert, ha, hc, hl, hp.get, set64Val, wordVal, h2]
    | ok b =>
      cases ho : (J 0).ordinal x with
      | error f => simp [OrdinalSet64.contains, ho, ha] at hc
      | ok k =>
        have h1 := shl_model (c := c) k
        cases hs : shl64 c 1 k with
        | error f => simp only [OrdinalSet64.contains, ho, ha, hs, ok_bind, error_bind, reduceCtorEq] at hc
        | ok w =>
          rw [hs, ok_map] at h1
          have hw := hp.set (set64Val (s ||| w))
          have hlen := hp.len (set64Val (s ||| w))
          have hm : OrdinalSet64.insert c (J 0) s x = .ok (!b, s ||| w) := by
            simp only [OrdinalSet64.insert, ha, ho, hc, hs, ok_bind]
          rw [hm]
          generalize hh : put h a ps (set64Val (s ||| w)) = h' at *
          simp only [set64Val, wordVal, phantom, BitVec.toNat_or] at hh hw
          runs [set64Fn7_3, set64_assert, ha, hc, hl, hp.get, get_append, set_append, set64Val, wordVal, h2, h1, ho, outside_par_self, outside_par_ordinal, hw, hh, hlen]

/-- The loop in `from_iter`. -/
theorem set64_extend {te : TyEnv} (n : Nat) (ht : te = ("Self", .con "OrdinalSet64") :: setTys S)
    (v : Val P) (xs : List (P 0)) : ∀ s : OrdinalSet64,
      forLoop (forBody c te (out c J S (n + 1)) .run [("set", h.length + 1), ("iter", h.length)]
      (.path ["ordinal"]) (.semi (.assignOp .or (.field (.path [⟨"set", .nil⟩]) "set")
        (.bin .shl (.num 1 "") (.method (.path [⟨"ordinal", .nil⟩]) "ordinal" .nil .nil))) .nil))
      (xs.map (.usr 0 ·)) (h ++ [v, set64Val s]) =
      lift (OrdinalSet64.extendLoop c (J 0) s xs) fun s => Res.val .unit (h ++ [v, set64Val s]) := by
  subst ht
  induction xs with
  | nil => intro s; rfl
  | cons x xs ih =>
    intro s
    rw [List.map_cons, forLoop]
    cases ho : (J 0).ordinal x with
    | error f =>
      rw [show OrdinalSet64.extendLoop c (J 0) s (x :: xs) = .error f by simp [OrdinalSet64.extendLoop, ho]]
      runs [forBody, set64Val, ho, outside_par_self, outside_par_ordinal]
    | ok k =>
      have h1 := shl_model (c := c) k
      cases hs : shl64 c 1 k with
      | error f =>
        rw [hs, error_map] at h1
        rw [show OrdinalSet64.extendLoop c (J 0) s (x :: xs) = .error f by
          simp only [OrdinalSet64.extendLoop, ho, hs, ok_bind, error_bind]]
        runs [forBody, set64Val, ho, outside_par_self, outside_par_ordinal, h1]
      | ok w =>
        rw [hs, ok_map] at h1
        rw [show OrdinalSet64.extendLoop c (J 0) s (x :: xs) = OrdinalSet64.extendLoop c (J 0) (s ||| w) xs by
          simp only [OrdinalSet64.extendLoop, ho, hs, ok_bind], ← ih (s ||| w)]
        have : forBody c (("Self", .con "OrdinalSet64") :: setTys S) (out c J S (n + 1)) .run
          [("set", h.length + 1), ("iter", h.length)]
          (.path ["ordinal"]) (.semi (.assignOp .or (.field (.path [⟨"set", .nil⟩]) "set")
            (.bin .shl (.num 1 "") (.method (.path [⟨"ordinal", .nil⟩]) "ordinal" .nil .nil))) .nil)
          (.usr 0 x) (h ++ [v, set64Val s]) = Res.val .unit (h ++ [v, set64Val (s ||| w)]) := by
          runs [forBody, set64Val, wordVal, ho, outside_par_self, outside_par_ordinal, h1, get_cons, set_cons]
        rw [this]
        rfl

theorem set64_fromIter (n : Nat) (xs : List (P 0)) :
    (out c J S (n + 4)).call (.con "OrdinalSet64") "from_iter" [.arr (xs.map (.usr 0 ·))] h =
      (fun s => (set64Val s, h)) <$> OrdinalSet64.fromIter c (J 0) xs := by
  refine (outside_call (d := set64Fn9_0) (n + 3) _ _ rfl rfl).trans ?_
  cases hn : OrdinalSet64.new (J 0) with
  | error f => runs [set64Fn9_0, set64_new, OrdinalSet64.fromIter, hn]
  | ok s =>
    have h1 := set64_extend (c := c) (J := J) (S := S) (h := h) (n + 2) rfl (.arr (xs.map (.usr 0 ·))) xs s
    simp only [set64Val, phantom] at h1
    cases he : OrdinalSet64.extendLoop c (J 0) s xs <;>
    runs [set64Fn9_0, set64_new, OrdinalSet64.fromIter, hn, set64Val, iterate, h1, he]

end OrdinalMap.Text
