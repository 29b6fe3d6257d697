import Verif.Text.SetValues
/-!
# `set/set_ref.rs`, `set/set_mut.rs` and `ordinal_array_set_s`, run from their text
-/

namespace OrdinalMap.Text

variable {P : Nat → Type} {c : Cfg} {J : (p : Nat) → OrdinalImpl (P p)} {S : Nat} {h : Heap P} {a : Nat} {ps : List Proj}

/-! ## Words -/

/-- `u64::BITS as usize` -/
@[text] theorem bits64 : 64 % 2 ^ c.bits = 64 := by
  rcases c.bits_ok with h | h <;> simp [h]

@[text] theorem bne_word (w : BitVec 64) : (w != 0#64) = (w.toNat != 0) := by
  rw [Bool.eq_iff_iff, bne_iff_ne, bne_iff_ne, Ne, Ne, ← BitVec.toNat_inj]
  rfl

/-- `1 << s` -/
theorem shl_word (md : Mode) (s : Nat) (hs : s < 64) : shlOp (P := P) c md .w64 1 s = .ok (wordVal (1#64 <<< s)) := by
  simp [shlOp, W.bits, hs, wordVal, Nat.shiftLeft_eq]

theorem array_s (n : Nat) : (out c J S (n + 2)).free "ordinal_array_set_s" [] h =
    (fun k => (.uint .size k, h)) <$> ordinalArraySetS (J 0) := by
  refine (outside_free (d := setArrayFn0_0) (n + 1) _ _ rfl).trans ?_
  cases hs : (J 0).size <;> runs [setArrayFn0_0, outside_par_const, ordinalArraySetS, hs, divCeil]

/-! ## `OrdinalSetRef` -/

@[text] theorem struct_setRef : (out c J S (n + 1)).struct "OrdinalSetRef" =
    some [("words", .ref false (.slice (.path ["u64"] .nil))),
      ("_phantom", .path ["PhantomData"] (.cons (.path ["T"] .nil) .nil))] := rfl

theorem setRef_new (n : Nat) (ws : List (BitVec 64)) (hs : (J 0).size = .ok m) :
    (out c J S (n + 3)).call (.con "OrdinalSetRef") "new" [.ref (wordsVal ws)] h =
      (fun s => (setRefVal s, h)) <$> SetRef.new c (J 0) ws := by
  refine (outside_call (d := setRefFn1_1) (n + 2) _ _ rfl rfl).trans ?_
  cases hd : c.debugAssertions
  · runs [setRefFn1_1, SetRef.new, debugAssert, hd, setRefVal, wordsVal, ordinalArraySetS, hs]
  · by_cases h0 : ws = []
    · subst h0
      runs [setRefFn1_1, SetRef.new, debugAssert, hd, setRefVal, wordsVal, array_s, ordinalArraySetS, hs]
    · have h0 : (ws.length == 0) = false := by simpa using h0
      cases hk : (ws.length == divCeil m 64) <;>
      (runs [setRefFn1_1, SetRef.new, debugAssert, hd, setRefVal, wordsVal, array_s, ordinalArraySetS, hs, h0, hk]; simp_all)

theorem setRef_contains (n : Nat) (ws : SetRef) (x : P 0) :
    (out c J S (n + 2)).call (.con "OrdinalSetRef") "contains" [.ref (setRefVal ws), .ref (.usr 0 x)] h =
      (fun b => (.bool b, h)) <$> SetRef.contains c (J 0) ws x := by
  refine (outside_call (d := setRefFn1_2) (n + 1) _ _ rfl rfl).trans ?_
  cases ho : (J 0).ordinal x with
  | error f => runs [setRefFn1_2, SetRef.contains, ho, setRefVal, wordsVal, outside_par_self, outside_par_ordinal]
  | ok k =>
    have hm : k % 64 < 64 := Nat.mod_lt _ (by omega)
    cases hw : ws[k / 64]? <;>
    runs [setRefFn1_2, SetRef.contains, ho, setRefVal, wordsVal, outside_par_self, outside_par_ordinal, hw, hm, wordVal, shl64, Nat.shiftLeft_eq]

theorem setRef_clone (n : Nat) (ws : SetRef) :
    (out c J S (n + 2)).call (.con "OrdinalSetRef") "clone" [.ref (setRefVal ws)] h = .ok (setRefVal ws, h) := by
  refine (outside_call (d := setRefFn2_0) (n + 1) _ _ rfl rfl).trans ?_
  runs [setRefFn2_0, setRefVal, wordsVal]

/-! ## `OrdinalSetMut` -/

/-- `OrdinalSetMut<T>`: the words are at another place. -/
def setMutVal (b : Nat) (qs : List Proj) : Val P := .obj "OrdinalSetMut" [("words", .mref b qs), phantom]

/-- There are words at a place, and they can be replaced by as many words. -/
structure Words (h : Heap P) (b : Nat) (qs : List Proj) (ws : List (BitVec 64)) (after : List (BitVec 64) → Heap P) : Prop where
  get : Loc.get .run h (.heap b qs) = .ok (wordsVal ws)
  set : ∀ us, us.length = ws.length → Loc.set .run h (wordsVal us) (.heap b qs) = .ok (after us)
  lt : b < h.length
  len : ∀ us, us.length = ws.length → (after us).length = h.length

theorem Words.append {b : Nat} {qs : List Proj} {ws : List (BitVec 64)} {after : List (BitVec 64) → Heap P}
    (hw : Words h b qs ws after) (xs : Heap P) : Words (h ++ xs) b qs ws (fun us => after us ++ xs) :=
  ⟨(get_base hw.lt).trans hw.get, fun us hu => by rw [set_base hw.lt, hw.set us hu]; rfl,
    by have := hw.lt; simp; omega, fun us hu => by simp [hw.len us hu]⟩

@[text] theorem struct_setMut : (out c J S (n + 1)).struct "OrdinalSetMut" =
    some [("words", .ref true (.slice (.path ["u64"] .nil))),
      ("_phantom", .path ["PhantomData"] (.cons (.path ["T"] .nil) .nil))] := rfl

section
variable {b : Nat} {qs : List Proj} {ws : List (BitVec 64)} {after : List (BitVec 64) → Heap P}

theorem setMut_new (n : Nat) (hw : Words h b qs ws after) (hs : (J 0).size = .ok m) :
    (out c J S (n + 3)).call (.con "OrdinalSetMut") "new" [.mref b qs] h =
      (fun _ => (setMutVal b qs, h)) <$> SetMut.new c (J 0) ws := by
  refine (outside_call (d := setMutFn1_0) (n + 2) _ _ rfl rfl).trans ?_
  cases hd : c.debugAssertions
  · runs [setMutFn1_0, SetMut.new, debugAssert, hd, setMutVal, wordsVal, ordinalArraySetS, hs, hw.lt, hw.get]
  · cases hk : (ws.length == divCeil m 64) <;>
    (runs [setMutFn1_0, SetMut.new, debugAssert, hd, setMutVal, wordsVal, array_s, ordinalArraySetS, hs, hk, hw.lt, hw.get]; simp_all)

/-- `&mut [u64]` is reborrowed as `&[u64]`. -/
theorem setRef_new_mut (n : Nat) (hw : Words h b qs ws after) (hs : (J 0).size = .ok m) :
    (out c J S (n + 3)).call (.con "OrdinalSetRef") "new" [.mref b qs] h =
      (fun s => (setRefVal s, h)) <$> SetRef.new c (J 0) ws := by
  refine Eq.trans ?_ (setRef_new (S := S) n ws hs)
  rw [outside_call (d := setRefFn1_1) (n + 2) _ _ rfl rfl, outside_call (d := setRefFn1_1) (n + 2) _ _ rfl rfl]
  runs [setRefFn1_1, hw.get]

theorem setMut_asRef (n : Nat) (hw : Words h b qs ws after) (hs : (J 0).size = .ok m) :
    (out c J S (n + 4)).call (.con "OrdinalSetMut") "as_ref" [.ref (setMutVal b qs)] h =
      (fun s => (setRefVal s, h)) <$> SetRef.new c (J 0) ws := by
  refine (outside_call (d := setMutFn1_1) (n + 3) _ _ rfl rfl).trans ?_
  have := setRef_new_mut (c := c) (J := J) (S := S) n (hw.append [.ref (setMutVal b qs)]) hs
  simp only [setMutVal, phantom] at this
  runs [setMutFn1_1, setMutVal, hw.lt, hw.get, this]
  cases SetRef.new c (J 0) ws <;> runs []

@[text] theorem self_setMut_asRef : (out c J S (n + 1)).self (.con "OrdinalSetMut") "as_ref" = some .ref := rfl
@[text] theorem self_setRef_contains : (out c J S (n + 1)).self (.con "OrdinalSetRef") "contains" = some .ref := rfl

theorem setMut_insert (n : Nat) (hp : Place h a ps (setMutVal b qs)) (hw : Words h b qs ws after) (hs : (J 0).size = .ok m) (x : P 0) :
    (out c J S (n + 5)).call (.con "OrdinalSetMut") "insert" [.mref a ps, .usr 0 x] h =
      (fun r => (.bool r.1, after r.2)) <$> SetMut.insert c (J 0) ws x := by
  refine (outside_call (d := setMutFn1_2) (n + 4) _ _ rfl rfl).trans ?_
  have h1 := setMut_asRef (c := c) (J := J) (S := S) n (hw.append [.mref a ps, .usr 0 x]) hs
  have h2 := setRef_contains (c := c) (J := J) (S := S) (h := h ++ [.mref a ps, .usr 0 x]) (n + 2) ws x
  simp only [setMutVal, phantom] at h1
  have hl := hp.lt
  cases hr : SetRef.new c (J 0) ws with
  | error f => runs [setMutFn1_2, SetMut.insert, setMutVal, hw.lt, hw.get, hl, hp.get, h1, hr]
  | ok s =>
    have : s = ws := by
      simp only [SetRef.new, ordinalArraySetS, hs, ok_bind, debugAssert] at hr
      split at hr <;> simp_all
    subst this
    simp only [setRefVal, phantom] at h1 h2
    cases hc : SetRef.contains c (J 0) s x with
    | error f => runs [setMutFn1_2, SetMut.insert, setMutVal, hw.lt, hw.get, hl, hp.get, h1, h2, hr, hc]
    | ok prev =>
      cases ho : (J 0).ordinal x with
      | error f => simp [SetRef.contains, ho] at hc
      | ok k =>
        have hm : k % 64 < 64 := Nat.mod_lt _ (by omega)
        simp only [wordsVal] at h1 h2
        cases hg : s[k / 64]? with
        | none => runs [setMutFn1_2, SetMut.insert, setMutVal, hw.lt, hw.get, hl, hp.get, h1, h2, hr, hc, ho, outside_par_self, outside_par_ordinal, hm, shl64, Nat.shiftLeft_eq, wordsVal, hg, getIdx, get_append]
        | some w => 
          have := hw.set (s.set (k / 64) (w ||| 1#64 <<< (k % 64))) (by simp)
          have hn := hw.len (s.set (k / 64) (w ||| 1#64 <<< (k % 64))) (by simp)
          obtain ⟨hi, he⟩ := List.getElem?_eq_some_iff.mp hg
          simp [wordsVal, List.map_set, wordVal, Nat.shiftLeft_eq] at this
          runs [setMutFn1_2, SetMut.insert, setMutVal, hw.lt, hw.get, hl, hp.get, h1, h2, hr, hc, ho, outside_par_self, outside_par_ordinal, hm, shl64, Nat.shiftLeft_eq, wordsVal, hg, getIdx, setIdx, get_append, set_append, wordVal, this, hi, he, hn]

end

end OrdinalMap.Text
