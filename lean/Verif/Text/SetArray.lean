import Verif.Text.SetMain
/-!
# `set/array.rs`, run from its text
-/

namespace OrdinalMap.Text

variable {P : Nat → Type} {c : Cfg} {J : (p : Nat) → OrdinalImpl (P p)} {S : Nat} {h : Heap P} {a : Nat} {ps : List Proj}

@[text] theorem struct_arraySet : (out c J S (n + 1)).struct "OrdinalArraySet" =
    some [("words", .arr (.path ["u64"] .nil) "S"), ("_phantom", .path ["PhantomData"] (.cons (.path ["T"] .nil) .nil))] := rfl
@[text] theorem self_arraySet_asRef : (out c J S (n + 1)).self (.con "OrdinalArraySet") "as_ref" = some .ref := rfl
@[text] theorem self_arraySet_asMut : (out c J S (n + 1)).self (.con "OrdinalArraySet") "as_mut" = some .refMut := rfl
@[text] theorem self_arraySet_insert : (out c J S (n + 1)).self (.con "OrdinalArraySet") "insert" = some .refMut := rfl

theorem arraySet_assert (n : Nat) : (out c J S (n + 3)).const (.con "OrdinalArraySet") "ASSERT" =
    (fun _ => .unit) <$> OrdinalArraySet.assertS (J 0) S := by
  refine (outside_const (ty := .tuple .nil) (e := setArrayConst2_0) (n + 2) rfl rfl).trans ?_
  cases hs : ordinalArraySetS (J 0) with
  | error f => runs [setArrayConst2_0, array_s, OrdinalArraySet.assertS, hs]
  | ok k =>
    cases hk : (S == k) <;> (runs [setArrayConst2_0, array_s, OrdinalArraySet.assertS, hs, hk, constAssert]; simp_all)

theorem arraySet_default (n : Nat) : (out c J S (n + 2)).call (.con "OrdinalArraySet") "default" [] h =
    (fun s => (arraySetVal s, h)) <$> OrdinalArraySet.default S := by
  refine (outside_call (d := setArrayFn3_0) (n + 1) _ _ rfl rfl).trans ?_
  runs [setArrayFn3_0, OrdinalArraySet.default, arraySetVal, wordsVal, wordVal]

theorem arraySet_new (n : Nat) : (out c J S (n + 4)).call (.con "OrdinalArraySet") "new" [] h =
    (fun s => (arraySetVal s, h)) <$> OrdinalArraySet.new (J 0) S := by
  refine (outside_call (d := setArrayFn2_0) (n + 3) _ _ rfl rfl).trans ?_
  cases ha : OrdinalArraySet.assertS (J 0) S <;> cases hd : OrdinalArraySet.default S <;>
  runs [setArrayFn2_0, arraySet_assert, arraySet_default, OrdinalArraySet.new, ha, hd, arraySetVal]

theorem arraySet_asRef (n : Nat) (s : OrdinalArraySet) (hs : (J 0).size = .ok m) :
    (out c J S (n + 4)).call (.con "OrdinalArraySet") "as_ref" [.ref (arraySetVal s)] h =
      (fun r => (setRefVal r, h)) <$> OrdinalArraySet.asRef c (J 0) S s := by
  refine (outside_call (d := setArrayFn2_1) (n + 3) _ _ rfl rfl).trans ?_
  have h1 := setRef_new (c := c) (J := J) (S := S) (h := h ++ [.ref (arraySetVal s)]) n s hs
  simp only [arraySetVal, phantom] at h1
  cases ha : OrdinalArraySet.assertS (J 0) S <;> cases hr : SetRef.new c (J 0) s <;>
  runs [setArrayFn2_1, arraySet_assert, OrdinalArraySet.asRef, ha, hr, arraySetVal, h1, setRefVal]

theorem arraySet_words {s : OrdinalArraySet} (hp : Place h a ps (arraySetVal s)) :
    Words h a (ps ++ [.field "words"]) s (fun us => put h a ps (arraySetVal us)) := by
  have hq : Place h a (ps ++ [.field "words"]) (wordsVal s) :=
    hp.sub (by simp [arraySetVal, getPath, part, findField]) (by simp)
  have hw := words_place hq
  have hput (u : List (BitVec 64)) : put h a (ps ++ [.field "words"]) (wordsVal u) = put h a ps (arraySetVal u) :=
    hp.put_sub (by simp [arraySetVal, setPath, part, findField, setPart, setField])
  simpa only [hput] using hw

theorem arraySet_asMut (n : Nat) {s : OrdinalArraySet} (hp : Place h a ps (arraySetVal s)) (hs : (J 0).size = .ok m) :
    (out c J S (n + 4)).call (.con "OrdinalArraySet") "as_mut" [.mref a ps] h =
      (fun _ => (setMutVal a (ps ++ [.field "words"]), h)) <$> OrdinalArraySet.asMut c (J 0) S s := by
  refine (outside_call (d := setArrayFn2_2) (n + 3) _ _ rfl rfl).trans ?_
  have h1 := setMut_new (c := c) (J := J) (S := S) n ((arraySet_words hp).append [.mref a ps]) hs
  have hl := hp.lt
  have hq : Place h a (ps ++ [.field "words"]) (wordsVal s) :=
    hp.sub (by simp [arraySetVal, getPath, part, findField]) (by simp)
  simp only [setMutVal, phantom] at h1
  cases ha : OrdinalArraySet.assertS (J 0) S <;> cases hr : SetMut.new c (J 0) s <;>
  runs [setArrayFn2_2, arraySet_assert, OrdinalArraySet.asMut, ha, hr, arraySetVal, h1, setMutVal, hl, hp.get, hq.get]

theorem arraySet_contains (n : Nat) (s : OrdinalArraySet) (x : P 0) (hs : (J 0).size = .ok m) :
    (out c J S (n + 5)).call (.con "OrdinalArraySet") "contains" [.ref (arraySetVal s), .ref (.usr 0 x)] h =
      (fun b => (.bool b, h)) <$> OrdinalArraySet.contains c (J 0) S s x := by
  refine (outside_call (d := setArrayFn2_3) (n + 4) _ _ rfl rfl).trans ?_
  have h1 := arraySet_asRef (c := c) (J := J) (S := S) (h := h ++ [.ref (arraySetVal s), .ref (.usr 0 x)]) n s hs
  simp only [arraySetVal, phantom] at h1
  cases hr : OrdinalArraySet.asRef c (J 0) S s with
  | error f => runs [setArrayFn2_3, OrdinalArraySet.contains, arraySetVal, h1, hr]
  | ok r =>
    have h2 := setRef_contains (c := c) (J := J) (S := S) (h := h ++ [.ref (arraySetVal s), .ref (.usr 0 x)]) (n + 2) r x
    simp only [arraySetVal, setRefVal, phantom] at h2
    cases hc : SetRef.contains c (J 0) r x <;> runs [setArrayFn2_3, OrdinalArraySet.contains, arraySetVal, setRefVal, h1, h2, hr, hc]

theorem arraySet_insert (n : Nat) {s : OrdinalArraySet} (hp : Place h a ps (arraySetVal s)) (x : P 0) (hs : (J 0).size = .ok m) :
    (out c J S (n + 6)).call (.con "OrdinalArraySet") "insert" [.mref a ps, .usr 0 x] h =
      (fun r => (.bool r.1, put h a ps (arraySetVal r.2))) <$> OrdinalArraySet.insert c (J 0) S s x := by
  refine (outside_call (d := setArrayFn2_4) (n + 5) _ _ rfl rfl).trans ?_
  have hl := hp.lt
  have h1 := arraySet_asMut (c := c) (J := J) (S := S) (n + 1) (hp.append [.mref a ps, .usr 0 x]) hs
  simp only [setMutVal, phantom] at h1
  cases hn : OrdinalArraySet.asMut c (J 0) S s with
  | error f => runs [setArrayFn2_4, OrdinalArraySet.insert, arraySetVal, hl, hp.get, h1, hn]
  | ok us =>
    have : us = s := by
      simp only [OrdinalArraySet.asMut] at hn
      cases ha : OrdinalArraySet.assertS (J 0) S with
      | error f => simp [ha] at hn
      | ok u =>
        rw [ha, ok_bind] at hn
        exact setMut_new_eq hn
    subst this
    have h2 := setMut_insert (c := c) (J := J) (S := S) (a := h.length + 2) (ps := []) n (place_var (by simp))
      ((arraySet_words hp).append [.mref a ps, .usr 0 x, setMutVal a (ps ++ [.field "words"])]) hs x
    simp only [setMutVal, phantom] at h2
    cases hi : SetMut.insert c (J 0) us x with
    | error f => runs [setArrayFn2_4, OrdinalArraySet.insert, arraySetVal, hl, hp.get, h1, hn, h2, hi]
    | ok r =>
      obtain ⟨b, vs⟩ := r
      have hlen := hp.len (arraySetVal vs)
      generalize hh : put h a ps (arraySetVal vs) = h' at *
      simp only [hi, ok_map, hh] at h2
      simp only [arraySetVal, phantom] at hh
      runs [setArrayFn2_4, OrdinalArraySet.insert, arraySetVal, hl, hp.get, h1, hn, h2, hi, hh, hlen]

/-- The loop in `from_iter`. -/
theorem arraySet_extend {te : TyEnv} (n : Nat) (hs : (J 0).size = .ok m) (ht : te = ("Self", .con "OrdinalArraySet") :: setTys S)
    (v : Val P) (xs : List (P 0)) : ∀ s : OrdinalArraySet,
      forLoop (forBody c te (out c J S (n + 6)) .run [("set", h.length + 1), ("iter", h.length)]
      (.path ["value"]) (.semi (.method (.path [⟨"set", .nil⟩]) "insert" .nil (.cons (.path [⟨"value", .nil⟩]) .nil)) .nil))
      (xs.map (.usr 0 ·)) (h ++ [v, arraySetVal s]) =
      lift (OrdinalArraySet.extendLoop c (J 0) S s xs) fun s => Res.val .unit (h ++ [v, arraySetVal s]) := by
  subst ht
  induction xs with
  | nil => intro s; rfl
  | cons x xs ih =>
    intro s
    have hp : Place (h ++ [v, arraySetVal s, .usr 0 x]) (h.length + 1) [] (arraySetVal s) := place_var (by simp)
    have h1 := arraySet_insert (c := c) (J := J) (S := S) n hp x hs
    have hq (u : Val P) : put (h ++ [v, arraySetVal s, .usr 0 x]) (h.length + 1) [] u = h ++ [v, u, .usr 0 x] := by
      rw [put_var (by simp), set_fresh rfl]
      rfl
    simp only [hq] at h1
    simp only [arraySetVal, phantom] at h1
    rw [List.map_cons, forLoop]
    cases hi : OrdinalArraySet.insert c (J 0) S s x with
    | error f =>
      rw [show OrdinalArraySet.extendLoop c (J 0) S s (x :: xs) = .error f by simp [OrdinalArraySet.extendLoop, hi]]
      runs [forBody, arraySetVal, h1, hi]
    | ok r =>
      obtain ⟨b, s'⟩ := r
      rw [show OrdinalArraySet.extendLoop c (J 0) S s (x :: xs) = OrdinalArraySet.extendLoop c (J 0) S s' xs by
        simp [OrdinalArraySet.extendLoop, hi], ← ih s']
      have : forBody c (("Self", .con "OrdinalArraySet") :: setTys S) (out c J S (n + 6)) .run
        [("set", h.length + 1), ("iter", h.length)]
        (.path ["value"]) (.semi (.method (.path [⟨"set", .nil⟩]) "insert" .nil (.cons (.path [⟨"value", .nil⟩]) .nil)) .nil)
        (.usr 0 x) (h ++ [v, arraySetVal s]) = Res.val .unit (h ++ [v, arraySetVal s']) := by
        runs [forBody, arraySetVal, h1, hi]
      rw [this]
      rfl

theorem arraySet_fromIter (n : Nat) (xs : List (P 0)) (hs : (J 0).size = .ok m) :
    (out c J S (n + 7)).call (.con "OrdinalArraySet") "from_iter" [.arr (xs.map (.usr 0 ·))] h =
      (fun s => (arraySetVal s, h)) <$> OrdinalArraySet.fromIter c (J 0) S xs := by
  refine (outside_call (d := setArrayFn4_0) (n + 6) _ _ rfl rfl).trans ?_
  cases hn : OrdinalArraySet.new (J 0) S with
  | error f => runs [setArrayFn4_0, arraySet_new, OrdinalArraySet.fromIter, hn]
  | ok s =>
    have h1 := arraySet_extend (c := c) (J := J) (S := S) (h := h) n hs rfl (.arr (xs.map (.usr 0 ·))) xs s
    simp only [arraySetVal, phantom] at h1
    cases he : OrdinalArraySet.extendLoop c (J 0) S s xs <;>
    runs [setArrayFn4_0, arraySet_new, OrdinalArraySet.fromIter, hn, arraySetVal, iterate, h1, he]

theorem arraySet_clone (n : Nat) (s : OrdinalArraySet) :
    (out c J S (n + 2)).call (.con "OrdinalArraySet") "clone" [.ref (arraySetVal s)] h = .ok (arraySetVal s.clone, h) := by
  refine (outside_call (d := setArrayFn5_0) (n + 1) _ _ rfl rfl).trans ?_
  runs [setArrayFn5_0, arraySetVal, wordsVal, OrdinalArraySet.clone]

end OrdinalMap.Text
