import Verif.Text.SetIter
/-!
# `set/set.rs`, run from its text
-/

namespace OrdinalMap.Text

variable {P : Nat → Type} {c : Cfg} {J : (p : Nat) → OrdinalImpl (P p)} {S : Nat} {h : Heap P} {a : Nat} {ps : List Proj}

/-! ## Words that belong to a set -/

theorem words_place {ws : List (BitVec 64)} (hp : Place h a ps (wordsVal ws)) :
    Words h a ps ws (fun us => put h a ps (wordsVal us)) :=
  ⟨hp.get, fun _ _ => hp.set _, hp.lt, fun _ _ => hp.len _⟩

/-- A word as a slice. -/
theorem words_single {w : BitVec 64} (hp : Place h a ps (wordVal w)) :
    Words h a (ps ++ [.single]) [w] (fun us => put h a ps (wordVal (us.headD 0))) := by
  refine ⟨?_, fun us hu => ?_, hp.lt, fun us _ => hp.len _⟩
  · rw [get_append, hp.get]
    rfl
  · match us, hu with
    | [u], _ =>
      rw [set_append, hp.get]
      simp [setPath, part, setPart, wordsVal, hp.set]

theorem setMut_insert_len {I : OrdinalImpl (P 0)} {ws us : List (BitVec 64)} {x : P 0} {b : Bool}
    (hi : SetMut.insert c I ws x = .ok (b, us)) : us.length = ws.length := by
  simp only [SetMut.insert] at hi
  cases h1 : SetRef.new c I ws with
  | error f => simp [h1] at hi
  | ok r => cases h2 : SetRef.contains c I r x with
    | error f => simp [h1, h2] at hi
    | ok p => cases h3 : I.ordinal x with
      | error f => simp [h1, h2, h3] at hi
      | ok k => cases h4 : shl64 c 1 (k % 64) with
        | error f => simp only [h1, h2, h3, h4, ok_bind, error_bind, reduceCtorEq] at hi
        | ok m => cases h5 : getIdx ws (k / 64) with
          | error f => simp only [h1, h2, h3, h4, h5, ok_bind, error_bind, reduceCtorEq] at hi
          | ok w =>
            simp only [h1, h2, h3, h4, h5, ok_bind, setIdx] at hi
            split at hi
            · simp at hi
              simp [← hi.2]
            · simp at hi

theorem setMut_new_eq {I : OrdinalImpl (P 0)} {ws us : List (BitVec 64)} (hn : SetMut.new c I ws = .ok us) : us = ws := by
  simp only [SetMut.new] at hn
  cases h1 : ordinalArraySetS I with
  | error f => simp [h1] at hn
  | ok k =>
    simp only [h1, ok_bind, debugAssert] at hn
    split at hn <;> simp_all

/-! ## `OrdinalSet` -/

@[text] theorem struct_set : (out c J S (n + 1)).struct "OrdinalSet" =
    some [("set", .path ["SetImpl"] .nil), ("_phantom", .path ["PhantomData"] (.cons (.path ["T"] .nil) .nil))] := rfl
@[text] theorem variant_small : (out c J S (n + 1)).variant "SetImpl" "Small" = some (.cons (.path ["u64"] .nil) .nil) := rfl
@[text] theorem variant_large : (out c J S (n + 1)).variant "SetImpl" "Large" =
    some (.cons (.path ["Box"] (.cons (.slice (.path ["u64"] .nil)) .nil)) .nil) := rfl
@[text] theorem self_set_asRef : (out c J S (n + 1)).self (.con "OrdinalSet") "as_ref" = some .ref := rfl
@[text] theorem self_set_insert : (out c J S (n + 1)).self (.con "OrdinalSet") "insert" = some .refMut := rfl
@[text] theorem self_setMut_insert : (out c J S (n + 1)).self (.con "OrdinalSetMut") "insert" = some .refMut := rfl
@[text] theorem self_setRef_iter : (out c J S (n + 1)).self (.con "OrdinalSetRef") "iter" = some .value := rfl

theorem set_isSmall (n : Nat) : (out c J S (n + 2)).const (.con "OrdinalSet") "IS_SMALL" =
    (.bool ·) <$> OrdinalSet.isSmall (J 0) := by
  refine (outside_const (ty := .path ["bool"] .nil) (e := setConst2_0) (n + 1) rfl rfl).trans ?_
  cases hs : (J 0).size <;> runs [setConst2_0, outside_par_const, OrdinalSet.isSmall, hs]

theorem set_new (n : Nat) : (out c J S (n + 3)).call (.con "OrdinalSet") "new" [] h =
    (fun s => (setVal s, h)) <$> OrdinalSet.new (J 0) := by
  refine (outside_call (d := setFn2_0) (n + 2) _ _ rfl rfl).trans ?_
  cases hs : OrdinalSet.isSmall (J 0) with
  | error f => runs [setFn2_0, set_isSmall, OrdinalSet.new, hs]
  | ok b => cases b <;> runs [setFn2_0, set_isSmall, OrdinalSet.new, hs, setVal, wordVal, wordsVal]

theorem set_default (n : Nat) : (out c J S (n + 4)).call (.con "OrdinalSet") "default" [] h =
    (fun s => (setVal s, h)) <$> OrdinalSet.default (J 0) := by
  refine (outside_call (d := setFn3_0) (n + 3) _ _ rfl rfl).trans ?_
  cases hs : OrdinalSet.new (J 0) <;> runs [setFn3_0, set_new, OrdinalSet.default, hs, setVal]

theorem set_asRef (n : Nat) (s : OrdinalSet) (hs : (J 0).size = .ok m) :
    (out c J S (n + 4)).call (.con "OrdinalSet") "as_ref" [.ref (setVal s)] h =
      (fun r => (setRefVal r, h)) <$> OrdinalSet.asRef c (J 0) s := by
  refine (outside_call (d := setFn2_1) (n + 3) _ _ rfl rfl).trans ?_
  cases hb : OrdinalSet.isSmall (J 0) with
  | error f => runs [setFn2_1, set_isSmall, OrdinalSet.asRef, hb]
  | ok b => cases s with
    | small w =>
      have := setRef_new (c := c) (J := J) (S := S) (h := h ++ [.ref (setVal (.small w)), .ref (wordVal w)]) n [w] hs
      simp only [setVal, wordVal, wordsVal, phantom, List.map] at this
      cases b
      · runs [setFn2_1, set_isSmall, OrdinalSet.asRef, hb, setVal, wordVal]
      · cases hm : SetRef.new c (J 0) [w] <;>
        runs [setFn2_1, set_isSmall, OrdinalSet.asRef, hb, setVal, wordVal, this, hm, setRefVal]
    | large ws =>
      have := setRef_new (c := c) (J := J) (S := S) (h := h ++ [.ref (setVal (.large ws)), .ref (wordsVal ws)]) n ws hs
      simp only [setVal, wordsVal, phantom] at this
      cases b
      · cases hm : SetRef.new c (J 0) ws <;>
        runs [setFn2_1, set_isSmall, OrdinalSet.asRef, hb, setVal, wordsVal, this, hm, setRefVal]
      · runs [setFn2_1, set_isSmall, OrdinalSet.asRef, hb, setVal]

theorem set_contains (n : Nat) (s : OrdinalSet) (x : P 0) (hs : (J 0).size = .ok m) :
    (out c J S (n + 5)).call (.con "OrdinalSet") "contains" [.ref (setVal s), .ref (.usr 0 x)] h =
      (fun b => (.bool b, h)) <$> OrdinalSet.contains c (J 0) s x := by
  refine (outside_call (d := setFn2_2) (n + 4) _ _ rfl rfl).trans ?_
  have h1 := set_asRef (c := c) (J := J) (S := S) (h := h ++ [.ref (setVal s), .ref (.usr 0 x)]) n s hs
  simp only [setVal, phantom] at h1
  cases hr : OrdinalSet.asRef c (J 0) s with
  | error f => runs [setFn2_2, OrdinalSet.contains, setVal, h1, hr]
  | ok r =>
    have h2 := setRef_contains (c := c) (J := J) (S := S) (h := h ++ [.ref (setVal s), .ref (.usr 0 x)]) (n + 2) r x
    simp only [setVal, setRefVal, phantom] at h2
    cases hc : SetRef.contains c (J 0) r x <;> runs [setFn2_2, OrdinalSet.contains, setVal, setRefVal, h1, h2, hr, hc]

theorem set_iter (n : Nat) (s : OrdinalSet) (hs : (J 0).size = .ok m) :
    (out c J S (n + 6)).call (.con "OrdinalSet") "iter" [.ref (setVal s)] h =
      (fun b => (setIterVal b, h)) <$> OrdinalSet.iter c (J 0) s := by
  refine (outside_call (d := setFn2_4) (n + 5) _ _ rfl rfl).trans ?_
  have h1 := set_asRef (c := c) (J := J) (S := S) (h := h ++ [.ref (setVal s)]) (n + 1) s hs
  simp only [setVal, phantom] at h1
  cases hr : OrdinalSet.asRef c (J 0) s with
  | error f => runs [setFn2_4, OrdinalSet.iter, setVal, h1, hr]
  | ok r =>
    have h2 := setRef_iter (c := c) (J := J) (S := S) (h := h ++ [.ref (setVal s)]) n r
    simp only [setVal, setRefVal, phantom] at h2
    cases hc : SetRef.iter (J 0) r <;> runs [setFn2_4, OrdinalSet.iter, setVal, setRefVal, h1, h2, hr, hc, setIterVal]

theorem set_clone (n : Nat) (s : OrdinalSet) :
    (out c J S (n + 2)).call (.con "OrdinalSet") "clone" [.ref (setVal s)] h = .ok (setVal s.clone, h) := by
  refine (outside_call (d := setFn5_0) (n + 1) _ _ rfl rfl).trans ?_
  cases s <;> runs [setFn5_0, setVal, wordVal, wordsVal, OrdinalSet.clone, plain]

/-- `OrdinalSetMut::new(set).insert(ordinal)` in `insert`. -/
def largeTail : Ex := match setFn2_3.body with
  | .tail (.matchE _ (.cons _ _ (.cons _ (.block (.stmt _ (.tail e))) _))) => e
  | _ => .tuple .nil

theorem large_tail {te : TyEnv} (n : Nat) {ws : List (BitVec 64)} (hp : Place h a ps (setVal (.large ws))) (x : P 0)
    (hs : (J 0).size = .ok m) (ht : te = ("Self", .con "OrdinalSet") :: setTys S) (hk : h.length = k) :
    eval c te (out c J S (n + 5)) largeTail .run [("set", k + 2), ("ordinal", k + 1), ("self", k)]
      (h ++ [.mref a ps, .usr 0 x, .mref a (ps ++ [.field "set", .idx 0])]) =
      lift (do
        let ws ← SetMut.new c (J 0) ws
        SetMut.insert c (J 0) ws x) fun r => Res.val (.bool r.1) (put h a ps (setVal (.large r.2)) ++
          [.mref a ps, .usr 0 x, .mref a (ps ++ [.field "set", .idx 0])]) := by
  subst ht hk
  have hl := hp.lt
  have hq : Place h a (ps ++ [.field "set", .idx 0]) (wordsVal ws) :=
    hp.sub (by simp [setVal, getPath, part, findField]) (by simp)
  have hw := words_place hq
  have hput (u : List (BitVec 64)) : put h a (ps ++ [.field "set", .idx 0]) (wordsVal u) = put h a ps (setVal (.large u)) :=
    hp.put_sub (by simp [setVal, setPath, part, findField, setPart, setField])
  simp only [hput] at hw
  have h1 := setMut_new (c := c) (J := J) (S := S) (n + 2) (hw.append [.mref a ps, .usr 0 x, .mref a (ps ++ [.field "set", .idx 0])]) hs
  simp only [setMutVal, phantom] at h1
  cases hn : SetMut.new c (J 0) ws with
  | error f => runs [largeTail, setFn2_3, hl, hp.get, get_append, setVal, h1, hn]
  | ok us =>
    obtain rfl := setMut_new_eq hn
    have h2 := setMut_insert (c := c) (J := J) (S := S) (a := h.length + 3) (ps := []) n (place_var (by simp))
      (hw.append [.mref a ps, .usr 0 x, .mref a (ps ++ [.field "set", .idx 0]), setMutVal a (ps ++ [.field "set", .idx 0])]) hs x
    simp only [setMutVal, phantom] at h2
    cases hi : SetMut.insert c (J 0) us x with
    | error f => runs [largeTail, setFn2_3, hl, hp.get, get_append, setVal, h1, hn, h2, hi]
    | ok r =>
      obtain ⟨b, us⟩ := r
      have hlen := hp.len (setVal (.large us))
      generalize hh : put h a ps (setVal (.large us)) = h' at *
      simp only [hi, ok_map, hh] at h2
      simp only [setVal, phantom] at hh
      runs [largeTail, setFn2_3, hl, hp.get, get_append, setVal, h1, hn, h2, hi, getIdx, hh, hlen]

set_option maxHeartbeats 1000000 in
theorem set_insert (n : Nat) {s : OrdinalSet} (hp : Place h a ps (setVal s)) (x : P 0) (hs : (J 0).size = .ok m) :
    (out c J S (n + 6)).call (.con "OrdinalSet") "insert" [.mref a ps, .usr 0 x] h =
      (fun r => (.bool r.1, put h a ps (setVal r.2))) <$> OrdinalSet.insert c (J 0) s x := by
  refine (outside_call (d := setFn2_3) (n + 5) _ _ rfl rfl).trans ?_
  have hl := hp.lt
  cases hb : OrdinalSet.isSmall (J 0) with
  | error f => runs [setFn2_3, set_isSmall, OrdinalSet.insert, hb]
  | ok b => cases s with
    | small w =>
      cases b
      · runs [setFn2_3, set_isSmall, OrdinalSet.insert, hb, hl, hp.get, get_append, setVal]
      · have hq : Place h a (ps ++ [.field "set", .idx 0]) (wordVal w) :=
          hp.sub (by simp [setVal, getPath, part, findField]) (by simp)
        have hw := words_single hq
        have hput (u : BitVec 64) : put h a (ps ++ [.field "set", .idx 0]) (wordVal u) = put h a ps (setVal (.small u)) :=
          hp.put_sub (by simp [setVal, setPath, part, findField, setPart, setField])
        simp only [hput] at hw
        have h1 := setMut_new (c := c) (J := J) (S := S) (n + 2) (hw.append [.mref a ps, .usr 0 x, .mref a (ps ++ [.field "set", .idx 0])]) hs
        simp only [setMutVal, phantom, List.append_assoc, List.cons_append, List.nil_append] at h1
        cases hn : SetMut.new c (J 0) [w] with
        | error f => runs [setFn2_3, set_isSmall, OrdinalSet.insert, hb, hl, hp.get, get_append, setVal, h1, hn]
        | ok us =>
          obtain rfl := setMut_new_eq hn
          have h2 := setMut_insert (c := c) (J := J) (S := S) (a := h.length + 3) (ps := []) n (place_var (by simp))
            (hw.append [.mref a ps, .usr 0 x, .mref a (ps ++ [.field "set", .idx 0]), setMutVal a (ps ++ [.field "set", .idx 0] ++ [.single])]) hs x
          simp only [setMutVal, phantom, List.append_assoc, List.cons_append, List.nil_append] at h2
          cases hi : SetMut.insert c (J 0) [w] x with
          | error f => runs [setFn2_3, set_isSmall, OrdinalSet.insert, hb, hl, hp.get, get_append, setVal, h1, hn, h2, hi]
          | ok r =>
            obtain ⟨b, us⟩ := r
            match us, setMut_insert_len hi with
            | [u], _ =>
              have hlen := hp.len (setVal (.small u))
              generalize hh : put h a ps (setVal (.small u)) = h' at *
              simp only [hi, ok_map, List.headD_cons, hh] at h2
              simp only [setVal, phantom] at hh
              runs [setFn2_3, set_isSmall, OrdinalSet.insert, hb, hl, hp.get, get_append, setVal, h1, hn, h2, hi, getIdx, hh, hlen]
    | large ws =>
      cases b with
      | true => runs [setFn2_3, set_isSmall, OrdinalSet.insert, hb, hl, hp.get, get_append, setVal]
      | false =>
        by_cases he : ws = []
        · subst he
          by_cases hm : m + 64 < c.M
          · have ha : OrdinalSet.alloc c (J 0) [] = .ok (List.replicate ((m + 63) / 64) 0) := by
              simp [OrdinalSet.alloc, hs, checkedAdd, hm, unwrap, subU, divU]
            generalize hr : List.replicate ((m + 63) / 64) (0 : BitVec 64) = us at ha
            have hr' : List.replicate ((m + 63) / 64) (.uint .w64 0) = us.map (wordVal (P := P)) := by
              simp [← hr, wordVal]
            have hp' := hp.put_at (setVal (.large us))
            have hlen := hp.len (setVal (.large us))
            have h1 := large_tail (c := c) (J := J) (S := S) n hp' x hs rfl hlen
            simp only [hp.put_put, largeTail, setFn2_3] at h1
            generalize hh : put h a ps (setVal (.large us)) = h' at *
            simp only [setVal, wordsVal, phantom] at hh
            simp only [Cfg.M] at hm
            cases hn : SetMut.new c (J 0) us with
            | error f =>
              simp only [hn, error_bind, lift_err] at h1
              runs [setFn2_3, set_isSmall, OrdinalSet.insert, ha, hb, hl, hp.get, hp.set, get_append, set_append, setVal, wordsVal, hn, h1, outside_par_const, hs, hm, hr', hh, hlen]
            | ok vs => cases hi : SetMut.insert c (J 0) vs x with
              | error f =>
                simp only [hn, ok_bind, hi, lift_err] at h1
                runs [setFn2_3, set_isSmall, OrdinalSet.insert, ha, hb, hl, hp.get, hp.set, get_append, set_append, setVal, wordsVal, hn, hi, h1, outside_par_const, hs, hm, hr', hh, hlen]
              | ok r =>
                obtain ⟨b, vs⟩ := r
                have hlen' := hp.len (setVal (.large vs))
                simp only [hn, ok_bind, hi, lift_ok] at h1
                generalize hh' : put h a ps (setVal (.large vs)) = h'' at *
                simp only [setVal, wordsVal, phantom] at hh'
                runs [setFn2_3, set_isSmall, OrdinalSet.insert, ha, hb, hl, hp.get, hp.set, get_append, set_append, setVal, wordsVal, hn, hi, h1, outside_par_const, hs, hm, hr', hh, hlen, hh', hlen']
          · have ha : OrdinalSet.alloc c (J 0) [] = .error .panic := by
              simp [OrdinalSet.alloc, hs, checkedAdd, hm, unwrap]
            simp only [Cfg.M] at hm
            runs [setFn2_3, set_isSmall, OrdinalSet.insert, ha, hb, hl, hp.get, hp.set, get_append, set_append, setVal, wordsVal, outside_par_const, hs, hm]
        · have h1 := large_tail (c := c) (J := J) (S := S) n hp x hs rfl rfl
          have ha : OrdinalSet.alloc c (J 0) ws = .ok ws := by simp [OrdinalSet.alloc, he]
          have he : ws.isEmpty = false := by simpa using he
          simp only [largeTail, setFn2_3] at h1
          cases hn : SetMut.new c (J 0) ws with
          | error f =>
            simp only [hn, error_bind, lift_err] at h1
            runs [setFn2_3, set_isSmall, OrdinalSet.insert, ha, hb, hl, hp.get, get_append, setVal, wordsVal, hn, h1, he]
          | ok us => cases hi : SetMut.insert c (J 0) us x with
            | error f =>
              simp only [hn, ok_bind, hi, lift_err] at h1
              runs [setFn2_3, set_isSmall, OrdinalSet.insert, ha, hb, hl, hp.get, get_append, setVal, wordsVal, hn, h1, he, hi]
            | ok r =>
              obtain ⟨b, us⟩ := r
              have hlen := hp.len (setVal (.large us))
              simp only [hn, ok_bind, hi, lift_ok] at h1
              generalize hh : put h a ps (setVal (.large us)) = h' at *
              simp only [setVal, wordsVal, phantom] at hh
              runs [setFn2_3, set_isSmall, OrdinalSet.insert, ha, hb, hl, hp.get, get_append, setVal, wordsVal, hn, h1, he, hi, hh, hlen]

/-- The loop in `from_iter`. -/
theorem set_extend {te : TyEnv} (n : Nat) (hs : (J 0).size = .ok m) (ht : te = ("Self", .con "OrdinalSet") :: setTys S) (v : Val P)
    (xs : List (P 0)) : ∀ s : OrdinalSet, forLoop (forBody c te (out c J S (n + 6)) .run [("set", h.length + 1), ("iter", h.length)]
      (.path ["ordinal"]) (.semi (.method (.path [⟨"set", .nil⟩]) "insert" .nil (.cons (.path [⟨"ordinal", .nil⟩]) .nil)) .nil))
      (xs.map (.usr 0 ·)) (h ++ [v, setVal s]) =
      lift (OrdinalSet.extendLoop c (J 0) s xs) fun s => Res.val .unit (h ++ [v, setVal s]) := by
  subst ht
  induction xs with
  | nil => intro s; rfl
  | cons x xs ih =>
    intro s
    have hp : Place (h ++ [v, setVal s, .usr 0 x]) (h.length + 1) [] (setVal s) := place_var (by simp)
    have h1 := set_insert (c := c) (J := J) (S := S) n hp x hs
    have hq (u : Val P) : put (h ++ [v, setVal s, .usr 0 x]) (h.length + 1) [] u = h ++ [v, u, .usr 0 x] := by
      rw [put_var (by simp), set_fresh rfl]
      rfl
    simp only [hq] at h1
    simp only [setVal, phantom] at h1
    rw [List.map_cons, forLoop]
    cases hi : OrdinalSet.insert c (J 0) s x with
    | error f =>
      rw [show OrdinalSet.extendLoop c (J 0) s (x :: xs) = .error f by simp [OrdinalSet.extendLoop, hi]]
      runs [forBody, setVal, h1, hi]
    | ok r =>
      obtain ⟨b, s'⟩ := r
      rw [show OrdinalSet.extendLoop c (J 0) s (x :: xs) = OrdinalSet.extendLoop c (J 0) s' xs by
        simp [OrdinalSet.extendLoop, hi], ← ih s']
      have : forBody c (("Self", .con "OrdinalSet") :: setTys S) (out c J S (n + 6)) .run [("set", h.length + 1), ("iter", h.length)]
        (.path ["ordinal"]) (.semi (.method (.path [⟨"set", .nil⟩]) "insert" .nil (.cons (.path [⟨"ordinal", .nil⟩]) .nil)) .nil)
        (.usr 0 x) (h ++ [v, setVal s]) = Res.val .unit (h ++ [v, setVal s']) := by
        runs [forBody, setVal, h1, hi]
      rw [this]
      rfl

theorem set_fromIter (n : Nat) (xs : List (P 0)) (hs : (J 0).size = .ok m) :
    (out c J S (n + 7)).call (.con "OrdinalSet") "from_iter" [.arr (xs.map (.usr 0 ·))] h =
      (fun s => (setVal s, h)) <$> OrdinalSet.fromIter c (J 0) xs := by
  refine (outside_call (d := setFn4_0) (n + 6) _ _ rfl rfl).trans ?_
  cases hn : OrdinalSet.new (J 0) with
  | error f => runs [setFn4_0, set_new, OrdinalSet.fromIter, hn]
  | ok s =>
    have h1 := set_extend (c := c) (J := J) (S := S) (h := h) n hs rfl (.arr (xs.map (.usr 0 ·))) xs s
    simp only [setVal, phantom] at h1
    cases he : OrdinalSet.extendLoop c (J 0) s xs <;>
    runs [setFn4_0, set_new, OrdinalSet.fromIter, hn, setVal, iterate, h1, he]

end OrdinalMap.Text
