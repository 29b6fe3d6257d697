import Verif.Text.TreesMap
import Verif.Text.TreesSet
import Verif.Text.Mem
import Verif.SpecTextMap
import Verif.Text.SetValues
/-!
# `map/enumerate.rs` and `map/total/iter.rs`, run from their texts
-/

namespace OrdinalMap.Text

variable {P : Nat → Type} {c : Cfg} {J : (p : Nat) → OrdinalImpl (P p)} {S : Nat} {h : Heap P} {a : Nat} {ps : List Proj}
  {U : UserFns P}

/-- The program of `ordinal/traits.rs`, `values.rs`, all files in `map`, `array_from_iter.rs` and `array_as_mut.rs`. -/
def maps : Prog := ordinalTraitsTree ++ (valuesTree ++ (mapEnumerateTree ++ (totalIterTree ++ (totalMapTree ++
  (totalArrayMapTree ++ (mapIterTree ++ (mapEntryTree ++ (mapTree ++ (mapArrayMapTree ++ (arrayFromIterTree ++ (arrayAsMutTree ++ [])))))))))))

/-- The meaning of names in `mapTys`. -/
@[text] theorem find_mapTys (x : String) : TyEnv.find x (mapTys S) = if x = "K" then some (.par 0) else
    if x = "T" then some (.par 0) else if x = "V" then some (.par 1) else if x = "S" then some (.num S) else
    if x = "N" then some (.num S) else none := rfl

/-- What is outside, in the program. -/
abbrev outM (c : Cfg) (J : (p : Nat) → OrdinalImpl (P p)) (S : Nat) (U : UserFns P) (n : Nat) : Outside P :=
  outside c J (mapTys S) maps n U

@[text high] theorem coerce_par (p : Nat) (v : Val P) : coerce (some (.par p)) v = v := by cases v <;> rfl
@[text high] theorem coerce_con (x : String) (v : Val P) : coerce (some (.con x)) v = v := by cases v <;> rfl
@[text high] theorem coerce_none (v : Val P) : coerce none v = v := by cases v <;> rfl

theorem Place.get_put {v : Val P} (hp : Place h a ps v) (w : Val P) : Loc.get .run (put h a ps w) (.heap a ps) = .ok w :=
  (hp.put_at w).get
theorem Place.set_put {v : Val P} (hp : Place h a ps v) (w x : Val P) :
    Loc.set .run (put h a ps w) x (.heap a ps) = .ok (put h a ps x) :=
  ((hp.put_at w).set x).trans (by rw [hp.put_put])

@[text] theorem struct_enum : (outM c J S U (n + 1)).struct "OrdinalEnumerate" =
    some [("next", .path ["usize"] .nil), ("iter", .path ["I"] .nil),
      ("_phantom", .path ["PhantomData"] (.cons (.path ["K"] .nil) .nil))] := rfl

theorem enum_new (n i : Nat) (vs : List (Val P)) :
    (outM c J S U (n + 2)).call (.con "OrdinalEnumerate") "new" [.it vs, .uint .size i] h =
      .ok (enumVal (Enumerate.new vs i), h) := by
  refine (outside_call (d := mapEnumerateFn1_0) (n + 1) _ _ rfl rfl).trans ?_
  runs [mapEnumerateFn1_0, enumVal, Enumerate.new]

theorem enum_new_lit (n i : Nat) (vs : List (Val P)) :
    (outM c J S U (n + 2)).call (.con "OrdinalEnumerate") "new" [.it vs, .lit i] h =
      .ok (enumVal (Enumerate.new vs i), h) := by
  refine (outside_call (d := mapEnumerateFn1_0) (n + 1) _ _ rfl rfl).trans ?_
  runs [mapEnumerateFn1_0, enumVal, Enumerate.new]

theorem enum_next (n : Nat) {s : Enumerate (List (Val P))} (hp : Place h a ps (enumVal s)) :
    (outM c J S U (n + 2)).call (.con "OrdinalEnumerate") "next" [.mref a ps] h =
      (fun r => (.opt (r.1.map pairVal), put h a ps (enumVal r.2))) <$> s.nextItem c (J 0) (listIter (Val P)) := by
  refine (outside_call (d := mapEnumerateFn2_0) (n + 1) _ _ rfl rfl).trans ?_
  have hl := hp.lt
  have hgp := hp.get_put
  have hsp := hp.set_put
  have hln := hp.len
  obtain ⟨i, vs⟩ := s
  cases vs with
  | nil => runs [mapEnumerateFn2_0, hl, hp.get, hp.set, hln, get_append, set_append, enumVal, Enumerate.nextItem, listIter]
  | cons v vs =>
    cases hf : (J 0).fromOrdinal i with
    | error f => runs [mapEnumerateFn2_0, outside_par_from, hl, hf, hp.get, hp.set, hgp, hsp, hln, get_append, set_append, enumVal, Enumerate.nextItem, listIter]
    | ok o => cases o with
      | none => runs [mapEnumerateFn2_0, outside_par_from, hl, hf, hp.get, hp.set, hgp, hsp, hln, get_append, set_append, enumVal, Enumerate.nextItem, listIter]
      | some k =>
        by_cases hi : i + 1 < 2 ^ c.bits
        · runs [mapEnumerateFn2_0, outside_par_from, hl, hf, hi, hp.get, hp.set, hgp, hsp, hln, get_append, set_append, enumVal, Enumerate.nextItem, listIter, pairVal]
        · cases ho : c.overflowChecks <;> runs [mapEnumerateFn2_0, outside_par_from, hl, hf, hi, ho, hp.get, hp.set, hgp, hsp, hln, get_append, set_append, enumVal, Enumerate.nextItem, listIter, pairVal]

theorem enum_nextBack (n : Nat) {s : Enumerate (List (Val P))} (hp : Place h a ps (enumVal s)) :
    (outM c J S U (n + 2)).call (.con "OrdinalEnumerate") "next_back" [.mref a ps] h =
      (fun r => (.opt (r.1.map pairVal), put h a ps (enumVal r.2))) <$> s.nextBackItem c (J 0) (listIter (Val P)) := by
  refine (outside_call (d := mapEnumerateFn4_0) (n + 1) _ _ rfl rfl).trans ?_
  have hl := hp.lt
  have hgp := hp.get_put
  have hsp := hp.set_put
  have hln := hp.len
  obtain ⟨i, vs⟩ := s
  cases hv : vs.getLast? with
  | none => runs [mapEnumerateFn4_0, hl, hv, hp.get, hp.set, hln, get_append, set_append, enumVal, Enumerate.nextBackItem, listIter]
  | some v =>
    by_cases hi : i + (vs.length - 1) < 2 ^ c.bits
    · cases hf : (J 0).fromOrdinal (i + (vs.length - 1)) with
      | error f => runs [mapEnumerateFn4_0, outside_par_from, hl, hv, hi, hf, hp.get, hp.set, hgp, hsp, hln, get_append, set_append, enumVal, Enumerate.nextBackItem, listIter]
      | ok o => cases o <;> runs [mapEnumerateFn4_0, outside_par_from, hl, hv, hi, hf, hp.get, hp.set, hgp, hsp, hln, get_append, set_append, enumVal, Enumerate.nextBackItem, listIter, pairVal]
    · cases ho : c.overflowChecks with
      | true => runs [mapEnumerateFn4_0, outside_par_from, hl, hv, hi, ho, hp.get, hp.set, hgp, hsp, hln, get_append, set_append, enumVal, Enumerate.nextBackItem, listIter]
      | false =>
        cases hf : (J 0).fromOrdinal ((i + (vs.length - 1)) % 2 ^ c.bits) with
        | error f => runs [mapEnumerateFn4_0, outside_par_from, hl, hv, hi, ho, hf, hp.get, hp.set, hgp, hsp, hln, get_append, set_append, enumVal, Enumerate.nextBackItem, listIter]
        | ok o => cases o <;> runs [mapEnumerateFn4_0, outside_par_from, hl, hv, hi, ho, hf, hp.get, hp.set, hgp, hsp, hln, get_append, set_append, enumVal, Enumerate.nextBackItem, listIter, pairVal]

theorem enum_len (n : Nat) (s : Enumerate (List (Val P))) :
    (outM c J S U (n + 1)).call (.con "OrdinalEnumerate") "len" [.ref (enumVal s)] h =
      .ok (.uint .size (s.len (listIter (Val P))), h) := by
  refine (outside_call (d := mapEnumerateFn3_0) n _ _ rfl rfl).trans ?_
  runs [mapEnumerateFn3_0, enumVal, Enumerate.len, listIter]

theorem enum_sizeHint (n : Nat) (s : Enumerate (List (Val P))) :
    (outM c J S U (n + 1)).call (.con "OrdinalEnumerate") "size_hint" [.ref (enumVal s)] h =
      .ok (hintVal (s.sizeHint (listIter (Val P))), h) := by
  refine (outside_call (d := mapEnumerateFn2_1) n _ _ rfl rfl).trans ?_
  runs [mapEnumerateFn2_1, enumVal, Enumerate.sizeHint, listIter, hintVal]

@[text] theorem refs_map (vs : List (Val P)) : refs (vs.map .ref) = true := by
  induction vs with
  | nil => rfl
  | cons v vs ih => simpa [refs] using ih

theorem enum_clone (n : Nat) (i : Nat) (vs : List (Val P)) :
    (outM c J S U (n + 2)).call (.con "OrdinalEnumerate") "clone" [.ref (enumVal ⟨i, vs.map .ref⟩)] h =
      .ok (enumVal ⟨i, vs.map .ref⟩, h) := by
  refine (outside_call (d := mapEnumerateFn5_0) (n + 1) _ _ rfl rfl).trans ?_
  runs [mapEnumerateFn5_0, enumVal]

/-! ## `map/total/iter.rs` -/

@[text] theorem self_enum_next : (outM c J S U (n + 1)).self (.con "OrdinalEnumerate") "next" = some .refMut := rfl
@[text] theorem self_enum_nextBack : (outM c J S U (n + 1)).self (.con "OrdinalEnumerate") "next_back" = some .refMut := rfl
@[text] theorem self_enum_len : (outM c J S U (n + 1)).self (.con "OrdinalEnumerate") "len" = some .ref := rfl
@[text] theorem self_enum_sizeHint : (outM c J S U (n + 1)).self (.con "OrdinalEnumerate") "size_hint" = some .ref := rfl
@[text] theorem self_enum_clone : (outM c J S U (n + 1)).self (.con "OrdinalEnumerate") "clone" = some .ref := rfl

/-- The field `iter`. -/
theorem Place.iter {x : String} {v : Val P} (hp : Place h a ps (wrapVal x v)) : Place h a (ps ++ [.field "iter"]) v :=
  hp.sub (by simp [wrapVal, getPath, part, findField]) (by simp)

/-- A write to the field `iter`. -/
theorem Place.put_iter {x : String} {v : Val P} (hp : Place h a ps (wrapVal x v)) (w : Val P) :
    put h a (ps ++ [.field "iter"]) w = put h a ps (wrapVal x w) :=
  hp.put_sub (by simp [wrapVal, setPath, part, findField, setPart, setField])

theorem total_next (n : Nat) {x : String} (hx : maps.fn (.con x) "next" = some totalIterFn2_0)
    {s : Enumerate (List (Val P))} (hp : Place h a ps (wrapVal x (enumVal s))) :
    (outM c J S U (n + 3)).call (.con x) "next" [.mref a ps] h =
      (fun r => (.opt (r.1.map pairVal), put h a ps (wrapVal x (enumVal r.2)))) <$>
        s.nextItem c (J 0) (listIter (Val P)) := by
  refine (outside_call (d := totalIterFn2_0) (n + 2) _ _ hx rfl).trans ?_
  have hl := hp.lt
  have hq := hp.iter
  have h1 := enum_next (c := c) (J := J) (S := S) (U := U) n (hq.append [.mref a ps])
  simp only [enumVal, phantom] at hq
  cases hm : s.nextItem c (J 0) (listIter (Val P)) with
  | error f =>
    rw [hm] at h1
    simp only [enumVal, phantom, error_map] at h1
    runs [totalIterFn2_0, hl, hp.get, hq.get, h1, wrapVal]
  | ok r =>
    rw [hm] at h1
    simp only [ok_map, hp.iter.put_append, hp.put_iter] at h1
    have hln := hp.len (wrapVal x (enumVal r.2))
    simp only [ok_map]
    generalize put h a ps (wrapVal x (enumVal r.2)) = h' at h1 hln ⊢
    generalize Val.opt (Option.map pairVal r.1) = v at h1 ⊢
    runs [totalIterFn2_0, hl, hp.get, hq.get, h1, wrapVal, hln]

theorem total_nextBack (n : Nat) {x : String} (hx : maps.fn (.con x) "next_back" = some totalIterFn4_0)
    {s : Enumerate (List (Val P))} (hp : Place h a ps (wrapVal x (enumVal s))) :
    (outM c J S U (n + 3)).call (.con x) "next_back" [.mref a ps] h =
      (fun r => (.opt (r.1.map pairVal), put h a ps (wrapVal x (enumVal r.2)))) <$>
        s.nextBackItem c (J 0) (listIter (Val P)) := by
  refine (outside_call (d := totalIterFn4_0) (n + 2) _ _ hx rfl).trans ?_
  have hl := hp.lt
  have hq := hp.iter
  have h1 := enum_nextBack (c := c) (J := J) (S := S) (U := U) n (hq.append [.mref a ps])
  simp only [enumVal, phantom] at hq
  cases hm : s.nextBackItem c (J 0) (listIter (Val P)) with
  | error f =>
    rw [hm] at h1
    simp only [enumVal, phantom, error_map] at h1
    runs [totalIterFn4_0, hl, hp.get, hq.get, h1, wrapVal]
  | ok r =>
    rw [hm] at h1
    simp only [ok_map, hp.iter.put_append, hp.put_iter] at h1
    have hln := hp.len (wrapVal x (enumVal r.2))
    simp only [ok_map]
    generalize put h a ps (wrapVal x (enumVal r.2)) = h' at h1 hln ⊢
    generalize Val.opt (Option.map pairVal r.1) = v at h1 ⊢
    runs [totalIterFn4_0, hl, hp.get, hq.get, h1, wrapVal, hln]

theorem total_len (n : Nat) {x : String} (hx : maps.fn (.con x) "len" = some totalIterFn3_0) (s : Enumerate (List (Val P))) :
    (outM c J S U (n + 2)).call (.con x) "len" [.ref (wrapVal x (enumVal s))] h =
      .ok (.uint .size (s.len (listIter (Val P))), h) := by
  refine (outside_call (d := totalIterFn3_0) (n + 1) _ _ hx rfl).trans ?_
  have h1 := enum_len (c := c) (J := J) (S := S) (U := U) (h := h ++ [.ref (wrapVal x (enumVal s))]) n s
  simp only [enumVal, phantom, wrapVal] at h1
  runs [totalIterFn3_0, wrapVal, enumVal, h1]

theorem total_sizeHint (n : Nat) {x : String} (hx : maps.fn (.con x) "size_hint" = some totalIterFn2_1)
    (s : Enumerate (List (Val P))) :
    (outM c J S U (n + 2)).call (.con x) "size_hint" [.ref (wrapVal x (enumVal s))] h =
      .ok (hintVal (s.sizeHint (listIter (Val P))), h) := by
  refine (outside_call (d := totalIterFn2_1) (n + 1) _ _ hx rfl).trans ?_
  have h1 := enum_sizeHint (c := c) (J := J) (S := S) (U := U) (h := h ++ [.ref (wrapVal x (enumVal s))]) n s
  simp only [enumVal, phantom, wrapVal, hintVal] at h1
  runs [totalIterFn2_1, wrapVal, enumVal, h1, hintVal, Enumerate.sizeHint]

@[text] theorem struct_totalIter : (outM c J S U (n + 1)).struct "total::Iter" = some [("iter", .path ["OrdinalEnumerate"]
    (.cons (.path ["K"] .nil) (.cons (.path ["slice", "Iter"] (.cons (.path ["V"] .nil) .nil)) .nil)))] := rfl
@[text] theorem struct_totalIterMut : (outM c J S U (n + 1)).struct "total::IterMut" = some [("iter", .path ["OrdinalEnumerate"]
    (.cons (.path ["K"] .nil) (.cons (.path ["slice", "IterMut"] (.cons (.path ["V"] .nil) .nil)) .nil)))] := rfl
@[text] theorem struct_totalIntoIter : (outM c J S U (n + 1)).struct "total::IntoIter" = some [("iter", .path ["OrdinalEnumerate"]
    (.cons (.path ["K"] .nil) (.cons (.path ["vec", "IntoIter"] (.cons (.path ["V"] .nil) .nil)) .nil)))] := rfl
@[text] theorem struct_totalIntoIterArray : (outM c J S U (n + 1)).struct "total::IntoIterArray" = some [("iter",
    .path ["OrdinalEnumerate"] (.cons (.path ["K"] .nil) (.cons (.path ["array", "IntoIter"] (.cons (.path ["V"] .nil)
      (.cons (.path ["S"] .nil) .nil))) .nil)))] := rfl

theorem totalIter_new (n i : Nat) (vs : List (Val P)) :
    (outM c J S U (n + 3)).call (.con "total::Iter") "new" [.it vs, .lit i] h =
      .ok (wrapVal "total::Iter" (enumVal (Enumerate.new vs i)), h) := by
  refine (outside_call (d := totalIterFn1_0) (n + 2) _ _ rfl rfl).trans ?_
  runs [totalIterFn1_0, enum_new_lit, wrapVal, enumVal]

theorem totalIterMut_new (n : Nat) (vs : List (Val P)) :
    (outM c J S U (n + 3)).call (.con "total::IterMut") "new" [.it vs] h =
      .ok (wrapVal "total::IterMut" (enumVal (Enumerate.new vs 0)), h) := by
  refine (outside_call (d := totalIterFn8_0) (n + 2) _ _ rfl rfl).trans ?_
  runs [totalIterFn8_0, enum_new_lit, wrapVal, enumVal]

theorem totalIntoIter_new (n : Nat) (vs : List (Val P)) :
    (outM c J S U (n + 3)).call (.con "total::IntoIter") "new" [.it vs] h =
      .ok (wrapVal "total::IntoIter" (enumVal (Enumerate.new vs 0)), h) := by
  refine (outside_call (d := totalIterFn21_0) (n + 2) _ _ rfl rfl).trans ?_
  runs [totalIterFn21_0, enum_new_lit, wrapVal, enumVal]

theorem totalIntoIterArray_new (n : Nat) (vs : List (Val P)) :
    (outM c J S U (n + 3)).call (.con "total::IntoIterArray") "new" [.it vs] h =
      .ok (wrapVal "total::IntoIterArray" (enumVal (Enumerate.new vs 0)), h) := by
  refine (outside_call (d := totalIterFn14_0) (n + 2) _ _ rfl rfl).trans ?_
  runs [totalIterFn14_0, enum_new_lit, wrapVal, enumVal]

theorem totalIter_clone (n : Nat) (i : Nat) (vs : List (Val P)) :
    (outM c J S U (n + 3)).call (.con "total::Iter") "clone" [.ref (wrapVal "total::Iter" (enumVal ⟨i, vs.map .ref⟩))] h =
      .ok (wrapVal "total::Iter" (enumVal ⟨i, vs.map .ref⟩), h) := by
  refine (outside_call (d := totalIterFn5_0) (n + 2) _ _ rfl rfl).trans ?_
  have h1 := enum_clone (c := c) (J := J) (S := S) (U := U) (h := h ++ [.ref (wrapVal "total::Iter" (enumVal ⟨i, vs.map .ref⟩))]) n i vs
  simp only [enumVal, phantom, wrapVal] at h1
  runs [totalIterFn5_0, wrapVal, enumVal, h1]

example : maps.fn (.con "total::IterMut") "next" = some totalIterFn2_0 := rfl
example : maps.fn (.con "total::IntoIter") "next" = some totalIterFn2_0 := rfl
example : maps.fn (.con "total::IntoIterArray") "next_back" = some totalIterFn4_0 := rfl
example : maps.fn (.con "total::IntoIter") "len" = some totalIterFn3_0 := rfl

end OrdinalMap.Text
