import Verif.Text.MapSkip
/-!
# `map/iter.rs`, run from its text
-/

namespace OrdinalMap.Text

variable {P : Nat → Type} {c : Cfg} {J : (p : Nat) → OrdinalImpl (P p)} {S : Nat} {h : Heap P} {a b : Nat} {ps qs : List Proj}
  {U : UserFns P}

theorem calls_next {y : String} (hy : maps.fn (.con y) "next" = some totalIterFn2_0)
    (hs : ∀ n, (outM c J S U (n + 1)).self (.con y) "next" = some .refMut) :
    Calls c J S U y "next" (fun s => s.nextItem c (J 0) (listIter (Val P))) :=
  ⟨hs, fun n _ _ _ _ hp => total_next n hy hp⟩

theorem calls_back {y : String} (hy : maps.fn (.con y) "next_back" = some totalIterFn4_0)
    (hs : ∀ n, (outM c J S U (n + 1)).self (.con y) "next_back" = some .refMut) :
    Calls c J S U y "next_back" (fun s => s.nextBackItem c (J 0) (listIter (Val P))) :=
  ⟨hs, fun n _ _ _ _ hp => total_nextBack n hy hp⟩

/-! ## `Iter` -/

/-- `Iter<'_, K, V>` -/
def mapIterVal (s : MapIter (P 1)) : Val P := iterVal "Iter" "total::Iter" (encEnum (fun o => .ref (slotVal o)) s)

/-- What the loop sees through a reference. -/
def seeRef : Val P → Option (Val P)
  | .ref (.con "Some" [v]) => some (.ref v)
  | _ => none

theorem view_ref (o : Option (P 1)) : View h a (.ref (slotVal o)) (seeRef (.ref (slotVal o))) := by
  cases o with
  | none => exact .none
  | some v => exact .some _

theorem mapIter_next (n : Nat) {s : MapIter (P 1)} (hp : Place h a ps (mapIterVal s)) (hs : s.iter.length ≤ c.M) :
    (outM c J S U (n + 4)).call (.con "Iter") "next" [.mref a ps] h =
      (fun r => (.opt (r.1.map pairRef), put h a ps (mapIterVal r.2))) <$> MapIter.next c (J 0) s := by
  refine (pair_call n (.inl rfl) rfl (calls_next rfl fun _ => rfl) next_shrinks hp (see := seeRef) ?_ (by simpa [encEnum])).trans ?_
  · intro v hv
    simp only [encEnum, List.mem_map] at hv
    obtain ⟨o, -, rfl⟩ := hv
    exact view_ref o
  · have := skipLoop_enc (step := TotalIter.next (V := Option (P 1)) c (J 0)) (bd := MapIter.body)
      (step' := fun s => s.nextItem c (J 0) (listIter (Val P))) (bd' := seeBody seeRef)
      (E := encEnum fun o => .ref (slotVal o)) (ea := fun p => (p.1, .ref (slotVal p.2)))
      (eb := fun p => (p.1, .ref (.usr 1 p.2))) (Inv := fun _ => True) (Ok := fun _ _ => True)
      (fun s _ => nextItem_enc _ s) (fun _ _ _ _ => ⟨trivial, fun _ _ => trivial⟩)
      (fun x s _ _ => by obtain ⟨k, o⟩ := x; cases o <;> rfl) (fun _ _ _ _ _ _ => trivial) (s.iter.length + 1) s trivial
    simp only [encEnum, List.length_map] at this ⊢
    rw [this]
    simp only [MapIter.next, TotalIter.len, Enumerate.len, listIter]
    cases skipLoop (TotalIter.next c (J 0)) MapIter.body (s.iter.length + 1) s with
    | error f => rfl
    | ok r => simp only [ok_map, mapIterVal, encEnum, Option.map_map]; rfl

theorem mapIter_nextBack (n : Nat) {s : MapIter (P 1)} (hp : Place h a ps (mapIterVal s)) (hs : s.iter.length ≤ c.M) :
    (outM c J S U (n + 4)).call (.con "Iter") "next_back" [.mref a ps] h =
      (fun r => (.opt (r.1.map pairRef), put h a ps (mapIterVal r.2))) <$> MapIter.nextBack c (J 0) s := by
  refine (pair_call n (.inr rfl) rfl (calls_back rfl fun _ => rfl) back_shrinks hp (see := seeRef) ?_ (by simpa [encEnum])).trans ?_
  · intro v hv
    simp only [encEnum, List.mem_map] at hv
    obtain ⟨o, -, rfl⟩ := hv
    exact view_ref o
  · have := skipLoop_enc (step := TotalIter.nextBack (V := Option (P 1)) c (J 0)) (bd := MapIter.body)
      (step' := fun s => s.nextBackItem c (J 0) (listIter (Val P))) (bd' := seeBody seeRef)
      (E := encEnum fun o => .ref (slotVal o)) (ea := fun p => (p.1, .ref (slotVal p.2)))
      (eb := fun p => (p.1, .ref (.usr 1 p.2))) (Inv := fun _ => True) (Ok := fun _ _ => True)
      (fun s _ => nextBackItem_enc _ s) (fun _ _ _ _ => ⟨trivial, fun _ _ => trivial⟩)
      (fun x s _ _ => by obtain ⟨k, o⟩ := x; cases o <;> rfl) (fun _ _ _ _ _ _ => trivial) (s.iter.length + 1) s trivial
    simp only [encEnum, List.length_map] at this ⊢
    rw [this]
    simp only [MapIter.nextBack, TotalIter.len, Enumerate.len, listIter]
    cases skipLoop (TotalIter.nextBack c (J 0)) MapIter.body (s.iter.length + 1) s with
    | error f => rfl
    | ok r => simp only [ok_map, mapIterVal, encEnum, Option.map_map]; rfl

@[text] theorem self_totalIter_len : (outM c J S U (n + 1)).self (.con "total::Iter") "len" = some .ref := rfl
@[text] theorem self_totalIter_clone : (outM c J S U (n + 1)).self (.con "total::Iter") "clone" = some .ref := rfl
@[text] theorem self_totalIterMut_len : (outM c J S U (n + 1)).self (.con "total::IterMut") "len" = some .ref := rfl
@[text] theorem self_totalIntoIter_len : (outM c J S U (n + 1)).self (.con "total::IntoIter") "len" = some .ref := rfl

/-- `size_hint` of the loops. -/
theorem loop_sizeHint (n : Nat) {x y : String} (hx : maps.fn (.con x) "size_hint" = some mapIterFn2_1)
    (hy : maps.fn (.con y) "len" = some totalIterFn3_0) (hs : ∀ n, (outM c J S U (n + 1)).self (.con y) "len" = some .ref)
    (s : Enumerate (List (Val P))) :
    (outM c J S U (n + 3)).call (.con x) "size_hint" [.ref (iterVal x y s)] h =
      .ok (hintVal (0, some s.iter.length), h) := by
  refine (outside_call (d := mapIterFn2_1) (n + 2) _ _ hx rfl).trans ?_
  have h1 := total_len (c := c) (J := J) (S := S) (U := U) (h := h ++ [.ref (iterVal x y s)]) n hy s
  simp only [iterVal, enumVal, phantom, wrapVal, Enumerate.len, listIter] at h1
  runs [mapIterFn2_1, iterVal, wrapVal, enumVal, h1, hs, hintVal]

theorem mapIter_sizeHint (n : Nat) (s : MapIter (P 1)) :
    (outM c J S U (n + 3)).call (.con "Iter") "size_hint" [.ref (mapIterVal s)] h = .ok (hintVal s.sizeHint, h) := by
  refine (loop_sizeHint n rfl rfl (fun _ => rfl) _).trans ?_
  simp [encEnum, MapIter.sizeHint, TotalIter.len, Enumerate.len, listIter]

@[text] theorem struct_mapIter : (outM c J S U (n + 1)).struct "Iter" = some [("iter", Ty.path ["total::Iter"] (Tys.cons
    (Ty.path ["K"] Tys.nil) (Tys.cons (Ty.path ["Option"] (Tys.cons (Ty.path ["V"] Tys.nil) Tys.nil)) Tys.nil)))] := rfl

theorem mapIter_clone (n : Nat) (s : MapIter (P 1)) :
    (outM c J S U (n + 4)).call (.con "Iter") "clone" [.ref (mapIterVal s)] h = .ok (mapIterVal s.clone, h) := by
  refine (outside_call (d := mapIterFn4_0) (n + 3) _ _ rfl rfl).trans ?_
  have h1 := totalIter_clone (c := c) (J := J) (S := S) (U := U) (h := h ++ [.ref (mapIterVal s)]) n (Enumerate.next s) (s.iter.map slotVal)
  simp only [mapIterVal, iterVal, enumVal, phantom, wrapVal, encEnum, List.map_map, Function.comp_def] at h1
  runs [mapIterFn4_0, mapIterVal, iterVal, wrapVal, enumVal, encEnum, h1, MapIter.clone, TotalIter.clone, Enumerate.clone]

theorem mapIter_new (n : Nat) (s : Enumerate (List (Val P))) :
    (outM c J S U (n + 2)).call (.con "Iter") "new" [wrapVal "total::Iter" (enumVal s)] h =
      .ok (iterVal "Iter" "total::Iter" s, h) := by
  refine (outside_call (d := mapIterFn1_0) (n + 1) _ _ rfl rfl).trans ?_
  runs [mapIterFn1_0, iterVal, wrapVal, enumVal]

/-! ## Iterators that keep one part of the pairs -/

/-- `self.iter.f().map(|(k, _)| k)` -/
def keyFn (f : String) : FnDef :=
  ⟨f, .refMut, [], .path ["Option"] (.cons (.path ["Self", "Item"] .nil) .nil), .tail
    (.method (.method (.field (.path [⟨"self", .nil⟩]) "iter") f .nil .nil) "map" .nil
      (.cons (.closure (.cons (.tuple (.cons (.path ["k"]) (.cons .wild .nil))) .nil) (.path [⟨"k", .nil⟩])) .nil))⟩

/-- `self.iter.f().map(|(_, v)| v)` -/
def valFn (f : String) : FnDef :=
  ⟨f, .refMut, [], .path ["Option"] (.cons (.path ["Self", "Item"] .nil) .nil), .tail
    (.method (.method (.field (.path [⟨"self", .nil⟩]) "iter") f .nil .nil) "map" .nil
      (.cons (.closure (.cons (.tuple (.cons .wild (.cons (.path ["v"]) .nil))) .nil) (.path [⟨"v", .nil⟩])) .nil))⟩

theorem key_call (n : Nat) {w x f : String} {fs : List (String × Val P)} (hf : f = "next" ∨ f = "next_back")
    (hd : maps.fn (.con w) f = some (keyFn f)) (hs : (outM c J S U (n + 1)).self (.con x) f = some .refMut)
    (hp : Place h a ps (wrapVal w (.obj x fs))) {m : R (Option (P 0 × Val P) × Val P)}
    (hc : (outM c J S U (n + 1)).call (.con x) f [.mref a (ps ++ [.field "iter"])] (h ++ [.mref a ps]) =
      (fun r => (.opt (r.1.map pairVal), put (h ++ [.mref a ps]) a (ps ++ [.field "iter"]) r.2)) <$> m) :
    (outM c J S U (n + 2)).call (.con w) f [.mref a ps] h =
      (fun r => (.opt (r.1.map fun p => .usr 0 p.1), put h a ps (wrapVal w r.2))) <$> m := by
  refine (outside_call (d := keyFn f) (n + 1) _ _ hd rfl).trans ?_
  have hl := hp.lt
  simp only [hp.iter.put_append, hp.put_iter] at hc
  cases m with
  | error e =>
    obtain rfl | rfl := hf <;> runs [keyFn, hl, hp.get, get_append, wrapVal, hc, hs]
  | ok r =>
    obtain ⟨o, v⟩ := r
    have hln := hp.len (wrapVal w v)
    simp only [ok_map] at hc ⊢
    generalize put h a ps (wrapVal w v) = h' at hc hln ⊢
    cases o with
    | none => obtain rfl | rfl := hf <;> runs [keyFn, hl, hp.get, get_append, wrapVal, hc, hs, hln]
    | some p =>
      obtain ⟨k, u⟩ := p
      obtain rfl | rfl := hf <;>
      runs [keyFn, hl, hp.get, get_append, wrapVal, hc, hs, hln, outside_clo, bindPats, pairVal, get_cons]

theorem val_call (n : Nat) {w x f : String} {fs : List (String × Val P)} (hf : f = "next" ∨ f = "next_back")
    (hd : maps.fn (.con w) f = some (valFn f)) (hs : (outM c J S U (n + 1)).self (.con x) f = some .refMut)
    (hp : Place h a ps (wrapVal w (.obj x fs))) {m : R (Option (P 0 × Val P) × Val P)}
    (hc : (outM c J S U (n + 1)).call (.con x) f [.mref a (ps ++ [.field "iter"])] (h ++ [.mref a ps]) =
      (fun r => (.opt (r.1.map pairVal), put (h ++ [.mref a ps]) a (ps ++ [.field "iter"]) r.2)) <$> m) :
    (outM c J S U (n + 2)).call (.con w) f [.mref a ps] h =
      (fun r => (.opt (r.1.map fun p => p.2), put h a ps (wrapVal w r.2))) <$> m := by
  refine (outside_call (d := valFn f) (n + 1) _ _ hd rfl).trans ?_
  have hl := hp.lt
  simp only [hp.iter.put_append, hp.put_iter] at hc
  cases m with
  | error e =>
    obtain rfl | rfl := hf <;> runs [valFn, hl, hp.get, get_append, wrapVal, hc, hs]
  | ok r =>
    obtain ⟨o, v⟩ := r
    have hln := hp.len (wrapVal w v)
    simp only [ok_map] at hc ⊢
    generalize put h a ps (wrapVal w v) = h' at hc hln ⊢
    cases o with
    | none => obtain rfl | rfl := hf <;> runs [valFn, hl, hp.get, get_append, wrapVal, hc, hs, hln]
    | some p =>
      obtain ⟨k, u⟩ := p
      obtain rfl | rfl := hf <;>
      runs [valFn, hl, hp.get, get_append, wrapVal, hc, hs, hln, outside_clo, bindPats, pairVal, get_cons]

theorem keys_next (n : Nat) {s : Keys (P 1)} (hp : Place h a ps (wrapVal "Keys" (mapIterVal s))) (hs : s.iter.length ≤ c.M) :
    (outM c J S U (n + 5)).call (.con "Keys") "next" [.mref a ps] h =
      (fun r => (.opt (r.1.map (Val.usr 0 ·)), put h a ps (wrapVal "Keys" (mapIterVal r.2)))) <$> Keys.next c (J 0) s := by
  have h1 := mapIter_next (c := c) (J := J) (S := S) (U := U) n (hp.iter.append [.mref a ps]) hs
  have := key_call (n + 3) (.inl rfl) rfl rfl hp
    (m := (fun r => (r.1.map fun p => (p.1, .ref (.usr 1 p.2)), mapIterVal r.2)) <$> MapIter.next c (J 0) s) (by
      rw [h1]
      cases MapIter.next c (J 0) s with
      | error e => rfl
      | ok r => simp only [ok_map, Option.map_map]; rfl)
  rw [this]
  simp only [Keys.next]
  cases MapIter.next c (J 0) s with
  | error e => rfl
  | ok r => simp [Function.comp_def]

theorem keys_nextBack (n : Nat) {s : Keys (P 1)} (hp : Place h a ps (wrapVal "Keys" (mapIterVal s))) (hs : s.iter.length ≤ c.M) :
    (outM c J S U (n + 5)).call (.con "Keys") "next_back" [.mref a ps] h =
      (fun r => (.opt (r.1.map (Val.usr 0 ·)), put h a ps (wrapVal "Keys" (mapIterVal r.2)))) <$> Keys.nextBack c (J 0) s := by
  have h1 := mapIter_nextBack (c := c) (J := J) (S := S) (U := U) n (hp.iter.append [.mref a ps]) hs
  have := key_call (n + 3) (.inr rfl) rfl rfl hp
    (m := (fun r => (r.1.map fun p => (p.1, .ref (.usr 1 p.2)), mapIterVal r.2)) <$> MapIter.nextBack c (J 0) s) (by
      rw [h1]
      cases MapIter.nextBack c (J 0) s with
      | error e => rfl
      | ok r => simp only [ok_map, Option.map_map]; rfl)
  rw [this]
  simp only [Keys.nextBack]
  cases MapIter.nextBack c (J 0) s with
  | error e => rfl
  | ok r => simp [Function.comp_def]

theorem mapValues_next (n : Nat) {s : Values (P 1)} (hp : Place h a ps (wrapVal "Values" (mapIterVal s))) (hs : s.iter.length ≤ c.M) :
    (outM c J S U (n + 5)).call (.con "Values") "next" [.mref a ps] h =
      (fun r => (.opt (r.1.map fun v => .ref (.usr 1 v)), put h a ps (wrapVal "Values" (mapIterVal r.2)))) <$> Values.next c (J 0) s := by
  have h1 := mapIter_next (c := c) (J := J) (S := S) (U := U) n (hp.iter.append [.mref a ps]) hs
  have := val_call (n + 3) (.inl rfl) rfl rfl hp
    (m := (fun r => (r.1.map fun p => (p.1, .ref (.usr 1 p.2)), mapIterVal r.2)) <$> MapIter.next c (J 0) s) (by
      rw [h1]
      cases MapIter.next c (J 0) s with
      | error e => rfl
      | ok r => simp only [ok_map, Option.map_map]; rfl)
  rw [this]
  simp only [Values.next]
  cases MapIter.next c (J 0) s with
  | error e => rfl
  | ok r => simp [Function.comp_def]

theorem mapValues_nextBack (n : Nat) {s : Values (P 1)} (hp : Place h a ps (wrapVal "Values" (mapIterVal s))) (hs : s.iter.length ≤ c.M) :
    (outM c J S U (n + 5)).call (.con "Values") "next_back" [.mref a ps] h =
      (fun r => (.opt (r.1.map fun v => .ref (.usr 1 v)), put h a ps (wrapVal "Values" (mapIterVal r.2)))) <$> Values.nextBack c (J 0) s := by
  have h1 := mapIter_nextBack (c := c) (J := J) (S := S) (U := U) n (hp.iter.append [.mref a ps]) hs
  have := val_call (n + 3) (.inr rfl) rfl rfl hp
    (m := (fun r => (r.1.map fun p => (p.1, .ref (.usr 1 p.2)), mapIterVal r.2)) <$> MapIter.nextBack c (J 0) s) (by
      rw [h1]
      cases MapIter.nextBack c (J 0) s with
      | error e => rfl
      | ok r => simp only [ok_map, Option.map_map]; rfl)
  rw [this]
  simp only [Values.nextBack]
  cases MapIter.nextBack c (J 0) s with
  | error e => rfl
  | ok r => simp [Function.comp_def]

@[text] theorem self_mapIter_sizeHint : (outM c J S U (n + 1)).self (.con "Iter") "size_hint" = some .ref := rfl
@[text] theorem self_mapIter_clone : (outM c J S U (n + 1)).self (.con "Iter") "clone" = some .ref := rfl
@[text] theorem self_mapIterMut_sizeHint : (outM c J S U (n + 1)).self (.con "IterMut") "size_hint" = some .ref := rfl
@[text] theorem struct_keys : (outM c J S U (n + 1)).struct "Keys" = some [("iter", Ty.path ["Iter"] (Tys.cons
    (Ty.path ["K"] Tys.nil) (Tys.cons (Ty.path ["V"] Tys.nil) Tys.nil)))] := rfl
@[text] theorem struct_mapValues : (outM c J S U (n + 1)).struct "Values" = some [("iter", Ty.path ["Iter"] (Tys.cons
    (Ty.path ["K"] Tys.nil) (Tys.cons (Ty.path ["V"] Tys.nil) Tys.nil)))] := rfl

theorem keys_sizeHint (n : Nat) (s : Keys (P 1)) :
    (outM c J S U (n + 4)).call (.con "Keys") "size_hint" [.ref (wrapVal "Keys" (mapIterVal s))] h =
      .ok (hintVal (Keys.sizeHint s), h) := by
  refine (outside_call (d := mapIterFn13_1) (n + 3) _ _ rfl rfl).trans ?_
  have h1 := mapIter_sizeHint (c := c) (J := J) (S := S) (U := U) (h := h ++ [.ref (wrapVal "Keys" (mapIterVal s))]) n s
  simp only [mapIterVal, iterVal, wrapVal, enumVal, phantom, hintVal, MapIter.sizeHint] at h1
  runs [mapIterFn13_1, mapIterVal, iterVal, wrapVal, enumVal, h1, hintVal, Keys.sizeHint, MapIter.sizeHint]

theorem mapValues_sizeHint (n : Nat) (s : Values (P 1)) :
    (outM c J S U (n + 4)).call (.con "Values") "size_hint" [.ref (wrapVal "Values" (mapIterVal s))] h =
      .ok (hintVal (Values.sizeHint s), h) := by
  refine (outside_call (d := mapIterFn19_1) (n + 3) _ _ rfl rfl).trans ?_
  have h1 := mapIter_sizeHint (c := c) (J := J) (S := S) (U := U) (h := h ++ [.ref (wrapVal "Values" (mapIterVal s))]) n s
  simp only [mapIterVal, iterVal, wrapVal, enumVal, phantom, hintVal, MapIter.sizeHint] at h1
  runs [mapIterFn19_1, mapIterVal, iterVal, wrapVal, enumVal, h1, hintVal, Values.sizeHint, MapIter.sizeHint]

theorem keys_clone (n : Nat) (s : Keys (P 1)) :
    (outM c J S U (n + 5)).call (.con "Keys") "clone" [.ref (wrapVal "Keys" (mapIterVal s))] h =
      .ok (wrapVal "Keys" (mapIterVal (Keys.clone s)), h) := by
  refine (outside_call (d := mapIterFn15_0) (n + 4) _ _ rfl rfl).trans ?_
  have h1 := mapIter_clone (c := c) (J := J) (S := S) (U := U) (h := h ++ [.ref (wrapVal "Keys" (mapIterVal s))]) n s
  simp only [mapIterVal, iterVal, wrapVal, enumVal, phantom] at h1
  runs [mapIterFn15_0, mapIterVal, iterVal, wrapVal, enumVal, h1, Keys.clone]

theorem mapValues_clone (n : Nat) (s : Values (P 1)) :
    (outM c J S U (n + 5)).call (.con "Values") "clone" [.ref (wrapVal "Values" (mapIterVal s))] h =
      .ok (wrapVal "Values" (mapIterVal (Values.clone s)), h) := by
  refine (outside_call (d := mapIterFn21_0) (n + 4) _ _ rfl rfl).trans ?_
  have h1 := mapIter_clone (c := c) (J := J) (S := S) (U := U) (h := h ++ [.ref (wrapVal "Values" (mapIterVal s))]) n s
  simp only [mapIterVal, iterVal, wrapVal, enumVal, phantom] at h1
  runs [mapIterFn21_0, mapIterVal, iterVal, wrapVal, enumVal, h1, Values.clone]

theorem keys_new (n : Nat) (v : Val P) :
    (outM c J S U (n + 2)).call (.con "Keys") "new" [v] h = .ok (wrapVal "Keys" v, h) := by
  refine (outside_call (d := mapIterFn12_0) (n + 1) _ _ rfl rfl).trans ?_
  runs [mapIterFn12_0, wrapVal]

theorem mapValues_new (n : Nat) (v : Val P) :
    (outM c J S U (n + 2)).call (.con "Values") "new" [v] h = .ok (wrapVal "Values" v, h) := by
  refine (outside_call (d := mapIterFn18_0) (n + 1) _ _ rfl rfl).trans ?_
  runs [mapIterFn18_0, wrapVal]

@[text] theorem struct_mapIterMut : (outM c J S U (n + 1)).struct "IterMut" =
    some [("iter", Ty.path ["total::IterMut"] (Tys.cons (Ty.path ["K"] Tys.nil) (Tys.cons (Ty.path ["Option"] (Tys.cons (Ty.path ["V"] Tys.nil) Tys.nil)) Tys.nil)))] := rfl
@[text] theorem struct_valuesMut : (outM c J S U (n + 1)).struct "ValuesMut" =
    some [("iter", Ty.path ["IterMut"] (Tys.cons (Ty.path ["K"] Tys.nil) (Tys.cons (Ty.path ["V"] Tys.nil) Tys.nil)))] := rfl
@[text] theorem struct_drain : (outM c J S U (n + 1)).struct "Drain" =
    some [("iter", Ty.path ["total::IterMut"] (Tys.cons (Ty.path ["K"] Tys.nil) (Tys.cons (Ty.path ["Option"] (Tys.cons (Ty.path ["V"] Tys.nil) Tys.nil)) Tys.nil)))] := rfl
@[text] theorem struct_mapIntoIter : (outM c J S U (n + 1)).struct "IntoIter" =
    some [("iter", Ty.path ["total::IntoIter"] (Tys.cons (Ty.path ["K"] Tys.nil) (Tys.cons (Ty.path ["Option"] (Tys.cons (Ty.path ["V"] Tys.nil) Tys.nil)) Tys.nil)))] := rfl
@[text] theorem struct_mapIntoIterArray : (outM c J S U (n + 1)).struct "IntoIterArray" =
    some [("iter", Ty.path ["total::IntoIterArray"] (Tys.cons (Ty.path ["K"] Tys.nil) (Tys.cons (Ty.path ["Option"] (Tys.cons (Ty.path ["V"] Tys.nil) Tys.nil)) (Tys.cons (Ty.path ["S"] Tys.nil) Tys.nil)))), ("_phantom", Ty.path ["PhantomData"] (Tys.cons (Ty.path ["K"] Tys.nil) Tys.nil))] := rfl

/-! ## `IntoIter` and `IntoIterArray` -/

/-- `IntoIter<K, V>` -/
def intoIterVal (s : MapIntoIter (P 1)) : Val P := iterVal "IntoIter" "total::IntoIter" (encEnum slotVal s)
/-- `IntoIterArray<K, V, S>` -/
def intoIterArrayVal (s : MapIntoIterArray (P 1)) : Val P :=
  iterWith "IntoIterArray" [phantom] "total::IntoIterArray" (encEnum slotVal s)

/-- What the loop sees in a value. -/
def seeOpt : Val P → Option (Val P)
  | .con "Some" [v] => some v
  | _ => none

theorem see_slot (o : Option (P 1)) : slotVal o = .opt (seeOpt (slotVal (P := P) o)) := by cases o <;> rfl

theorem intoIter_next (n : Nat) {s : MapIntoIter (P 1)} (hp : Place h a ps (intoIterVal s)) (hs : (Enumerate.iter s).length ≤ c.M) :
    (outM c J S U (n + 4)).call (.con "IntoIter") "next" [.mref a ps] h =
      (fun r => (.opt (r.1.map pairOwn), put h a ps (intoIterVal r.2))) <$> MapIntoIter.next c (J 0) s := by
  refine (opt_call n (.inl rfl) rfl (calls_next (y := "total::IntoIter") rfl fun _ => rfl) next_shrinks (e := []) hp (see := seeOpt) ?_ (by simpa [encEnum])).trans ?_
  · intro v hv
    simp only [encEnum, List.mem_map] at hv
    obtain ⟨o, -, rfl⟩ := hv
    exact see_slot o
  · have := skipLoop_enc (step := TotalIntoIter.next (V := Option (P 1)) c (J 0)) (bd := MapIntoIter.body)
      (step' := fun s => s.nextItem c (J 0) (listIter (Val P))) (bd' := seeBody seeOpt)
      (E := encEnum slotVal) (ea := fun p => (p.1, slotVal p.2))
      (eb := fun p => (p.1, .usr 1 p.2)) (Inv := fun _ => True) (Ok := fun _ _ => True)
      (fun s _ => nextItem_enc _ s) (fun _ _ _ _ => ⟨trivial, fun _ _ => trivial⟩)
      (fun x s _ _ => by obtain ⟨k, o⟩ := x; cases o <;> rfl) (fun _ _ _ _ _ _ => trivial) ((Enumerate.iter s).length + 1) s trivial
    simp only [encEnum, List.length_map] at this ⊢
    rw [this]
    simp only [MapIntoIter.next, TotalIntoIter.len, Enumerate.len, listIter]
    cases skipLoop (TotalIntoIter.next c (J 0)) MapIntoIter.body ((Enumerate.iter s).length + 1) s with
    | error f => rfl
    | ok r => simp only [ok_map, intoIterVal, encEnum, Option.map_map]; rfl

theorem intoIter_nextBack (n : Nat) {s : MapIntoIter (P 1)} (hp : Place h a ps (intoIterVal s)) (hs : (Enumerate.iter s).length ≤ c.M) :
    (outM c J S U (n + 4)).call (.con "IntoIter") "next_back" [.mref a ps] h =
      (fun r => (.opt (r.1.map pairOwn), put h a ps (intoIterVal r.2))) <$> MapIntoIter.nextBack c (J 0) s := by
  refine (opt_call n (.inr rfl) rfl (calls_back (y := "total::IntoIter") rfl fun _ => rfl) back_shrinks (e := []) hp (see := seeOpt) ?_ (by simpa [encEnum])).trans ?_
  · intro v hv
    simp only [encEnum, List.mem_map] at hv
    obtain ⟨o, -, rfl⟩ := hv
    exact see_slot o
  · have := skipLoop_enc (step := TotalIntoIter.nextBack (V := Option (P 1)) c (J 0)) (bd := MapIntoIter.body)
      (step' := fun s => s.nextBackItem c (J 0) (listIter (Val P))) (bd' := seeBody seeOpt)
      (E := encEnum slotVal) (ea := fun p => (p.1, slotVal p.2))
      (eb := fun p => (p.1, .usr 1 p.2)) (Inv := fun _ => True) (Ok := fun _ _ => True)
      (fun s _ => nextBackItem_enc _ s) (fun _ _ _ _ => ⟨trivial, fun _ _ => trivial⟩)
      (fun x s _ _ => by obtain ⟨k, o⟩ := x; cases o <;> rfl) (fun _ _ _ _ _ _ => trivial) ((Enumerate.iter s).length + 1) s trivial
    simp only [encEnum, List.length_map] at this ⊢
    rw [this]
    simp only [MapIntoIter.nextBack, TotalIntoIter.len, Enumerate.len, listIter]
    cases skipLoop (TotalIntoIter.nextBack c (J 0)) MapIntoIter.body ((Enumerate.iter s).length + 1) s with
    | error f => rfl
    | ok r => simp only [ok_map, intoIterVal, encEnum, Option.map_map]; rfl

theorem intoIterArray_next (n : Nat) {s : MapIntoIterArray (P 1)} (hp : Place h a ps (intoIterArrayVal s)) (hs : (Enumerate.iter s).length ≤ c.M) :
    (outM c J S U (n + 4)).call (.con "IntoIterArray") "next" [.mref a ps] h =
      (fun r => (.opt (r.1.map pairOwn), put h a ps (intoIterArrayVal r.2))) <$> MapIntoIterArray.next c (J 0) s := by
  refine (opt_call n (.inl rfl) rfl (calls_next (y := "total::IntoIterArray") rfl fun _ => rfl) next_shrinks (e := [phantom]) hp (see := seeOpt) ?_ (by simpa [encEnum])).trans ?_
  · intro v hv
    simp only [encEnum, List.mem_map] at hv
    obtain ⟨o, -, rfl⟩ := hv
    exact see_slot o
  · have := skipLoop_enc (step := TotalIntoIterArray.next (V := Option (P 1)) c (J 0)) (bd := MapIntoIterArray.body)
      (step' := fun s => s.nextItem c (J 0) (listIter (Val P))) (bd' := seeBody seeOpt)
      (E := encEnum slotVal) (ea := fun p => (p.1, slotVal p.2))
      (eb := fun p => (p.1, .usr 1 p.2)) (Inv := fun _ => True) (Ok := fun _ _ => True)
      (fun s _ => nextItem_enc _ s) (fun _ _ _ _ => ⟨trivial, fun _ _ => trivial⟩)
      (fun x s _ _ => by obtain ⟨k, o⟩ := x; cases o <;> rfl) (fun _ _ _ _ _ _ => trivial) ((Enumerate.iter s).length + 1) s trivial
    simp only [encEnum, List.length_map] at this ⊢
    rw [this]
    simp only [MapIntoIterArray.next, TotalIntoIterArray.len, Enumerate.len, listIter]
    cases skipLoop (TotalIntoIterArray.next c (J 0)) MapIntoIterArray.body ((Enumerate.iter s).length + 1) s with
    | error f => rfl
    | ok r => simp only [ok_map, intoIterArrayVal, encEnum, Option.map_map]; rfl

theorem intoIterArray_nextBack (n : Nat) {s : MapIntoIterArray (P 1)} (hp : Place h a ps (intoIterArrayVal s)) (hs : (Enumerate.iter s).length ≤ c.M) :
    (outM c J S U (n + 4)).call (.con "IntoIterArray") "next_back" [.mref a ps] h =
      (fun r => (.opt (r.1.map pairOwn), put h a ps (intoIterArrayVal r.2))) <$> MapIntoIterArray.nextBack c (J 0) s := by
  refine (opt_call n (.inr rfl) rfl (calls_back (y := "total::IntoIterArray") rfl fun _ => rfl) back_shrinks (e := [phantom]) hp (see := seeOpt) ?_ (by simpa [encEnum])).trans ?_
  · intro v hv
    simp only [encEnum, List.mem_map] at hv
    obtain ⟨o, -, rfl⟩ := hv
    exact see_slot o
  · have := skipLoop_enc (step := TotalIntoIterArray.nextBack (V := Option (P 1)) c (J 0)) (bd := MapIntoIterArray.body)
      (step' := fun s => s.nextBackItem c (J 0) (listIter (Val P))) (bd' := seeBody seeOpt)
      (E := encEnum slotVal) (ea := fun p => (p.1, slotVal p.2))
      (eb := fun p => (p.1, .usr 1 p.2)) (Inv := fun _ => True) (Ok := fun _ _ => True)
      (fun s _ => nextBackItem_enc _ s) (fun _ _ _ _ => ⟨trivial, fun _ _ => trivial⟩)
      (fun x s _ _ => by obtain ⟨k, o⟩ := x; cases o <;> rfl) (fun _ _ _ _ _ _ => trivial) ((Enumerate.iter s).length + 1) s trivial
    simp only [encEnum, List.length_map] at this ⊢
    rw [this]
    simp only [MapIntoIterArray.nextBack, TotalIntoIterArray.len, Enumerate.len, listIter]
    cases skipLoop (TotalIntoIterArray.nextBack c (J 0)) MapIntoIterArray.body ((Enumerate.iter s).length + 1) s with
    | error f => rfl
    | ok r => simp only [ok_map, intoIterArrayVal, encEnum, Option.map_map]; rfl

theorem intoIter_sizeHint (n : Nat) (s : MapIntoIter (P 1)) :
    (outM c J S U (n + 3)).call (.con "IntoIter") "size_hint" [.ref (intoIterVal s)] h = .ok (hintVal (MapIntoIter.sizeHint s), h) := by
  refine (loop_sizeHint n rfl rfl (fun _ => rfl) _).trans ?_
  simp [encEnum, MapIntoIter.sizeHint, TotalIntoIter.len, Enumerate.len, listIter]

theorem intoIter_new (n : Nat) (s : Enumerate (List (Val P))) :
    (outM c J S U (n + 2)).call (.con "IntoIter") "new" [wrapVal "total::IntoIter" (enumVal s)] h =
      .ok (iterVal "IntoIter" "total::IntoIter" s, h) := by
  refine (outside_call (d := mapIterFn40_0) (n + 1) _ _ rfl rfl).trans ?_
  runs [mapIterFn40_0, iterVal, wrapVal, enumVal]

theorem intoIterArray_new (n : Nat) (s : Enumerate (List (Val P))) :
    (outM c J S U (n + 2)).call (.con "IntoIterArray") "new" [wrapVal "total::IntoIterArray" (enumVal s)] h =
      .ok (iterWith "IntoIterArray" [phantom] "total::IntoIterArray" s, h) := by
  refine (outside_call (d := mapIterFn34_0) (n + 1) _ _ rfl rfl).trans ?_
  runs [mapIterFn34_0, iterWith, wrapVal, enumVal]

end OrdinalMap.Text
