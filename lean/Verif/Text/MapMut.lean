import Verif.Text.MapIters
/-!
# The iterators of `map/iter.rs` that hold `&mut` references, run from their texts
-/

namespace OrdinalMap.Text

variable {P : Nat → Type} {c : Cfg} {J : (p : Nat) → OrdinalImpl (P p)} {S : Nat} {h : Heap P} {a b : Nat} {ps qs : List Proj}
  {U : UserFns P}

/-- The slots that are left. -/
def rangeEnum (s : Enumerate Range) : Enumerate (List Nat) := ⟨s.next, List.range' s.iter.start (s.iter.stop - s.iter.start)⟩

/-- `OrdinalEnumerate<K, slice::IterMut<'_, V>>`, where the slice is at `b`, `qs`. -/
def mutEnum (b : Nat) (qs : List Proj) (s : Enumerate Range) : Enumerate (List (Val P)) :=
  encEnum (fun i => .mref b (qs ++ [.idx i])) (rangeEnum s)

theorem nextItem_range {K : Type} {I : OrdinalImpl K} (s : Enumerate Range) :
    (rangeEnum s).nextItem c I (listIter Nat) = (fun r => (r.1, rangeEnum r.2)) <$> s.nextItem c I slotIter := by
  obtain ⟨k, i, j⟩ := s
  simp only [rangeEnum, Enumerate.nextItem, listIter, slotIter, Range.next]
  by_cases hj : i < j
  · obtain ⟨d, rfl⟩ : ∃ d, j = i + d + 1 := ⟨j - i - 1, by omega⟩
    have e : i + d + 1 - i = d + 1 := by omega
    have e' : i + d + 1 - (i + 1) = d := by omega
    simp only [e, List.range'_succ, List.head?_cons, List.tail_cons, hj, if_true]
    cases I.fromOrdinal k with
    | error f => rfl
    | ok o => cases o with
      | none => rfl
      | some x =>
        simp only [ok_bind, unwrap]
        cases addU c k 1 with
        | error f => rfl
        | ok m => simp [e']
  · have e : j - i = 0 := by omega
    simp [hj, e]

theorem nextBackItem_range {K : Type} {I : OrdinalImpl K} (s : Enumerate Range) :
    (rangeEnum s).nextBackItem c I (listIter Nat) = (fun r => (r.1, rangeEnum r.2)) <$> s.nextBackItem c I slotIter := by
  obtain ⟨k, i, j⟩ := s
  simp only [rangeEnum, Enumerate.nextBackItem, listIter, slotIter, Range.nextBack]
  by_cases hj : i < j
  · obtain ⟨d, rfl⟩ : ∃ d, j = i + d + 1 := ⟨j - i - 1, by omega⟩
    have e : i + d + 1 - i = d + 1 := by omega
    have e' : i + d + 1 - 1 = i + d := by omega
    have e'' : i + d - i = d := by omega
    simp only [e, List.range'_concat, List.getLast?_append, List.getLast?_singleton, List.dropLast_concat, hj, if_true, Nat.one_mul,
      Option.some_or, e', range_len, e'', List.length_range']
    cases addU c k d with
    | error f => rfl
    | ok m =>
      simp only [ok_bind]
      cases I.fromOrdinal m with
      | error f => rfl
      | ok o => cases o with
        | none => rfl
        | some x => simp [unwrap, e'']
  · have e : j - i = 0 := by omega
    simp [hj, e]

theorem mutEnum_next (s : Enumerate Range) : (mutEnum (P := P) b qs s).nextItem c (J 0) (listIter (Val P)) =
    (fun r => (r.1.map fun p => (p.1, .mref b (qs ++ [.idx p.2])), mutEnum b qs r.2)) <$> s.nextItem c (J 0) slotIter := by
  rw [mutEnum, nextItem_enc, nextItem_range]
  cases s.nextItem c (J 0) slotIter <;> rfl

theorem mutEnum_nextBack (s : Enumerate Range) : (mutEnum (P := P) b qs s).nextBackItem c (J 0) (listIter (Val P)) =
    (fun r => (r.1.map fun p => (p.1, .mref b (qs ++ [.idx p.2])), mutEnum b qs r.2)) <$> s.nextBackItem c (J 0) slotIter := by
  rw [mutEnum, nextBackItem_enc, nextBackItem_range]
  cases s.nextBackItem c (J 0) slotIter <;> rfl

/-- The slots handed out are in range, and the range gets smaller. -/
theorem next_range {K : Type} {I : OrdinalImpl K} {s : Enumerate Range} {r : Option (K × Nat) × Enumerate Range}
    (hr : s.nextItem c I slotIter = .ok r) : r.2.iter.stop ≤ s.iter.stop ∧ r.2.iter.len ≤ s.iter.len ∧
      ∀ p, r.1 = some p → p.2 < s.iter.stop ∧ r.2.iter.len < s.iter.len := by
  obtain ⟨k, i, j⟩ := s
  simp only [Enumerate.nextItem, slotIter, Range.next] at hr
  by_cases hj : i < j
  · simp only [hj, if_true] at hr
    cases hf : I.fromOrdinal k with
    | error f => rw [hf] at hr; exact absurd hr (by simp)
    | ok o => cases o with
      | none => rw [hf] at hr; exact absurd hr (by simp [unwrap])
      | some x =>
        rw [hf] at hr
        simp only [ok_bind, unwrap] at hr
        cases ha : addU c k 1 with
        | error f => rw [ha] at hr; exact absurd hr (by simp)
        | ok m =>
          rw [ha] at hr
          simp only [ok_bind, Except.ok.injEq] at hr
          subst hr
          refine ⟨Nat.le_refl _, by simp only [range_len]; omega, fun p hp => ?_⟩
          simp only [Option.some.injEq] at hp
          subst hp
          exact ⟨hj, by simp only [range_len]; omega⟩
  · simp only [hj, if_false, Except.ok.injEq] at hr
    subst hr
    exact ⟨Nat.le_refl _, Nat.le_refl _, fun p hp => absurd hp (by simp)⟩

theorem back_range {K : Type} {I : OrdinalImpl K} {s : Enumerate Range} {r : Option (K × Nat) × Enumerate Range}
    (hr : s.nextBackItem c I slotIter = .ok r) : r.2.iter.stop ≤ s.iter.stop ∧ r.2.iter.len ≤ s.iter.len ∧
      ∀ p, r.1 = some p → p.2 < s.iter.stop ∧ r.2.iter.len < s.iter.len := by
  obtain ⟨k, i, j⟩ := s
  simp only [Enumerate.nextBackItem, slotIter, Range.nextBack] at hr
  by_cases hj : i < j
  · simp only [hj, if_true] at hr
    cases ha : addU c k (Range.len ⟨i, j - 1⟩) with
    | error f => rw [ha] at hr; exact absurd hr (by simp)
    | ok m =>
      rw [ha] at hr
      simp only [ok_bind] at hr
      cases hf : I.fromOrdinal m with
      | error f => rw [hf] at hr; exact absurd hr (by simp)
      | ok o => cases o with
        | none => rw [hf] at hr; exact absurd hr (by simp [unwrap])
        | some x =>
          rw [hf] at hr
          simp only [ok_bind, unwrap, Except.ok.injEq] at hr
          subst hr
          refine ⟨by simp, by simp only [range_len]; omega, fun p hp => ?_⟩
          simp only [Option.some.injEq] at hp
          subst hp
          exact ⟨by simp only; omega, by simp only [range_len]; omega⟩
  · simp only [hj, if_false, Except.ok.injEq] at hr
    subst hr
    exact ⟨Nat.le_refl _, Nat.le_refl _, fun p hp => absurd hp (by simp)⟩

/-! ## `IterMut` and `ValuesMut` -/

/-- A slot. -/
theorem Place.slot {mem : List (Option (P 1))} (hm : Place h b qs (slotsVal mem)) {i : Nat} {o : Option (P 1)}
    (hi : mem[i]? = some o) : Place h b (qs ++ [.idx i]) (slotVal o) :=
  hm.sub (by simp [slotsVal, getPath, part, hi]) (by simp)

/-- What the loop sees through a `&mut` reference. -/
def seeMut (h : Heap P) : Val P → Option (Val P)
  | .mref b qs => match Loc.get .run h (.heap b qs) with
    | .ok (.con "Some" [_]) => some (.mref b (qs ++ [.idx 0]))
    | _ => none
  | _ => none

theorem seeMut_slot {mem : List (Option (P 1))} (hm : Place h b qs (slotsVal mem)) {i : Nat} {o : Option (P 1)}
    (hi : mem[i]? = some o) : seeMut h (.mref b (qs ++ [.idx i])) = o.map fun _ => .mref b (qs ++ [.idx i] ++ [.idx 0]) := by
  simp only [seeMut, (hm.slot hi).get]
  cases o <;> rfl

theorem view_slot {mem : List (Option (P 1))} (hm : Place h b qs (slotsVal mem)) {i : Nat} (hi : i < mem.length)
    (hn : a ≠ b) : View h a (.mref b (qs ++ [.idx i])) (seeMut h (.mref b (qs ++ [.idx i]))) := by
  obtain ⟨o, ho⟩ : ∃ o, mem[i]? = some o := ⟨_, List.getElem?_eq_getElem hi⟩
  rw [seeMut_slot hm ho]
  have := hm.slot ho
  cases o with
  | none => exact .mnone hn this
  | some v => exact .msome hn this

theorem mem_mutEnum {s : Enumerate Range} {v : Val P} (hv : v ∈ (mutEnum b qs s).iter) :
    ∃ i, i < s.iter.stop ∧ v = .mref b (qs ++ [.idx i]) := by
  simp only [mutEnum, encEnum, rangeEnum, List.mem_map, List.mem_range'_1] at hv
  obtain ⟨i, hi, rfl⟩ := hv
  exact ⟨i, by omega, rfl⟩

theorem mutEnum_length {s : Enumerate Range} : (mutEnum (P := P) b qs s).iter.length = s.iter.len := by
  simp [mutEnum, encEnum, rangeEnum, range_len]

/-- `IterMut<'_, K, V>` on the slice at `b`, `qs` -/
def iterMutVal (b : Nat) (qs : List Proj) (s : Enumerate Range) : Val P := iterVal "IterMut" "total::IterMut" (mutEnum b qs s)

/-- `(k, &mut v)` for the value in slot `i` -/
def pairSlot (b : Nat) (qs : List Proj) (p : P 0 × Nat) : Val P := pairVal (p.1, .mref b (qs ++ [.idx p.2] ++ [.idx 0]))

theorem iterMut_next (n : Nat) {s : MapIterMut (P 1)} (hp : Place h a ps (iterMutVal b qs s.it)) (hm : Place h b qs (slotsVal s.mem))
    (hn : a ≠ b) (hr : s.it.iter.stop ≤ s.mem.length) (hs : s.it.iter.len ≤ c.M) :
    (outM c J S U (n + 4)).call (.con "IterMut") "next" [.mref a ps] h =
      (fun r => (.opt (r.1.map (pairSlot b qs)), put h a ps (iterMutVal b qs r.2.it))) <$> MapIterMut.next c (J 0) s := by
  refine (pair_call n (.inl rfl) rfl (calls_next (y := "total::IterMut") rfl fun _ => rfl) next_shrinks hp (see := seeMut h) ?_
    (by rw [mutEnum_length]; exact hs)).trans ?_
  · intro v hv
    obtain ⟨i, hi, rfl⟩ := mem_mutEnum hv
    exact view_slot hm (by omega) hn
  · obtain ⟨mem, it⟩ := s
    have := skipLoop_enc (step := TotalIterMut.next (V := Option (P 1)) c (J 0)) (bd := MapIterMut.body)
      (step' := fun s => s.nextItem c (J 0) (listIter (Val P))) (bd' := seeBody (seeMut h))
      (E := fun s => mutEnum b qs s.it) (ea := fun p => (p.1, .mref b (qs ++ [.idx p.2])))
      (eb := fun p => (p.1, .mref b (qs ++ [.idx p.2] ++ [.idx 0])))
      (Inv := fun s => s.mem = mem ∧ s.it.iter.stop ≤ mem.length) (Ok := fun p _ => p.2 < mem.length)
      (fun s _ => by
        rw [mutEnum_next, TotalIterMut.next]
        cases s.it.nextItem c (J 0) slotIter <;> rfl)
      (fun s r hi hr => by
        rw [TotalIterMut.next] at hr
        cases hx : s.it.nextItem c (J 0) slotIter with
        | error f => rw [hx] at hr; exact absurd hr (by simp)
        | ok r' =>
          rw [hx] at hr
          simp only [ok_bind, Except.ok.injEq] at hr
          subst hr
          have := next_range hx
          exact ⟨⟨hi.1, by simp only; omega⟩, fun p hp => by have := (this.2.2 p hp).1; omega⟩)
      (fun p s hi ho => by
        have he : mem[p.2]? = some mem[p.2] := List.getElem?_eq_getElem ho
        simp only [seeBody, MapIterMut.body, hi.1, he]
        rw [seeMut_slot hm he]
        cases mem[p.2] <;> rfl)
      (fun p s r hi ho hb => by
        have he : mem[p.2]? = some mem[p.2] := List.getElem?_eq_getElem ho
        simp only [MapIterMut.body, hi.1, he] at hb
        cases hx : mem[p.2] <;> (rw [hx] at hb; simp only [Except.ok.injEq] at hb; subst hb; exact hi))
      (it.iter.len + 1) ⟨mem, it⟩ ⟨rfl, hr⟩
    simp only at this
    rw [mutEnum_length, this]
    simp only [MapIterMut.next, TotalIterMut.len, Enumerate.len, slotIter]
    cases skipLoop (TotalIterMut.next c (J 0)) MapIterMut.body (it.iter.len + 1) ⟨mem, it⟩ with
    | error f => rfl
    | ok r => simp only [ok_map, Option.map_map]; rfl

theorem iterMut_nextBack (n : Nat) {s : MapIterMut (P 1)} (hp : Place h a ps (iterMutVal b qs s.it)) (hm : Place h b qs (slotsVal s.mem))
    (hn : a ≠ b) (hr : s.it.iter.stop ≤ s.mem.length) (hs : s.it.iter.len ≤ c.M) :
    (outM c J S U (n + 4)).call (.con "IterMut") "next_back" [.mref a ps] h =
      (fun r => (.opt (r.1.map (pairSlot b qs)), put h a ps (iterMutVal b qs r.2.it))) <$> MapIterMut.nextBack c (J 0) s := by
  refine (pair_call n (.inr rfl) rfl (calls_back (y := "total::IterMut") rfl fun _ => rfl) back_shrinks hp (see := seeMut h) ?_
    (by rw [mutEnum_length]; exact hs)).trans ?_
  · intro v hv
    obtain ⟨i, hi, rfl⟩ := mem_mutEnum hv
    exact view_slot hm (by omega) hn
  · obtain ⟨mem, it⟩ := s
    have := skipLoop_enc (step := TotalIterMut.nextBack (V := Option (P 1)) c (J 0)) (bd := MapIterMut.body)
      (step' := fun s => s.nextBackItem c (J 0) (listIter (Val P))) (bd' := seeBody (seeMut h))
      (E := fun s => mutEnum b qs s.it) (ea := fun p => (p.1, .mref b (qs ++ [.idx p.2])))
      (eb := fun p => (p.1, .mref b (qs ++ [.idx p.2] ++ [.idx 0])))
      (Inv := fun s => s.mem = mem ∧ s.it.iter.stop ≤ mem.length) (Ok := fun p _ => p.2 < mem.length)
      (fun s _ => by
        rw [mutEnum_nextBack, TotalIterMut.nextBack]
        cases s.it.nextBackItem c (J 0) slotIter <;> rfl)
      (fun s r hi hr => by
        rw [TotalIterMut.nextBack] at hr
        cases hx : s.it.nextBackItem c (J 0) slotIter with
        | error f => rw [hx] at hr; exact absurd hr (by simp)
        | ok r' =>
          rw [hx] at hr
          simp only [ok_bind, Except.ok.injEq] at hr
          subst hr
          have := back_range hx
          exact ⟨⟨hi.1, by simp only; omega⟩, fun p hp => by have := (this.2.2 p hp).1; omega⟩)
      (fun p s hi ho => by
        have he : mem[p.2]? = some mem[p.2] := List.getElem?_eq_getElem ho
        simp only [seeBody, MapIterMut.body, hi.1, he]
        rw [seeMut_slot hm he]
        cases mem[p.2] <;> rfl)
      (fun p s r hi ho hb => by
        have he : mem[p.2]? = some mem[p.2] := List.getElem?_eq_getElem ho
        simp only [MapIterMut.body, hi.1, he] at hb
        cases hx : mem[p.2] <;> (rw [hx] at hb; simp only [Except.ok.injEq] at hb; subst hb; exact hi))
      (it.iter.len + 1) ⟨mem, it⟩ ⟨rfl, hr⟩
    simp only at this
    rw [mutEnum_length, this]
    simp only [MapIterMut.nextBack, TotalIterMut.len, Enumerate.len, slotIter]
    cases skipLoop (TotalIterMut.nextBack c (J 0)) MapIterMut.body (it.iter.len + 1) ⟨mem, it⟩ with
    | error f => rfl
    | ok r => simp only [ok_map, Option.map_map]; rfl

theorem valuesMut_next (n : Nat) {s : ValuesMut (P 1)} (hp : Place h a ps (wrapVal "ValuesMut" (iterMutVal b qs s.it)))
    (hm : Place h b qs (slotsVal s.mem)) (hn : a ≠ b) (hr : s.it.iter.stop ≤ s.mem.length) (hs : s.it.iter.len ≤ c.M) :
    (outM c J S U (n + 5)).call (.con "ValuesMut") "next" [.mref a ps] h =
      (fun r => (.opt (r.1.map fun i => .mref b (qs ++ [.idx i] ++ [.idx 0])), put h a ps (wrapVal "ValuesMut" (iterMutVal b qs r.2.it)))) <$>
        ValuesMut.next c (J 0) s := by
  have h1 := iterMut_next (c := c) (J := J) (S := S) (U := U) n (hp.iter.append [.mref a ps]) (hm.append [.mref a ps]) hn hr hs
  have := val_call (n + 3) (.inl rfl) rfl rfl hp
    (m := (fun r => (r.1.map fun p => (p.1, .mref b (qs ++ [.idx p.2] ++ [.idx 0])), iterMutVal b qs r.2.it)) <$> MapIterMut.next c (J 0) s) (by
      rw [h1]
      cases MapIterMut.next c (J 0) s with
      | error e => rfl
      | ok r => simp only [ok_map, Option.map_map]; rfl)
  rw [this]
  simp only [ValuesMut.next]
  cases MapIterMut.next c (J 0) s with
  | error e => rfl
  | ok r => simp [Function.comp_def]

theorem valuesMut_nextBack (n : Nat) {s : ValuesMut (P 1)} (hp : Place h a ps (wrapVal "ValuesMut" (iterMutVal b qs s.it)))
    (hm : Place h b qs (slotsVal s.mem)) (hn : a ≠ b) (hr : s.it.iter.stop ≤ s.mem.length) (hs : s.it.iter.len ≤ c.M) :
    (outM c J S U (n + 5)).call (.con "ValuesMut") "next_back" [.mref a ps] h =
      (fun r => (.opt (r.1.map fun i => .mref b (qs ++ [.idx i] ++ [.idx 0])), put h a ps (wrapVal "ValuesMut" (iterMutVal b qs r.2.it)))) <$>
        ValuesMut.nextBack c (J 0) s := by
  have h1 := iterMut_nextBack (c := c) (J := J) (S := S) (U := U) n (hp.iter.append [.mref a ps]) (hm.append [.mref a ps]) hn hr hs
  have := val_call (n + 3) (.inr rfl) rfl rfl hp
    (m := (fun r => (r.1.map fun p => (p.1, .mref b (qs ++ [.idx p.2] ++ [.idx 0])), iterMutVal b qs r.2.it)) <$> MapIterMut.nextBack c (J 0) s) (by
      rw [h1]
      cases MapIterMut.nextBack c (J 0) s with
      | error e => rfl
      | ok r => simp only [ok_map, Option.map_map]; rfl)
  rw [this]
  simp only [ValuesMut.nextBack]
  cases MapIterMut.nextBack c (J 0) s with
  | error e => rfl
  | ok r => simp [Function.comp_def]

theorem iterMut_sizeHint (n : Nat) (s : MapIterMut (P 1)) :
    (outM c J S U (n + 3)).call (.con "IterMut") "size_hint" [.ref (iterMutVal b qs s.it)] h =
      .ok (hintVal (MapIterMut.sizeHint s), h) := by
  refine (loop_sizeHint n rfl rfl (fun _ => rfl) _).trans ?_
  rw [mutEnum_length]
  rfl

theorem drain_sizeHint (n : Nat) (s : Drain (P 1)) :
    (outM c J S U (n + 3)).call (.con "Drain") "size_hint" [.ref (iterVal "Drain" "total::IterMut" (mutEnum b qs (TotalIterMut.it s)))] h =
      .ok (hintVal (Drain.sizeHint s), h) := by
  refine (loop_sizeHint n rfl rfl (fun _ => rfl) _).trans ?_
  rw [mutEnum_length]
  rfl

theorem valuesMut_sizeHint (n : Nat) (s : ValuesMut (P 1)) :
    (outM c J S U (n + 4)).call (.con "ValuesMut") "size_hint" [.ref (wrapVal "ValuesMut" (iterMutVal b qs s.it))] h =
      .ok (hintVal (ValuesMut.sizeHint s), h) := by
  refine (outside_call (d := mapIterFn25_1) (n + 3) _ _ rfl rfl).trans ?_
  have h1 := iterMut_sizeHint (c := c) (J := J) (S := S) (U := U) (b := b) (qs := qs)
    (h := h ++ [.ref (wrapVal "ValuesMut" (iterMutVal b qs s.it))]) n s
  simp only [iterMutVal, iterVal, wrapVal, enumVal, phantom, hintVal, MapIterMut.sizeHint] at h1
  runs [mapIterFn25_1, iterMutVal, iterVal, wrapVal, enumVal, h1, hintVal, ValuesMut.sizeHint, MapIterMut.sizeHint]

theorem iterMut_new (n : Nat) (v : Val P) :
    (outM c J S U (n + 2)).call (.con "IterMut") "new" [v] h = .ok (wrapVal "IterMut" v, h) := by
  refine (outside_call (d := mapIterFn7_0) (n + 1) _ _ rfl rfl).trans ?_
  runs [mapIterFn7_0, wrapVal]

theorem valuesMut_new (n : Nat) (v : Val P) :
    (outM c J S U (n + 2)).call (.con "ValuesMut") "new" [v] h = .ok (wrapVal "ValuesMut" v, h) := by
  refine (outside_call (d := mapIterFn24_0) (n + 1) _ _ rfl rfl).trans ?_
  runs [mapIterFn24_0, wrapVal]

theorem drain_new (n : Nat) (v : Val P) :
    (outM c J S U (n + 2)).call (.con "Drain") "new" [v] h = .ok (wrapVal "Drain" v, h) := by
  refine (outside_call (d := mapIterFn29_0) (n + 1) _ _ rfl rfl).trans ?_
  runs [mapIterFn29_0, wrapVal]

/-! ## `Drain` -/

/-- Writes to different variables. -/
theorem put_comm (hn : a ≠ b) (x y : Val P) : put (put h a ps x) b qs y = put (put h b qs y) a ps x := by
  have key (h : Heap P) (a : Nat) (ps : List Proj) (x : Val P) : put h a ps x = match h[a]? with
      | none => h
      | some u => match setPath .run x u ps with
        | .ok u' => h.set a u'
        | .error _ => h := by
    simp only [put, Loc.set]
    cases h[a]? with
    | none => rfl
    | some u => cases hu : setPath .run x u ps <;> simp [hu]
  rw [key h a, key h b]
  cases ha : h[a]? with
  | none =>
    cases hb : h[b]? with
    | none => simp only [key h, ha, hb]
    | some v =>
      cases hv : setPath .run y v qs with
      | error e => simp only [key h, ha, hb, hv]
      | ok v' => simp only [key h, key (h.set b v'), ha, hb, hv, List.getElem?_set_ne (Ne.symm hn)]
  | some u =>
    cases hu : setPath .run x u ps with
    | error e =>
      cases hb : h[b]? with
      | none => simp only [key h, ha, hb, hu]
      | some v =>
        cases hv : setPath .run y v qs with
        | error e => simp only [key h, ha, hb, hu, hv]
        | ok v' => simp only [key h, key (h.set b v'), ha, hb, hu, hv, List.getElem?_set_ne (Ne.symm hn)]
    | ok u' =>
      cases hb : h[b]? with
      | none => simp only [key h, key (h.set a u'), ha, hb, hu, List.getElem?_set_ne hn]
      | some v =>
        cases hv : setPath .run y v qs with
        | error e => simp only [key h, key (h.set a u'), ha, hb, hu, hv, List.getElem?_set_ne hn]
        | ok v' =>
          simp only [key (h.set a u'), key (h.set b v'), ha, hb, hu, hv, List.getElem?_set_ne hn,
            List.getElem?_set_ne (Ne.symm hn)]
          exact List.set_comm _ _ hn

/-- `Drain<'_, K, V>` on the slice at `b`, `qs` -/
def drainVal (b : Nat) (qs : List Proj) (s : Enumerate Range) : Val P := iterVal "Drain" "total::IterMut" (mutEnum b qs s)

/-- The body of a loop that takes. -/
def takeBody (f : String) : Blk :=
  .letS (.tuple (.cons (.path ["k"]) (.cons (.path ["v"]) .nil)))
    (.try (.method (.field (.path [⟨"self", .nil⟩]) "iter") f .nil .nil))
    (.tail (.ifLet (.ctor ["Some"] (.cons (.path ["v"]) .nil))
      (.call (.path [⟨"mem", .nil⟩, ⟨"take", .nil⟩]) (.cons (.path [⟨"v", .nil⟩]) .nil))
      (.semi (.ret (.call (.path [⟨"Some", .nil⟩]) (.cons (.tuple (.cons (.path [⟨"k", .nil⟩])
        (.cons (.path [⟨"v", .nil⟩]) .nil))) .nil))) .nil) (.tuple .nil)))


/-- `Drain.body`, with values at run time. -/
def drainBody (p : P 0 × Nat) (s : Drain (P 1)) : R (Option (P 0 × Val P) × Drain (P 1)) :=
  (fun r => (r.1.map fun p => (p.1, .usr 1 p.2), r.2)) <$> Drain.body p s

variable {te : TyEnv} {f : String} {step : Enumerate Range → R (Option (P 0 × Nat) × Enumerate Range)}

/-- What `next` and `next_back` do with the slots that are left. -/
def ShrinksR (step : Enumerate Range → R (Option (P 0 × Nat) × Enumerate Range)) : Prop :=
  ∀ s r, step s = .ok r → r.2.iter.stop ≤ s.iter.stop ∧ r.2.iter.len ≤ s.iter.len ∧
    ∀ p, r.1 = some p → p.2 < s.iter.stop ∧ r.2.iter.len < s.iter.len

/-- What `total::IterMut` does when `f` is called. -/
def CallsR (c : Cfg) (J : (p : Nat) → OrdinalImpl (P p)) (S : Nat) (U : UserFns P) (f : String)
    (step : Enumerate Range → R (Option (P 0 × Nat) × Enumerate Range)) : Prop :=
  (∀ n, (outM c J S U (n + 1)).self (.con "total::IterMut") f = some .refMut) ∧
  ∀ n (h : Heap P) a ps b qs s, Place h a ps (wrapVal "total::IterMut" (enumVal (mutEnum b qs s))) →
    (outM c J S U (n + 3)).call (.con "total::IterMut") f [.mref a ps] h =
      (fun r => (.opt (r.1.map fun p => pairVal (p.1, .mref b (qs ++ [.idx p.2]))),
        put h a ps (wrapVal "total::IterMut" (enumVal (mutEnum b qs r.2))))) <$> step s

theorem callsR_next : CallsR c J S U "next" (fun s => s.nextItem c (J 0) slotIter) := by
  refine ⟨fun _ => rfl, fun n h a ps b qs s hp => ?_⟩
  rw [total_next n rfl hp, mutEnum_next]
  simp only
  cases s.nextItem c (J 0) slotIter with
  | error e => rfl
  | ok r => simp only [ok_map, Option.map_map]; rfl

theorem callsR_back : CallsR c J S U "next_back" (fun s => s.nextBackItem c (J 0) slotIter) := by
  refine ⟨fun _ => rfl, fun n h a ps b qs s hp => ?_⟩
  rw [total_nextBack n rfl hp, mutEnum_nextBack]
  simp only
  cases s.nextBackItem c (J 0) slotIter with
  | error e => rfl
  | ok r => simp only [ok_map, Option.map_map]; rfl

/-- The step of `total::IterMut`, with the memory. -/
def stepMem (step : Enumerate Range → R (Option (P 0 × Nat) × Enumerate Range)) (s : Drain (P 1)) :
    R (Option (P 0 × Nat) × Drain (P 1)) := do
  let (o, it) ← step (TotalIterMut.it s)
  .ok (o, ⟨s.mem, it⟩)

theorem take_step (n : Nat) (hf : f = "next" ∨ f = "next_back") (hc : CallsR c J S U f step) (hS : ShrinksR step)
    {s : Drain (P 1)} (hp : Place h a ps (drainVal b qs (TotalIterMut.it s))) (hm : Place h b qs (slotsVal s.mem)) (hn : a ≠ b)
    (hr : (TotalIterMut.it s).iter.stop ≤ s.mem.length) :
    loopBody c te (outM c J S U (n + 3)) .run [("self", h.length)] (takeBody f) (h ++ [.mref a ps]) =
      (fun r => (some (skipCtl r.1), put (put h a ps (drainVal b qs (TotalIterMut.it r.2))) b qs (slotsVal r.2.mem) ++ [.mref a ps])) <$>
        skipStep (stepMem step) drainBody s := by
  have hl := hp.lt
  have hq : Place h a (ps ++ [.field "iter"]) (wrapVal "total::IterMut" (enumVal (mutEnum b qs (TotalIterMut.it s)))) := hp.iter
  have h1 := hc.2 n _ _ _ _ _ _ (hq.append [.mref a ps])
  have hs := hc.1
  have hw (v : Val P) : put h a (ps ++ [.field "iter"]) v = put h a ps (wrapVal "Drain" v) := Place.put_iter hp v
  have hiv (s) : wrapVal "Drain" (wrapVal "total::IterMut" (enumVal (mutEnum b qs s))) = drainVal (P := P) b qs s := rfl
  simp only [hq.put_append, hw] at h1
  obtain ⟨mem, it⟩ := s
  simp only at hp hm hr h1 hq
  cases hst : step it with
  | error e =>
    rw [hst] at h1
    simp only [enumVal, phantom, error_map] at h1
    obtain rfl | rfl := hf <;>
    runs [takeBody, loopBody, skipStep, stepMem, hst, hl, hp.get, get_append, drainVal, iterVal, wrapVal, enumVal, h1, hs]
  | ok r =>
    obtain ⟨o, it'⟩ := r
    have hln := hp.len (drainVal b qs it')
    have hm' := hm.other hn (ps := ps) (drainVal b qs it')
    rw [hst] at h1
    simp only [ok_map, hiv] at h1
    cases o with
    | none =>
      simp only [skipStep, stepMem, hst, ok_bind, ok_map, hm'.put_self]
      generalize put h a ps (drainVal b qs it') = h' at h1 hln ⊢
      obtain rfl | rfl := hf <;>
      runs [takeBody, loopBody, skipCtl, hl, hp.get, get_append, drainVal, iterVal, wrapVal, enumVal, h1, hs, hln]
    | some p =>
      obtain ⟨k, i⟩ := p
      have hi : i < mem.length := by have := ((hS _ _ hst).2.2 _ rfl).1; simp only at this; omega
      obtain ⟨o, he⟩ : ∃ o, mem[i]? = some o := ⟨_, List.getElem?_eq_getElem hi⟩
      have hb := hm'.slot he
      have hbl := hb.lt
      have hbg := hb.get
      have hpu : put (put h a ps (drainVal b qs it')) b (qs ++ [.idx i]) .none =
          put (put h a ps (drainVal b qs it')) b qs (slotsVal (mem.set i none)) :=
        hm'.put_sub (by simp [slotsVal, setPath, part, setPart, he, List.map_set, slotVal, Val.opt])
      have hbs := (hb.set .none).trans (congrArg Except.ok hpu)
      have hl2 := hm'.len (slotsVal (mem.set i none))
      cases o with
      | none =>
        simp only [skipStep, stepMem, drainBody, Drain.body, hst, ok_bind, ok_map, he, Option.map_none]
        generalize put h a ps (drainVal b qs it') = h' at h1 hln hbl hbg hbs hl2 ⊢
        generalize put h' b qs (slotsVal (mem.set i none)) = h'' at hbs hl2 ⊢
        simp only [Option.map_some, pairVal] at h1
        generalize qs ++ [.idx i] = qi at h1 hbl hbg hbs
        simp only [hln] at hbl hl2
        simp only [slotVal, Option.map_none, Val.opt, Val.none] at hbg hbs
        obtain rfl | rfl := hf <;>
        runs [takeBody, loopBody, skipCtl, get_cons, hl, hbl, hp.get, hbg, hbs, set_base, get_append, drainVal, iterVal, wrapVal, enumVal, h1, hs, hln, hl2]
      | some v =>
        simp only [skipStep, stepMem, drainBody, Drain.body, hst, ok_bind, ok_map, he, Option.map_some]
        generalize put h a ps (drainVal b qs it') = h' at h1 hln hbl hbg hbs hl2 ⊢
        generalize put h' b qs (slotsVal (mem.set i none)) = h'' at hbs hl2 ⊢
        simp only [Option.map_some, pairVal] at h1
        generalize qs ++ [.idx i] = qi at h1 hbl hbg hbs
        simp only [hln] at hbl hl2
        simp only [slotVal, Option.map_some, Val.opt, Val.some] at hbg
        simp only [Val.none] at hbs
        obtain rfl | rfl := hf <;>
        runs [takeBody, loopBody, skipCtl, pairVal, get_cons, hl, hbl, hp.get, hbg, hbs, set_base, get_append, drainVal, iterVal, wrapVal, enumVal, h1, hs, hln, hl2]

/-- What a loop that takes leaves for its next iteration. -/
theorem take_shorter (hS : ShrinksR step) {s s' : Drain (P 1)}
    (hs : skipStep (stepMem step) drainBody s = .ok (none, s')) :
    ((TotalIterMut.it s').iter.stop ≤ (TotalIterMut.it s).iter.stop ∧ s'.mem.length = s.mem.length) ∧
      (TotalIterMut.it s').iter.len < (TotalIterMut.it s).iter.len := by
  obtain ⟨mem, it⟩ := s
  simp only [skipStep, stepMem] at hs
  cases hm : step it with
  | error e => rw [hm] at hs; exact absurd hs (by simp)
  | ok r =>
    obtain ⟨o, it'⟩ := r
    rw [hm] at hs
    have hr := hS _ _ hm
    cases o with
    | none => exact absurd hs (by simp)
    | some p =>
      have hr' := hr.2.2 _ rfl
      simp only [ok_bind, drainBody, Drain.body] at hs
      cases he : mem[p.2]? with
      | none => rw [he] at hs; exact absurd hs (by simp)
      | some o =>
        rw [he] at hs
        cases o with
        | some v => exact absurd hs (by simp)
        | none =>
          simp only [ok_map, ok_bind, Option.map_none, Except.ok.injEq, Prod.mk.injEq, true_and] at hs
          subst hs
          exact ⟨⟨hr.1, List.length_set⟩, hr'.2⟩

theorem take_call (n : Nat) (hf : f = "next" ∨ f = "next_back") (hd : maps.fn (.con "Drain") f = some (loopFn f (takeBody f)))
    (hc : CallsR c J S U f step) (hS : ShrinksR step)
    {s : Drain (P 1)} (hp : Place h a ps (drainVal b qs (TotalIterMut.it s))) (hm : Place h b qs (slotsVal s.mem)) (hn : a ≠ b)
    (hr : (TotalIterMut.it s).iter.stop ≤ s.mem.length) (hs : (TotalIterMut.it s).iter.len ≤ c.M) :
    (outM c J S U (n + 4)).call (.con "Drain") f [.mref a ps] h =
      (fun r => (.opt (r.1.map pairVal), put (put h a ps (drainVal b qs (TotalIterMut.it r.2))) b qs (slotsVal r.2.mem))) <$>
        skipLoop (stepMem step) drainBody ((TotalIterMut.it s).iter.len + 1) s := by
  refine (outside_call (d := loopFn f (takeBody f)) (n + 3) _ _ hd rfl).trans ?_
  have := loop_skip (body := loopBody c (("Self", .con "Drain") :: mapTys S) (outM c J S U (n + 3)) .run [("self", h.length)]
      (takeBody f)) (step := stepMem step) (bd := drainBody)
    (E := fun s => put (put h a ps (drainVal b qs (TotalIterMut.it s))) b qs (slotsVal s.mem) ++ [.mref a ps])
    (len := fun s => (TotalIterMut.it s).iter.len) (Inv := fun s => (TotalIterMut.it s).iter.stop ≤ s.mem.length)
    (fun s' hi => by
      have hp' := hp.put_at (drainVal b qs (TotalIterMut.it s'))
      have hm' := (hm.other hn (ps := ps) (drainVal b qs (TotalIterMut.it s'))).put_at (slotsVal s'.mem)
      have := take_step (te := ("Self", .con "Drain") :: mapTys S) n hf hc hS
        (hp'.other (Ne.symm hn) (ps := qs) (slotsVal s'.mem)) hm' hn hi
      rw [(hm.other hn (ps := ps) _).len, hp.len] at this
      simp only [this]
      congr 1
      funext r
      rw [put_comm hn.symm, hp.put_put, (hm.other hn (ps := ps) _).put_put])
    (fun s s' hi hst => by
      have := take_shorter hS hst
      exact ⟨by omega, this.2⟩)
    (c.M + 1) ((TotalIterMut.it s).iter.len + 1) s hr (by omega) (by omega)
  rw [hp.put_self, hm.put_self] at this
  have hn (r) := (hm.other hn (ps := ps) (drainVal b qs (TotalIterMut.it r))).len (slotsVal r.mem)
  have hn' (r) := hp.len (drainVal b qs r)
  simp only [loopFn, bindAll, bindParams, ok_bind, alloc_cons, alloc_nil, blk_tail, eval_loop, this]
  cases skipLoop (stepMem step) drainBody ((TotalIterMut.it s).iter.len + 1) s with
  | error f => rfl
  | ok r => runs [hn, hn']

/-- The loop of `Drain`, with values at run time. -/
theorem drainLoop_enc (k : Nat) (s : Drain (P 1)) (step : Enumerate Range → R (Option (P 0 × Nat) × Enumerate Range)) :
    skipLoop (stepMem step) drainBody k s =
      (fun r => (r.1.map fun p => (p.1, .usr 1 p.2), r.2)) <$> skipLoop (stepMem step) Drain.body k s := by
  have := skipLoop_enc (step := stepMem step) (bd := Drain.body) (step' := stepMem step) (bd' := drainBody)
    (E := id) (ea := id) (eb := fun p : P 0 × P 1 => (p.1, Val.usr 1 p.2)) (Inv := fun _ => True) (Ok := fun _ _ => True)
    (fun s _ => by simp only [id]; cases stepMem step s <;> simp) (fun _ _ _ _ => ⟨trivial, fun _ _ => trivial⟩)
    (fun _ _ _ _ => rfl) (fun _ _ _ _ _ _ => trivial) k s trivial
  exact this

/-- **`Drain::next` runs as the model says.** -/
theorem drain_next (n : Nat) {s : Drain (P 1)} (hp : Place h a ps (drainVal b qs (TotalIterMut.it s)))
    (hm : Place h b qs (slotsVal s.mem)) (hn : a ≠ b)
    (hr : (TotalIterMut.it s).iter.stop ≤ s.mem.length) (hs : (TotalIterMut.it s).iter.len ≤ c.M) :
    (outM c J S U (n + 4)).call (.con "Drain") "next" [.mref a ps] h =
      (fun r => (.opt (r.1.map pairOwn), put (put h a ps (drainVal b qs (TotalIterMut.it r.2))) b qs (slotsVal r.2.mem))) <$>
        Drain.next c (J 0) s := by
  rw [take_call n (.inl rfl) rfl callsR_next (fun _ _ hr => next_range hr) hp hm hn hr hs, drainLoop_enc]
  rw [show stepMem (P := P) (fun s => s.nextItem c (J 0) slotIter) = TotalIterMut.next c (J 0) from rfl]
  rw [show skipLoop (TotalIterMut.next c (J 0)) Drain.body ((TotalIterMut.it s).iter.len + 1) s = Drain.next c (J 0) s from rfl]
  cases Drain.next c (J 0) s with
  | error e => rfl
  | ok r => simp only [ok_map, Option.map_map]; rfl

/-- **`Drain::next_back` runs as the model says.** -/
theorem drain_nextBack (n : Nat) {s : Drain (P 1)} (hp : Place h a ps (drainVal b qs (TotalIterMut.it s)))
    (hm : Place h b qs (slotsVal s.mem)) (hn : a ≠ b)
    (hr : (TotalIterMut.it s).iter.stop ≤ s.mem.length) (hs : (TotalIterMut.it s).iter.len ≤ c.M) :
    (outM c J S U (n + 4)).call (.con "Drain") "next_back" [.mref a ps] h =
      (fun r => (.opt (r.1.map pairOwn), put (put h a ps (drainVal b qs (TotalIterMut.it r.2))) b qs (slotsVal r.2.mem))) <$>
        Drain.nextBack c (J 0) s := by
  rw [take_call n (.inr rfl) rfl callsR_back (fun _ _ hr => back_range hr) hp hm hn hr hs, drainLoop_enc]
  rw [show stepMem (P := P) (fun s => s.nextBackItem c (J 0) slotIter) = TotalIterMut.nextBack c (J 0) from rfl]
  rw [show skipLoop (TotalIterMut.nextBack c (J 0)) Drain.body ((TotalIterMut.it s).iter.len + 1) s = Drain.nextBack c (J 0) s from rfl]
  cases Drain.nextBack c (J 0) s with
  | error e => rfl
  | ok r => simp only [ok_map, Option.map_map]; rfl

/-- What is left after a call of `next` or `next_back`. -/
theorem take_left (hS : ShrinksR step) (k : Nat) : ∀ (s : Drain (P 1)) r, skipLoop (stepMem step) Drain.body k s = .ok r →
    (TotalIterMut.it r.2).iter.stop ≤ (TotalIterMut.it s).iter.stop ∧ r.2.mem.length = s.mem.length ∧
      (TotalIterMut.it r.2).iter.len ≤ (TotalIterMut.it s).iter.len ∧
      (r.1.isSome → (TotalIterMut.it r.2).iter.len < (TotalIterMut.it s).iter.len) := by
  induction k with
  | zero => intro s r hr; exact absurd hr (by simp [skipLoop])
  | succ k ih =>
    rintro ⟨mem, it⟩ r hr
    simp only [skipLoop, stepMem] at hr
    cases hm : step it with
    | error e => rw [hm] at hr; exact absurd hr (by simp)
    | ok q =>
      obtain ⟨o, it'⟩ := q
      rw [hm] at hr
      have hq := hS _ _ hm
      cases o with
      | none =>
        simp only [ok_bind, Except.ok.injEq] at hr
        subst hr
        exact ⟨hq.1, rfl, hq.2.1, fun h => absurd h (by simp)⟩
      | some p =>
        have hq' := hq.2.2 _ rfl
        simp only [ok_bind, Drain.body] at hr
        cases he : mem[p.2]? with
        | none => rw [he] at hr; exact absurd hr (by simp)
        | some o =>
          rw [he] at hr
          cases o with
          | some v =>
            simp only [ok_bind, Except.ok.injEq] at hr
            subst hr
            exact ⟨hq.1, List.length_set, hq.2.1, fun _ => hq'.2⟩
          | none =>
            simp only [ok_bind] at hr
            have := ih _ _ hr
            have hq1 := hq.1
            have hq2 := hq'.2
            simp only [List.length_set] at this hq1 hq2 ⊢
            exact ⟨by omega, this.2.1, by omega, fun h => by have := this.2.2.2 h; omega⟩

/-- `for _ in self {}` (map/iter.rs:280), with the iterator that is left. -/
def drainAll {K V : Type} (c : Cfg) (I : OrdinalImpl K) : Nat → Drain V → R (Drain V)
  | 0, _ => .error .diverge
  | k + 1, s => do
    match ← Drain.next c I s with
    | (none, s) => .ok s
    | (some _, s) => drainAll c I k s

theorem drainAll_mem {K V : Type} (c : Cfg) (I : OrdinalImpl K) (k : Nat) (s : Drain V) :
    TotalIterMut.mem <$> drainAll c I k s = Drain.dropLoop c I k s := by
  induction k generalizing s with
  | zero => rfl
  | succ k ih =>
    simp only [drainAll, Drain.dropLoop]
    cases Drain.next c I s with
    | error e => rfl
    | ok r =>
      obtain ⟨o, s'⟩ := r
      cases o with
      | none => rfl
      | some p => exact ih s'

/-- Where the drained slice and the iterator are. -/
def drainHeap (h : Heap P) (a : Nat) (ps : List Proj) (b : Nat) (qs : List Proj) (s : Drain (P 1)) : Heap P :=
  put (put h a ps (drainVal b qs (TotalIterMut.it s))) b qs (slotsVal s.mem)

theorem iterLoop_drain (n : Nat) {body : Val P → Heap P → Res P} (hb : ∀ v h, body v h = Res.val .unit h)
    {s₀ : Drain (P 1)} (hp : Place h a ps (drainVal b qs (TotalIterMut.it s₀)))
    (hm : Place h b qs (slotsVal s₀.mem)) (hn : a ≠ b) (k : Nat) :
    ∀ j (s : Drain (P 1)), (TotalIterMut.it s).iter.stop ≤ s.mem.length → (TotalIterMut.it s).iter.len ≤ c.M →
      (TotalIterMut.it s).iter.len < k → (TotalIterMut.it s).iter.len < j →
      iterLoop ((outM c J S U (n + 4)).call (.con "Drain") "next" [.mref a ps]) body k (drainHeap h a ps b qs s ++ xs) =
        (fun s' => (.loc (.val .unit), drainHeap h a ps b qs s' ++ xs)) <$> drainAll c (J 0) j s := by
  induction k with
  | zero => intro j s _ _ h1; exact absurd h1 (by omega)
  | succ k ih =>
    intro j s hr hM h1 h2
    obtain ⟨j, rfl⟩ : ∃ i, j = i + 1 := ⟨j - 1, by omega⟩
    have hp' : Place (drainHeap h a ps b qs s) a ps _ :=
      (hp.put_at (drainVal b qs (TotalIterMut.it s))).other (Ne.symm hn) (ps := qs) (slotsVal s.mem)
    have hm' : Place (drainHeap h a ps b qs s) b qs _ :=
      (hm.other hn (ps := ps) (drainVal b qs (TotalIterMut.it s))).put_at (slotsVal s.mem)
    have hq (s' : Drain (P 1)) : put (put (drainHeap h a ps b qs s ++ xs) a ps (drainVal b qs (TotalIterMut.it s'))) b qs
        (slotsVal s'.mem) = drainHeap h a ps b qs s' ++ xs := by
      rw [hp'.put_append, (hm'.other hn (ps := ps) _).put_append]
      simp only [drainHeap]
      rw [put_comm hn.symm, hp.put_put, (hm.other hn (ps := ps) _).put_put]
    rw [iterLoop, drain_next n (hp'.append xs) (hm'.append xs) hn hr hM, drainAll]
    simp only [hq]
    cases hd : Drain.next c (J 0) s with
    | error e => rfl
    | ok r =>
      obtain ⟨o, s'⟩ := r
      have hl := take_left (step := fun s => s.nextItem c (J 0) slotIter) (fun _ _ hr => next_range hr) _ _ _ hd
      cases o with
      | none => rfl
      | some p =>
        have hl' := hl.2.2.2 rfl
        have := ih j s' (by simp only at hl; omega) (by simp only at hl; omega) (by simp only at hl'; omega) (by simp only at hl'; omega)
        simp only [ok_map, ok_bind, Option.map_some, Val.opt, Val.some, hb, Res.val]
        exact this

/-- **`Drop for Drain` runs as the model says.** -/
theorem drain_drop (n : Nat) {s : Drain (P 1)} (hp : Place h a ps (drainVal b qs (TotalIterMut.it s)))
    (hm : Place h b qs (slotsVal s.mem)) (hn : a ≠ b)
    (hr : (TotalIterMut.it s).iter.stop ≤ s.mem.length) (hs : (TotalIterMut.it s).iter.len ≤ c.M) :
    (outM c J S U (n + 5)).call (.con "Drain") "drop" [.mref a ps] h =
      (fun s' => (.unit, drainHeap h a ps b qs s')) <$> drainAll c (J 0) (TotalIterMut.len s + 1) s := by
  refine (outside_call (d := mapIterFn30_0) (n + 4) _ _ rfl rfl).trans ?_
  have hl := hp.lt
  have h0 : drainHeap h a ps b qs s = h := by rw [drainHeap, hp.put_self, hm.put_self]
  have := iterLoop_drain (c := c) (J := J) (S := S) (U := U) (xs := [.mref a ps]) n
    (body := forBody c (("Self", .con "Drain") :: mapTys S) (outM c J S U (n + 4)) .run [("self", h.length)] .wild .nil)
    (fun v h => by runs [forBody]) hp hm hn (c.M + 1) (TotalIterMut.len s + 1) s hr hs
    (by omega) (by show _ < (TotalIterMut.it s).iter.len + 1; omega)
  rw [h0] at this
  simp only [outM, Cfg.M] at this
  have hln (s') : (drainHeap h a ps b qs s').length = h.length := by
    rw [drainHeap, (hm.other hn (ps := ps) _).len, hp.len]
  have hg := hp.get
  simp only [drainVal, iterVal, wrapVal, enumVal] at hg
  runs [mapIterFn30_0, hl, hg, this]
  cases drainAll c (J 0) (TotalIterMut.len s + 1) s with
  | error e => rfl
  | ok r => exact (out_val _ _ h.length _ Val.unit).trans (by runs [hln])

end OrdinalMap.Text
