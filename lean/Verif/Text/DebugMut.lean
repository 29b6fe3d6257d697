import Verif.Text.DebugMaps
/-!
# The texts of `Debug` of the mutable iterators

They print through `as_slice` of `slice::IterMut`: what is in the slice now.
-/

namespace OrdinalMap.Text

variable {P : Nat → Type} {c : Cfg} {J : (p : Nat) → OrdinalImpl (P p)} {S : Nat} {D : Printer P} {h : Heap P} {b : Nat} {qs : List Proj}

/-- What the items refer to, also after calls. -/
def Shows (h : Heap P) (vs us : List (Val P)) : Prop := ∀ xs, vs.mapM (itemAt .run (h ++ xs)) = .ok us

theorem Shows.append {vs us : List (Val P)} (hv : Shows h vs us) (xs : Heap P) : Shows (h ++ xs) vs us := fun ys => by
  rw [List.append_assoc]; exact hv _

theorem items_read {mem : List (Val P)} (hm : Place h b qs (.arr mem)) : ∀ (is : List Nat) (us : List (Val P)),
    is.map (mem[·]?) = us.map some → (is.map fun i => (.mref b (qs ++ [.idx i]) : Val P)).mapM (itemAt .run h) = .ok us
  | [], [], _ => rfl
  | [], _ :: _, e => absurd e (by simp)
  | _ :: _, [], e => absurd e (by simp)
  | i :: is, u :: us, e => by
    simp only [List.map_cons, List.cons.injEq] at e
    have h1 : itemAt .run h (.mref b (qs ++ [.idx i])) = .ok u :=
      (hm.sub (qs := [.idx i]) (u := u) (by simp [getPath, part, e.1]) (by simp)).get
    simp only [List.map_cons, List.mapM_cons, h1, items_read hm is us e.2]
    rfl

theorem range_slots {ι : Type} (mem : List ι) (i j : Nat) (hj : j ≤ mem.length) :
    (List.range' i (j - i)).map (mem[·]?) = ((mem.take j).drop i).map some := by
  apply List.ext_getElem?
  intro k
  simp only [List.getElem?_map, List.getElem?_range', List.getElem?_drop, List.getElem?_take]
  by_cases hk : k < j - i
  · have : i + k < j := by omega
    have h2 : i + k < mem.length := by omega
    simp [hk, this, List.getElem?_eq_getElem h2]
  · have : ¬ i + k < j := by omega
    simp [hk, this]

/-- What is left of the slice. -/
theorem shows_rest {ι : Type} {e : ι → Val P} {mem : List ι} (hm : Place h b qs (.arr (mem.map e))) {s : Enumerate Range}
    (hr : s.iter.stop ≤ mem.length) : Shows h (mutEnum b qs s).iter (((mem.take s.iter.stop).drop s.iter.start).map e) := by
  intro xs
  refine items_read (hm.append xs) _ _ ?_
  have := congrArg (List.map (Option.map e)) (range_slots mem s.iter.start s.iter.stop hr)
  simpa [rangeEnum, Function.comp_def, List.map_take, List.map_drop] using this

theorem totalIterMut_iter (n i : Nat) {vs us : List (Val P)} (hv : Shows h vs us) :
    (outM c J S noFns (n + 4)).call (.con "total::IterMut") "iter" [.ref (wrapVal "total::IterMut" (enumVal ⟨i, vs⟩))] h =
      .ok (wrapVal "total::Iter" (enumVal ⟨i, us.map .ref⟩), h) := by
  refine (outside_call (d := totalIterFn8_1) (n + 3) _ _ rfl rfl).trans ?_
  have hv := hv [.ref (wrapVal "total::IterMut" (enumVal ⟨i, vs⟩))]
  simp only [wrapVal, enumVal, phantom] at hv
  runs [totalIterFn8_1, totalIter_newAt, wrapVal, enumVal, hv, Enumerate.new]

@[text] theorem self_totalIterMut_iter : (outM c J S noFns (n + 1)).self (.con "total::IterMut") "iter" = some .ref := rfl
@[text] theorem self_iterMut_iter : (outM c J S noFns (n + 1)).self (.con "IterMut") "iter" = some .ref := rfl

theorem iterMut_iter (n : Nat) {s : MapIterMut (P 1)} (hm : Place h b qs (slotsVal s.mem)) (hr : s.it.iter.stop ≤ s.mem.length) :
    (outM c J S noFns (n + 5)).call (.con "IterMut") "iter" [.ref (iterMutVal b qs s.it)] h = .ok (mapIterVal (MapIterMut.iter s), h) := by
  refine (outside_call (d := mapIterFn7_1) (n + 4) _ _ rfl rfl).trans ?_
  have hv := (shows_rest hm hr).append [.ref (iterMutVal b qs s.it)]
  have h1 := totalIterMut_iter (c := c) (J := J) (S := S) n s.it.next hv
  have h2 (h : Heap P) i vs := mapIter_new (c := c) (J := J) (S := S) (U := noFns) (h := h) (n + 2) ⟨i, vs⟩
  have he : (mutEnum (P := P) b qs s.it).next = s.it.next := rfl
  simp only [wrapVal, enumVal, phantom, iterVal, iterMutVal, he] at h1 h2
  runs [mapIterFn7_1, wrapVal, enumVal, iterMutVal, mapIterVal, iterVal, encEnum, h1, h2, he, Function.comp_def, MapIterMut.iter, TotalIterMut.iter,
    TotalIter.new, Enumerate.new]

theorem valuesMut_iter (n : Nat) {s : MapIterMut (P 1)} (hm : Place h b qs (slotsVal s.mem)) (hr : s.it.iter.stop ≤ s.mem.length) :
    (outM c J S noFns (n + 6)).call (.con "ValuesMut") "iter" [.ref (wrapVal "ValuesMut" (iterMutVal b qs s.it))] h =
      .ok (wrapVal "Values" (mapIterVal (MapIterMut.iter s)), h) := by
  refine (outside_call (d := mapIterFn24_1) (n + 5) _ _ rfl rfl).trans ?_
  have h1 := iterMut_iter (c := c) (J := J) (S := S) n (hm.append [.ref (wrapVal "ValuesMut" (iterMutVal b qs s.it))]) hr
  simp only [wrapVal, enumVal, phantom, iterVal, iterMutVal] at h1
  runs [mapIterFn24_1, wrapVal, enumVal, iterMutVal, iterVal, h1]

theorem place_cons {v x : Val P} (hp : Place h b qs v) : Place (x :: h) (b + 1) qs v := by
  refine ⟨?_, hp.2⟩
  have := hp.1
  simpa [Loc.get] using this

theorem fmtAt_eq {t : String} {v : Val P} {m : P 2 → R (Val P × P 2)} {r : P 2} {te : TyEnv} {prog : Prog}
    (he : (outsideF c J te prog D 9).call (.con t) "fmt" [.ref v, .mref 0 []] (.usr 2 r :: h) = (fun x => (x.1, .usr 2 x.2 :: h)) <$> m r) :
    fmtAt c J te prog D t v h r = (fun x => (x, h)) <$> m r := by
  rw [fmtAt, he]
  cases m r <;> rfl

theorem rest_length {ι : Type} (mem : List ι) (s : Range) : ((mem.take s.stop).drop s.start).length ≤ s.len := by
  simp only [range_len, List.length_drop, List.length_take]
  omega

theorem iterMut_fmt {s : MapIterMut (P 1)} (hm : Place h b qs (slotsVal s.mem)) (hr : s.it.iter.stop ≤ s.mem.length) (hs : s.it.iter.len ≤ c.M)
    (r : P 2) : fmtAt c J (mapTys S) maps D "IterMut" (iterMutVal (b + 1) qs s.it) h r = (fun x => (x, h)) <$>
      D.printFrom "debug_list" (MapIter.next c (J 0)) pairRef (c.M + 1) (MapIterMut.iter s) r :=
  fmtAt_eq (m := D.printFrom _ _ _ _ _) (fmt_enc_at (te := mapTys S) (prog := maps) 7 mapIterVal (fun s => [("iter", wrapVal "total::Iter"
    (enumVal (encEnum (fun o => .ref (slotVal o)) s)))]) pairRef (Inv := fun it => it.iter.length ≤ c.M) (by decide) rfl (fun _ => rfl)
    (.inl rfl) (.inr rfl) rfl rfl (fun _ => rfl) h (fun r => iterMut_iter 3 ((place_cons hm).append [_, _]) hr)
    (fun h a it hi hp => mapIter_next 4 hp hi) mapIter_keeps (Nat.le_trans (rest_length _ _) hs) r)

theorem valuesMut_fmt {s : MapIterMut (P 1)} (hm : Place h b qs (slotsVal s.mem)) (hr : s.it.iter.stop ≤ s.mem.length) (hs : s.it.iter.len ≤ c.M)
    (r : P 2) : fmtAt c J (mapTys S) maps D "ValuesMut" (wrapVal "ValuesMut" (iterMutVal (b + 1) qs s.it)) h r = (fun x => (x, h)) <$>
      D.printFrom "debug_list" (Values.next c (J 0)) (fun v => .ref (.usr 1 v)) (c.M + 1) (MapIterMut.iter s) r :=
  fmtAt_eq (m := D.printFrom _ _ _ _ _) (fmt_enc_at (te := mapTys S) (prog := maps) 7 (fun s => wrapVal "Values" (mapIterVal s))
    (fun s => [("iter", mapIterVal s)]) (fun v => .ref (.usr 1 v)) (Inv := fun it : Values (P 1) => it.iter.length ≤ c.M) (by decide) rfl (fun _ => rfl)
    (.inl rfl) (.inr rfl) rfl rfl (fun _ => rfl) h (fun r => valuesMut_iter 2 ((place_cons hm).append [_, _]) hr)
    (fun h a it hi hp => mapValues_next 3 hp hi) (fun it x hi h => Nat.le_trans (values_step_left (J := J) (d := .front) h) hi)
    (Nat.le_trans (rest_length _ _) hs) r)

theorem totalIterMut_fmt {s : TotalIterMut (P 1)} (hm : Place h b qs (.arr (ofV s.mem))) (hr : s.it.iter.stop ≤ s.mem.length) (r : P 2) :
    fmtAt c J (mapTys S) maps D "total::IterMut" (wrapVal "total::IterMut" (enumVal (mutEnum (b + 1) qs s.it))) h r = (fun x => (x, h)) <$>
      D.printFrom "debug_list" (TotalIter.next c (J 0)) pairRef (c.M + 1) (TotalIterMut.iter s) r := by
  have hc (r : P 2) := totalIterMut_iter (c := c) (J := J) (S := S) 4 s.it.next (shows_rest (e := Val.usr 1) ((place_cons (x := .usr 2 r) hm).append
    [.ref (wrapVal "total::IterMut" (enumVal (mutEnum (b + 1) qs s.it))), .mref 0 []]) hr)
  have he : wrapVal "total::Iter" (enumVal ⟨s.it.next, (((s.mem.take s.it.iter.stop).drop s.it.iter.start).map (Val.usr 1)).map .ref⟩) =
      totalIterVal (TotalIterMut.iter s) := by
    simp [totalIterVal, encEnum, TotalIterMut.iter, TotalIter.new, Enumerate.new, Function.comp_def]
  rw [he] at hc
  exact fmtAt_eq (m := D.printFrom _ _ _ _ _) (fmt_enc_at (te := mapTys S) (prog := maps) 7 totalIterVal (fun s => [("iter",
    enumVal (encEnum (fun v => .ref (.usr 1 v)) s))]) pairRef (Inv := fun _ => True) (by decide) rfl (fun _ => rfl)
    (.inl rfl) (.inr rfl) rfl rfl (fun _ => rfl) h hc (fun h a it hi hp => totalIter_next 5 hp) (fun _ _ _ _ => trivial) trivial r)

end OrdinalMap.Text
