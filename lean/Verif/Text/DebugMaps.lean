import Verif.Text.DebugRun
import Verif.Text.MapArrayHist
import Verif.Text.MapObs
import Verif.Text.TotalMain
/-!
# The texts of `Debug` of the maps and their iterators
-/

namespace OrdinalMap.Text

variable {P : Nat → Type} {c : Cfg} {J : (p : Nat) → OrdinalImpl (P p)} {S : Nat} {D : Printer P}

theorem mapIter_keeps (it : MapIter (P 1)) x (hi : it.iter.length ≤ c.M) (h : MapIter.next c (J 0) it = .ok x) : x.2.iter.length ≤ c.M :=
  Nat.le_trans (mapIter_step_left (J := J) (d := .front) h) hi

theorem map_fmt (s : OMap (P 1)) (hs : List.length s ≤ c.M) (r : P 2) :
    fmtText c J (mapTys S) maps D "OrdinalMap" (mapVal s) r =
      D.printFrom "debug_map" (MapIter.next c (J 0)) pairRef (c.M + 1) (OMap.iter s) r :=
  fmtText_eq (m := D.printFrom _ _ _ _ _) (fmt_enc (te := mapTys S) (prog := maps) 7 mapIterVal (fun s => [("iter", wrapVal "total::Iter"
    (enumVal (encEnum (fun o => .ref (slotVal o)) s)))]) pairRef (Inv := fun it => it.iter.length ≤ c.M) (by decide) rfl (fun _ => rfl)
    (.inr rfl) (.inr rfl) rfl rfl (fun _ => rfl) (fun h => map_iter 4 s) (fun h a it hi hp => mapIter_next 4 hp hi) mapIter_keeps hs [] r)

theorem arrMap_fmt (s : List (Option (P 1))) (hs : s.length ≤ c.M) (r : P 2) :
    fmtText c J (mapTys S) maps D "OrdinalArrayMap" (arrMapVal s) r =
      D.printFrom "debug_map" (MapIter.next c (J 0)) pairRef (c.M + 1) (OrdinalArrayMap.iter s) r :=
  fmtText_eq (m := D.printFrom _ _ _ _ _) (fmt_enc (te := mapTys S) (prog := maps) 7 mapIterVal (fun s => [("iter", wrapVal "total::Iter"
    (enumVal (encEnum (fun o => .ref (slotVal o)) s)))]) pairRef (Inv := fun it => it.iter.length ≤ c.M) (by decide) rfl (fun _ => rfl)
    (.inr rfl) (.inr rfl) rfl rfl (fun _ => rfl) (fun h => arrMap_iter 3 s) (fun h a it hi hp => mapIter_next 4 hp hi) mapIter_keeps hs [] r)

theorem mapIter_fmt (s : MapIter (P 1)) (hs : s.iter.length ≤ c.M) (r : P 2) :
    fmtText c J (mapTys S) maps D "Iter" (mapIterVal s) r =
      D.printFrom "debug_list" (MapIter.next c (J 0)) pairRef (c.M + 1) s r :=
  fmtText_eq (m := D.printFrom _ _ _ _ _) (fmt_enc (te := mapTys S) (prog := maps) 7 mapIterVal (fun s => [("iter", wrapVal "total::Iter"
    (enumVal (encEnum (fun o => .ref (slotVal o)) s)))]) pairRef (Inv := fun it => it.iter.length ≤ c.M) (by decide) rfl (fun _ => rfl)
    (.inl rfl) (.inl rfl) rfl rfl (fun _ => rfl) (fun h => mapIter_clone 4 s) (fun h a it hi hp => mapIter_next 4 hp hi) mapIter_keeps hs [] r)

theorem keys_fmt (s : Keys (P 1)) (hs : s.iter.length ≤ c.M) (r : P 2) :
    fmtText c J (mapTys S) maps D "Keys" (wrapVal "Keys" (mapIterVal s)) r =
      D.printFrom "debug_list" (Keys.next c (J 0)) (.usr 0) (c.M + 1) s r :=
  fmtText_eq (m := D.printFrom _ _ _ _ _) (fmt_enc (te := mapTys S) (prog := maps) 7 (fun s => wrapVal "Keys" (mapIterVal s)) (fun s => [("iter", mapIterVal s)])
    (.usr 0) (Inv := fun it : Keys (P 1) => it.iter.length ≤ c.M) (by decide) rfl (fun _ => rfl)
    (.inl rfl) (.inl rfl) rfl rfl (fun _ => rfl) (fun h => keys_clone 3 s) (fun h a it hi hp => keys_next 3 hp hi)
    (fun it x hi h => Nat.le_trans (keys_step_left (J := J) (d := .front) h) hi) hs [] r)

theorem mapValues_fmt (s : Values (P 1)) (hs : s.iter.length ≤ c.M) (r : P 2) :
    fmtText c J (mapTys S) maps D "Values" (wrapVal "Values" (mapIterVal s)) r =
      D.printFrom "debug_list" (Values.next c (J 0)) (fun v => .ref (.usr 1 v)) (c.M + 1) s r :=
  fmtText_eq (m := D.printFrom _ _ _ _ _) (fmt_enc (te := mapTys S) (prog := maps) 7 (fun s => wrapVal "Values" (mapIterVal s)) (fun s => [("iter", mapIterVal s)])
    (fun v => .ref (.usr 1 v)) (Inv := fun it : Values (P 1) => it.iter.length ≤ c.M) (by decide) rfl (fun _ => rfl)
    (.inl rfl) (.inl rfl) rfl rfl (fun _ => rfl) (fun h => mapValues_clone 3 s) (fun h a it hi hp => mapValues_next 3 hp hi)
    (fun it x hi h => Nat.le_trans (values_step_left (J := J) (d := .front) h) hi) hs [] r)

theorem totalIter_next (n : Nat) {h : Heap P} {a : Nat} {ps : List Proj} {s : TotalIter (P 1)} (hp : Place h a ps (totalIterVal s)) :
    (outM c J S noFns (n + 3)).call (.con "total::Iter") "next" [.mref a ps] h =
      (fun r => (.opt (r.1.map pairRef), put h a ps (totalIterVal r.2))) <$> TotalIter.next c (J 0) s := by
  have := total_next (c := c) (J := J) (S := S) (U := noFns) n (x := "total::Iter") rfl hp
  rw [nextItem_enc] at this
  refine this.trans ?_
  simp only [TotalIter.next]
  cases Enumerate.nextItem c (J 0) (listIter (P 1)) s with
  | error f => rfl
  | ok r => obtain ⟨o, r⟩ := r; cases o <;> rfl

theorem totalIter_fmt (s : TotalIter (P 1)) (r : P 2) :
    fmtText c J (mapTys S) maps D "total::Iter" (totalIterVal s) r =
      D.printFrom "debug_list" (TotalIter.next c (J 0)) pairRef (c.M + 1) s r := by
  have hc (h : Heap P) := totalIter_clone (c := c) (J := J) (S := S) (U := noFns) (h := h) 5 (Enumerate.next s) (ofV s.iter)
  have he : totalIterVal s = wrapVal "total::Iter" (enumVal ⟨Enumerate.next s, (ofV s.iter).map .ref⟩) := by
    simp [totalIterVal, encEnum, Function.comp_def, ofV]
  simp only [← he] at hc
  exact fmtText_eq (m := D.printFrom _ _ _ _ _) (fmt_enc (te := mapTys S) (prog := maps) 7 totalIterVal (fun s => [("iter",
    enumVal (encEnum (fun v => .ref (.usr 1 v)) s))]) pairRef (Inv := fun _ => True) (by decide) rfl (fun _ => rfl)
    (.inl rfl) (.inl rfl) rfl rfl (fun _ => rfl) hc (fun h a it hi hp => totalIter_next 5 hp) (fun _ _ _ _ => trivial) trivial [] r)

theorem totalMap_fmt (s : List (P 1)) (r : P 2) :
    fmtText c J (mapTys S) maps D "OrdinalTotalMap" (boxMapVal s) r =
      D.printFrom "debug_map" (TotalIter.next c (J 0)) pairRef (c.M + 1) (OrdinalTotalMap.iter s) r := by
  have hc (h : Heap P) := totalMap_iter (c := c) (J := J) (S := S) (U := noFns) (h := h) 4 (ofV s)
  have he : totalIterVal (OrdinalTotalMap.iter s) = wrapVal "total::Iter" (enumVal ⟨0, (ofV s).map .ref⟩) := by
    simp [totalIterVal, encEnum, Function.comp_def, ofV, OrdinalTotalMap.iter, TotalIter.new, Enumerate.new]
  simp only [← he] at hc
  exact fmtText_eq (m := D.printFrom _ _ _ _ _) (fmt_enc (te := mapTys S) (prog := maps) 7 totalIterVal (fun s => [("iter",
    enumVal (encEnum (fun v => .ref (.usr 1 v)) s))]) pairRef (Inv := fun _ => True) (by decide) rfl (fun _ => rfl)
    (.inr rfl) (.inr rfl) rfl rfl (fun _ => rfl) hc (fun h a it hi hp => totalIter_next 5 hp) (fun _ _ _ _ => trivial) trivial [] r)

theorem totalArr_fmt (s : List (P 1)) (r : P 2) :
    fmtText c J (mapTys S) maps D "OrdinalTotalArrayMap" (arrayMapVal s) r =
      D.printFrom "debug_map" (TotalIter.next c (J 0)) pairRef (c.M + 1) (OrdinalTotalArrayMap.iter s) r := by
  have hc (h : Heap P) := totalArr_iter (c := c) (J := J) (S := S) (U := noFns) (h := h) 4 (ofV s)
  have he : totalIterVal (OrdinalTotalArrayMap.iter s) = wrapVal "total::Iter" (enumVal ⟨0, (ofV s).map .ref⟩) := by
    simp [totalIterVal, encEnum, Function.comp_def, ofV, OrdinalTotalArrayMap.iter, TotalIter.new, Enumerate.new]
  simp only [← he] at hc
  exact fmtText_eq (m := D.printFrom _ _ _ _ _) (fmt_enc (te := mapTys S) (prog := maps) 7 totalIterVal (fun s => [("iter",
    enumVal (encEnum (fun v => .ref (.usr 1 v)) s))]) pairRef (Inv := fun _ => True) (by decide) rfl (fun _ => rfl)
    (.inr rfl) (.inr rfl) rfl rfl (fun _ => rfl) hc (fun h a it hi hp => totalIter_next 5 hp) (fun _ _ _ _ => trivial) trivial [] r)

/-! ## Consuming iterators -/

theorem totalIter_newAt (n i : Nat) {U : UserFns P} {h : Heap P} (vs : List (Val P)) :
    (outM c J S U (n + 3)).call (.con "total::Iter") "new" [.it vs, .uint .size i] h =
      .ok (wrapVal "total::Iter" (enumVal (Enumerate.new vs i)), h) := by
  refine (outside_call (d := totalIterFn1_0) (n + 2) _ _ rfl rfl).trans ?_
  runs [totalIterFn1_0, enum_new, wrapVal, enumVal]

/-- No item is a `&mut` reference. -/
def Owned (vs : List (Val P)) : Prop := ∀ h : Heap P, vs.mapM (itemAt .run h) = .ok vs

theorem owned_map {ι : Type} {e : ι → Val P} (he : ∀ x (h : Heap P), itemAt .run h (e x) = .ok (e x)) : ∀ l : List ι, Owned (l.map e)
  | [], _ => rfl
  | x :: l, h => by
    have := owned_map he l h
    simp only [List.map_cons, List.mapM_cons, he, this]
    rfl

theorem owned_slots (l : List (Option (P 1))) : Owned (l.map slotVal) := owned_map (fun x _ => by cases x <;> rfl) l
theorem owned_vals (l : List (P 1)) : Owned (l.map (Val.usr 1)) := owned_map (fun _ _ => rfl) l

theorem totalIntoIter_iter (n i : Nat) {vs : List (Val P)} (hv : Owned vs) {h : Heap P} :
    (outM c J S noFns (n + 4)).call (.con "total::IntoIter") "iter" [.ref (wrapVal "total::IntoIter" (enumVal ⟨i, vs⟩))] h =
      .ok (wrapVal "total::Iter" (enumVal ⟨i, vs.map .ref⟩), h) := by
  refine (outside_call (d := totalIterFn21_1) (n + 3) _ _ rfl rfl).trans ?_
  have hv : ∀ h : Heap P, vs.mapM (itemAt .run h) = .ok vs := hv
  runs [totalIterFn21_1, totalIter_newAt, wrapVal, enumVal, hv, Enumerate.new]

theorem totalIntoIterArray_iter (n i : Nat) {vs : List (Val P)} (hv : Owned vs) {h : Heap P} :
    (outM c J S noFns (n + 4)).call (.con "total::IntoIterArray") "iter" [.ref (wrapVal "total::IntoIterArray" (enumVal ⟨i, vs⟩))] h =
      .ok (wrapVal "total::Iter" (enumVal ⟨i, vs.map .ref⟩), h) := by
  refine (outside_call (d := totalIterFn14_1) (n + 3) _ _ rfl rfl).trans ?_
  have hv : ∀ h : Heap P, vs.mapM (itemAt .run h) = .ok vs := hv
  runs [totalIterFn14_1, totalIter_newAt, wrapVal, enumVal, hv, Enumerate.new]

@[text] theorem self_totalIntoIter_iter : (outM c J S noFns (n + 1)).self (.con "total::IntoIter") "iter" = some .ref := rfl
@[text] theorem self_totalIntoIterArray_iter : (outM c J S noFns (n + 1)).self (.con "total::IntoIterArray") "iter" = some .ref := rfl

theorem mapIntoIter_iter (n : Nat) (s : MapIntoIter (P 1)) {h : Heap P} :
    (outM c J S noFns (n + 5)).call (.con "IntoIter") "iter" [.ref (intoIterVal s)] h = .ok (mapIterVal s, h) := by
  refine (outside_call (d := mapIterFn40_1) (n + 4) _ _ rfl rfl).trans ?_
  have h1 (h : Heap P) := totalIntoIter_iter (c := c) (J := J) (S := S) (h := h) n (Enumerate.next s) (owned_slots (Enumerate.iter s))
  have h2 (h : Heap P) i vs := mapIter_new (c := c) (J := J) (S := S) (U := noFns) (h := h) (n + 2) ⟨i, vs⟩
  simp only [wrapVal, enumVal, phantom, iterVal] at h1 h2
  runs [mapIterFn40_1, wrapVal, enumVal, intoIterVal, mapIterVal, iterVal, encEnum, h1, h2, Function.comp_def]

theorem mapIntoIterArray_iter (n : Nat) (s : MapIntoIterArray (P 1)) {h : Heap P} :
    (outM c J S noFns (n + 5)).call (.con "IntoIterArray") "iter" [.ref (intoIterArrayVal s)] h = .ok (mapIterVal s, h) := by
  refine (outside_call (d := mapIterFn34_1) (n + 4) _ _ rfl rfl).trans ?_
  have h1 (h : Heap P) := totalIntoIterArray_iter (c := c) (J := J) (S := S) (h := h) n (Enumerate.next s) (owned_slots (Enumerate.iter s))
  have h2 (h : Heap P) i vs := mapIter_new (c := c) (J := J) (S := S) (U := noFns) (h := h) (n + 2) ⟨i, vs⟩
  simp only [wrapVal, enumVal, phantom, iterVal] at h1 h2
  runs [mapIterFn34_1, wrapVal, enumVal, intoIterArrayVal, mapIterVal, iterVal, iterWith, encEnum, h1, h2, Function.comp_def]

theorem mapIntoIter_fmt (s : MapIntoIter (P 1)) (hs : (Enumerate.iter s).length ≤ c.M) (r : P 2) :
    fmtText c J (mapTys S) maps D "IntoIter" (intoIterVal s) r =
      D.printFrom "debug_list" (MapIter.next c (J 0)) pairRef (c.M + 1) s r :=
  fmtText_eq (m := D.printFrom _ _ _ _ _) (fmt_enc (te := mapTys S) (prog := maps) 7 mapIterVal (fun s => [("iter", wrapVal "total::Iter"
    (enumVal (encEnum (fun o => .ref (slotVal o)) s)))]) pairRef (Inv := fun it => it.iter.length ≤ c.M) (by decide) rfl (fun _ => rfl)
    (.inl rfl) (.inr rfl) rfl rfl (fun _ => rfl) (fun h => mapIntoIter_iter 3 s) (fun h a it hi hp => mapIter_next 4 hp hi) mapIter_keeps hs [] r)

theorem mapIntoIterArray_fmt (s : MapIntoIterArray (P 1)) (hs : (Enumerate.iter s).length ≤ c.M) (r : P 2) :
    fmtText c J (mapTys S) maps D "IntoIterArray" (intoIterArrayVal s) r =
      D.printFrom "debug_list" (MapIter.next c (J 0)) pairRef (c.M + 1) s r :=
  fmtText_eq (m := D.printFrom _ _ _ _ _) (fmt_enc (te := mapTys S) (prog := maps) 7 mapIterVal (fun s => [("iter", wrapVal "total::Iter"
    (enumVal (encEnum (fun o => .ref (slotVal o)) s)))]) pairRef (Inv := fun it => it.iter.length ≤ c.M) (by decide) rfl (fun _ => rfl)
    (.inl rfl) (.inr rfl) rfl rfl (fun _ => rfl) (fun h => mapIntoIterArray_iter 3 s) (fun h a it hi hp => mapIter_next 4 hp hi) mapIter_keeps hs [] r)

theorem totalInto_fmt {x : String} (hx : x = "total::IntoIter" ∨ x = "total::IntoIterArray") (s : TotalIter (P 1)) (r : P 2) :
    fmtText c J (mapTys S) maps D x (totalIntoVal x s) r =
      D.printFrom "debug_list" (TotalIter.next c (J 0)) pairRef (c.M + 1) s r := by
  have he : totalIterVal s = wrapVal "total::Iter" (enumVal ⟨Enumerate.next s, ((Enumerate.iter s).map (Val.usr 1)).map .ref⟩) := by
    simp [totalIterVal, encEnum, Function.comp_def]
  have hc (h : Heap P) : (outM c J S noFns 8).call (.con x) "iter" [.ref (totalIntoVal x s)] h = .ok (totalIterVal s, h) := by
    rw [he]
    rcases hx with rfl | rfl
    · exact totalIntoIter_iter 4 (Enumerate.next s) (owned_vals (Enumerate.iter s))
    · exact totalIntoIterArray_iter 4 (Enumerate.next s) (owned_vals (Enumerate.iter s))
  rcases hx with rfl | rfl
  all_goals
  exact fmtText_eq (m := D.printFrom _ _ _ _ _) (fmt_enc (te := mapTys S) (prog := maps) 7 totalIterVal (fun s => [("iter",
    enumVal (encEnum (fun v => .ref (.usr 1 v)) s))]) pairRef (Inv := fun _ => True) (by decide) rfl (fun _ => rfl)
    (.inl rfl) (.inr rfl) rfl rfl (fun _ => rfl) hc (fun h a it hi hp => totalIter_next 5 hp) (fun _ _ _ _ => trivial) trivial [] r)

end OrdinalMap.Text
