import Verif.Text.DebugRun
import Verif.Text.TotalMain
import Verif.Text.MapArrayHist
import Verif.SpecTextClone
/-!
# The texts of the `Clone` impls of the maps and of their iterators
-/

namespace OrdinalMap.Text

variable {P : Nat → Type} {c : Cfg} {J : (p : Nat) → OrdinalImpl (P p)} {S : Nat} {C : Cloner P} {h : Heap P}

/-- `outsideC` for the maps. -/
abbrev outC (c : Cfg) (J : (p : Nat) → OrdinalImpl (P p)) (S : Nat) (C : Cloner P) (n : Nat) : Outside P := outsideC c J (mapTys S) maps C n

theorem outC_self (n : Nat) (t : RT) : (outC c J S C (n + 1)).self t "clone" = some .ref := rfl
theorem outC_struct (n : Nat) (x : String) : (outC c J S C (n + 1)).struct x = (outM c J S noFns (n + 1)).struct x := rfl

theorem onWorld_ok {g : P 2 → R (Val P × P 2)} {r : P 2} : onWorld g (.usr 2 r :: h) = (fun x => (x.1, .usr 2 x.2 :: h)) <$> g r := by
  simp only [onWorld]
  cases g r <;> rfl

theorem outC_arr (n : Nat) (vs : List (Val P)) (r : P 2) (h : Heap P) : (outC c J S C (n + 1)).call .arr "clone" [.ref (.arr vs)] (.usr 2 r :: h) =
    (fun x => (.arr x.1, .usr 2 x.2 :: h)) <$> cloneItems C vs r := by
  simp only [outC, outsideC, if_true, true_or, or_true, stdClone, onWorld_ok]
  cases cloneItems C vs r <;> rfl

theorem outC_it (n : Nat) (vs : List (Val P)) (r : P 2) (h : Heap P) :
    (outC c J S C (n + 1)).call (.con "std::Iter") "clone" [.ref (.it vs)] (.usr 2 r :: h) =
      (fun x => (.it x.1, .usr 2 x.2 :: h)) <$> cloneItems C vs r := by
  simp only [outC, outsideC, if_true, true_or, or_true, stdClone, onWorld_ok]
  cases cloneItems C vs r <;> rfl

theorem outC_fn (n : Nat) {x : String} {d : FnDef} (hx : x ≠ "std::Iter") (hd : maps.fn (.con x) "clone" = some d) (args : List (Val P)) (h : Heap P) :
    (outC c J S C (n + 1)).call (.con x) "clone" args h = (do
      let xs ← bindAll h d args
      (evalBlk c (("Self", .con x) :: mapTys S) (outC c J S C n) d.body .run (alloc xs [] h).1 (alloc xs [] h).2).out .run
        h.length (rty (("Self", .con x) :: mapTys S) d.ret)) := by
  simp only [outC, outsideC, if_true, reduceCtorEq, false_or, RT.con.injEq, hx, if_false, hd]


theorem map_cloneC (n : Nat) (s : List (Option (P 1))) (r : P 2) :
    (outC c J S C (n + 2)).call (.con "OrdinalMap") "clone" [.ref (mapVal s)] (.usr 2 r :: h) =
      (fun x => (.obj "OrdinalMap" [("map", .arr x.1), phantom], .usr 2 x.2 :: h)) <$> cloneItems C (s.map slotVal) r := by
  refine (outC_fn (d := mapFn4_0) (n + 1) (by decide) rfl _ _).trans ?_
  have e1 := outC_arr (c := c) (J := J) (S := S) (C := C) n (s.map slotVal) r (h ++ [.ref (mapVal s)])
  cases hc : cloneItems C (s.map slotVal) r <;> rw [hc] at e1 <;>
    (simp only [mapVal, slotsVal, phantom] at e1; runs [mapFn4_0, mapVal, slotsVal, outC_self, outC_struct, e1, get_cons])

theorem total_cloneC (n : Nat) (vs : List (Val P)) (r : P 2) :
    (outC c J S C (n + 2)).call (.con "OrdinalTotalMap") "clone" [.ref (totalMapVal vs)] (.usr 2 r :: h) =
      (fun x => (totalMapVal x.1, .usr 2 x.2 :: h)) <$> cloneItems C vs r := by
  refine (outC_fn (d := totalMapFn5_0) (n + 1) (by decide) rfl _ _).trans ?_
  have e1 := outC_arr (c := c) (J := J) (S := S) (C := C) n vs r (h ++ [.ref (totalMapVal vs)])
  cases hc : cloneItems C vs r <;> rw [hc] at e1 <;>
    (simp only [totalMapVal, phantom] at e1; runs [totalMapFn5_0, totalMapVal, outC_self, outC_struct, e1, get_cons])

theorem totalArr_cloneC (n : Nat) (vs : List (Val P)) (r : P 2) :
    (outC c J S C (n + 2)).call (.con "OrdinalTotalArrayMap") "clone" [.ref (totalArrVal vs)] (.usr 2 r :: h) =
      (fun x => (totalArrVal x.1, .usr 2 x.2 :: h)) <$> cloneItems C vs r := by
  refine (outC_fn (d := totalArrayMapFn4_0) (n + 1) (by decide) rfl _ _).trans ?_
  have e1 := outC_arr (c := c) (J := J) (S := S) (C := C) n vs r (h ++ [.ref (totalArrVal vs)])
  cases hc : cloneItems C vs r <;> rw [hc] at e1 <;>
    (simp only [totalArrVal, phantom] at e1; runs [totalArrayMapFn4_0, totalArrVal, outC_self, outC_struct, e1, get_cons])

theorem arrMap_cloneC (n : Nat) (s : List (Option (P 1))) (r : P 2) :
    (outC c J S C (n + 3)).call (.con "OrdinalArrayMap") "clone" [.ref (arrMapVal s)] (.usr 2 r :: h) =
      (fun x => (.obj "OrdinalArrayMap" [("map", totalArrVal x.1)], .usr 2 x.2 :: h)) <$> cloneItems C (s.map slotVal) r := by
  refine (outC_fn (d := mapArrayMapFn4_0) (n + 2) (by decide) rfl _ _).trans ?_
  have e1 := totalArr_cloneC (c := c) (J := J) (S := S) (C := C) (h := h ++ [.ref (arrMapVal s)]) n (s.map slotVal) r
  cases hc : cloneItems C (s.map slotVal) r <;> rw [hc] at e1 <;>
    (simp only [arrMapVal, totalArrVal, phantom] at e1; runs [mapArrayMapFn4_0, arrMapVal, totalArrVal, outC_self, outC_struct, e1, get_cons])

/-! ## The iterators that own the values -/

/-- Items that are no references. -/
def NoRefs (vs : List (Val P)) : Prop := vs = [] ∨ refs vs = false

theorem noRefs_slots (s : List (Option (P 1))) : NoRefs (P := P) (s.map slotVal) := by
  rcases s with _ | ⟨_ | v, s⟩
  · exact .inl rfl
  · exact .inr rfl
  · exact .inr rfl

theorem noRefs_ofV (s : List (P 1)) : NoRefs (P := P) (s.map (.usr 1)) := by
  rcases s with _ | ⟨v, s⟩
  · exact .inl rfl
  · exact .inr rfl

theorem enum_cloneC (n : Nat) (s : Enumerate (List (Val P))) (hs : NoRefs s.iter) (r : P 2) :
    (outC c J S C (n + 2)).call (.con "OrdinalEnumerate") "clone" [.ref (enumVal s)] (.usr 2 r :: h) =
      (fun x => (enumVal ⟨s.next, x.1⟩, .usr 2 x.2 :: h)) <$> cloneItems C s.iter r := by
  refine (outC_fn (d := mapEnumerateFn5_0) (n + 1) (by decide) rfl _ _).trans ?_
  obtain ⟨i, vs⟩ := s
  rcases hs with hs | hs
  · simp only at hs
    subst hs
    runs [mapEnumerateFn5_0, enumVal, outC_self, outC_struct, cloneItems, refs, get_cons]
  · have e1 := outC_it (c := c) (J := J) (S := S) (C := C) n vs r (h ++ [.ref (enumVal ⟨i, vs⟩)])
    simp only at hs
    cases hc : cloneItems C vs r <;> rw [hc] at e1 <;>
      (simp only [enumVal, phantom] at e1; runs [mapEnumerateFn5_0, enumVal, outC_self, outC_struct, hs, e1, get_cons])

theorem totalInto_cloneC (n : Nat) {x : String} (hx : x = "total::IntoIter" ∨ x = "total::IntoIterArray") (s : Enumerate (List (Val P)))
    (hs : NoRefs s.iter) (r : P 2) :
    (outC c J S C (n + 3)).call (.con x) "clone" [.ref (wrapVal x (enumVal s))] (.usr 2 r :: h) =
      (fun y => (wrapVal x (enumVal ⟨s.next, y.1⟩), .usr 2 y.2 :: h)) <$> cloneItems C s.iter r := by
  have e1 := enum_cloneC (c := c) (J := J) (S := S) (C := C) (h := h ++ [.ref (wrapVal x (enumVal s))]) n s hs r
  rcases hx with rfl | rfl
  · refine (outC_fn (d := totalIterFn26_0) (n + 2) (by decide) rfl _ _).trans ?_
    cases hc : cloneItems C s.iter r <;> rw [hc] at e1 <;>
      (simp only [enumVal, phantom, wrapVal] at e1; runs [totalIterFn26_0, enumVal, wrapVal, outC_self, outC_struct, e1, get_cons])
  · refine (outC_fn (d := totalIterFn18_0) (n + 2) (by decide) rfl _ _).trans ?_
    cases hc : cloneItems C s.iter r <;> rw [hc] at e1 <;>
      (simp only [enumVal, phantom, wrapVal] at e1; runs [totalIterFn18_0, enumVal, wrapVal, outC_self, outC_struct, e1, get_cons])

theorem intoIter_cloneC (n : Nat) (s : Enumerate (List (Val P))) (hs : NoRefs s.iter) (r : P 2) :
    (outC c J S C (n + 4)).call (.con "IntoIter") "clone" [.ref (iterVal "IntoIter" "total::IntoIter" s)] (.usr 2 r :: h) =
      (fun y => (iterVal "IntoIter" "total::IntoIter" ⟨s.next, y.1⟩, .usr 2 y.2 :: h)) <$> cloneItems C s.iter r := by
  have e1 := totalInto_cloneC (c := c) (J := J) (S := S) (C := C) (h := h ++ [.ref (iterVal "IntoIter" "total::IntoIter" s)]) n (.inl rfl) s hs r
  refine (outC_fn (d := mapIterFn44_0) (n + 3) (by decide) rfl _ _).trans ?_
  cases hc : cloneItems C s.iter r <;> rw [hc] at e1 <;>
    (simp only [enumVal, phantom, wrapVal, iterVal] at e1; runs [mapIterFn44_0, enumVal, wrapVal, iterVal, outC_self, outC_struct, e1, get_cons])

theorem intoIterArray_cloneC (n : Nat) (s : Enumerate (List (Val P))) (hs : NoRefs s.iter) (r : P 2) :
    (outC c J S C (n + 4)).call (.con "IntoIterArray") "clone" [.ref (iterWith "IntoIterArray" [phantom] "total::IntoIterArray" s)] (.usr 2 r :: h) =
      (fun y => (iterWith "IntoIterArray" [phantom] "total::IntoIterArray" ⟨s.next, y.1⟩, .usr 2 y.2 :: h)) <$> cloneItems C s.iter r := by
  have e1 := totalInto_cloneC (c := c) (J := J) (S := S) (C := C) (h := h ++ [.ref (iterWith "IntoIterArray" [phantom] "total::IntoIterArray" s)])
    n (.inr rfl) s hs r
  refine (outC_fn (d := mapIterFn38_0) (n + 3) (by decide) rfl _ _).trans ?_
  cases hc : cloneItems C s.iter r <;> rw [hc] at e1 <;>
    (simp only [enumVal, phantom, wrapVal, iterWith] at e1; runs [mapIterFn38_0, enumVal, wrapVal, iterWith, outC_self, outC_struct, e1, get_cons])

/-! ## `cloneText` -/

/-- What `cloneText` returns, from a call that only changes the world. -/
theorem cloneText_of {t : String} {v : Val P} {r : P 2} {α : Type} {g : α → Val P} {res : R (α × P 2)}
    (hc : (outC c J S C 9).call (.con t) "clone" [.ref v] [.usr 2 r] = (fun x => (g x.1, [.usr 2 x.2])) <$> res) :
    cloneText c J (mapTys S) maps C t v r = (fun x => (g x.1, x.2)) <$> res := by
  rw [cloneText, show outsideC c J (mapTys S) maps C 9 = outC c J S C 9 from rfl, hc]
  cases res <;> rfl

/-- The slots of a sparse map. -/
def cloneSlots (C : Cloner P) : List (Option (P 1)) → P 2 → R (List (Option (P 1)) × P 2)
  | [], r => .ok ([], r)
  | o :: s, r => do
    let (o, r) ← match o with
      | none => Except.ok (none, r)
      | some v => do
        let (v, r) ← C v r
        Except.ok (some v, r)
    let (s, r) ← cloneSlots C s r
    .ok (o :: s, r)

theorem cloneItems_slots (s : List (Option (P 1))) (r : P 2) :
    cloneItems C (s.map slotVal) r = (fun x => (x.1.map slotVal, x.2)) <$> cloneSlots C s r := by
  induction s generalizing r with
  | nil => rfl
  | cons o s ih =>
    rcases o with _ | v
    · simp only [List.map_cons, cloneItems, cloneSlots, show cloneItem C (slotVal none) r = .ok (slotVal none, r) from rfl, ok_bind, ih]
      cases cloneSlots C s r <;> rfl
    · simp only [List.map_cons, cloneItems, cloneSlots, slotVal, Val.opt, Val.some, cloneItem, Option.map]
      cases C v r with
      | error f => rfl
      | ok x =>
        simp only [ok_bind, ih]
        cases cloneSlots C s x.2 <;> rfl

theorem cloneItems_ofV (s : List (P 1)) (r : P 2) :
    cloneItems C (s.map (.usr 1)) r = (fun x => (x.1.map (.usr 1), x.2)) <$> cloneEach C s r := by
  induction s generalizing r with
  | nil => rfl
  | cons v s ih =>
    simp only [List.map_cons, cloneItems, cloneItem, cloneEach]
    cases C v r with
    | error f => rfl
    | ok x =>
      simp only [ok_bind, ih]
      cases cloneEach C s x.2 <;> rfl

/-- Cloning the slots clones the values in them, in order. -/
theorem cloneSlots_each (s : List (Option (P 1))) (r : P 2) :
    (∀ f, cloneEach C (s.filterMap id) r = .error f → cloneSlots C s r = .error f) ∧
    ∀ ws r', cloneEach C (s.filterMap id) r = .ok (ws, r') → ∃ os, cloneSlots C s r = .ok (os, r') ∧ os.filterMap id = ws ∧
      os.map Option.isSome = s.map Option.isSome := by
  induction s generalizing r with
  | nil =>
    refine ⟨fun f h => by simp [cloneEach] at h, fun ws r' h => ?_⟩
    simp only [List.filterMap_nil, cloneEach, Except.ok.injEq, Prod.mk.injEq] at h
    obtain ⟨rfl, rfl⟩ := h
    exact ⟨[], rfl, rfl, rfl⟩
  | cons o s ih =>
    rcases o with _ | v
    · obtain ⟨h1, h2⟩ := ih r
      refine ⟨fun f h => ?_, fun ws r' h => ?_⟩
      · simp only [cloneSlots, ok_bind, h1 f (by simpa using h)]; rfl
      · obtain ⟨os, h3, h4, h5⟩ := h2 ws r' (by simpa using h)
        exact ⟨none :: os, by simp only [cloneSlots, ok_bind, h3], by simpa using h4, by simp [h5]⟩
    · simp only [List.filterMap_cons, id_eq, cloneEach, cloneSlots]
      cases hv : C v r with
      | error f => exact ⟨fun f' h => by cases h; rfl, fun ws r' h => by cases h⟩
      | ok x =>
        obtain ⟨w, r1⟩ := x
        obtain ⟨h1, h2⟩ := ih r1
        simp only [ok_bind]
        cases he : cloneEach C (s.filterMap id) r1 with
        | error f =>
          refine ⟨fun f' h => ?_, fun ws r' h => by cases h⟩
          cases h
          rw [h1 f he]; rfl
        | ok y =>
          obtain ⟨os, h3, h4, h5⟩ := h2 y.1 y.2 he
          obtain ⟨ws, r'⟩ := y
          refine ⟨fun f' h => (by cases h), fun ws r' h => ?_⟩
          cases h
          exact ⟨some w :: os, by rw [h3]; rfl, by simp [h4], by simp [h5]⟩

theorem cloneEach_length {vs ws : List (P 1)} {r r' : P 2} (h : cloneEach C vs r = .ok (ws, r')) : ws.length = vs.length := by
  induction vs generalizing ws r with
  | nil => simp only [cloneEach, Except.ok.injEq, Prod.mk.injEq] at h; rw [← h.1]
  | cons v vs ih =>
    simp only [cloneEach] at h
    cases hv : C v r with
    | error f => rw [hv] at h; cases h
    | ok x =>
      simp only [hv, ok_bind] at h
      cases he : cloneEach C vs x.2 with
      | error f => rw [he] at h; cases h
      | ok y =>
        simp only [he, ok_bind, Except.ok.injEq, Prod.mk.injEq] at h
        rw [← h.1, List.length_cons, ih (ws := y.1) (by rw [he, ← h.2]), List.length_cons]

end OrdinalMap.Text
