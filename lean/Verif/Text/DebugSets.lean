import Verif.Text.DebugRun
import Verif.Text.SetSim
/-!
# The texts of `Debug` of the sets and their iterators
-/

namespace OrdinalMap.Text

variable {P : Nat → Type} {c : Cfg} {J : (p : Nat) → OrdinalImpl (P p)} {S m : Nat} {D : Printer P}

theorem setIter_keeps (it : SetIter) x (hi : it.iter.len ≤ c.M) (h : SetIter.next c (J 0) it = .ok x) : x.2.iter.len ≤ c.M :=
  Nat.le_trans (setIter_step_len (d := .front) h) hi

theorem optVal_eq (o : Option (P 0)) : optVal o = .opt (o.map (.usr 0)) := by cases o <;> rfl

theorem setIter_fmt (s : SetIter) (hs : s.iter.len ≤ c.M) (r : P 2) :
    fmtText c J (setTys S) sets D "Iter" (setIterVal s) r = D.printFrom "debug_list" (SetIter.next c (J 0)) (.usr 0) (c.M + 1) s r :=
  fmtText_eq (m := D.printFrom _ _ _ _ _) (fmt_enc (te := setTys S) (prog := sets) 7 setIterVal (fun s => [("iter", valuesVal s.iter), ("set", setRefVal s.set)])
    (.usr 0) (Inv := fun it => it.iter.len ≤ c.M) (by decide) rfl (fun _ => rfl)
    (.inl rfl) (.inl rfl) rfl rfl (fun _ => rfl) (fun h => setIter_clone 5 s)
    (fun h a it hi hp => by simp only [← optVal_eq]; exact setIter_next 5 hp hi) setIter_keeps hs [] r)

theorem iter64_fmt (s : Iter64) (r : P 2) :
    fmtText c J (setTys S) sets D "Iter64" (iter64Val s) r = D.printFrom "debug_list" (Iter64.next c (J 0)) (.usr 0) (c.M + 1) s r :=
  fmtText_eq (m := D.printFrom _ _ _ _ _) (fmt_enc (te := setTys S) (prog := sets) 7 iter64Val (fun s => [("set", wordVal s), phantom])
    (.usr 0) (Inv := fun _ => True) (by decide) rfl (fun _ => rfl)
    (.inl rfl) (.inl rfl) rfl rfl (fun _ => rfl) (fun h => iter64_clone 6 s)
    (fun h a it hi hp => by simp only [← optVal_eq]; exact iter64_next 6 hp) (fun _ _ _ _ => trivial) trivial [] r)

theorem setRef_fmt (n : Nat) {ws : SetRef} {it : SetIter} (hit : SetRef.iter (J 0) ws = .ok it) (hl : it.iter.len ≤ c.M) (h : Heap P) (r : P 2) :
    (outsideF c J (setTys S) sets D (n + 6)).call (.con "OrdinalSetRef") "fmt" [.ref (setRefVal ws), .mref 0 []] (.usr 2 r :: h) =
      (fun x => (x.1, .usr 2 x.2 :: h)) <$> D.printFrom "debug_set" (SetIter.next c (J 0)) (.usr 0) (c.M + 1) it r := by
  refine (outF_fmt (d := setRefFn3_0) (n + 5) (by decide) rfl _ _).trans ?_
  have hb : (printerVal : Val P) = .obj "DebugBuilder" [] := rfl
  have e2 := outF_entries (c := c) (J := J) (te := setTys S) (prog := sets) (D := D) (n + 4) (it := setIterVal it) rfl
  have e3 := outF_finish (c := c) (J := J) (te := setTys S) (prog := sets) (D := D) (n + 4)
  have e4 := outF_selfFinish (c := c) (J := J) (te := setTys S) (prog := sets) (D := D) (n + 4)
  have e5 := outF_selfEntries (c := c) (J := J) (te := setTys S) (prog := sets) (D := D) (n + 4)
  simp only [hb] at e2 e3
  have e1 := outF_start (c := c) (J := J) (te := setTys S) (prog := sets) (D := D) (f := "debug_set") rfl (n + 4) r
    (h ++ [.ref (setRefVal ws), .mref 0 []])
  have e6 := outF_selfStart (c := c) (J := J) (te := setTys S) (prog := sets) (D := D) (n + 4) (.par 2) (f := "debug_set") rfl
  have e7 := outF_self (c := c) (J := J) (te := setTys S) (prog := sets) (D := D) (n + 4) (.con "OrdinalSetRef") (f := "clone") rfl
  have e8 := outF_other (c := c) (J := J) (te := setTys S) (prog := sets) (D := D) (n + 4) (.con "OrdinalSetRef") (f := "clone") rfl
  have e7' := outF_self (c := c) (J := J) (te := setTys S) (prog := sets) (D := D) (n + 4) (.con "OrdinalSetRef") (f := "iter") rfl
  have e8' := outF_other (c := c) (J := J) (te := setTys S) (prog := sets) (D := D) (n + 4) (.con "OrdinalSetRef") (f := "iter") rfl
  have k1 (h : Heap P) := setRef_clone (c := c) (J := J) (S := S) (h := h) (n + 3) ws
  have k2 (h : Heap P) := setRef_iter (c := c) (J := J) (S := S) (h := h) n ws
  have k3 : (out c J S (n + 5)).self (.con "OrdinalSetRef") "clone" = some .ref := rfl
  have k4 : (out c J S (n + 5)).self (.con "OrdinalSetRef") "iter" = some .value := rfl
  have k5 (r : P 2) := entriesText_enc (next := (out c J S (n + 5)).call (.con "Iter") "next" [.mref (h.length + 3) []])
    (h := h ++ [.ref (setRefVal ws), .mref 0 []]) (enc := setIterVal) (val := .usr 0) (mnext := SetIter.next c (J 0)) (entry := D.entry)
    (Inv := fun it => it.iter.len ≤ c.M) (fun r it hi => by
      have hl' : h.length + 3 = (.usr 2 r :: (h ++ [.ref (setRefVal ws), .mref 0 []]) : Heap P).length := by simp
      rw [← List.cons_append, hl', setIter_next (n + 2) (place_var (by simp)) hi]
      simp only [put_last, optVal_eq]
      rfl) setIter_keeps (c.M + 1) it r hl
  rw [hit] at k2
  simp only [ok_map] at k2
  simp only [setRefVal, setIterVal, phantom] at e2 e1 k1 k2 k5
  cases hstart : D.start "debug_set" r with
  | error f' => runs [setRefFn3_0, e6, e1, hstart, get_cons, Printer.printFrom, setRefVal]
  | ok r' =>
    have he := e2 (.usr 2 r' :: (h ++ [.ref (setRefVal ws), .mref 0 []]))
    have k5 := k5 r'
    simp [setRefVal, phantom, Cfg.M] at he k5
    cases hen : entriesOf (SetIter.next c (J 0)) (fun x => D.entry (.usr 0 x)) (c.M + 1) it r' with
    | error f =>
      simp [Cfg.M] at hen
      simp [k5, hen] at he
      runs [setRefFn3_0, e6, e1, he, e4, e5, e7, e8, e7', e8', k1, k2, k3, k4, hb, hstart, get_cons, Printer.printFrom, hen, setRefVal]
    | ok x =>
      simp [Cfg.M] at hen
      simp [k5, hen] at he
      cases hfin : D.finish x.1 <;>
      runs [setRefFn3_0, e6, e1, he, e3, e4, e5, e7, e8, e7', e8', k1, k2, k3, k4, hb, hstart, get_cons, Printer.printFrom, hen, setRefVal, onWorld, hfin]

/-- `Debug::fmt(&self.as_ref(), f)`. -/
def refBody : Blk := .tail (.call (.path [⟨"Debug", .nil⟩, ⟨"fmt", .nil⟩]) (.cons (.ref false (.method (.path [⟨"self", .nil⟩]) "as_ref" .nil .nil))
  (.cons (.path [⟨"f", .nil⟩]) .nil)))

theorem fmt_ref {x : String} {ty ret : Ty} {v : Val P} {fs : List (String × Val P)} {A : R SetRef} (hx : x ≠ "Debug")
    (hp : sets.fn (.con x) "fmt" = some ⟨"fmt", .ref, [(.path ["f"], .ref true ty)], ret, refBody⟩)
    (hr : ∀ v : Val P, coerce (rty (("Self", .con x) :: setTys S) ret) v = v)
    (hs : (out c J S 8).self (.con x) "as_ref" = some .ref) (hv : v = .obj x fs)
    (hc : ∀ h, (out c J S 8).call (.con x) "as_ref" [.ref v] h = (fun r => (setRefVal r, h)) <$> A)
    (hz : (J 0).size = .ok m) (hm : m ≤ c.M) (r : P 2) :
    fmtText c J (setTys S) sets D x v r = (do
      let ws ← A
      D.printFrom "debug_set" (SetIter.next c (J 0)) (.usr 0) (c.M + 1) (⟨⟨0, m⟩, ws⟩ : SetIter) r) := by
  subst hv
  refine fmtText_eq (m := fun r => do D.printFrom _ _ _ _ (⟨⟨0, m⟩, ← A⟩ : SetIter) r) ((outF_fmt 8 hx hp _ _).trans ?_)
  have e7 := (outF_self (c := c) (J := J) (te := setTys S) (prog := sets) (D := D) 7 (.con x) (f := "as_ref") rfl).trans hs
  have e8 := outF_other (c := c) (J := J) (te := setTys S) (prog := sets) (D := D) 7 (.con x) (f := "as_ref") rfl
  cases A with
  | error f =>
    simp only [error_map] at hc
    runs [refBody, e7, e8, hc, get_cons]
  | ok ws =>
  have hit : SetRef.iter (J 0) ws = .ok ⟨⟨0, m⟩, ws⟩ := by simp [SetRef.iter, SetIter.new, OrdinalValues.new, hz]
  have hl : OrdinalValues.len (⟨0, m⟩ : OrdinalValues) ≤ c.M := by simpa [OrdinalValues.len, range_len] using hm
  simp only [ok_map] at hc
  have e2 (h : Heap P) := outF_debug (c := c) (J := J) (te := setTys S) (prog := sets) (D := D) 7 (v := setRefVal ws) (f := .mref 0 []) rfl h
  have e3 := setRef_fmt (S := S) (D := D) 1 hit hl [.ref (.obj x fs), .mref 0 []] r
  simp only [setRefVal, phantom] at e2 e3 hc
  cases hf : D.printFrom "debug_set" (SetIter.next c (J 0)) (.usr 0) (c.M + 1) (⟨⟨0, m⟩, ws⟩ : SetIter) r with
  | error f =>
    simp only [hf] at e3
    simp only [ok_bind, hf]
    runs [refBody, e2, e3, e7, e8, hc, get_cons]
  | ok y =>
    simp only [hf] at e3
    simp only [ok_bind, hf]
    runs [refBody, e2, e3, e7, e8, hc, get_cons]
    exact hr _

theorem set_fmt (s : OrdinalSet) (hz : (J 0).size = .ok m) (hm : m ≤ c.M) (r : P 2) :
    fmtText c J (setTys S) sets D "OrdinalSet" (setVal s) r = (do
      let ws ← OrdinalSet.asRef c (J 0) s
      D.printFrom "debug_set" (SetIter.next c (J 0)) (.usr 0) (c.M + 1) (⟨⟨0, m⟩, ws⟩ : SetIter) r) :=
  fmt_ref (by decide) rfl (fun _ => rfl) rfl rfl (fun _ => set_asRef 4 s hz) hz hm r

theorem arraySet_fmt (s : OrdinalArraySet) (hz : (J 0).size = .ok m) (hm : m ≤ c.M) (r : P 2) :
    fmtText c J (setTys S) sets D "OrdinalArraySet" (arraySetVal s) r = (do
      let ws ← OrdinalArraySet.asRef c (J 0) S s
      D.printFrom "debug_set" (SetIter.next c (J 0)) (.usr 0) (c.M + 1) (⟨⟨0, m⟩, ws⟩ : SetIter) r) :=
  fmt_ref (by decide) rfl (fun _ => rfl) rfl rfl (fun _ => arraySet_asRef 4 s hz) hz hm r

theorem set64_fmt (s : OrdinalSet64) (hz : (J 0).size = .ok m) (hm : m ≤ c.M) (r : P 2) :
    fmtText c J (setTys S) sets D "OrdinalSet64" (set64Val s) r = (do
      let ws ← OrdinalSet64.asRef c (J 0) s
      D.printFrom "debug_set" (SetIter.next c (J 0)) (.usr 0) (c.M + 1) (⟨⟨0, m⟩, ws⟩ : SetIter) r) :=
  fmt_ref (by decide) rfl (fun _ => rfl) rfl rfl (fun _ => set64_asRef 4 s hz) hz hm r

/-! ## `OrdinalValues` -/

/-- What `fmt` of `OrdinalValues` does, from the functions of the model. -/
def writeValues (D : Printer P) (I : OrdinalImpl (P 0)) (s : OrdinalValues) (r : P 2) : R (Val P × P 2) := do
  match ← OrdinalValues.next I s with
  | (none, _) => D.write [.str "[]"] r
  | (some x, s') =>
    if s.stop = (← I.size) then D.write [.str "[{:?}..]", .usr 0 x] r
    else match ← OrdinalValues.nextBack I s' with
      | (none, _) => D.write [.str "[{:?}]", .usr 0 x] r
      | (some y, _) => D.write [.str "[{:?}..={:?}]", .usr 0 x, .usr 0 y] r

theorem values_fmt (s : OrdinalValues) (r : P 2) :
    fmtText c J (setTys S) sets D "OrdinalValues" (valuesVal s) r = writeValues D (J 0) s r := by
  refine fmtText_eq (m := writeValues D (J 0) s) ((outF_fmt (d := valuesFn6_0) 8 (by decide) rfl _ _).trans ?_)
  have e1 := outF_self (c := c) (J := J) (te := setTys S) (prog := sets) (D := D) 7 (.con "OrdinalValues") (f := "clone") rfl
  have e2 := outF_other (c := c) (J := J) (te := setTys S) (prog := sets) (D := D) 7 (.con "OrdinalValues") (f := "clone") rfl
  have e3 := outF_self (c := c) (J := J) (te := setTys S) (prog := sets) (D := D) 7 (.con "OrdinalValues") (f := "next") rfl
  have e4 := outF_other (c := c) (J := J) (te := setTys S) (prog := sets) (D := D) 7 (.con "OrdinalValues") (f := "next") rfl
  have e5 := outF_self (c := c) (J := J) (te := setTys S) (prog := sets) (D := D) 7 (.con "OrdinalValues") (f := "next_back") rfl
  have e6 := outF_other (c := c) (J := J) (te := setTys S) (prog := sets) (D := D) 7 (.con "OrdinalValues") (f := "next_back") rfl
  have e7 := outF_write (c := c) (J := J) (te := setTys S) (prog := sets) (D := D) 7
  have e8 := outF_const (c := c) (J := J) (te := setTys S) (prog := sets) (D := D) 7
  have el (f : Fault) : leaves (.error f : Res P) = .error f := rfl
  have k1 : (out c J S 8).self (.con "OrdinalValues") "clone" = some .ref := rfl
  have k2 : (out c J S 8).self (.con "OrdinalValues") "next" = some .refMut := rfl
  have k3 : (out c J S 8).self (.con "OrdinalValues") "next_back" = some .refMut := rfl
  have k4 (h : Heap P) := values_clone (c := c) (J := J) (S := S) (h := h) 6 s
  have k5 := values_next (c := c) (J := J) (S := S) 6 (h := [.usr 2 r, .ref (valuesVal s), .mref 0 [], valuesVal s]) (a := 3) (s := s)
    (place_var (by simp))
  have hq (u : Val P) : put [.usr 2 r, .ref (valuesVal s), .mref 0 [], valuesVal s] 3 [] u = [.usr 2 r, .ref (valuesVal s), .mref 0 [], u] :=
    put_var (by simp)
  simp only [hq] at k5
  rw [writeValues]
  cases hn : OrdinalValues.next (J 0) s with
  | error f =>
    simp only [hn, error_map, valuesVal, phantom] at k5
    simp only [valuesVal, OrdinalValues.clone, phantom] at k4
    runs [valuesFn6_0, valuesVal, e1, e2, e3, e4, k1, k2, k4, k5, get_cons]
  | ok q =>
    obtain ⟨o, s'⟩ := q
    simp only [hn, ok_map, valuesVal, phantom] at k5
    simp only [valuesVal, OrdinalValues.clone, phantom] at k4
    cases o with
    | none =>
      simp only [optVal] at k5
      cases hw : D.write [.str "[]"] r <;>
      runs [valuesFn6_0, valuesVal, e1, e2, e3, e4, e7, k1, k2, k4, k5, get_cons, onWorld, hw, el]
    | some x =>
      simp only [optVal] at k5
      cases hz : (J 0).size with
      | error f => runs [valuesFn6_0, valuesVal, e1, e2, e3, e4, e8, k1, k2, k4, k5, get_cons, outside_par_const, hz]
      | ok z =>
        by_cases hs : s.stop = z
        · subst hs
          cases hw : D.write [.str "[{:?}..]", .usr 0 x] r <;>
          runs [valuesFn6_0, valuesVal, e1, e2, e3, e4, e7, e8, k1, k2, k4, k5, get_cons, onWorld, hw, el, outside_par_const, hz, beq_self_eq_true]
        · have hs' : (s.stop == z) = false := by simpa using hs
          have k6 := values_nextBack (c := c) (J := J) (S := S) 6
            (h := [.usr 2 r, .ref (valuesVal s), .mref 0 [], valuesVal s', .usr 0 x]) (a := 3) (s := s') (place_var (by simp))
          have hq' (u : Val P) : put [.usr 2 r, .ref (valuesVal s), .mref 0 [], valuesVal s', .usr 0 x] 3 [] u =
            [.usr 2 r, .ref (valuesVal s), .mref 0 [], u, .usr 0 x] := put_var (by simp)
          simp only [hq'] at k6
          cases hb : OrdinalValues.nextBack (J 0) s' with
          | error f =>
            simp only [hb, error_map, valuesVal, phantom] at k6
            runs [valuesFn6_0, valuesVal, e1, e2, e3, e4, e5, e6, e7, e8, k1, k2, k3, k4, k5, k6, get_cons, outside_par_const, hz, hs, hs', hb]
          | ok q =>
            obtain ⟨o, s''⟩ := q
            simp only [hb, ok_map, valuesVal, phantom] at k6
            cases o with
            | none =>
              simp only [optVal] at k6
              cases hw : D.write [.str "[{:?}]", .usr 0 x] r <;>
              runs [valuesFn6_0, valuesVal, e1, e2, e3, e4, e5, e6, e7, e8, k1, k2, k3, k4, k5, k6, get_cons, onWorld, hw, el, outside_par_const, hz, hs, hs', hb]
            | some y =>
              simp only [optVal] at k6
              cases hw : D.write [.str "[{:?}..={:?}]", .usr 0 x, .usr 0 y] r <;>
              runs [valuesFn6_0, valuesVal, e1, e2, e3, e4, e5, e6, e7, e8, k1, k2, k3, k4, k5, k6, get_cons, onWorld, hw, el, outside_par_const, hz, hs, hs', hb]

end OrdinalMap.Text
