import Verif.Text.TreesSet
import Verif.Text.Mem
/-!
# `values.rs`, run from its text
-/

namespace OrdinalMap.Text

variable {P : Nat → Type} {c : Cfg} {J : (p : Nat) → OrdinalImpl (P p)} {S : Nat} {h : Heap P} {a : Nat} {ps : List Proj}

/-- The program of `ordinal/traits.rs`, `values.rs` and all files in `set`. -/
def sets : Prog := ordinalTraitsTree ++ (valuesTree ++ (setArrayTree ++ (setIterTree ++ (setRefTree ++ (setMutTree ++
  (setTree ++ (set64Tree ++ [])))))))

/-- The meaning of names in `setTys`. -/
@[text] theorem find_setTys (x : String) : TyEnv.find x (setTys S) = if x = "T" then some (.par 0) else
    if x = "S" then some (.num S) else none := rfl

/-- What is outside, in the program. -/
abbrev out (c : Cfg) (J : (p : Nat) → OrdinalImpl (P p)) (S n : Nat) : Outside P := outside c J (setTys S) sets n

/-- Run the program on an unknown heap. -/
macro "runs" "[" ts:Lean.Parser.Tactic.simpLemma,* "]" : tactic =>
  `(tactic| simp -implicitDefEqProofs [text, ↓onValArg, ↓onLocArg, ↓liftArg, ↓branchArg, ↓armArg, ↓whileArg, overflow, addC, subC, addU, subU,
    checkedAdd, checkedSub, unwrap, Cfg.M, fresh, fresh0, set_fresh, set_fresh0, take_fresh, take_fresh0, take_all, get_base, set_base,
    phantom, findField, setField, getPath, setPath, setPart, coerceFields, List.lookup, $ts,*])

@[text] theorem struct_values : (out c J S (n + 1)).struct "OrdinalValues" =
    some [("range", .path ["Range"] (.cons (.path ["usize"] .nil) .nil)),
      ("_phantom", .path ["PhantomData"] (.cons (.path ["T"] .nil) .nil))] := rfl

theorem values_new (n : Nat) : (out c J S (n + 2)).call (.con "OrdinalValues") "new" [] h =
    (fun s => (valuesVal s, h)) <$> OrdinalValues.new (J 0) := by
  refine (outside_call (d := valuesFn1_0) (n + 1) _ _ rfl rfl).trans ?_
  cases hs : (J 0).size <;> runs [valuesFn1_0, outside_par_const, OrdinalValues.new, hs, valuesVal]

theorem values_next (n : Nat) {s : OrdinalValues} (hp : Place h a ps (valuesVal s)) :
    (out c J S (n + 2)).call (.con "OrdinalValues") "next" [.mref a ps] h =
      (fun r => (optVal r.1, put h a ps (valuesVal r.2))) <$> OrdinalValues.next (J 0) s := by
  refine (outside_call (d := valuesFn2_0) (n + 1) _ _ rfl rfl).trans ?_
  have hl := hp.lt
  obtain ⟨i, j⟩ := s
  by_cases hi : i < j
  · cases hf : (J 0).fromOrdinal i with
    | error f => runs [valuesFn2_0, outside_par_from, OrdinalValues.next, Range.next, hi, hf, hl, hp.get, hp.set, hp.len, get_append, set_append, valuesVal]
    | ok o => cases o <;> runs [valuesFn2_0, outside_par_from, OrdinalValues.next, Range.next, hi, hf, hl, hp.get, hp.set, hp.len, get_append, set_append, valuesVal, optVal]
  · runs [valuesFn2_0, outside_par_from, OrdinalValues.next, Range.next, hi, hl, hp.get, hp.set, hp.len, get_append, set_append, valuesVal, optVal]

theorem values_nextBack (n : Nat) {s : OrdinalValues} (hp : Place h a ps (valuesVal s)) :
    (out c J S (n + 2)).call (.con "OrdinalValues") "next_back" [.mref a ps] h =
      (fun r => (optVal r.1, put h a ps (valuesVal r.2))) <$> OrdinalValues.nextBack (J 0) s := by
  refine (outside_call (d := valuesFn4_0) (n + 1) _ _ rfl rfl).trans ?_
  have hl := hp.lt
  obtain ⟨i, j⟩ := s
  by_cases hi : i < j
  · cases hf : (J 0).fromOrdinal (j - 1) with
    | error f => runs [valuesFn4_0, outside_par_from, OrdinalValues.nextBack, Range.nextBack, hi, hf, hl, hp.get, hp.set, hp.len, get_append, set_append, valuesVal]
    | ok o => cases o <;> runs [valuesFn4_0, outside_par_from, OrdinalValues.nextBack, Range.nextBack, hi, hf, hl, hp.get, hp.set, hp.len, get_append, set_append, valuesVal, optVal]
  · runs [valuesFn4_0, outside_par_from, OrdinalValues.nextBack, Range.nextBack, hi, hl, hp.get, hp.set, hp.len, get_append, set_append, valuesVal, optVal]

theorem range_len (s : Range) : s.len = s.stop - s.start := by
  simp only [Range.len]
  split <;> omega

theorem values_sizeHint (n : Nat) (s : OrdinalValues) :
    (out c J S (n + 1)).call (.con "OrdinalValues") "size_hint" [.ref (valuesVal s)] h =
      .ok (hintVal (OrdinalValues.sizeHint s), h) := by
  refine (outside_call (d := valuesFn2_1) n _ _ rfl rfl).trans ?_
  runs [valuesFn2_1, valuesVal, hintVal, OrdinalValues.sizeHint, range_len]

theorem values_count (n : Nat) (s : OrdinalValues) :
    (out c J S (n + 1)).call (.con "OrdinalValues") "count" [valuesVal s] h = .ok (.uint .size (OrdinalValues.count s), h) := by
  refine (outside_call (d := valuesFn2_2) n _ _ rfl rfl).trans ?_
  runs [valuesFn2_2, valuesVal, OrdinalValues.count, range_len, get_cons]

@[text] theorem self_values_nextBack : (out c J S (n + 1)).self (.con "OrdinalValues") "next_back" = some .refMut := rfl

theorem values_last (n : Nat) (s : OrdinalValues) :
    (out c J S (n + 3)).call (.con "OrdinalValues") "last" [valuesVal s] h =
      (fun o => (optVal o, h)) <$> OrdinalValues.last (J 0) s := by
  refine (outside_call (d := valuesFn2_3) (n + 2) _ _ rfl rfl).trans ?_
  have hp : Place (h ++ [valuesVal s]) h.length [] (valuesVal s) := place_var (by simp)
  have := values_nextBack (c := c) (J := J) (S := S) n hp
  simp only [valuesVal, phantom] at this
  cases hm : OrdinalValues.nextBack (J 0) s <;> runs [valuesFn2_3, valuesVal, OrdinalValues.last, hm, this, put_var]

theorem values_len (n : Nat) (s : OrdinalValues) :
    (out c J S (n + 1)).call (.con "OrdinalValues") "len" [.ref (valuesVal s)] h = .ok (.uint .size (OrdinalValues.len s), h) := by
  refine (outside_call (d := valuesFn3_0) n _ _ rfl rfl).trans ?_
  runs [valuesFn3_0, valuesVal, OrdinalValues.len, range_len]

theorem values_clone (n : Nat) (s : OrdinalValues) :
    (out c J S (n + 2)).call (.con "OrdinalValues") "clone" [.ref (valuesVal s)] h = .ok (valuesVal s.clone, h) := by
  refine (outside_call (d := valuesFn5_0) (n + 1) _ _ rfl rfl).trans ?_
  runs [valuesFn5_0, valuesVal, OrdinalValues.clone]

theorem all_values (n : Nat) : (out c J S (n + 3)).call (.par 0) "all_values" [] h =
    (fun s => (valuesVal s, h)) <$> OrdinalValues.new (J 0) := by
  refine (outside_par_dflt (d := ordinalTraitsFn0_0) (n + 2) _ _ _ rfl rfl).trans ?_
  cases hm : OrdinalValues.new (J 0) <;> runs [ordinalTraitsFn0_0, values_new, hm]

end OrdinalMap.Text
