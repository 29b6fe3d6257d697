import Verif.Text.SetWords
/-!
# `set/iter.rs`, run from its text
-/

namespace OrdinalMap.Text

variable {P : Nat → Type} {c : Cfg} {J : (p : Nat) → OrdinalImpl (P p)} {S : Nat} {h : Heap P} {a : Nat} {ps : List Proj}

@[text] theorem struct_setIter : (out c J S (n + 1)).struct "Iter" =
    some [("iter", .path ["crate", "OrdinalValues"] (.cons (.path ["T"] .nil) .nil)),
      ("set", .path ["OrdinalSetRef"] (.cons (.path ["T"] .nil) .nil))] := rfl
@[text] theorem self_values_next : (out c J S (n + 1)).self (.con "OrdinalValues") "next" = some .refMut := rfl
@[text] theorem self_values_len : (out c J S (n + 1)).self (.con "OrdinalValues") "len" = some .ref := rfl
@[text] theorem self_values_clone : (out c J S (n + 1)).self (.con "OrdinalValues") "clone" = some .ref := rfl
@[text] theorem self_setRef_clone : (out c J S (n + 1)).self (.con "OrdinalSetRef") "clone" = some .ref := rfl

theorem setIter_new (n : Nat) (ws : SetRef) :
    (out c J S (n + 4)).call (.con "Iter") "new" [setRefVal ws] h =
      (fun s => (setIterVal s, h)) <$> SetIter.new (J 0) ws := by
  refine (outside_call (d := setIterFn1_0) (n + 3) _ _ rfl rfl).trans ?_
  cases hm : OrdinalValues.new (J 0) <;>
  runs [setIterFn1_0, setRefVal, all_values, hm, SetIter.new, setIterVal, valuesVal]

theorem setRef_iter (n : Nat) (ws : SetRef) :
    (out c J S (n + 5)).call (.con "OrdinalSetRef") "iter" [setRefVal ws] h =
      (fun s => (setIterVal s, h)) <$> SetRef.iter (J 0) ws := by
  refine (outside_call (d := setRefFn1_0) (n + 4) _ _ rfl rfl).trans ?_
  have := setIter_new (c := c) (J := J) (S := S) (h := h ++ [setRefVal ws]) n ws
  simp only [setRefVal, phantom] at this
  cases hm : SetIter.new (J 0) ws <;>
  runs [setRefFn1_0, setRefVal, SetRef.iter, hm, this, setIterVal]

theorem setIter_sizeHint (n : Nat) (s : SetIter) :
    (out c J S (n + 2)).call (.con "Iter") "size_hint" [.ref (setIterVal s)] h = .ok (hintVal s.sizeHint, h) := by
  refine (outside_call (d := setIterFn2_1) (n + 1) _ _ rfl rfl).trans ?_
  have := values_len (c := c) (J := J) (S := S) (h := h ++ [.ref (setIterVal s)]) n s.iter
  simp only [setIterVal, setRefVal, valuesVal, phantom] at this
  runs [setIterFn2_1, setIterVal, setRefVal, valuesVal, hintVal, SetIter.sizeHint, this, OrdinalValues.len, range_len]

theorem setIter_clone (n : Nat) (s : SetIter) :
    (out c J S (n + 3)).call (.con "Iter") "clone" [.ref (setIterVal s)] h = .ok (setIterVal s.clone, h) := by
  refine (outside_call (d := setIterFn4_0) (n + 2) _ _ rfl rfl).trans ?_
  have h1 := values_clone (c := c) (J := J) (S := S) (h := h ++ [.ref (setIterVal s)]) n s.iter
  have h2 := setRef_clone (c := c) (J := J) (S := S) (h := h ++ [.ref (setIterVal s)]) n s.set
  simp only [setIterVal, setRefVal, valuesVal, phantom] at h1 h2
  runs [setIterFn4_0, setIterVal, setRefVal, valuesVal, SetIter.clone, OrdinalValues.clone, h1, h2]

/-! ## `next` and `next_back` -/

/-- One iteration, as the model takes it: `none` goes on. -/
def iterStep (c : Cfg) (I : OrdinalImpl (P 0)) (nx : OrdinalValues → R (Option (P 0) × OrdinalValues)) (s : SetIter) :
    R (Option (Option (P 0)) × SetIter) := do
  match ← nx s.iter with
  | (none, it) => .ok (some none, ⟨it, s.set⟩)
  | (some x, it) => do if ← s.set.contains c I x then .ok (some (some x), ⟨it, s.set⟩) else .ok (none, ⟨it, s.set⟩)

/-- How an iteration ends. -/
def stepCtl : Option (Option (P 0)) → Ctl P
  | some o => .ret (optVal o)
  | none => .loc (.val .unit)

/-- The body of the loop in `next`. -/
def nextBody : Blk := match setIterFn2_0.body with
  | .tail (.loopE b) => b
  | _ => .nil

/-- The body of the loop in `next_back`. -/
def backBody : Blk := match setIterFn3_0.body with
  | .tail (.loopE b) => b
  | _ => .nil

variable {te : TyEnv}

theorem next_step (n : Nat) {s : SetIter} (hp : Place h a ps (setIterVal s)) (ht : te = ("Self", .con "Iter") :: setTys S) :
    loopBody c te (out c J S (n + 2)) .run [("self", h.length)] nextBody (h ++ [.mref a ps]) =
      (fun r => (some (stepCtl r.1), put h a ps (setIterVal r.2) ++ [.mref a ps])) <$>
        iterStep c (J 0) (OrdinalValues.next (J 0)) s := by
  subst ht
  have hl := hp.lt
  have hq : Place h a (ps ++ [.field "iter"]) (valuesVal s.iter) := hp.sub (by simp [setIterVal, getPath, part, findField]) (by simp)
  have h1 := values_next (c := c) (J := J) (S := S) n (hq.append [.mref a ps])
  simp only [hq.put_append] at h1
  have hw (v : OrdinalValues) : put h a (ps ++ [.field "iter"]) (valuesVal v) = put h a ps (setIterVal ⟨v, s.set⟩) :=
    hp.put_sub (by simp [setIterVal, setPath, part, findField, setPart, setField])
  simp only [hw] at h1
  cases hn : OrdinalValues.next (J 0) s.iter with
  | error f =>
    runs [nextBody, setIterFn2_0, loopBody, iterStep, hn, hl, hp.get, get_append, setIterVal, valuesVal, h1]
  | ok r =>
    obtain ⟨o, it⟩ := r
    have hp' := hp.put_at (setIterVal ⟨it, s.set⟩)
    have hlen := hp.len (setIterVal ⟨it, s.set⟩)
    rw [hn, ok_map] at h1
    generalize hh : put h a ps (setIterVal ⟨it, s.set⟩) = h' at *
    have hl' := hp'.lt
    cases o with
    | none =>
      simp only [setIterVal, setRefVal, valuesVal, phantom] at hh
      runs [nextBody, setIterFn2_0, loopBody, iterStep, hn, hl, hp.get, get_append, setIterVal, setRefVal, valuesVal, h1, hh, stepCtl, optVal, hlen]
    | some x =>
      have h2 := setRef_contains (c := c) (J := J) (S := S) (h := h' ++ [.mref a ps, .usr 0 x]) n s.set x
      simp only [setRefVal, phantom] at h2
      cases hc : SetRef.contains c (J 0) s.set x with
      | error f =>
        simp only [setIterVal, setRefVal, valuesVal, phantom] at hh
        runs [nextBody, setIterFn2_0, loopBody, iterStep, hn, hl, hp.get, get_append, setIterVal, setRefVal, valuesVal, h1, h2, hc, hh, stepCtl, optVal, hlen, hl', hp'.get]
      | ok b =>
        simp only [setIterVal, setRefVal, valuesVal, phantom] at hh
        cases b <;> runs [nextBody, setIterFn2_0, loopBody, iterStep, hn, hl, hp.get, get_append, setIterVal, setRefVal, valuesVal, h1, h2, hc, hh, stepCtl, optVal, hlen, hl', hp'.get]

theorem back_step (n : Nat) {s : SetIter} (hp : Place h a ps (setIterVal s)) (ht : te = ("Self", .con "Iter") :: setTys S) :
    loopBody c te (out c J S (n + 2)) .run [("self", h.length)] backBody (h ++ [.mref a ps]) =
      (fun r => (some (stepCtl r.1), put h a ps (setIterVal r.2) ++ [.mref a ps])) <$>
        iterStep c (J 0) (OrdinalValues.nextBack (J 0)) s := by
  subst ht
  have hl := hp.lt
  have hq : Place h a (ps ++ [.field "iter"]) (valuesVal s.iter) := hp.sub (by simp [setIterVal, getPath, part, findField]) (by simp)
  have h1 := values_nextBack (c := c) (J := J) (S := S) n (hq.append [.mref a ps])
  simp only [hq.put_append] at h1
  have hw (v : OrdinalValues) : put h a (ps ++ [.field "iter"]) (valuesVal v) = put h a ps (setIterVal ⟨v, s.set⟩) :=
    hp.put_sub (by simp [setIterVal, setPath, part, findField, setPart, setField])
  simp only [hw] at h1
  cases hn : OrdinalValues.nextBack (J 0) s.iter with
  | error f =>
    runs [backBody, setIterFn3_0, loopBody, iterStep, hn, hl, hp.get, get_append, setIterVal, valuesVal, h1]
  | ok r =>
    obtain ⟨o, it⟩ := r
    have hp' := hp.put_at (setIterVal ⟨it, s.set⟩)
    have hlen := hp.len (setIterVal ⟨it, s.set⟩)
    rw [hn, ok_map] at h1
    generalize hh : put h a ps (setIterVal ⟨it, s.set⟩) = h' at *
    have hl' := hp'.lt
    cases o with
    | none =>
      simp only [setIterVal, setRefVal, valuesVal, phantom] at hh
      runs [backBody, setIterFn3_0, loopBody, iterStep, hn, hl, hp.get, get_append, setIterVal, setRefVal, valuesVal, h1, hh, stepCtl, optVal, hlen]
    | some x =>
      have h2 := setRef_contains (c := c) (J := J) (S := S) (h := h' ++ [.mref a ps, .usr 0 x]) n s.set x
      simp only [setRefVal, phantom] at h2
      cases hc : SetRef.contains c (J 0) s.set x with
      | error f =>
        simp only [setIterVal, setRefVal, valuesVal, phantom] at hh
        runs [backBody, setIterFn3_0, loopBody, iterStep, hn, hl, hp.get, get_append, setIterVal, setRefVal, valuesVal, h1, h2, hc, hh, stepCtl, optVal, hlen, hl', hp'.get]
      | ok b =>
        simp only [setIterVal, setRefVal, valuesVal, phantom] at hh
        cases b <;> runs [backBody, setIterFn3_0, loopBody, iterStep, hn, hl, hp.get, get_append, setIterVal, setRefVal, valuesVal, h1, h2, hc, hh, stepCtl, optVal, hlen, hl', hp'.get]


/-- The loops of the model, in terms of `iterStep`. -/
theorem nextLoop_succ (I : OrdinalImpl (P 0)) (k : Nat) (s : SetIter) : SetIter.nextLoop c I (k + 1) s = (do
    match ← iterStep c I (OrdinalValues.next I) s with
    | (some o, s') => .ok (o, s')
    | (none, s') => SetIter.nextLoop c I k s') := by
  simp only [SetIter.nextLoop, iterStep]
  cases OrdinalValues.next I s.iter with
  | error f => rfl
  | ok r =>
    obtain ⟨o, it⟩ := r
    cases o with
    | none => rfl
    | some x =>
      simp only [ok_bind]
      cases SetRef.contains c I s.set x with
      | error f => rfl
      | ok b => cases b <;> rfl

theorem nextBackLoop_succ (I : OrdinalImpl (P 0)) (k : Nat) (s : SetIter) : SetIter.nextBackLoop c I (k + 1) s = (do
    match ← iterStep c I (OrdinalValues.nextBack I) s with
    | (some o, s') => .ok (o, s')
    | (none, s') => SetIter.nextBackLoop c I k s') := by
  simp only [SetIter.nextBackLoop, iterStep]
  cases OrdinalValues.nextBack I s.iter with
  | error f => rfl
  | ok r =>
    obtain ⟨o, it⟩ := r
    cases o with
    | none => rfl
    | some x =>
      simp only [ok_bind]
      cases SetRef.contains c I s.set x with
      | error f => rfl
      | ok b => cases b <;> rfl

/-- An iteration that does not return makes the rest shorter. -/
theorem next_shorter {I : OrdinalImpl (P 0)} {s s' : SetIter} (hi : iterStep c I (OrdinalValues.next I) s = .ok (none, s')) :
    s'.iter.len < s.iter.len := by
  obtain ⟨⟨i, j⟩, ws⟩ := s
  by_cases hj : i < j
  · cases hf : I.fromOrdinal i with
    | error f => simp [iterStep, OrdinalValues.next, Range.next, hj, hf] at hi
    | ok o => cases o with
      | none => simp [iterStep, OrdinalValues.next, Range.next, hj, hf, unwrap] at hi
      | some x => cases hc : SetRef.contains c I ws x with
        | error f => simp [iterStep, OrdinalValues.next, Range.next, hj, hf, unwrap, hc] at hi
        | ok b =>
          cases b <;> simp [iterStep, OrdinalValues.next, Range.next, hj, hf, unwrap, hc] at hi
          subst hi
          simp only [OrdinalValues.len, range_len]
          omega
  · simp [iterStep, OrdinalValues.next, Range.next, hj] at hi

theorem back_shorter {I : OrdinalImpl (P 0)} {s s' : SetIter} (hi : iterStep c I (OrdinalValues.nextBack I) s = .ok (none, s')) :
    s'.iter.len < s.iter.len := by
  obtain ⟨⟨i, j⟩, ws⟩ := s
  by_cases hj : i < j
  · cases hf : I.fromOrdinal (j - 1) with
    | error f => simp [iterStep, OrdinalValues.nextBack, Range.nextBack, hj, hf] at hi
    | ok o => cases o with
      | none => simp [iterStep, OrdinalValues.nextBack, Range.nextBack, hj, hf, unwrap] at hi
      | some x => cases hc : SetRef.contains c I ws x with
        | error f => simp [iterStep, OrdinalValues.nextBack, Range.nextBack, hj, hf, unwrap, hc] at hi
        | ok b =>
          cases b <;> simp [iterStep, OrdinalValues.nextBack, Range.nextBack, hj, hf, unwrap, hc] at hi
          subst hi
          simp only [OrdinalValues.len, range_len]
          omega
  · simp [iterStep, OrdinalValues.nextBack, Range.nextBack, hj] at hi

/-- The loop of the text and the loop of the model, if both may run long enough. -/
theorem loop_eq {body : Heap P → R (Option (Ctl P) × Heap P)} {step : SetIter → R (Option (Option (P 0)) × SetIter)}
    {model : Nat → SetIter → R (Option (P 0) × SetIter)} {h : Heap P}
    (hb : ∀ h' s, Place h' a ps (setIterVal s) → h'.length = h.length → body (h' ++ [.mref a ps]) =
      (fun r => (some (stepCtl r.1), put h' a ps (setIterVal r.2) ++ [.mref a ps])) <$> step s)
    (hm : ∀ k s, model (k + 1) s = (do
      match ← step s with
      | (some o, s') => .ok (o, s')
      | (none, s') => model k s'))
    (hd : ∀ s s', step s = .ok (none, s') → s'.iter.len < s.iter.len) (k : Nat) :
    ∀ (j : Nat) (h' : Heap P) (s : SetIter), Place h' a ps (setIterVal s) → h'.length = h.length → s.iter.len < k → s.iter.len < j →
      whileLoop body k (h' ++ [.mref a ps]) =
        (fun r => (.ret (optVal r.1), put h' a ps (setIterVal r.2) ++ [.mref a ps])) <$> model j s := by
  induction k with
  | zero => intro j h' s hp hl h1; exact absurd h1 (by omega)
  | succ k ih =>
    intro j h' s hp hl h1 h2
    obtain ⟨j, rfl⟩ : ∃ i, j = i + 1 := ⟨j - 1, by omega⟩
    rw [whileLoop, hb h' s hp hl, hm]
    cases hs : step s with
    | error f => rfl
    | ok r =>
      obtain ⟨o, s'⟩ := r
      cases o with
      | some o => simp [stepCtl]
      | none =>
        have hsh := hd _ _ hs
        have := ih j (put h' a ps (setIterVal s')) s' (hp.put_at _) ((hp.len _).trans hl) (by omega) (by omega)
        simp only [ok_map, stepCtl, ok_bind, this, hp.put_put]

theorem setIter_next (n : Nat) {s : SetIter} (hp : Place h a ps (setIterVal s)) (hs : s.iter.len ≤ c.M) :
    (out c J S (n + 3)).call (.con "Iter") "next" [.mref a ps] h =
      (fun r => (optVal r.1, put h a ps (setIterVal r.2))) <$> SetIter.next c (J 0) s := by
  refine (outside_call (d := setIterFn2_0) (n + 2) _ _ rfl rfl).trans ?_
  have := loop_eq (a := a) (ps := ps) (h := h)
    (fun h' s hp hl => hl ▸ next_step (c := c) (J := J) (S := S) n hp rfl) (nextLoop_succ (c := c) (J 0))
    (fun s s' hi => next_shorter hi) (c.M + 1) (s.iter.len + 1) h s hp rfl (by omega) (by omega)
  have hb : setIterFn2_0.body = .tail (.loopE nextBody) := rfl
  have hn (r : SetIter) := hp.len (setIterVal r)
  rw [hb]
  simp only [setIterFn2_0, bindAll, bindParams, ok_bind, alloc_cons, alloc_nil, blk_tail, eval_loop, this]
  rw [SetIter.next]
  cases SetIter.nextLoop c (J 0) (s.iter.len + 1) s with
  | error f => rfl
  | ok r => runs [hn]

theorem setIter_nextBack (n : Nat) {s : SetIter} (hp : Place h a ps (setIterVal s)) (hs : s.iter.len ≤ c.M) :
    (out c J S (n + 3)).call (.con "Iter") "next_back" [.mref a ps] h =
      (fun r => (optVal r.1, put h a ps (setIterVal r.2))) <$> SetIter.nextBack c (J 0) s := by
  refine (outside_call (d := setIterFn3_0) (n + 2) _ _ rfl rfl).trans ?_
  have := loop_eq (a := a) (ps := ps) (h := h)
    (fun h' s hp hl => hl ▸ back_step (c := c) (J := J) (S := S) n hp rfl) (nextBackLoop_succ (c := c) (J 0))
    (fun s s' hi => back_shorter hi) (c.M + 1) (s.iter.len + 1) h s hp rfl (by omega) (by omega)
  have hb : setIterFn3_0.body = .tail (.loopE backBody) := rfl
  have hn (r : SetIter) := hp.len (setIterVal r)
  rw [hb]
  simp only [setIterFn3_0, bindAll, bindParams, ok_bind, alloc_cons, alloc_nil, blk_tail, eval_loop, this]
  rw [SetIter.nextBack]
  cases SetIter.nextBackLoop c (J 0) (s.iter.len + 1) s with
  | error f => rfl
  | ok r => runs [hn]

end OrdinalMap.Text
