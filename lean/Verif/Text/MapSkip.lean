import Verif.Text.MapEnum
/-!
# The loops in `map/iter.rs`, run from their texts
-/

namespace OrdinalMap.Text

variable {P : Nat → Type} {c : Cfg} {J : (p : Nat) → OrdinalImpl (P p)} {S : Nat} {h : Heap P} {a : Nat} {ps : List Proj}
  {U : UserFns P}

/-! ## Memory -/

theorem setField_self {x : String} {u : Val P} {fs : List (String × Val P)} (hf : findField x fs = some u) :
    setField x u fs = fs := by
  induction fs with
  | nil => rfl
  | cons y fs ih =>
    simp only [setField, findField] at hf ⊢
    split at hf
    · rename_i e
      obtain ⟨y, v⟩ := y
      simp only [Option.some.injEq] at hf
      simp only at e
      simp [e, hf]
    · rename_i e
      simp [e, ih hf]

theorem setPart_self {md : Mode} {v u : Val P} {p : Proj} (hp : part md v p = .ok u) (hs : p ≠ .single) :
    setPart v p u = .ok v := by
  cases p with
  | single => exact absurd rfl hs
  | field x =>
    cases v <;> simp only [part, stuck, reduceCtorEq] at hp
    rename_i y fs
    cases hf : findField x fs with
    | none => rw [hf] at hp; exact absurd hp (by simp)
    | some w =>
      rw [hf] at hp
      cases hp
      simp [setPart, setField_self hf]
  | idx i =>
    cases v <;> simp only [part, stuck, reduceCtorEq] at hp
    · rename_i y vs
      cases hv : vs[i]? with
      | none => rw [hv] at hp; exact absurd hp (by simp)
      | some w =>
        rw [hv] at hp
        cases hp
        obtain ⟨hi, hw⟩ := List.getElem?_eq_some_iff.mp hv
        subst hw
        simp [setPart]
    · rename_i vs
      cases hv : vs[i]? with
      | none => rw [hv] at hp; simp [fail] at hp; cases md <;> exact absurd hp (by simp)
      | some w =>
        rw [hv] at hp
        cases hp
        obtain ⟨hi, hw⟩ := List.getElem?_eq_some_iff.mp hv
        subst hw
        simp [setPart]

theorem setPath_self {md : Mode} {u : Val P} : ∀ {v : Val P} {ps : List Proj}, getPath md v ps = .ok u →
    (∀ p ∈ ps, p ≠ .single) → setPath md u v ps = .ok v
  | v, [], hp, _ => by cases hp; rfl
  | v, p :: ps, hp, hs => by
    simp only [getPath] at hp
    cases hv : part md v p with
    | error f => rw [hv] at hp; exact absurd hp (by simp)
    | ok w =>
      rw [hv, ok_bind] at hp
      simp only [setPath, hv, ok_bind, setPath_self hp (fun q hq => hs q (List.mem_cons_of_mem _ hq))]
      exact setPart_self hv (hs p (List.mem_cons_self ..))

theorem Place.put_self {v : Val P} (hp : Place h a ps v) : put h a ps v = h := by
  have hg := hp.get
  simp only [Loc.get] at hg
  simp only [put, Loc.set]
  cases ha : h[a]? with
  | none => rfl
  | some w =>
    rw [ha] at hg
    simp only [setPath_self hg hp.2, ok_bind]
    obtain ⟨hi, hw⟩ := List.getElem?_eq_some_iff.mp ha
    subst hw
    simp

/-- A write to another variable. -/
theorem Place.other {b : Nat} {qs : List Proj} {v : Val P} (hp : Place h b qs v) (hne : a ≠ b) (w : Val P) :
    Place (put h a ps w) b qs v := by
  refine ⟨?_, hp.2⟩
  rw [← hp.get]
  simp only [put, Loc.set]
  cases ha : h[a]? with
  | none => rfl
  | some u =>
    cases hu : setPath .run w u ps with
    | error f => simp only [hu, error_bind]
    | ok u' => simp [hu, Loc.get, hne]

/-- What a loop that waits for `Some` gets to see of an item, and what it hands out. -/
inductive View (h : Heap P) (a : Nat) : Val P → Option (Val P) → Prop
  | some (v : Val P) : View h a (.ref (.opt (some v))) (some (.ref v))
  | none : View h a (.ref (.opt none)) none
  | msome {b : Nat} {qs : List Proj} {v : Val P} : a ≠ b → Place h b qs (.opt (some v)) →
      View h a (.mref b qs) (some (.mref b (qs ++ [.idx 0])))
  | mnone {b : Nat} {qs : List Proj} : a ≠ b → Place h b qs (.opt none) → View h a (.mref b qs) none

theorem View.put {v : Val P} {o : Option (Val P)} (hv : View h a v o) (w : Val P) : View (put h a ps w) a v o := by
  cases hv with
  | some v => exact .some v
  | none => exact .none
  | msome hn hp => exact .msome hn (hp.other hn w)
  | mnone hn hp => exact .mnone hn (hp.other hn w)

/-! ## The loops -/

/-- One iteration, as the model takes it: `none` goes on. -/
def skipStep {σ α β : Type} (step : σ → R (Option α × σ)) (body : α → σ → R (Option β × σ)) (s : σ) :
    R (Option (Option β) × σ) := do
  match ← step s with
  | (none, s) => .ok (some none, s)
  | (some x, s) => do
    match ← body x s with
    | (some b, s) => .ok (some (some b), s)
    | (none, s) => .ok (none, s)

theorem skipLoop_succ {σ α β : Type} (step : σ → R (Option α × σ)) (body : α → σ → R (Option β × σ)) (k : Nat) (s : σ) :
    skipLoop step body (k + 1) s = (do
      match ← skipStep step body s with
      | (some o, s) => .ok (o, s)
      | (none, s) => skipLoop step body k s) := by
  simp only [skipLoop, skipStep]
  cases step s with
  | error f => rfl
  | ok r =>
    obtain ⟨o, s⟩ := r
    cases o with
    | none => rfl
    | some x =>
      simp only [ok_bind]
      cases body x s with
      | error f => rfl
      | ok r =>
        obtain ⟨o, s⟩ := r
        cases o <;> rfl

/-- How an iteration ends. -/
def skipCtl : Option (Option (P 0 × Val P)) → Ctl P
  | some o => .ret (.opt (o.map pairVal))
  | none => .loc (.val .unit)

/-- The loop of the text and the loop of the model, if both may run long enough. -/
theorem loop_skip {σ α : Type} {body : Heap P → R (Option (Ctl P) × Heap P)} {step : σ → R (Option α × σ)}
    {bd : α → σ → R (Option (P 0 × Val P) × σ)} {E : σ → Heap P} {len : σ → Nat} {Inv : σ → Prop}
    (hb : ∀ s, Inv s → body (E s) = (fun r => (some (skipCtl r.1), E r.2)) <$> skipStep step bd s)
    (hd : ∀ s s', Inv s → skipStep step bd s = .ok (none, s') → Inv s' ∧ len s' < len s) (k : Nat) :
    ∀ (j : Nat) (s : σ), Inv s → len s < k → len s < j →
      whileLoop body k (E s) = (fun r => (.ret (.opt (r.1.map pairVal)), E r.2)) <$> skipLoop step bd j s := by
  induction k with
  | zero => intro j s hi h1; exact absurd h1 (by omega)
  | succ k ih =>
    intro j s hi h1 h2
    obtain ⟨j, rfl⟩ : ∃ i, j = i + 1 := ⟨j - 1, by omega⟩
    rw [whileLoop, hb s hi, skipLoop_succ]
    cases hs : skipStep step bd s with
    | error f => rfl
    | ok r =>
      obtain ⟨o, s'⟩ := r
      cases o with
      | some o => simp [skipCtl]
      | none =>
        obtain ⟨hi', hsh⟩ := hd _ _ hi hs
        have := ih j s' hi' (by omega) (by omega)
        simp only [ok_map, skipCtl, ok_bind, this]

/-- What the loops do with an item. -/
def seeBody {σ : Type} (see : Val P → Option (Val P)) (p : P 0 × Val P) (s : σ) : R (Option (P 0 × Val P) × σ) :=
  .ok ((see p.2).map (p.1, ·), s)

/-- A wrapped total iterator. -/
def iterVal (x y : String) (s : Enumerate (List (Val P))) : Val P := wrapVal x (wrapVal y (enumVal s))

/-- The same in a struct with more fields `e`. -/
def iterWith (x : String) (e : List (String × Val P)) (y : String) (s : Enumerate (List (Val P))) : Val P :=
  .obj x (("iter", wrapVal y (enumVal s)) :: e)

theorem Place.iterWith {x y : String} {e : List (String × Val P)} {s : Enumerate (List (Val P))}
    (hp : Place h a ps (iterWith x e y s)) : Place h a (ps ++ [.field "iter"]) (wrapVal y (enumVal s)) :=
  hp.sub (by simp [Text.iterWith, getPath, part, findField]) (by simp)

theorem Place.put_iterWith {x y : String} {e : List (String × Val P)} {s s' : Enumerate (List (Val P))}
    (hp : Place h a ps (Text.iterWith x e y s)) :
    put h a (ps ++ [.field "iter"]) (wrapVal y (enumVal s')) = put h a ps (Text.iterWith x e y s') :=
  hp.put_sub (by simp [Text.iterWith, setPath, part, findField, setPart, setField])

/-- What `next` and `next_back` do with the items that are left. -/
def Shrinks (step : Enumerate (List (Val P)) → R (Option (P 0 × Val P) × Enumerate (List (Val P)))) : Prop :=
  ∀ s k v s', step s = .ok (some (k, v), s') → v ∈ s.iter ∧ (∀ w ∈ s'.iter, w ∈ s.iter) ∧ s'.iter.length < s.iter.length

theorem next_shrinks : Shrinks (P := P) (fun s => s.nextItem c (J 0) (listIter (Val P))) := by
  intro s k v s' hs
  obtain ⟨i, vs⟩ := s
  cases vs with
  | nil => simp [Enumerate.nextItem, listIter] at hs
  | cons w vs =>
    simp only [Enumerate.nextItem, listIter, List.head?_cons, List.tail_cons] at hs
    cases hf : (J 0).fromOrdinal i with
    | error f => rw [hf] at hs; exact absurd hs (by simp)
    | ok o => cases o with
      | none => rw [hf] at hs; exact absurd hs (by simp [unwrap])
      | some k' =>
        rw [hf] at hs
        simp only [ok_bind, unwrap] at hs
        cases ha : addU c i 1 with
        | error f => rw [ha] at hs; exact absurd hs (by simp)
        | ok j =>
          rw [ha] at hs
          simp only [ok_bind, Except.ok.injEq, Prod.mk.injEq, Option.some.injEq] at hs
          obtain ⟨⟨-, rfl⟩, rfl⟩ := hs
          exact ⟨by simp, fun u hu => by simp only [List.mem_cons]; exact .inr hu, by simp⟩

theorem back_shrinks : Shrinks (P := P) (fun s => s.nextBackItem c (J 0) (listIter (Val P))) := by
  intro s k v s' hs
  obtain ⟨i, vs⟩ := s
  cases hv : vs.getLast? with
  | none => simp [Enumerate.nextBackItem, listIter, hv] at hs
  | some w =>
    have hne : vs ≠ [] := by intro e; simp [e] at hv
    simp only [Enumerate.nextBackItem, listIter, hv] at hs
    cases ha : addU c i vs.dropLast.length with
    | error f => rw [ha] at hs; exact absurd hs (by simp)
    | ok j =>
      rw [ha] at hs
      simp only [ok_bind] at hs
      cases hf : (J 0).fromOrdinal j with
      | error f => rw [hf] at hs; exact absurd hs (by simp)
      | ok o => cases o with
        | none => rw [hf] at hs; exact absurd hs (by simp [unwrap])
        | some k' =>
          rw [hf] at hs
          simp only [ok_bind, unwrap, Except.ok.injEq, Prod.mk.injEq, Option.some.injEq] at hs
          obtain ⟨⟨-, rfl⟩, rfl⟩ := hs
          refine ⟨List.mem_of_getLast? hv, fun u hu => List.dropLast_subset _ hu, ?_⟩
          have := List.length_pos_iff.mpr hne
          simp only [List.length_dropLast]
          omega

/-- What a total iterator does when `f` is called. -/
def Calls (c : Cfg) (J : (p : Nat) → OrdinalImpl (P p)) (S : Nat) (U : UserFns P) (y f : String)
    (step : Enumerate (List (Val P)) → R (Option (P 0 × Val P) × Enumerate (List (Val P)))) : Prop :=
  (∀ n, (outM c J S U (n + 1)).self (.con y) f = some .refMut) ∧
  ∀ n (h : Heap P) a ps s, Place h a ps (wrapVal y (enumVal s)) → (outM c J S U (n + 3)).call (.con y) f [.mref a ps] h =
    (fun r => (.opt (r.1.map pairVal), put h a ps (wrapVal y (enumVal r.2)))) <$> step s

/-- The body of a loop that looks at a pair. -/
def pairBody (f : String) : Blk :=
  .letS (.path ["next"]) (.try (.method (.field (.path [⟨"self", .nil⟩]) "iter") f .nil .nil))
    (.tail (.ifLet (.tuple (.cons (.path ["k"]) (.cons (.ctor ["Some"] (.cons (.path ["v"]) .nil)) .nil)))
      (.path [⟨"next", .nil⟩])
      (.semi (.ret (.call (.path [⟨"Some", .nil⟩]) (.cons (.tuple (.cons (.path [⟨"k", .nil⟩])
        (.cons (.path [⟨"v", .nil⟩]) .nil))) .nil))) .nil) (.tuple .nil)))


/-- The body of a loop that looks at a value. -/
def optBody (f : String) : Blk :=
  .letS (.tuple (.cons (.path ["k"]) (.cons (.path ["v"]) .nil)))
    (.try (.method (.field (.path [⟨"self", .nil⟩]) "iter") f .nil .nil))
    (.tail (.ifLet (.ctor ["Some"] (.cons (.path ["v"]) .nil)) (.path [⟨"v", .nil⟩])
      (.semi (.ret (.call (.path [⟨"Some", .nil⟩]) (.cons (.tuple (.cons (.path [⟨"k", .nil⟩])
        (.cons (.path [⟨"v", .nil⟩]) .nil))) .nil))) .nil) (.tuple .nil)))


variable {te : TyEnv} {x y f : String}
  {step : Enumerate (List (Val P)) → R (Option (P 0 × Val P) × Enumerate (List (Val P)))}

theorem pair_step (n : Nat) (hf : f = "next" ∨ f = "next_back") (hc : Calls c J S U y f step) (hS : Shrinks step)
    {s : Enumerate (List (Val P))}
    (hp : Place h a ps (iterVal x y s)) {see : Val P → Option (Val P)} (hv : ∀ v ∈ s.iter, View h a v (see v)) :
    loopBody c te (outM c J S U (n + 3)) .run [("self", h.length)] (pairBody f) (h ++ [.mref a ps]) =
      (fun r => (some (skipCtl r.1), put h a ps (iterVal x y r.2) ++ [.mref a ps])) <$> skipStep step (seeBody see) s := by
  have hl := hp.lt
  have hq : Place h a (ps ++ [.field "iter"]) (wrapVal y (enumVal s)) := hp.iter
  have h1 := hc.2 n _ _ _ _ (hq.append [.mref a ps])
  have hs := hc.1
  have hw (v : Val P) : put h a (ps ++ [.field "iter"]) v = put h a ps (wrapVal x v) := Place.put_iter hp v
  have hiv (s) : wrapVal x (wrapVal y (enumVal s)) = iterVal (P := P) x y s := rfl
  simp only [hq.put_append, hw] at h1
  cases hm : step s with
  | error e =>
    rw [hm] at h1
    simp only [enumVal, phantom, error_map] at h1
    obtain rfl | rfl := hf <;>
    runs [pairBody, loopBody, skipStep, hm, hl, hp.get, get_append, iterVal, wrapVal, enumVal, h1, hs]
  | ok r =>
    obtain ⟨o, s'⟩ := r
    have hln := hp.len (iterVal x y s')
    rw [hm] at h1
    have hw' := hp.put_at (iterVal x y s')
    simp only [ok_map, hiv] at h1
    cases o with
    | none =>
      simp only [skipStep, hm, ok_bind, ok_map]
      generalize put h a ps (iterVal x y s') = h' at h1 hln ⊢
      obtain rfl | rfl := hf <;>
      runs [pairBody, loopBody, skipCtl, hl, hp.get, get_append, iterVal, wrapVal, enumVal, h1, hs, hln]
    | some p =>
      obtain ⟨k, v⟩ := p
      have hvv := (hv v (hS _ _ _ _ hm).1).put (ps := ps) (iterVal x y s')
      simp only [skipStep, seeBody, hm, ok_bind]
      generalize hh : put h a ps (iterVal x y s') = h' at h1 hln hvv ⊢
      simp only [iterVal, wrapVal, enumVal, phantom] at hh
      generalize see v = o at hvv ⊢
      cases hvv with
      | some v =>
        obtain rfl | rfl := hf <;>
        runs [pairBody, loopBody, skipCtl, pairVal, get_cons, hh, hl, hp.get, get_append, iterVal, wrapVal, enumVal, h1, hs, hln]
      | none =>
        obtain rfl | rfl := hf <;>
        runs [pairBody, loopBody, skipCtl, pairVal, get_cons, hh, hl, hp.get, get_append, iterVal, wrapVal, enumVal, h1, hs, hln]
      | msome hn hb =>
        have hbl := hb.lt
        have hbg := hb.get
        simp only [hln, Val.opt, Val.some] at hbl hbg
        obtain rfl | rfl := hf <;>
        runs [pairBody, loopBody, skipCtl, pairVal, get_cons, hh, hl, hbl, hp.get, hbg, get_append, iterVal, wrapVal, enumVal, h1, hs, hln]
      | mnone hn hb =>
        have hbl := hb.lt
        have hbg := hb.get
        simp only [hln, Val.opt, Val.none] at hbl hbg
        obtain rfl | rfl := hf <;>
        runs [pairBody, loopBody, skipCtl, pairVal, get_cons, hh, hl, hbl, hp.get, hbg, get_append, iterVal, wrapVal, enumVal, h1, hs, hln]

theorem opt_step (n : Nat) (hf : f = "next" ∨ f = "next_back") (hc : Calls c J S U y f step) (hS : Shrinks step)
    {e : List (String × Val P)} {s : Enumerate (List (Val P))}
    (hp : Place h a ps (iterWith x e y s)) {see : Val P → Option (Val P)} (hv : ∀ v ∈ s.iter, v = .opt (see v)) :
    loopBody c te (outM c J S U (n + 3)) .run [("self", h.length)] (optBody f) (h ++ [.mref a ps]) =
      (fun r => (some (skipCtl r.1), put h a ps (iterWith x e y r.2) ++ [.mref a ps])) <$> skipStep step (seeBody see) s := by
  have hl := hp.lt
  have hq : Place h a (ps ++ [.field "iter"]) (wrapVal y (enumVal s)) := hp.iterWith
  have h1 := hc.2 n _ _ _ _ (hq.append [.mref a ps])
  have hs := hc.1
  have hw (s') : put h a (ps ++ [.field "iter"]) (wrapVal y (enumVal s')) = put h a ps (iterWith x e y s') :=
    Place.put_iterWith hp
  simp only [hq.put_append, hw] at h1
  cases hm : step s with
  | error e' =>
    rw [hm] at h1
    simp only [error_map] at h1
    obtain rfl | rfl := hf <;>
    runs [optBody, loopBody, skipStep, hm, hl, hp.get, get_append, iterWith, wrapVal, enumVal, h1, hs]
  | ok r =>
    obtain ⟨o, s'⟩ := r
    have hln := hp.len (iterWith x e y s')
    rw [hm] at h1
    simp only [ok_map] at h1
    cases o with
    | none =>
      simp only [skipStep, hm, ok_bind, ok_map]
      generalize put h a ps (iterWith x e y s') = h' at h1 hln ⊢
      obtain rfl | rfl := hf <;>
      runs [optBody, loopBody, skipCtl, hl, hp.get, get_append, iterWith, wrapVal, enumVal, h1, hs, hln]
    | some p =>
      obtain ⟨k, v⟩ := p
      have hvv := hv v (hS _ _ _ _ hm).1
      simp only [skipStep, seeBody, hm, ok_bind]
      generalize hh : put h a ps (iterWith x e y s') = h' at h1 hln hvv ⊢
      simp only [iterWith, wrapVal, enumVal, phantom] at hh
      rw [hvv] at h1
      cases hsv : see v with
      | none =>
        rw [hsv] at h1
        obtain rfl | rfl := hf <;>
        runs [optBody, loopBody, skipCtl, pairVal, get_cons, hh, hl, hp.get, get_append, iterWith, wrapVal, enumVal, h1, hs, hln]
      | some w =>
        rw [hsv] at h1
        obtain rfl | rfl := hf <;>
        runs [optBody, loopBody, skipCtl, pairVal, get_cons, hh, hl, hp.get, get_append, iterWith, wrapVal, enumVal, h1, hs, hln]

/-- A method with a loop. -/
def loopFn (f : String) (b : Blk) : FnDef :=
  ⟨f, .refMut, [], .path ["Option"] (.cons (.path ["Self", "Item"] .nil) .nil), .tail (.loopE b)⟩

/-- What the loops call for their next iteration. -/
theorem skip_shorter (hS : Shrinks step) {see : Val P → Option (Val P)} {s s' : Enumerate (List (Val P))}
    (hs : skipStep step (seeBody see) s = .ok (none, s')) :
    (∀ w ∈ s'.iter, w ∈ s.iter) ∧ s'.iter.length < s.iter.length := by
  simp only [skipStep] at hs
  cases hm : step s with
  | error e => rw [hm] at hs; exact absurd hs (by simp)
  | ok r =>
    obtain ⟨o, s₁⟩ := r
    rw [hm] at hs
    cases o with
    | none => exact absurd hs (by simp)
    | some p =>
      obtain ⟨k, v⟩ := p
      simp only [ok_bind, seeBody] at hs
      cases hv : see v with
      | some w => rw [hv] at hs; exact absurd hs (by simp)
      | none =>
        rw [hv] at hs
        simp only [Option.map_none, Except.ok.injEq, Prod.mk.injEq, true_and] at hs
        subst hs
        exact (hS _ _ _ _ hm).2

theorem pair_call (n : Nat) (hf : f = "next" ∨ f = "next_back") (hd : maps.fn (.con x) f = some (loopFn f (pairBody f)))
    (hc : Calls c J S U y f step) (hS : Shrinks step) {s : Enumerate (List (Val P))} (hp : Place h a ps (iterVal x y s))
    {see : Val P → Option (Val P)} (hv : ∀ v ∈ s.iter, View h a v (see v)) (hs : s.iter.length ≤ c.M) :
    (outM c J S U (n + 4)).call (.con x) f [.mref a ps] h =
      (fun r => (.opt (r.1.map pairVal), put h a ps (iterVal x y r.2))) <$>
        skipLoop step (seeBody see) (s.iter.length + 1) s := by
  refine (outside_call (d := loopFn f (pairBody f)) (n + 3) _ _ hd rfl).trans ?_
  have := loop_skip (body := loopBody c (("Self", .con x) :: mapTys S) (outM c J S U (n + 3)) .run [("self", h.length)]
      (pairBody f)) (step := step) (bd := seeBody see) (E := fun s => put h a ps (iterVal x y s) ++ [.mref a ps])
    (len := fun s => s.iter.length) (Inv := fun s => ∀ v ∈ s.iter, View h a v (see v))
    (fun s' hi => by
      have := pair_step (te := ("Self", .con x) :: mapTys S) n hf hc hS (hp.put_at (iterVal x y s'))
        (fun v hv => (hi v hv).put _)
      rw [hp.len] at this
      simpa only [hp.put_put] using this)
    (fun s s' hi hst => ⟨fun v hv => hi v ((skip_shorter hS hst).1 v hv), (skip_shorter hS hst).2⟩)
    (c.M + 1) (s.iter.length + 1) s hv (by omega) (by omega)
  rw [hp.put_self] at this
  have hn (r) := hp.len (iterVal x y r)
  simp only [loopFn, bindAll, bindParams, ok_bind, alloc_cons, alloc_nil, blk_tail, eval_loop, this]
  cases skipLoop step (seeBody see) (s.iter.length + 1) s with
  | error f => rfl
  | ok r => runs [hn]

theorem opt_call (n : Nat) (hf : f = "next" ∨ f = "next_back") (hd : maps.fn (.con x) f = some (loopFn f (optBody f)))
    (hc : Calls c J S U y f step) (hS : Shrinks step)
    {e : List (String × Val P)} {s : Enumerate (List (Val P))} (hp : Place h a ps (iterWith x e y s))
    {see : Val P → Option (Val P)} (hv : ∀ v ∈ s.iter, v = .opt (see v)) (hs : s.iter.length ≤ c.M) :
    (outM c J S U (n + 4)).call (.con x) f [.mref a ps] h =
      (fun r => (.opt (r.1.map pairVal), put h a ps (iterWith x e y r.2))) <$>
        skipLoop step (seeBody see) (s.iter.length + 1) s := by
  refine (outside_call (d := loopFn f (optBody f)) (n + 3) _ _ hd rfl).trans ?_
  have := loop_skip (body := loopBody c (("Self", .con x) :: mapTys S) (outM c J S U (n + 3)) .run [("self", h.length)]
      (optBody f)) (step := step) (bd := seeBody see) (E := fun s => put h a ps (iterWith x e y s) ++ [.mref a ps])
    (len := fun s => s.iter.length) (Inv := fun s => ∀ v ∈ s.iter, v = .opt (see v))
    (fun s' hi => by
      have := opt_step (te := ("Self", .con x) :: mapTys S) n hf hc hS (hp.put_at (iterWith x e y s')) hi
      rw [hp.len] at this
      simpa only [hp.put_put] using this)
    (fun s s' hi hst => ⟨fun v hv => hi v ((skip_shorter hS hst).1 v hv), (skip_shorter hS hst).2⟩)
    (c.M + 1) (s.iter.length + 1) s hv (by omega) (by omega)
  rw [hp.put_self] at this
  have hn (r) := hp.len (iterWith x e y r)
  simp only [loopFn, bindAll, bindParams, ok_bind, alloc_cons, alloc_nil, blk_tail, eval_loop, this]
  cases skipLoop step (seeBody see) (s.iter.length + 1) s with
  | error f => rfl
  | ok r => runs [hn]

/-! ## The model's loops, with items at run time -/

/-- The items at run time. -/
def encEnum {α : Type} (enc : α → Val P) (s : Enumerate (List α)) : Enumerate (List (Val P)) := ⟨s.next, s.iter.map enc⟩

theorem nextItem_enc {α : Type} (enc : α → Val P) (s : Enumerate (List α)) :
    (encEnum enc s).nextItem c (J 0) (listIter (Val P)) =
      (fun r => (r.1.map fun p => (p.1, enc p.2), encEnum enc r.2)) <$> s.nextItem c (J 0) (listIter α) := by
  obtain ⟨i, l⟩ := s
  cases l with
  | nil => rfl
  | cons v l =>
    simp only [encEnum, Enumerate.nextItem, listIter, List.map_cons, List.head?_cons, List.tail_cons]
    cases (J 0).fromOrdinal i with
    | error f => rfl
    | ok o => cases o with
      | none => rfl
      | some k =>
        simp only [ok_bind, unwrap]
        cases addU c i 1 <;> rfl

theorem nextBackItem_enc {α : Type} (enc : α → Val P) (s : Enumerate (List α)) :
    (encEnum enc s).nextBackItem c (J 0) (listIter (Val P)) =
      (fun r => (r.1.map fun p => (p.1, enc p.2), encEnum enc r.2)) <$> s.nextBackItem c (J 0) (listIter α) := by
  obtain ⟨i, l⟩ := s
  simp only [encEnum, Enumerate.nextBackItem, listIter, List.getLast?_map]
  cases l.getLast? with
  | none => simp
  | some v =>
    simp only [Option.map_some, List.length_dropLast, List.length_map]
    cases addU c i (l.length - 1) with
    | error f => rfl
    | ok j =>
      simp only [ok_bind]
      cases (J 0).fromOrdinal j with
      | error f => rfl
      | ok o => cases o with
        | none => rfl
        | some k => simp [unwrap, List.map_dropLast]

/-- Loops that see the same. -/
theorem skipLoop_enc {σ τ α β α' β' : Type} {step : σ → R (Option α × σ)} {bd : α → σ → R (Option β × σ)}
    {step' : τ → R (Option α' × τ)} {bd' : α' → τ → R (Option β' × τ)} {E : σ → τ} {ea : α → α'} {eb : β → β'}
    {Inv : σ → Prop} {Ok : α → σ → Prop}
    (h1 : ∀ s, Inv s → step' (E s) = (fun r => (r.1.map ea, E r.2)) <$> step s)
    (hi : ∀ s r, Inv s → step s = .ok r → Inv r.2 ∧ ∀ x, r.1 = some x → Ok x r.2)
    (h2 : ∀ x s, Inv s → Ok x s → bd' (ea x) (E s) = (fun r => (r.1.map eb, E r.2)) <$> bd x s)
    (hj : ∀ x s r, Inv s → Ok x s → bd x s = .ok r → Inv r.2) :
    ∀ k s, Inv s → skipLoop step' bd' k (E s) = (fun r => (r.1.map eb, E r.2)) <$> skipLoop step bd k s := by
  intro k
  induction k with
  | zero => intro s _; rfl
  | succ k ih =>
    intro s hs
    simp only [skipLoop, h1 s hs]
    cases hst : step s with
    | error f => rfl
    | ok r =>
      obtain ⟨o, s₁⟩ := r
      obtain ⟨hs₁, ho⟩ := hi s _ hs hst
      cases o with
      | none => rfl
      | some x =>
        have hx := ho x rfl
        simp only [ok_map, ok_bind, Option.map_some, h2 x s₁ hs₁ hx]
        cases hb : bd x s₁ with
        | error f => rfl
        | ok r =>
          obtain ⟨o, s₂⟩ := r
          have hs₂ := hj _ _ _ hs₁ hx hb
          cases o with
          | none => simp only [ok_map, ok_bind, Option.map_none]; exact ih s₂ hs₂
          | some b => rfl

end OrdinalMap.Text
