import Verif.SpecLedger
/-!
# Moving values: rules for `Balanced`
-/

namespace OrdinalMap.Ledger
open Upd Caught

variable {σ s t α β ι K V ω ο : Type}

/-- The values in a result. -/
def outR (out : α → List V) : R α → List V
  | .ok a => out a
  | .error _ => []

/-- From the collection `m` and a frame that owns `inn`: what is in the collection afterwards, what the result owns and
what has been destroyed make up what there was.  `eo`: nothing is destroyed if the code returns.  `ee`: the collection
has the same values if the code panics. -/
def Pays (h : s → List V) (eo ee : Prop) (m : s) (x : Upd σ s α) (inn : List V) (out : α → List V) : Prop :=
  ∀ st, ∃ d, (h (x (st, m)).2.2 ++ outR out (x (st, m)).1 ++ d).Perm (h m ++ inn) ∧
    (eo → (∃ a, (x (st, m)).1 = .ok a) → d = []) ∧
    (ee → (x (st, m)).1 = .error .panic → (h (x (st, m)).2.2).Perm (h m))

section Perm
open Classical

/-- How often a value is in a list. -/
noncomputable def cnt (a : V) (l : List V) : Nat := l.count a

theorem perm_of_cnt {l r : List V} (h : ∀ a, cnt a l = cnt a r) : l.Perm r := List.perm_iff_count.2 h

theorem cnt_of_perm {l r : List V} (h : l.Perm r) (a : V) : cnt a l = cnt a r := h.count_eq a

theorem cnt_append (a : V) (l r : List V) : cnt a (l ++ r) = cnt a l + cnt a r := List.count_append

/-- How often a value is another. -/
noncomputable def one (a x : V) : Nat := cnt a [x]

theorem cnt_cons (a x : V) (l : List V) : cnt a (x :: l) = one a x + cnt a l := by
  rw [one, ← cnt_append]; rfl

theorem cnt_nil (a : V) : cnt a [] = 0 := rfl

end Perm

/-- Solve a goal about permutations of appended lists from hypotheses of that kind. -/
macro "perms" "[" hs:term,* "]" : tactic => do
  let hs := hs.getElems
  `(tactic| (
    refine perm_of_cnt fun a => ?_
    $[have := cnt_of_perm $hs a]*
    simp only [cnt_append, cnt_nil, cnt_cons] at *
    omega))

variable {h : s → List V} {eo ee : Prop} {m m' : s} {inn inn' : List V} {out : β → List V}

theorem pays_user {y : M σ α} {f : α → Upd σ s β} (hf : ∀ a, Pays h eo ee m (f a) inn out) :
    Pays h eo ee m (user y >>= f) inn out := by
  intro st
  simp only [bind, M.bind, user]
  cases hy : (y st).1 with
  | error e => exact ⟨inn, by simp [outR], fun _ ⟨_, h⟩ => by simp at h, fun _ _ => .refl _⟩
  | ok a => exact hf a _

theorem pays_of {y : R α} {f : α → Upd σ s β} (hf : ∀ a, y = .ok a → Pays h eo ee m (f a) inn out) :
    Pays h eo ee m (M.of y >>= f) inn out := by
  intro st
  simp only [bind, M.bind, M.of]
  cases y with
  | error e => exact ⟨inn, by simp [outR], fun _ ⟨_, h⟩ => by simp at h, fun _ _ => .refl _⟩
  | ok a => exact hf a rfl _

theorem pays_read {f : s → Upd σ s β} (hf : Pays h eo ee m (f m) inn out) : Pays h eo ee m (read >>= f) inn out :=
  fun st => hf st

theorem pays_error {e : Fault} : Pays h eo ee m (M.of (.error e) : Upd σ s β) inn out := fun _ =>
  ⟨inn, by simp [outR, M.of], fun _ ⟨_, h⟩ => by simp [M.of] at h, fun _ _ => .refl _⟩

theorem pays_ret {b : β} (d : List V) (hd : (out b ++ d).Perm inn) (he : eo → d = []) :
    Pays h eo ee m (M.of (.ok b) : Upd σ s β) inn out := fun _ =>
  ⟨d, by simp only [M.of, outR, List.append_assoc]; exact hd.append_left _, fun e _ => he e,
    fun _ h => by simp [M.of] at h⟩

/-- A write, after which the code may not panic any more if `ee` is asked for. -/
theorem pays_write {f : Unit → Upd σ s β} (d : List V) (hd : (h m' ++ inn' ++ d).Perm (h m ++ inn)) (he : eo → d = [])
    (hp : ee → (∀ st, (f () (st, m')).1 ≠ .error .panic) ∨ (h m').Perm (h m))
    (hf : Pays h eo ee m' (f ()) inn' out) : Pays h eo ee m (write m' >>= f) inn out := by
  intro st
  obtain ⟨d', g1, g2, g3⟩ := hf st
  refine ⟨d' ++ d, ?_, fun e r => by simp [g2 e r, he e], fun e r => ?_⟩
  · show ((h (f () (st, m')).2.2) ++ outR out (f () (st, m')).1 ++ (d' ++ d)).Perm _
    perms [g1, hd]
  · rcases hp e with hp | hp
    · exact absurd r (hp st)
    · exact (g3 e r).trans hp

/-- One thing after the other. -/
theorem pays_bind {x : Upd σ s α} {f : α → Upd σ s β} {out' : α → List V} {ee' : Prop}
    (hx : Pays h eo ee' m x inn out') (hee : ee → ee')
    (hp : ee → ∀ st a, (x (st, m)).1 = .ok a →
      (h (x (st, m)).2.2).Perm (h m) ∨ (f a (x (st, m)).2).1 ≠ .error .panic)
    (hf : ∀ a st, (x (st, m)).1 = .ok a → Pays h eo ee (x (st, m)).2.2 (f a) (out' a) out) :
    Pays h eo ee m (x >>= f) inn out := by
  intro st
  obtain ⟨d, g1, g2, g3⟩ := hx st
  have hp := fun e => hp e st
  have hf := fun a => hf a st
  simp only [bind, M.bind]
  generalize x (st, m) = r at *
  obtain ⟨r, st', m''⟩ := r
  cases r with
  | error e =>
    exact ⟨d, by simpa [outR] using g1, fun _ ⟨_, h⟩ => by simp at h, fun e r => g3 (hee e) (by simpa using r)⟩
  | ok a =>
    obtain ⟨d', k1, k2, k3⟩ := hf a rfl st'
    refine ⟨d' ++ d, ?_, fun e r => by simp [k2 e r, g2 e ⟨a, rfl⟩], fun e r => ?_⟩
    · simp only [outR] at g1
      perms [g1, k1]
    · rcases hp e a rfl with hp | hp
      · exact (k3 e r).trans hp
      · exact absurd r hp

/-- Code on an iterator of the collection. -/
theorem pays_zoom {ht : t → List V} {get : s → t} {set : s → t → s} {x : Upd σ t β} (h1 : ht (get m) = h m)
    (h2 : ∀ t', h (set m t') = ht t') (hx : Pays ht eo ee (get m) x inn out) :
    Pays h eo ee m (zoom get set x) inn out := by
  intro st
  obtain ⟨d, g1, g2, g3⟩ := hx st
  exact ⟨d, by simpa only [zoom, h2, h1] using g1, g2, by simpa only [zoom, h2, h1] using g3⟩

theorem pays_mono {x : Upd σ s β} {eo' ee' : Prop} {out' : β → List V} (hx : Pays h eo ee m x inn out) (ho : eo' → eo)
    (he : ee' → ee) (hout : ∀ b, out' b = out b) : Pays h eo' ee' m x inn out' := by
  intro st
  obtain ⟨d, g1, g2, g3⟩ := hx st
  obtain rfl : out' = out := funext hout
  exact ⟨d, g1, fun e => g2 (ho e), fun e => g3 (he e)⟩

/-- After code that moves nothing. -/
theorem pays_then {x : Upd σ s α} {f : α → Upd σ s β} (hx : Pays h True True m x inn (fun _ => inn))
    (hf : ∀ a m', Pays h eo ee m' (f a) inn out) : Pays h eo ee m (x >>= f) inn out := by
  refine pays_bind (pays_mono hx (fun _ => trivial) (fun _ => trivial) fun _ => rfl) (fun e => e) (fun _ st a ha => ?_)
    fun a st _ => hf a _
  obtain ⟨d, g1, g2, _⟩ := hx st
  rw [g2 trivial ⟨a, ha⟩, ha] at g1
  simp only [outR] at g1
  exact .inl (by perms [g1])

/-! ## Slots -/

theorem perm_set_list (l : List V) (i : Nat) (v w : V) (hi : l[i]? = some v) : (l.set i w ++ [v]).Perm (l ++ [w]) := by
  induction l generalizing i with
  | nil => simp at hi
  | cons x l ih =>
    cases i with
    | zero =>
      simp only [List.getElem?_cons_zero, Option.some.injEq] at hi
      subst hi
      simp only [List.set_cons_zero]
      perms [List.Perm.refl l]
    | succ i =>
      simp only [List.getElem?_cons_succ] at hi
      have := ih i hi
      simp only [List.set_cons_succ]
      perms [this]

theorem held_set (l : List (Option V)) (i : Nat) (o o' : Option V) (hi : l[i]? = some o) :
    (held (l.set i o') ++ o.toList).Perm (held l ++ o'.toList) := by
  have := (perm_set_list l i o o' hi).filterMap id
  simp only [List.filterMap_append] at this
  cases o <;> cases o' <;> simpa [held] using this

/-! ## Mutable iterators -/

variable {c : Cfg} {J : SImpl σ K} {e : Cfg}

/-- The values behind a `Drain` or a mutable iterator of a sparse map. -/
def behind (it : TotalIterMut (Option V)) : List V := held it.mem

theorem mutNext_pays {W : Type} (h : List W → List V) (it : TotalIterMut W) :
    Pays (fun it : TotalIterMut W => h it.mem) eo True it (mutNext c J) [] (fun _ => []) := by
  refine pays_read ?_
  cases hr : Range.next it.it.iter with
  | mk o r =>
    cases o with
    | none => exact pays_write (inn' := []) [] (by simp) (fun _ => rfl) (fun _ => .inr (.refl _)) (pays_ret [] (by simp) fun _ => rfl)
    | some slot =>
      refine pays_write (inn' := []) [] (by simp) (fun _ => rfl) (fun _ => .inr (.refl _)) (pays_user fun o => pays_of fun k _ =>
        pays_of fun next _ => ?_)
      exact pays_write (inn' := []) [] (by simp) (fun _ => rfl) (fun _ => .inr (.refl _)) (pays_ret [] (by simp) fun _ => rfl)

theorem mutNextBack_pays {W : Type} (h : List W → List V) (it : TotalIterMut W) :
    Pays (fun it : TotalIterMut W => h it.mem) eo True it (mutNextBack c J) [] (fun _ => []) := by
  refine pays_read ?_
  cases hr : Range.nextBack it.it.iter with
  | mk o r =>
    cases o with
    | none => exact pays_write (inn' := []) [] (by simp) (fun _ => rfl) (fun _ => .inr (.refl _)) (pays_ret [] (by simp) fun _ => rfl)
    | some slot =>
      refine pays_write (inn' := []) [] (by simp) (fun _ => rfl) (fun _ => .inr (.refl _)) (pays_of fun i _ =>
        pays_user fun o => pays_of fun k _ => ?_)
      exact pays_ret [] (by simp) fun _ => rfl

theorem skipLoop_pays {step : Upd σ s (Option α)} {body : α → Upd σ s (Option β)} {out : β → List V}
    (h1 : ∀ m, Pays h True True m step [] (fun _ => []))
    (h2 : ∀ a m, Pays h True True m (body a) [] (fun o => o.toList.flatMap out)) :
    ∀ fuel m, Pays h True True m (Caught.skipLoop step body fuel) [] (fun o => o.toList.flatMap out) := by
  intro fuel
  induction fuel with
  | zero => exact fun m => pays_error
  | succ fuel ih =>
    intro m
    refine pays_then (h1 m) fun o m => ?_
    cases o with
    | none => exact pays_ret [] (by simp) fun _ => rfl
    | some a =>
      refine pays_bind (h2 a m) (fun e => e) (fun _ st o ho => ?_) (fun o st ho => ?_)
      · cases o with
        | some b => exact .inr (by simp [M.of])
        | none =>
          obtain ⟨d, g1, g2, _⟩ := h2 a m st
          rw [g2 trivial ⟨_, ho⟩, ho] at g1
          simp only [outR, Option.toList, List.flatMap_nil] at g1
          exact .inl (by perms [g1])
      · cases o with
        | some b => exact pays_ret [] (by simp) fun _ => rfl
        | none => exact ih _

theorem mapBody_pays (p : K × Nat) (it : MapIterMut V) :
    Pays (σ := σ) behind eo True it (mapBody p) [] (fun o => o.toList.flatMap fun _ => []) := by
  refine pays_read ?_
  cases it.mem[p.2]? with
  | none => exact pays_error
  | some o => cases o <;> exact pays_ret [] (by simp) fun _ => rfl

theorem drainBody_pays (p : K × Nat) (it : Drain V) :
    Pays (σ := σ) behind eo True it (drainBody p) [] (fun o => o.toList.flatMap fun p => [p.2]) := by
  refine pays_read ?_
  obtain ⟨mem, it⟩ := it
  cases hm : mem[p.2]? with
  | none => simp only [hm]; exact pays_error
  | some o =>
    simp only [hm]
    refine pays_write (inn' := o.toList) [] (by simpa [behind] using held_set mem p.2 o none hm) (fun _ => rfl)
      (fun _ => .inl fun st => ?_) ?_
    · cases o <;> simp [M.of]
    · cases o <;> exact pays_ret [] (by simp) fun _ => rfl

theorem mapMutNext_pays (it : MapIterMut V) :
    Pays behind True True it (mapMutNext c J) [] (fun o => o.toList.flatMap fun _ => []) :=
  pays_read (skipLoop_pays (fun m => mutNext_pays held m) (fun a m => mapBody_pays a m) _ _)

theorem mapMutNextBack_pays (it : MapIterMut V) :
    Pays behind True True it (mapMutNextBack c J) [] (fun o => o.toList.flatMap fun _ => []) :=
  pays_read (skipLoop_pays (fun m => mutNextBack_pays held m) (fun a m => mapBody_pays a m) _ _)

theorem drainNext_pays (it : Drain V) :
    Pays behind True True it (drainNext c J) [] (fun o => o.toList.flatMap fun p => [p.2]) :=
  pays_read (skipLoop_pays (fun m => mutNext_pays held m) (fun a m => drainBody_pays a m) _ _)

theorem drainNextBack_pays (it : Drain V) :
    Pays behind True True it (drainNextBack c J) [] (fun o => o.toList.flatMap fun p => [p.2]) :=
  pays_read (skipLoop_pays (fun m => mutNextBack_pays held m) (fun a m => drainBody_pays a m) _ _)

/-- A frame may own more. -/
theorem pays_frame {x : Upd σ s β} (l : List V) (hx : Pays h eo ee m x inn out) :
    Pays h eo ee m x (l ++ inn) (fun b => l ++ out b) := by
  intro st
  obtain ⟨d, g1, g2, g3⟩ := hx st
  generalize x (st, m) = r at *
  obtain ⟨r, st', m'⟩ := r
  cases r with
  | ok b => exact ⟨d, by simp only [outR] at g1 ⊢; perms [g1], g2, g3⟩
  | error e => exact ⟨l ++ d, by simp only [outR] at g1 ⊢; perms [g1], fun _ ⟨_, h⟩ => by simp at h, g3⟩

theorem dropLoop_pays : ∀ fuel (it : Drain V), Pays behind False False it (dropLoop c J fuel) [] (fun _ => []) := by
  intro fuel
  induction fuel with
  | zero => exact fun _ => pays_error
  | succ fuel ih =>
    intro it
    refine pays_bind (pays_mono (drainNext_pays it) (fun e => e.elim) (fun e => e) fun _ => rfl) (fun e => e.elim)
      (fun e => e.elim) (fun o st _ => ?_)
    cases o with
    | none => exact pays_ret [] (by simp) fun _ => rfl
    | some p =>
      intro st'
      obtain ⟨d, g1, _, _⟩ := ih (drainNext c J (st, it)).2.2 st'
      exact ⟨p.2 :: d, by simp only [Option.toList, List.flatMap_cons, List.flatMap_nil]; perms [g1], fun e => e.elim,
        fun e => e.elim⟩

theorem drainDrop_pays (it : Drain V) : Pays behind False False it (drainDrop c J) [] (fun _ => []) :=
  pays_read (dropLoop_pays _ _)

/-- The values in a list of answers. -/
def got (l : List (Option (K × V))) : List V := (l.filterMap id).map (·.2)

theorem runDirs_pays : ∀ (ds : List Dir) (it : Drain V),
    Pays behind True False it (runDirs (drainNext c J) (drainNextBack c J) ds) [] got := by
  intro ds
  induction ds with
  | nil => exact fun it => pays_ret [] (by simp [got]) fun _ => rfl
  | cons d ds ih =>
    intro it
    have key : ∀ (x : Upd σ (Drain V) (Option (K × V))),
        Pays behind True True it x [] (fun o => o.toList.flatMap fun p => [p.2]) →
        Pays behind True False it (x >>= fun o => runDirs (drainNext c J) (drainNextBack c J) ds >>= fun os =>
          M.of (.ok (o :: os))) [] got := by
      intro x hx
      refine pays_bind (ee' := True) hx (fun e => e.elim) (fun e => e.elim) (fun o st _ => ?_)
      have hr := pays_frame (o.toList.flatMap fun p => [p.2]) (ih (x (st, it)).2.2)
      rw [List.append_nil] at hr
      refine pays_bind (ee' := False) hr (fun e => e.elim) (fun e => e.elim) (fun os st _ => ?_)
      refine pays_ret [] ?_ fun _ => rfl
      cases o <;> simp [got]
    cases d
    · exact key _ (drainNext_pays it)
    · exact key _ (drainNextBack_pays it)

/-! ## The steps of clients -/

theorem clientStep_pays (step : MutStep V) (l : List V) (s : MutClient V) :
    Pays (fun s : MutClient V => held s.it.mem) False False s (clientStep c J step) (written (step :: []) ++ l) (fun _ => l) := by
  have key : ∀ (x : Upd σ (MapIterMut V) (Option (K × Nat))),
      (∀ it, Pays behind True True it x [] (fun o => o.toList.flatMap fun _ => [])) →
      Pays (fun s : MutClient V => held s.it.mem) False False s (onIter x >>= fun o =>
        match o with
        | none => M.of (.ok none)
        | some (k, slot) => read >>= fun (s : MutClient V) => M.of (readSome s.it.mem slot) >>= fun v =>
          write ⟨s.it, s.handed ++ [slot]⟩ >>= fun _ => M.of (.ok (some (k, v)))) l (fun _ => l) := by
    intro x hx
    have h0 : Pays (fun s : MutClient V => held s.it.mem) True True s (onIter x) [] (fun o => o.toList.flatMap fun _ => []) :=
      pays_zoom (ht := behind) rfl (fun _ => rfl) (hx _)
    have h1 := pays_frame l h0
    rw [List.append_nil] at h1
    refine pays_then (pays_mono h1 (fun e => e) (fun e => e) fun o => ?_) fun o s => ?_
    · cases o <;> simp
    · cases o with
      | none => exact pays_ret [] (by simp) fun _ => rfl
      | some p =>
        refine pays_read (pays_of fun v _ => pays_write (inn' := l) [] (by simp) (fun _ => rfl) (fun e => e.elim) ?_)
        exact pays_ret [] (by simp) fun _ => rfl
  cases step with
  | front => exact key _ fun it => mapMutNext_pays it
  | back => exact key _ fun it => mapMutNextBack_pays it
  | write j v =>
    refine pays_read ?_
    cases s.handed[j]? with
    | none => exact pays_ret [v] (by simp only [written]; perms [List.Perm.refl l]) fun e => e.elim
    | some slot =>
      refine pays_of fun mem hm => ?_
      simp only [writeSome] at hm
      split at hm
      · rename_i w hw
        cases hm
        have := held_set s.it.mem slot (some w) (some v) hw
        simp only [Option.toList] at this
        exact pays_write (inn' := l) [w] (by simp only [written]; perms [this]) (fun e => e.elim) (fun e => e.elim)
          (pays_ret [] (by simp) fun _ => rfl)
      · cases hm

theorem written_cons (step : MutStep V) (steps : List (MutStep V)) : written (step :: steps) = written [step] ++ written steps := by
  cases step <;> rfl

theorem runSteps_pays {s ο : Type} {h : s → List V} {step : MutStep V → Upd σ s ο}
    (hs : ∀ st l m, Pays h False False m (step st) (written [st] ++ l) (fun _ => l)) :
    ∀ steps m, Pays h False False m (runSteps step steps) (written steps) (fun _ => []) := by
  intro steps
  induction steps with
  | nil => exact fun m => pays_ret [] (by simp [written]) fun _ => rfl
  | cons st steps ih =>
    intro m
    rw [written_cons]
    refine pays_bind (hs st _ m) (fun e => e) (fun e => e.elim) (fun o _ _ => ?_)
    exact pays_bind (ih _) (fun e => e) (fun e => e.elim) (fun os _ _ => pays_ret [] (by simp) fun _ => rfl)

theorem iterMut_pays (steps : List (MutStep V)) (m : List (Option V)) :
    Pays held False False m (iterMut c J steps) (written steps) (fun _ => []) :=
  pays_zoom (ht := fun s : MutClient V => held s.it.mem) rfl (fun _ => rfl)
    (runSteps_pays (fun st l m => clientStep_pays st l m) steps _)

/-! ## Operations -/

/-- What an operation returns by value. -/
def outOf (op : MapOp K V) (o : MapOut K V) : List V := back op (.returned o)

theorem clear_pays (m : List (Option V)) : Pays held False False m (clear c J) [] (fun _ => []) :=
  pays_zoom (ht := behind) rfl (fun _ => rfl) (drainDrop_pays _)

/-- A flag is off. -/
abbrev Off (b : Bool) : Prop := b = false

theorem keyless_pays (op : MapOp K V) (hop : ∀ ds leak, op ≠ .drain ds leak) (m : List (Option V))
    (hk : op.key? = none) :
    Pays held (Off (destroys op)) (Off (partway op)) m (keyless c J op) (given op) (outOf op) := by
  cases op with
  | get k => simp [MapOp.key?] at hk
  | getMut k w => simp [MapOp.key?] at hk
  | insert k v => simp [MapOp.key?] at hk
  | remove k => simp [MapOp.key?] at hk
  | orInsert k v w => simp [MapOp.key?] at hk
  | entry k v w => simp [MapOp.key?] at hk
  | drain ds leak => exact absurd rfl (hop ds leak)
  | len => exact pays_read (pays_user fun _ => pays_ret [] (by simp [outOf, back, given]) fun _ => rfl)
  | isEmpty => exact pays_read (pays_user fun _ => pays_ret [] (by simp [outOf, back, given]) fun _ => rfl)
  | iter ds => exact pays_read (pays_user fun _ => pays_ret [] (by simp [outOf, back, given]) fun _ => rfl)
  | keys ds => exact pays_read (pays_user fun _ => pays_ret [] (by simp [outOf, back, given]) fun _ => rfl)
  | values ds => exact pays_read (pays_user fun _ => pays_ret [] (by simp [outOf, back, given]) fun _ => rfl)
  | iterMut steps =>
    exact pays_bind (pays_mono (iterMut_pays steps m) (by simp [destroys]) (fun e => e) fun _ => rfl) (by simp [partway])
      (by simp [partway]) fun _ _ _ => pays_ret [] (by simp [outOf, back]) fun _ => rfl
  | valuesMut steps =>
    exact pays_bind (pays_mono (iterMut_pays steps m) (by simp [destroys]) (fun e => e) fun _ => rfl) (by simp [partway])
      (by simp [partway]) fun _ _ _ => pays_ret [] (by simp [outOf, back]) fun _ => rfl
  | clear =>
    exact pays_bind (pays_mono (clear_pays m) (by simp [destroys]) (fun e => e) fun _ => rfl) (by simp [partway])
      (by simp [partway]) fun _ _ _ => pays_ret [] (by simp [outOf, back]) fun _ => rfl

/-- A client that calls no user code. -/
theorem client_pays {f : List (Option V) → R (MapOut K V × List (Option V))} {m : List (Option V)} {o' : MapOut K V → List V}
    (hf : ∀ o m', f m = .ok (o, m') → ∃ d, (held m' ++ o' o ++ d).Perm (held m ++ inn) ∧ (eo → d = [])) :
    Pays (σ := σ) held eo True m (client f) inn o' := by
  refine pays_read (pays_of fun p hp => ?_)
  obtain ⟨o, m'⟩ := p
  obtain ⟨d, hd, he⟩ := hf o m' hp
  exact pays_write (inn' := o' o) d hd he (fun _ => .inl fun st => by simp [M.of]) (pays_ret [] (by simp) fun _ => rfl)

theorem getMutClient_pays (r : Option Nat) (m : List (Option V)) (w : V) (o : MapOut K V) (m' : List (Option V))
    (hf : getMutClient r m w = .ok (o, m')) : ∃ d, (held m' ++ d).Perm (held m ++ [w]) := by
  cases r with
  | none =>
    simp only [getMutClient, Except.ok.injEq, Prod.mk.injEq] at hf
    exact ⟨[w], by rw [hf.2]⟩
  | some slot =>
    simp only [getMutClient, readSome, writeSome] at hf
    split at hf
    · rename_i v hv
      simp only [ok_bind, Except.ok.injEq, Prod.mk.injEq] at hf
      exact ⟨[v], by rw [← hf.2]; exact held_set m slot (some v) (some w) hv⟩
    · simp at hf

theorem entryClient_pays (e : Entry K) (m : List (Option V)) (v w : V) (o : MapOut K V) (m' : List (Option V))
    (hf : entryClient e m v w = .ok (o, m')) : ∃ d, (held m' ++ d).Perm (held m ++ [v, w]) := by
  cases e with
  | vacant k slot =>
    simp only [entryClient, Entry.vacantInsert, writeSlot] at hf
    split at hf
    · rename_i hs
      simp only [ok_bind, Except.ok.injEq, Prod.mk.injEq] at hf
      have := held_set m slot m[slot] (some v) (List.getElem?_eq_getElem hs)
      rw [← hf.2]
      refine ⟨m[slot].toList ++ [w], ?_⟩
      simp only [Option.toList_some] at this
      perms [this]
    · simp at hf
  | occupied k slot =>
    simp only [entryClient, Entry.occupiedGet, Entry.occupiedGetMut, writeSome] at hf
    cases hv : m[slot]? with
    | none => simp [hv] at hf
    | some x =>
      cases x with
      | none => simp [hv, unwrap] at hf
      | some x =>
        simp only [hv, unwrap_some, ok_bind, Except.ok.injEq, Prod.mk.injEq] at hf
        have := held_set m slot (some x) (some w) hv
        rw [← hf.2]
        refine ⟨[x, v], ?_⟩
        simp only [Option.toList] at this
        perms [this]

theorem orInsertClient_pays (e : Entry K) (m : List (Option V)) (v w : V) :
    Pays (σ := σ) held False True m (orInsertClient e v w) [v, w] (fun _ : MapOut K V => []) := by
  refine pays_read (pays_of fun p hp => ?_)
  obtain ⟨slot, m₁⟩ := p
  have h₁ : ∃ d, (held m₁ ++ [w] ++ d).Perm (held m ++ [v, w]) := by
    cases e with
    | occupied k i =>
      simp only [Entry.orInsert] at hp
      cases hg : Entry.occupiedGetMut m i with
      | error e => simp [hg] at hp
      | ok j =>
        simp only [hg, ok_bind, Except.ok.injEq, Prod.mk.injEq] at hp
        rw [hp.2]
        exact ⟨[v], by perms [List.Perm.refl [v]]⟩
    | vacant k i =>
      simp only [Entry.orInsert, writeSlot] at hp
      split at hp
      · rename_i hi
        simp only [ok_bind, Except.ok.injEq, Prod.mk.injEq] at hp
        have := held_set m i m[i] (some v) (List.getElem?_eq_getElem hi)
        simp only [Option.toList_some] at this
        rw [← hp.2]
        exact ⟨m[i].toList, by perms [this]⟩
      · simp at hp
  obtain ⟨d, hd⟩ := h₁
  refine pays_write (inn' := [w]) d hd (fun e => e.elim) (fun _ => .inl fun st => ?_) ?_
  · simp only [bind, M.bind, M.of, readSome, writeSome, write]
    cases m₁[slot]? with
    | none => simp
    | some o => cases o <;> simp
  · refine pays_of fun old ho => pays_of fun m₂ h₂ => ?_
    simp only [writeSome] at h₂
    split at h₂
    · rename_i x hx
      cases h₂
      have := held_set m₁ slot (some x) (some w) hx
      simp only [Option.toList_some] at this
      exact pays_write (inn' := []) [x] (by simpa using this) (fun e => e.elim) (fun _ => .inl fun st => by simp [M.of])
        (pays_ret [] (by simp) fun _ => rfl)
    · cases h₂

theorem initFullMap_pays (sz : Nat) (l : List V) (m : OMap V) : Pays held True True m (initFullMap c J sz) l (fun _ => l) := by
  refine pays_read (pays_of fun m' hm => ?_)
  have hh : held m' = held m := by
    simp only [Eff.initFullMap] at hm
    cases m with
    | nil =>
      simp only [List.isEmpty_nil, if_true] at hm
      cases hs : J.size with
      | error e => simp [hs] at hm
      | ok n =>
        simp only [hs, ok_bind] at hm
        cases hw : withCapacity c sz n with
        | error e => simp [hw] at hm
        | ok u =>
          simp only [hw, ok_bind, Except.ok.injEq] at hm
          subst hm
          simp [held]
    | cons x m => simp only [List.isEmpty_cons, Bool.false_eq_true, if_false, Except.ok.injEq] at hm; rw [hm]
  intro st
  refine ⟨[], ?_, fun _ _ => rfl, fun _ h => by simp [write] at h⟩
  simp [write, outR, hh]

theorem omapEntry_pays (sz : Nat) (l : List V) (k : K) (m : OMap V) :
    Pays held True True m (omapEntry c J sz k) l (fun _ => l) := by
  refine pays_then (initFullMap_pays sz l m) fun _ m => pays_user fun i => pays_read ?_
  intro st
  cases hr : (do let slot ← OrdinalTotalMap.slotOf m i; Entry.new m k slot : R (Entry K)) with
  | ok a => exact ⟨[], by simp [M.of, outR], fun _ _ => rfl, fun _ _ => .refl _⟩
  | error e => exact ⟨l, by simp [M.of, outR], fun _ ⟨_, h⟩ => by simp [M.of] at h, fun _ _ => .refl _⟩

theorem omapOp_pays (sz : Nat) (op : MapOp K V) (hop : ∀ ds leak, op ≠ .drain ds leak) (m : OMap V) :
    Pays held (Off (destroys op)) (Off (partway op)) m (omapOp c J sz op) (given op) (outOf op) := by
  cases op with
  | get k => exact pays_read (pays_user fun _ => pays_ret [] (by simp [outOf, back, given]) fun _ => rfl)
  | getMut k w =>
    refine pays_user fun i => pays_mono (client_pays (eo := False) (o' := fun _ => []) fun o m' hf => ?_) (by simp [destroys])
      (fun _ => trivial) fun _ => rfl
    obtain ⟨d, hd⟩ := getMutClient_pays _ m w o m' hf
    exact ⟨d, by simpa [given] using hd, fun e => e.elim⟩
  | insert k v =>
    refine pays_then (initFullMap_pays sz _ m) fun _ m => pays_user fun i => pays_read (pays_of fun old ho => pays_of fun m' hm => ?_)
    simp only [getIdx] at ho
    split at ho
    · rename_i o hi
      cases ho
      simp only [setIdx] at hm
      split at hm
      · cases hm
        refine pays_write (inn' := old.toList) [] (by simpa [given] using held_set m i old (some v) hi) (fun _ => rfl)
          (fun _ => .inl fun st => by simp [M.of]) (pays_ret [] (by simp [outOf, back]) fun _ => rfl)
      · cases hm
    · cases ho
  | remove k =>
    refine pays_user fun i => pays_read ?_
    cases hi : m[i]? with
    | none => exact pays_ret [] (by simp [outOf, back, given]) fun _ => rfl
    | some o =>
      exact pays_write (inn' := o.toList) [] (by simpa [given] using held_set m i o none hi) (fun _ => rfl)
          (fun _ => .inl fun st => by simp [M.of]) (pays_ret [] (by simp [outOf, back]) fun _ => rfl)
  | orInsert k v w =>
    exact pays_then (omapEntry_pays sz _ k m) fun e m => pays_mono (orInsertClient_pays e m v w) (by simp [destroys])
      (fun _ => trivial) fun _ => rfl
  | entry k v w =>
    refine pays_then (omapEntry_pays sz _ k m) fun e m => pays_mono (client_pays (eo := False) (o' := fun _ => []) fun o m' hf => ?_)
      (by simp [destroys]) (fun _ => trivial) fun _ => rfl
    obtain ⟨d, hd⟩ := entryClient_pays e m v w o m' hf
    exact ⟨d, by simpa [given] using hd, fun e => e.elim⟩
  | drain ds leak => exact absurd rfl (hop ds leak)
  | _ => exact keyless_pays _ hop m rfl

theorem slotFor_pays {W : Type} (hW : List W → List V) (l : List V) (k : K) (m : List W) :
    Pays hW True True m (slotFor J k) l (fun _ => l) := by
  refine pays_user fun i => pays_read ?_
  intro st
  cases OrdinalTotalMap.slotOf m i with
  | ok a => exact ⟨[], by simp [M.of, outR], fun _ _ => rfl, fun _ _ => .refl _⟩
  | error e => exact ⟨l, by simp [M.of, outR], fun _ ⟨_, h⟩ => by simp [M.of] at h, fun _ _ => .refl _⟩

theorem amapEntry_pays (l : List V) (k : K) (m : OrdinalArrayMap V) :
    Pays held True True m (amapEntry J k) l (fun _ => l) := by
  refine pays_then (slotFor_pays held l k m) fun slot m => pays_read ?_
  intro st
  cases Entry.new m k slot with
  | ok a => exact ⟨[], by simp [M.of, outR], fun _ _ => rfl, fun _ _ => .refl _⟩
  | error e => exact ⟨l, by simp [M.of, outR], fun _ ⟨_, h⟩ => by simp [M.of] at h, fun _ _ => .refl _⟩

theorem swap_pays (m : List (Option V)) (slot : Nat) (o' : Option V) (o : MapOut K V) (m' : List (Option V))
    (hf : (do .ok (.opt (← readSlot m slot), ← writeSlot m slot o') : R (MapOut K V × List (Option V))) = .ok (o, m')) :
    ∃ old, o = .opt old ∧ (held m' ++ old.toList).Perm (held m ++ o'.toList) := by
  simp only [readSlot, writeSlot] at hf
  cases hm : m[slot]? with
  | none => simp [hm] at hf
  | some old =>
    have hs : slot < m.length := (List.getElem?_eq_some_iff.1 hm).1
    simp only [hm, hs, if_true, ok_bind, Except.ok.injEq, Prod.mk.injEq] at hf
    refine ⟨old, hf.1.symm, ?_⟩
    rw [← hf.2]
    exact held_set m slot old o' hm

theorem amapOp_pays (op : MapOp K V) (hop : ∀ ds leak, op ≠ .drain ds leak) (m : OrdinalArrayMap V) :
    Pays held (Off (destroys op)) (Off (partway op)) m (amapOp c J op) (given op) (outOf op) := by
  cases op with
  | get k => exact pays_read (pays_user fun _ => pays_of fun _ _ => pays_ret [] (by simp [outOf, back, given]) fun _ => rfl)
  | getMut k w =>
    refine pays_then (slotFor_pays held _ k m) fun i m => pays_mono (client_pays (eo := False) (o' := fun _ => []) fun o m' hf => ?_)
      (by simp [destroys]) (fun _ => trivial) fun _ => rfl
    cases hr : readSlot m i with
    | error e => simp [hr] at hf
    | ok x =>
      simp only [hr, ok_bind] at hf
      obtain ⟨d, hd⟩ := getMutClient_pays _ m w o m' hf
      exact ⟨d, by simpa [given] using hd, fun e => e.elim⟩
  | insert k v =>
    refine pays_then (slotFor_pays held _ k m) fun i m => pays_mono (client_pays (eo := True) (o' := outOf (.insert k v))
      fun o m' hf => ?_) (fun _ => trivial) (fun _ => trivial) fun _ => rfl
    obtain ⟨old, rfl, hp⟩ := swap_pays m i (some v) o m' hf
    exact ⟨[], by simpa [outOf, back, given] using hp, fun _ => rfl⟩
  | remove k =>
    refine pays_then (slotFor_pays held _ k m) fun i m => pays_mono (client_pays (eo := True) (o' := outOf (.remove k))
      fun o m' hf => ?_) (fun _ => trivial) (fun _ => trivial) fun _ => rfl
    obtain ⟨old, rfl, hp⟩ := swap_pays m i none o m' hf
    exact ⟨[], by simpa [outOf, back, given] using hp, fun _ => rfl⟩
  | orInsert k v w =>
    exact pays_then (amapEntry_pays _ k m) fun e m => pays_mono (orInsertClient_pays e m v w) (by simp [destroys])
      (fun _ => trivial) fun _ => rfl
  | entry k v w =>
    refine pays_then (amapEntry_pays _ k m) fun e m => pays_mono (client_pays (eo := False) (o' := fun _ => []) fun o m' hf => ?_)
      (by simp [destroys]) (fun _ => trivial) fun _ => rfl
    obtain ⟨d, hd⟩ := entryClient_pays e m v w o m' hf
    exact ⟨d, by simpa [given] using hd, fun e => e.elim⟩
  | drain ds leak => exact absurd rfl (hop ds leak)
  | _ => exact keyless_pays _ hop m rfl

/-! ## Total maps -/

theorem clientStepT_pays (step : MutStep V) (l : List V) (s : MutClientT V) :
    Pays (fun s : MutClientT V => s.it.mem) False False s (clientStepT c J step) (written (step :: []) ++ l) (fun _ => l) := by
  have key : ∀ (x : Upd σ (TotalIterMut V) (Option (K × Nat))),
      (∀ it, Pays (fun it : TotalIterMut V => it.mem) True True it x [] (fun _ => [])) →
      Pays (fun s : MutClientT V => s.it.mem) False False s (onIterT x >>= fun o =>
        match o with
        | none => M.of (.ok none)
        | some (k, slot) => read >>= fun (s : MutClientT V) => M.of (readSlot s.it.mem slot) >>= fun v =>
          write ⟨s.it, s.handed ++ [slot]⟩ >>= fun _ => M.of (.ok (some (k, v)))) l (fun _ => l) := by
    intro x hx
    have h0 : Pays (fun s : MutClientT V => s.it.mem) True True s (onIterT x) [] (fun _ => []) :=
      pays_zoom (ht := fun it : TotalIterMut V => it.mem) rfl (fun _ => rfl) (hx _)
    have h1 := pays_frame l h0
    rw [List.append_nil] at h1
    refine pays_then (pays_mono h1 (fun e => e) (fun e => e) fun o => by simp) fun o s => ?_
    cases o with
    | none => exact pays_ret [] (by simp) fun _ => rfl
    | some p =>
      refine pays_read (pays_of fun v _ => pays_write (inn' := l) [] (by simp) (fun _ => rfl) (fun e => e.elim) ?_)
      exact pays_ret [] (by simp) fun _ => rfl
  cases step with
  | front => exact key _ fun it => mutNext_pays id it
  | back => exact key _ fun it => mutNextBack_pays id it
  | write j v =>
    refine pays_read ?_
    cases s.handed[j]? with
    | none => exact pays_ret [v] (by simp only [written]; perms [List.Perm.refl l]) fun e => e.elim
    | some slot =>
      refine pays_of fun mem hm => ?_
      simp only [writeSlot] at hm
      split at hm
      · rename_i hs
        cases hm
        have := perm_set_list s.it.mem slot s.it.mem[slot] v (List.getElem?_eq_getElem hs)
        exact pays_write (inn' := l) [s.it.mem[slot]] (by simp only [written]; perms [this]) (fun e => e.elim) (fun e => e.elim)
          (pays_ret [] (by simp) fun _ => rfl)
      · cases hm

theorem slotSteps_pays : ∀ (steps : List (MutStep V)) (s s' : SlotClient V) os,
    runOps SlotClient.step s steps = .ok (os, s') → ∃ d, (s'.mem ++ d).Perm (s.mem ++ written steps) := by
  intro steps
  induction steps with
  | nil =>
    intro s s' os h
    simp only [runOps, Except.ok.injEq, Prod.mk.injEq] at h
    exact ⟨[], by rw [h.2]; simp [written]⟩
  | cons st steps ih =>
    intro s s' os h
    simp only [runOps] at h
    cases hs : SlotClient.step s st with
    | error e => simp [hs] at h
    | ok p =>
      obtain ⟨o, s₁⟩ := p
      simp only [hs, ok_bind] at h
      cases hr : runOps SlotClient.step s₁ steps with
      | error e => simp [hr] at h
      | ok q =>
        obtain ⟨os', s₂⟩ := q
        simp only [hr, ok_bind, Except.ok.injEq, Prod.mk.injEq] at h
        obtain ⟨d, hd⟩ := ih s₁ s₂ os' hr
        obtain rfl := h.2
        have h₁ : ∃ d, (s₁.mem ++ d).Perm (s.mem ++ written [st]) := by
          cases st with
          | front =>
            simp only [SlotClient.step] at hs
            split at hs
            · cases hs; exact ⟨[], by simp [written]⟩
            · rename_i slot it _
              cases hx : readSlot s.mem slot with
              | error e => simp [hx] at hs
              | ok v =>
                simp only [hx, ok_bind, Except.ok.injEq, Prod.mk.injEq] at hs
                rw [← hs.2]; exact ⟨[], by simp [written]⟩
          | back =>
            simp only [SlotClient.step] at hs
            split at hs
            · cases hs; exact ⟨[], by simp [written]⟩
            · rename_i slot it _
              cases hx : readSlot s.mem slot with
              | error e => simp [hx] at hs
              | ok v =>
                simp only [hx, ok_bind, Except.ok.injEq, Prod.mk.injEq] at hs
                rw [← hs.2]; exact ⟨[], by simp [written]⟩
          | write j v =>
            simp only [SlotClient.step] at hs
            split at hs
            · cases hs; exact ⟨[v], by simp [written]⟩
            · rename_i slot _
              simp only [writeSlot] at hs
              split at hs
              · rename_i hi
                simp only [ok_bind, Except.ok.injEq, Prod.mk.injEq] at hs
                rw [← hs.2]
                exact ⟨[s.mem[slot]], perm_set_list s.mem slot s.mem[slot] v (List.getElem?_eq_getElem hi)⟩
              · simp at hs
        obtain ⟨d', hd'⟩ := h₁
        refine ⟨d ++ d', ?_⟩
        rw [written_cons]
        perms [hd, hd']

theorem totalOp_pays (len : R Nat) (op : TotalOp K V) (m : List V) :
    Pays id (Off (destroysT op)) (Off (partwayT op)) m (totalOp c J len op) (givenT op) (fun o => backT op (.returned o)) := by
  have wr : ∀ (m : List V) slot w (o : MapOut K V), Pays (σ := σ) id False True m (read >>= fun m =>
      M.of (readSlot m slot) >>= fun old => M.of (writeSlot m slot w) >>= fun m => write m >>= fun _ =>
      M.of (.ok (.opt (some old) : MapOut K V))) [w] (fun _ => []) := by
    intro m slot w o
    refine pays_read (pays_of fun old ho => pays_of fun m' hm => ?_)
    simp only [writeSlot] at hm
    split at hm
    · rename_i hi
      cases hm
      exact pays_write (inn' := []) [m[slot]] (by simpa using perm_set_list m slot m[slot] w (List.getElem?_eq_getElem hi))
        (fun e => e.elim) (fun _ => .inl fun st => by simp [M.of]) (pays_ret [] (by simp) fun _ => rfl)
    · cases hm
  cases op with
  | get k => exact pays_read (pays_user fun _ => pays_of fun _ _ => pays_ret [] (by simp [backT, givenT]) fun _ => rfl)
  | index k => exact pays_read (pays_user fun _ => pays_of fun _ _ => pays_ret [] (by simp [backT, givenT]) fun _ => rfl)
  | getMut k w =>
    exact pays_then (slotFor_pays id _ k m) fun i m => pays_mono (wr m i w .unit) (by simp [destroysT]) (fun _ => trivial) fun _ => rfl
  | indexMut k w =>
    exact pays_then (slotFor_pays id _ k m) fun i m => pays_mono (wr m i w .unit) (by simp [destroysT]) (fun _ => trivial) fun _ => rfl
  | insert k v =>
    refine pays_user fun i => pays_read (pays_of fun old ho => pays_of fun m' hm => ?_)
    simp only [getIdx] at ho
    split at ho
    · rename_i o hi
      cases ho
      simp only [setIdx] at hm
      split at hm
      · cases hm
        exact pays_write (inn' := [old]) [] (by simpa [givenT] using perm_set_list m i old v hi) (fun _ => rfl)
          (fun _ => .inl fun st => by simp [M.of]) (pays_ret [] (by simp [backT]) fun _ => rfl)
      · cases hm
    · cases ho
  | len =>
    intro st
    cases len with
    | ok n => exact ⟨[], by simp [totalOp, M.of, outR, backT, givenT], fun _ _ => rfl, fun _ h => .refl _⟩
    | error e => exact ⟨[], by simp [totalOp, M.of, outR, givenT], fun _ _ => rfl, fun _ h => .refl _⟩
  | isEmpty =>
    intro st
    cases len with
    | ok n => exact ⟨[], by simp [totalOp, M.of, outR, backT, givenT], fun _ _ => rfl, fun _ h => .refl _⟩
    | error e => exact ⟨[], by simp [totalOp, M.of, outR, givenT], fun _ _ => rfl, fun _ h => .refl _⟩
  | iter ds => exact pays_read (pays_user fun _ => pays_ret [] (by simp [backT, givenT]) fun _ => rfl)
  | keys ds => exact pays_of fun _ _ => pays_user fun _ => pays_ret [] (by simp [backT, givenT]) fun _ => rfl
  | values ds => exact pays_read (pays_of fun _ _ => pays_ret [] (by simp [backT, givenT]) fun _ => rfl)
  | iterMut steps =>
    have : Pays (σ := σ) id False False m (iterMutT c J steps) (written steps) (fun _ => []) :=
      pays_zoom (ht := fun s : MutClientT V => s.it.mem) rfl (fun _ => rfl)
        (runSteps_pays (fun st l m => clientStepT_pays st l m) steps _)
    exact pays_bind (pays_mono this (by simp [destroysT]) (fun e => e) fun _ => rfl) (by simp [partwayT])
      (by simp [partwayT]) fun _ _ _ => pays_ret [] (by simp [backT]) fun _ => rfl
  | valuesMut steps =>
    refine pays_read (pays_of fun p hp => ?_)
    obtain ⟨os, s'⟩ := p
    obtain ⟨d, hd⟩ := slotSteps_pays steps _ s' os hp
    exact pays_write (inn' := []) d (by simpa [givenT] using hd) (by simp [destroysT]) (by simp [partwayT])
      (pays_ret [] (by simp [backT]) fun _ => rfl)

end OrdinalMap.Ledger
