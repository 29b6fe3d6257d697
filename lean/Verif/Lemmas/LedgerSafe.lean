import Verif.Lemmas.Ledger
import Verif.Lemmas.CaughtSame
import Verif.Lemmas.EffectMap
/-!
# Histories with caught panics are safe

For implementations of `Ordinal` of which nothing is assumed (`SoundSImpl`): the lengths of the slices stay the same, also
when user code panics.
-/

namespace OrdinalMap.Ledger
open Upd Caught

variable {σ s t α β ι K V W ω ο : Type} {c : Cfg} {J : SImpl σ K}

/-- From the collection `m`, `x` leaves a collection with `Q`, however it ends. -/
def Keep (Q : s → Prop) (m : s) (x : Upd σ s α) : Prop := ∀ st, Q (x (st, m)).2.2

section rules
variable {Q : s → Prop} {m m' : s}

theorem keep_of (y : R α) (h : Q m) : Keep (σ := σ) Q m (M.of y) := fun _ => h

theorem keep_bind {x : Upd σ s α} {f : α → Upd σ s β} (hx : Keep Q m x) (hf : ∀ a m', Q m' → Keep Q m' (f a)) :
    Keep Q m (x >>= f) := by
  intro st
  have := hx st
  simp only [bind, M.bind]
  generalize x (st, m) = r at *
  obtain ⟨e | a, st', m''⟩ := r
  · exact this
  · exact hf a _ this st'

theorem keep_read {f : s → Upd σ s β} (hf : Keep Q m (f m)) : Keep Q m (read >>= f) := hf

theorem keep_write {f : Unit → Upd σ s β} (hf : Keep Q m' (f ())) : Keep Q m (write m' >>= f) := hf

theorem keep_user {y : M σ α} {f : α → Upd σ s β} (h : Q m) (hf : ∀ a, Keep Q m (f a)) : Keep Q m (user y >>= f) := by
  intro st
  simp only [bind, M.bind, user]
  cases (y st).1 with
  | error e => exact h
  | ok a => exact hf a _

theorem keep_ofb {y : R α} {f : α → Upd σ s β} (h : Q m) (hf : ∀ a, y = .ok a → Keep Q m (f a)) :
    Keep Q m (M.of y >>= f) := by
  intro st
  simp only [bind, M.bind, M.of]
  cases y with
  | error e => exact h
  | ok a => exact hf a rfl st

theorem keep_zoom {Q' : t → Prop} {get : s → t} {set : s → t → s} {x : Upd σ t β} (h : ∀ q, Q' q → Q (set m q))
    (hx : Keep Q' (get m) x) : Keep Q m (zoom get set x) := fun st => h _ (hx st)

theorem keep_runDirs {x y : Upd σ s (Option ι)} (hx : ∀ m, Q m → Keep Q m x) (hy : ∀ m, Q m → Keep Q m y) :
    ∀ ds m, Q m → Keep Q m (Caught.runDirs x y ds) := by
  intro ds
  induction ds with
  | nil => exact fun m h => keep_of _ h
  | cons d ds ih =>
    intro m h
    cases d
    · exact keep_bind (hx m h) fun _ m h => keep_bind (ih m h) fun _ m h => keep_of _ h
    · exact keep_bind (hy m h) fun _ m h => keep_bind (ih m h) fun _ m h => keep_of _ h

theorem keep_runSteps {step : ω → Upd σ s ο} (hs : ∀ op m, Q m → Keep Q m (step op)) :
    ∀ ops m, Q m → Keep Q m (Caught.runSteps step ops) := by
  intro ops
  induction ops with
  | nil => exact fun m h => keep_of _ h
  | cons op ops ih => exact fun m h => keep_bind (hs op m h) fun _ m h => keep_bind (ih m h) fun _ m h => keep_of _ h

theorem keep_skipLoop {step : Upd σ s (Option α)} {body : α → Upd σ s (Option β)} (h1 : ∀ m, Q m → Keep Q m step)
    (h2 : ∀ a m, Q m → Keep Q m (body a)) : ∀ fuel m, Q m → Keep Q m (Caught.skipLoop step body fuel) := by
  intro fuel
  induction fuel with
  | zero => exact fun m h => keep_of _ h
  | succ fuel ih =>
    refine fun m h => keep_bind (h1 m h) fun o m h => ?_
    cases o with
    | none => exact keep_of _ h
    | some a =>
      refine keep_bind (h2 a m h) fun o m h => ?_
      cases o with
      | none => exact ih m h
      | some b => exact keep_of _ h

end rules

/-! ## Iterators -/

/-- Properties of mutable iterators that moving on does not change. -/
structure Moves (c : Cfg) (Q : TotalIterMut W → Prop) : Prop where
  front : ∀ mem next r o r', Range.next r = (o, r') → Q ⟨mem, ⟨next, r⟩⟩ → Q ⟨mem, ⟨next, r'⟩⟩ ∧
    ∀ slot next', o = some slot → addU c next 1 = .ok next' → Q ⟨mem, ⟨next', r'⟩⟩
  back : ∀ mem next r o r', Range.nextBack r = (o, r') → Q ⟨mem, ⟨next, r⟩⟩ → Q ⟨mem, ⟨next, r'⟩⟩

theorem keep_mutNext {Q : TotalIterMut W → Prop} (hQ : Moves c Q) (it : TotalIterMut W) (h : Q it) :
    Keep Q it (mutNext c J) := by
  obtain ⟨mem, next, r⟩ := it
  refine keep_read ?_
  rcases hr : Range.next r with ⟨_ | slot, r'⟩ <;> obtain ⟨g1, g2⟩ := hQ.front mem next r _ r' hr h <;> simp only
  · exact keep_write (keep_of _ g1)
  · exact keep_write (keep_user g1 fun _ => keep_ofb g1 fun _ _ => keep_ofb g1 fun _ hn =>
      keep_write (keep_of _ (g2 _ _ rfl hn)))

theorem keep_mutNextBack {Q : TotalIterMut W → Prop} (hQ : Moves c Q) (it : TotalIterMut W) (h : Q it) :
    Keep Q it (mutNextBack c J) := by
  obtain ⟨mem, next, r⟩ := it
  refine keep_read ?_
  rcases hr : Range.nextBack r with ⟨_ | slot, r'⟩ <;> have g1 := hQ.back mem next r _ r' hr h <;> simp only
  · exact keep_write (keep_of _ g1)
  · exact keep_write (keep_ofb g1 fun _ _ => keep_user g1 fun _ => keep_ofb g1 fun _ _ => keep_of _ g1)

theorem keep_mapBody {Q : MapIterMut V → Prop} (p : K × Nat) (it : MapIterMut V) (h : Q it) :
    Keep (σ := σ) Q it (mapBody p) := by
  refine keep_read ?_
  rcases it.mem[p.2]? with _ | _ | _ <;> exact keep_of _ h

theorem keep_drainBody {Q : Drain V → Prop} (hs : ∀ mem e i, Q ⟨mem, e⟩ → Q ⟨mem.set i none, e⟩) (p : K × Nat) (it : Drain V)
    (h : Q it) : Keep (σ := σ) Q it (drainBody p) := by
  obtain ⟨mem, e⟩ := it
  refine keep_read ?_
  cases hm : mem[p.2]? with
  | none => simp only [hm]; exact keep_of _ h
  | some o =>
    simp only [hm]
    refine keep_write ?_
    cases o <;> exact keep_of _ (hs _ _ _ h)

theorem keep_mapMutNext {Q : MapIterMut V → Prop} (hQ : Moves c Q) (it : MapIterMut V) (h : Q it) :
    Keep Q it (mapMutNext c J) :=
  keep_read (keep_skipLoop (fun m h => keep_mutNext hQ m h) (fun a m h => keep_mapBody a m h) _ _ h)

theorem keep_mapMutNextBack {Q : MapIterMut V → Prop} (hQ : Moves c Q) (it : MapIterMut V) (h : Q it) :
    Keep Q it (mapMutNextBack c J) :=
  keep_read (keep_skipLoop (fun m h => keep_mutNextBack hQ m h) (fun a m h => keep_mapBody a m h) _ _ h)

section drain
variable {Q : Drain V → Prop} (hQ : Moves c Q) (hs : ∀ mem e i, Q ⟨mem, e⟩ → Q ⟨mem.set i none, e⟩)
include hQ hs

theorem keep_drainNext (it : Drain V) (h : Q it) : Keep Q it (drainNext c J) :=
  keep_read (keep_skipLoop (fun m h => keep_mutNext hQ m h) (fun a m h => keep_drainBody hs a m h) _ _ h)

theorem keep_drainNextBack (it : Drain V) (h : Q it) : Keep Q it (drainNextBack c J) :=
  keep_read (keep_skipLoop (fun m h => keep_mutNextBack hQ m h) (fun a m h => keep_drainBody hs a m h) _ _ h)

theorem keep_drainDrop (it : Drain V) (h : Q it) : Keep Q it (drainDrop c J) := by
  refine keep_read ?_
  suffices ∀ fuel (it : Drain V), Q it → Keep Q it (dropLoop c J fuel) from this _ _ h
  intro fuel
  induction fuel with
  | zero => exact fun _ h => keep_of _ h
  | succ fuel ih =>
    refine fun it h => keep_bind (keep_drainNext hQ hs it h) fun o it h => ?_
    cases o with
    | none => exact keep_of _ h
    | some _ => exact ih it h

end drain

theorem moves_mem (P : List W → Prop) : Moves c (fun it : TotalIterMut W => P it.mem) :=
  ⟨fun _ _ _ _ _ _ h => ⟨h, fun _ _ _ _ => h⟩, fun _ _ _ _ _ _ h => h⟩

/-- The invariant of `Drain`, which also holds after a panic. -/
def DInv (n : Nat) (it : TotalIterMut (Option V)) : Prop :=
  it.mem.length = n ∧ it.it.iter.stop ≤ n ∧ it.it.next + Range.len it.it.iter ≤ n

theorem moves_dinv (n : Nat) : Moves c (DInv (V := V) n) := by
  refine ⟨fun mem next r o r' hr ⟨h1, h2, h3⟩ => ?_, fun mem next r o r' hr ⟨h1, h2, h3⟩ => ?_⟩
  · simp only [Range.next] at hr
    split at hr
    · rename_i hlt
      simp only [Prod.mk.injEq] at hr
      obtain ⟨-, rfl⟩ := hr
      simp only [Range.len, hlt, if_true] at h3
      refine ⟨⟨h1, h2, ?_⟩, fun slot next' _ hn => ⟨h1, h2, ?_⟩⟩
      · simp only [Range.len]; split <;> omega
      · have : next' ≤ next + 1 := by
          simp only [addU] at hn
          split at hn
          · cases hn; exact Nat.le_refl _
          · split at hn
            · cases hn
            · cases hn; exact Nat.mod_le _ _
        simp only [Range.len]; split <;> omega
    · simp only [Prod.mk.injEq] at hr
      obtain ⟨rfl, rfl⟩ := hr
      exact ⟨⟨h1, h2, h3⟩, fun slot next' h => by simp at h⟩
  · simp only [Range.nextBack] at hr
    split at hr
    · rename_i hlt
      simp only [Prod.mk.injEq] at hr
      obtain ⟨-, rfl⟩ := hr
      simp only [Range.len, hlt, if_true] at h3
      refine ⟨h1, ?_, ?_⟩
      · simp only at h2 ⊢; omega
      · simp only [Range.len]; split <;> omega
    · simp only [Prod.mk.injEq] at hr
      obtain ⟨-, rfl⟩ := hr
      exact ⟨h1, h2, h3⟩

theorem DInv.set {n : Nat} (mem : List (Option V)) (e) (i : Nat) (h : DInv n ⟨mem, e⟩) : DInv n ⟨mem.set i none, e⟩ :=
  ⟨by simpa using h.1, h.2⟩

theorem dinv_new (m : List (Option V)) : DInv m.length (Drain.new m) := by
  refine ⟨rfl, Nat.le_refl _, ?_⟩
  simp only [Drain.new, TotalIterMut.new, Enumerate.new, Range.len]
  by_cases h : 0 < m.length <;> simp [h]

theorem DInv.drainE {n : Nat} {it : Drain V} (h : DInv n it) (st : σ) : DrainE (K := K) (fun _ _ => True) n it st :=
  ⟨h.1, h.2.1, h.2.2, [], trivial, [], rfl, by simp, by simp, by simp⟩

/-! ## Operations -/

section ops
variable {P : List (Option V) → Prop} (hP : ∀ m i o, P m → P (m.set i o))
include hP

omit hP in
theorem keep_client {f : List (Option V) → R (MapOut K V × List (Option V))} {m : List (Option V)} (h : P m)
    (hf : ∀ o m', f m = .ok (o, m') → P m') : Keep (σ := σ) P m (client f) :=
  keep_read (keep_ofb h fun p hp => keep_write (keep_of _ (hf p.1 p.2 hp)))

theorem keep_writeSome {m m' : List (Option V)} {i : Nat} {v : V} (h : P m) (hw : writeSome m i v = .ok m') : P m' := by
  simp only [writeSome] at hw
  split at hw
  · cases hw; exact hP _ _ _ h
  · cases hw

theorem keep_writeSlot {m m' : List (Option V)} {i : Nat} {o : Option V} (h : P m) (hw : writeSlot m i o = .ok m') : P m' := by
  simp only [writeSlot] at hw
  split at hw
  · cases hw; exact hP _ _ _ h
  · cases hw

theorem keep_getMutClient {r : Option Nat} {m m' : List (Option V)} {w : V} {o : MapOut K V} (h : P m)
    (hf : getMutClient r m w = .ok (o, m')) : P m' := by
  cases r with
  | none =>
    simp only [getMutClient, Except.ok.injEq, Prod.mk.injEq] at hf
    rw [← hf.2]; exact h
  | some slot =>
    simp only [getMutClient] at hf
    cases h1 : readSome m slot with
    | error e => simp [h1] at hf
    | ok v =>
      cases h2 : writeSome m slot w with
      | error e => simp [h1, h2] at hf
      | ok m₁ =>
        simp only [h1, h2, ok_bind, Except.ok.injEq, Prod.mk.injEq] at hf
        rw [← hf.2]; exact keep_writeSome hP h h2

theorem keep_entryClient {e : Entry K} {m m' : List (Option V)} {v w : V} {o : MapOut K V} (h : P m)
    (hf : entryClient e m v w = .ok (o, m')) : P m' := by
  cases e with
  | vacant k slot =>
    simp only [entryClient, Entry.vacantInsert] at hf
    cases h2 : writeSlot m slot (some v) with
    | error e => simp [h2] at hf
    | ok m₁ =>
      simp only [h2, ok_bind, Except.ok.injEq, Prod.mk.injEq] at hf
      rw [← hf.2]; exact keep_writeSlot hP h h2
  | occupied k slot =>
    simp only [entryClient] at hf
    cases h1 : Entry.occupiedGet m slot with
    | error e => simp [h1] at hf
    | ok x =>
      cases h2 : Entry.occupiedGetMut m slot with
      | error e => simp [h1, h2] at hf
      | ok i =>
        cases h3 : writeSome m i w with
        | error e => simp [h1, h2, h3] at hf
        | ok m₁ =>
          simp only [h1, h2, h3, ok_bind, Except.ok.injEq, Prod.mk.injEq] at hf
          rw [← hf.2]; exact keep_writeSome hP h h3

theorem keep_orInsertClient (e : Entry K) (m : List (Option V)) (v w : V) (h : P m) :
    Keep (σ := σ) P m (orInsertClient (K := K) e v w) := by
  refine keep_read (keep_ofb h fun p hp => ?_)
  have h1 : P p.2 := by
    cases e with
    | occupied k i =>
      simp only [Entry.orInsert] at hp
      cases hg : Entry.occupiedGetMut m i with
      | error e => simp [hg] at hp
      | ok j =>
        simp only [hg, ok_bind, Except.ok.injEq] at hp
        rw [← hp]; exact h
    | vacant k i =>
      simp only [Entry.orInsert, writeSlot] at hp
      split at hp
      · simp only [ok_bind, Except.ok.injEq] at hp
        rw [← hp]; exact hP _ _ _ h
      · simp at hp
  refine keep_write (keep_ofb h1 fun _ _ => keep_ofb h1 fun m₂ hm => keep_write (keep_of _ ?_))
  exact keep_writeSome hP h1 hm

theorem keep_clientStep (step : MutStep V) (s : MutClient V) (h : P s.it.mem) :
    Keep (fun s : MutClient V => P s.it.mem) s (clientStep c J step) := by
  have key : ∀ (x : Upd σ (MapIterMut V) (Option (K × Nat))),
      (∀ it : MapIterMut V, P it.mem → Keep (fun it : MapIterMut V => P it.mem) it x) →
      Keep (fun s : MutClient V => P s.it.mem) s (onIter x >>= fun o =>
        match o with
        | none => M.of (.ok none)
        | some (k, slot) => read >>= fun (s : MutClient V) => M.of (readSome s.it.mem slot) >>= fun v =>
          write ⟨s.it, s.handed ++ [slot]⟩ >>= fun _ => M.of (.ok (some (k, v)))) := by
    intro x hx
    refine keep_bind (keep_zoom (Q' := fun it : MapIterMut V => P it.mem) (fun _ h => h) (hx _ h)) fun o s h => ?_
    cases o with
    | none => exact keep_of _ h
    | some p => exact keep_read (keep_ofb h fun _ _ => keep_write (keep_of _ h))
  cases step with
  | front => exact key _ fun it h => keep_mapMutNext (moves_mem P) it h
  | back => exact key _ fun it h => keep_mapMutNextBack (moves_mem P) it h
  | write j v =>
    refine keep_read ?_
    cases s.handed[j]? with
    | none => exact keep_of _ h
    | some slot => exact keep_ofb h fun mem hm => keep_write (keep_of _ (keep_writeSome hP h hm))

theorem keep_keyless (op : MapOp K V) (m : List (Option V)) (h : P m) : Keep P m (keyless c J op) := by
  have hmut : ∀ steps : List (MutStep V), Keep P m (iterMut c J steps) := fun steps =>
    keep_zoom (Q' := fun s : MutClient V => P s.it.mem) (fun _ h => h)
      (keep_runSteps (fun op s h => keep_clientStep hP op s h) steps _ h)
  cases op with
  | iterMut steps => exact keep_bind (hmut steps) fun _ _ h => keep_of _ h
  | valuesMut steps => exact keep_bind (hmut steps) fun _ _ h => keep_of _ h
  | clear =>
    exact keep_bind (keep_zoom (Q' := fun s : Drain V => P s.mem) (fun _ h => h)
      (keep_drainDrop (moves_mem P) (fun _ _ _ h => hP _ _ _ h) _ h)) fun _ _ h => keep_of _ h
  | len => exact keep_read (keep_user h fun _ => keep_of _ h)
  | isEmpty => exact keep_read (keep_user h fun _ => keep_of _ h)
  | iter ds => exact keep_read (keep_user h fun _ => keep_of _ h)
  | keys ds => exact keep_read (keep_user h fun _ => keep_of _ h)
  | values ds => exact keep_read (keep_user h fun _ => keep_of _ h)
  | _ => exact keep_of _ h

omit hP in
theorem keep_slotFor (k : K) (m : List (Option V)) (h : P m) : Keep P m (slotFor J k) :=
  keep_user h fun _ => keep_read (keep_of _ h)

theorem keep_amapOp (op : MapOp K V) (m : OrdinalArrayMap V) (h : P m) : Keep P m (amapOp c J op) := by
  have hsw : ∀ (i : Nat) (o' : Option V) (m : List (Option V)), P m → Keep (σ := σ) P m (client (K := K) fun m => do
      .ok (.opt (← readSlot m i), ← writeSlot m i o')) := fun i o' m h => keep_client h fun o m' hf => by
    obtain h1 | ⟨x, h1⟩ : (∃ e, readSlot m i = .error e) ∨ ∃ x, readSlot m i = .ok x := by
      cases readSlot m i <;> simp
    · obtain ⟨e, h1⟩ := h1
      simp [h1] at hf
    · cases h2 : writeSlot m i o' with
      | error e => simp [h1, h2] at hf
      | ok m₁ =>
        simp only [h1, h2, ok_bind, Except.ok.injEq, Prod.mk.injEq] at hf
        rw [← hf.2]; exact keep_writeSlot hP h h2
  cases op with
  | get k => exact keep_read (keep_user h fun _ => keep_ofb h fun _ _ => keep_of _ h)
  | getMut k w =>
    refine keep_bind (keep_slotFor k m h) fun i m h => keep_client h fun o m' hf => ?_
    cases h1 : readSlot m i with
    | error e => simp [h1] at hf
    | ok x => simp only [h1, ok_bind] at hf; exact keep_getMutClient hP h hf
  | insert k v => exact keep_bind (keep_slotFor k m h) fun i m h => hsw i (some v) m h
  | remove k => exact keep_bind (keep_slotFor k m h) fun i m h => hsw i none m h
  | orInsert k v w =>
    exact keep_bind (keep_bind (keep_slotFor k m h) fun i m h => keep_read (keep_of _ h)) fun e m h =>
      keep_orInsertClient hP e m v w h
  | entry k v w =>
    exact keep_bind (keep_bind (keep_slotFor k m h) fun i m h => keep_read (keep_of _ h)) fun e m h =>
      keep_client h fun o m' hf => keep_entryClient hP h hf
  | _ => exact keep_keyless hP _ m h

theorem keep_omapOp (sz : Nat) (hI : ∀ m m', P m → Eff.initFullMap c J sz m = .ok m' → P m') (op : MapOp K V) (m : OMap V)
    (h : P m) : Keep P m (omapOp c J sz op) := by
  have hinit : ∀ m, P m → Keep P m (initFullMap c J sz) := fun m h =>
    keep_read (keep_ofb h fun m' hm st => hI m m' h hm)
  have hentry : ∀ k m, P m → Keep P m (omapEntry c J sz k) := fun k m h =>
    keep_bind (hinit m h) fun _ m h => keep_user h fun _ => keep_read (keep_of _ h)
  cases op with
  | get k => exact keep_read (keep_user h fun _ => keep_of _ h)
  | getMut k w => exact keep_user h fun i => keep_client h fun o m' hf => keep_getMutClient hP h hf
  | insert k v =>
    refine keep_bind (hinit m h) fun _ m h => keep_user h fun i => keep_read (keep_ofb h fun _ _ =>
      keep_ofb h fun m' hm => keep_write (keep_of _ ?_))
    simp only [setIdx] at hm
    split at hm
    · cases hm; exact hP _ _ _ h
    · cases hm
  | remove k =>
    refine keep_user h fun i => keep_read ?_
    cases m[i]? with
    | none => exact keep_of _ h
    | some o => exact keep_write (keep_of _ (hP _ _ _ h))
  | orInsert k v w => exact keep_bind (hentry k m h) fun e m h => keep_orInsertClient hP e m v w h
  | entry k v w =>
    exact keep_bind (hentry k m h) fun e m h => keep_client h fun o m' hf => keep_entryClient hP h hf
  | _ => exact keep_keyless hP _ m h

end ops

theorem slotSteps_len : ∀ (steps : List (MutStep V)) (s s' : SlotClient V) os,
    runOps SlotClient.step s steps = .ok (os, s') → s'.mem.length = s.mem.length := by
  intro steps
  induction steps with
  | nil => intro s s' os h; simp only [runOps, Except.ok.injEq, Prod.mk.injEq] at h; rw [h.2]
  | cons st steps ih =>
    intro s s' os h
    simp only [runOps] at h
    cases hs : SlotClient.step s st with
    | error e => simp [hs] at h
    | ok p =>
      obtain ⟨o, s₁⟩ := p
      simp only [hs, ok_bind] at h
      cases hr : runOps SlotClient.step s₁ steps with
      | error e => simp [hr] at h
      | ok q =>
        obtain ⟨os', s₂⟩ := q
        simp only [hr, ok_bind, Except.ok.injEq, Prod.mk.injEq] at h
        obtain rfl := h.2
        rw [ih s₁ s₂ os' hr]
        cases st with
        | front =>
          simp only [SlotClient.step] at hs
          split at hs
          · cases hs; rfl
          · rename_i slot it _
            cases hx : readSlot s.mem slot with
            | error e => simp [hx] at hs
            | ok v => simp only [hx, ok_bind, Except.ok.injEq, Prod.mk.injEq] at hs; rw [← hs.2]
        | back =>
          simp only [SlotClient.step] at hs
          split at hs
          · cases hs; rfl
          · rename_i slot it _
            cases hx : readSlot s.mem slot with
            | error e => simp [hx] at hs
            | ok v => simp only [hx, ok_bind, Except.ok.injEq, Prod.mk.injEq] at hs; rw [← hs.2]
        | write j v =>
          simp only [SlotClient.step] at hs
          split at hs
          · cases hs; rfl
          · rename_i slot _
            simp only [writeSlot] at hs
            split at hs
            · simp only [ok_bind, Except.ok.injEq, Prod.mk.injEq] at hs
              rw [← hs.2]; simp
            · simp at hs

theorem keep_totalOp (len : R Nat) (n : Nat) (op : TotalOp K V) (m : List V) (h : m.length = n) :
    Keep (fun m : List V => m.length = n) m (totalOp c J len op) := by
  have hsf : ∀ k, Keep (fun m : List V => m.length = n) m (slotFor J k) := fun k =>
    keep_user h fun _ => keep_read (keep_of _ h)
  have hw : ∀ {m m' : List V} {i w}, m.length = n → writeSlot m i w = .ok m' → m'.length = n := by
    intro m m' i w h hw
    simp only [writeSlot] at hw
    split at hw
    · cases hw; simpa using h
    · cases hw
  have hclient : ∀ (step : MutStep V) (s : MutClientT V), s.it.mem.length = n →
      Keep (fun s : MutClientT V => s.it.mem.length = n) s (clientStepT c J step) := by
    intro step s h
    have key : ∀ (x : Upd σ (TotalIterMut V) (Option (K × Nat))),
        (∀ it : TotalIterMut V, it.mem.length = n → Keep (fun it : TotalIterMut V => it.mem.length = n) it x) →
        Keep (fun s : MutClientT V => s.it.mem.length = n) s (onIterT x >>= fun o =>
          match o with
          | none => M.of (.ok none)
          | some (k, slot) => read >>= fun (s : MutClientT V) => M.of (readSlot s.it.mem slot) >>= fun v =>
            write ⟨s.it, s.handed ++ [slot]⟩ >>= fun _ => M.of (.ok (some (k, v)))) := by
      intro x hx
      refine keep_bind (keep_zoom (Q' := fun it : TotalIterMut V => it.mem.length = n) (fun _ h => h) (hx _ h)) fun o s h => ?_
      cases o with
      | none => exact keep_of _ h
      | some p => exact keep_read (keep_ofb h fun _ _ => keep_write (keep_of _ h))
    cases step with
    | front => exact key _ fun it h => keep_mutNext (moves_mem fun m => m.length = n) it h
    | back => exact key _ fun it h => keep_mutNextBack (moves_mem fun m => m.length = n) it h
    | write j v =>
      refine keep_read ?_
      cases s.handed[j]? with
      | none => exact keep_of _ h
      | some slot => exact keep_ofb h fun mem hm => keep_write (keep_of _ (hw h hm))
  cases op with
  | get k => exact keep_read (keep_user h fun _ => keep_ofb h fun _ _ => keep_of _ h)
  | index k => exact keep_read (keep_user h fun _ => keep_ofb h fun _ _ => keep_of _ h)
  | getMut k w =>
    exact keep_bind (hsf k) fun i m h => keep_read (keep_ofb h fun _ _ => keep_ofb h fun m' hm =>
      keep_write (keep_of _ (hw h hm)))
  | indexMut k w =>
    exact keep_bind (hsf k) fun i m h => keep_read (keep_ofb h fun _ _ => keep_ofb h fun m' hm =>
      keep_write (keep_of _ (hw h hm)))
  | insert k v =>
    refine keep_user h fun i => keep_read (keep_ofb h fun _ _ => keep_ofb h fun m' hm => keep_write (keep_of _ ?_))
    simp only [setIdx] at hm
    split at hm
    · cases hm; simpa using h
    · cases hm
  | len => exact keep_of _ h
  | isEmpty => exact keep_of _ h
  | iter ds => exact keep_read (keep_user h fun _ => keep_of _ h)
  | keys ds => exact keep_ofb h fun _ _ => keep_user h fun _ => keep_of _ h
  | values ds => exact keep_read (keep_ofb h fun _ _ => keep_of _ h)
  | iterMut steps =>
    exact keep_bind (keep_zoom (Q' := fun s : MutClientT V => s.it.mem.length = n) (fun _ h => h)
      (keep_runSteps hclient steps _ h)) fun _ _ h => keep_of _ h
  | valuesMut steps =>
    refine keep_read (keep_ofb h fun p hp => keep_write (keep_of _ ?_))
    exact (slotSteps_len steps _ p.2 p.1 hp).trans h

/-! ## Steps -/

/-- The step ends, without undefined behaviour, and leaves a collection with `Q`. -/
def Safe (Q : s → Prop) (m : s) (x : Upd σ s α) : Prop := ∀ st, Sound (x (st, m)).1 ∧ Q (x (st, m)).2.2

theorem same_sound {m : s} {x : Upd σ s α} {y : M σ (α × s)} {st : σ} (h : Same m x y) (hy : Sound (y st).1) :
    Sound (x (st, m)).1 := by
  have := h st
  generalize y st = r at *
  obtain ⟨e | ⟨a, q⟩, st'⟩ := r
  · obtain ⟨q, h⟩ := this
    rw [h]
    simpa [Sound] using hy
  · simp only at this
    rw [this]
    simp [Sound]

theorem safe_catch {Q : s → Prop} {m : s} {x : Upd σ s α} (h1 : ∀ st, Sound (x (st, m)).1) (h2 : Keep Q m x) :
    Safe Q m (catchUnwind x) := by
  intro st
  have h1 := h1 st
  have h2 := h2 st
  simp only [catchUnwind]
  generalize x (st, m) = r at *
  obtain ⟨e | a, st', m'⟩ := r
  · cases e
    · exact ⟨by simp [Sound], h2⟩
    · exact ⟨by simp [Sound], h2⟩
    · simp [Sound] at h1
    · simp [Sound] at h1
  · exact ⟨by simp [Sound], h2⟩

theorem safe_catchWith {Q : s → Prop} {m : s} {x : Upd σ s α} {d : Upd σ s Unit} (h1 : ∀ st, Sound (x (st, m)).1)
    (h2 : Keep Q m x) (hd : ∀ m, Q m → (∀ st, Sound (d (st, m)).1) ∧ Keep Q m d) : Safe Q m (catchWith x d) := by
  intro st
  have h1 := h1 st
  have h2 := h2 st
  simp only [catchWith]
  generalize x (st, m) = r at *
  obtain ⟨e | a, st', m'⟩ := r
  · cases e
    · simp only at h2 ⊢
      obtain ⟨g1, g2⟩ := hd m' h2
      have g1 := g1 st'
      have g2 := g2 st'
      generalize d (st', m') = r at *
      obtain ⟨e | ⟨⟩, st'', m''⟩ := r
      · cases e
        · exact ⟨by simp [Sound], g2⟩
        · exact ⟨by simp [Sound], g2⟩
        · simp [Sound] at g1
        · simp [Sound] at g1
      · exact ⟨by simp [Sound], g2⟩
    · exact ⟨by simp [Sound], h2⟩
    · simp [Sound] at h1
    · simp [Sound] at h1
  · exact ⟨by simp [Sound], h2⟩

theorem safe_of {Q : s → Prop} {m : s} (y : R α) (hy : Sound y) (h : Q m) : Safe (σ := σ) Q m (M.of y) :=
  fun _ => ⟨hy, h⟩

theorem safe_bind {Q : s → Prop} {m : s} {x : Upd σ s α} {f : α → Upd σ s β} (hx : Safe Q m x)
    (hf : ∀ a m', Q m' → Safe Q m' (f a)) : Safe Q m (x >>= f) := by
  intro st
  have := hx st
  simp only [bind, M.bind]
  generalize x (st, m) = r at *
  obtain ⟨e | a, st', m''⟩ := r
  · exact ⟨by simpa [Sound] using this.1, this.2⟩
  · exact hf a _ this.2 st'

theorem safe_zoom {Q : s → Prop} {Q' : t → Prop} {m : s} {get : s → t} {set : s → t → s} {x : Upd σ t β}
    (h : ∀ q, Q' q → Q (set m q)) (hx : Safe Q' (get m) x) : Safe Q m (zoom get set x) :=
  fun st => ⟨(hx st).1, h _ (hx st).2⟩

variable (hJ : SoundSImpl c J)
include hJ

theorem drainDrop_sound {n : Nat} (hn : n < c.M) (it : Drain V) (h : DInv n it) (st : σ) :
    Sound (drainDrop c J (st, it)).1 := by
  have h1 := (mholds_drainDrop hJ.traced hn (h.drainE st)).sound
  have h2 := same_drainDrop (c := c) (J := J) it st
  generalize Eff.drainDrop c J it st = r at *
  obtain ⟨e | a, st'⟩ := r
  · obtain ⟨q, h2⟩ := h2
    rw [h2]
    simpa [Sound] using h1
  · obtain ⟨q, h2, -⟩ := h2
    rw [h2]
    simp [Sound]

theorem safe_drain (ds : List Dir) (leak : Bool) {n : Nat} (hn : n < c.M) (m : List (Option V)) (h : m.length = n) :
    Safe (fun m : List (Option V) => m.length = n) m (drain c J ds leak) := by
  have hd : ∀ it : Drain V, DInv n it → Keep (DInv n) it (drainDrop c J) := fun it h =>
    keep_drainDrop (moves_dinv n) DInv.set it h
  have h0 : DInv n (Drain.new m) := h ▸ dinv_new m
  refine safe_zoom (Q' := DInv n) (fun _ h => h.1) (safe_bind (safe_catchWith (fun st => ?_) ?_ fun it h =>
    ⟨fun st => drainDrop_sound hJ hn it h st, hd it h⟩) fun e it h => ?_)
  · exact same_sound (same_runDirs same_drainNext same_drainNextBack ds _)
      (mholds_run (msteps_drainNext hJ.traced hn) (msteps_drainNextBack hJ.traced hn) ds (h0.drainE st)).sound
  · exact keep_runDirs (fun it h => keep_drainNext (moves_dinv n) DInv.set it h)
      (fun it h => keep_drainNextBack (moves_dinv n) DInv.set it h) ds _ h0
  · cases e with
    | panicked => exact safe_of _ (by simp [Sound]) h
    | aborted => exact safe_of _ (by simp [Sound]) h
    | returned os =>
      refine safe_bind (safe_catch (fun st => ?_) ?_) fun e it h => ?_
      · cases leak
        · exact drainDrop_sound hJ hn it h st
        · simp [Sound, M.of]
      · cases leak
        · exact hd it h
        · exact keep_of _ h
      · cases e <;> exact safe_of _ (by simp [Sound]) h

omit hJ in
theorem drain_or (op : MapOp K V) : (∃ ds leak, op = .drain ds leak) ∨
    ((∀ ds leak, op ≠ .drain ds leak) ∧ ¬ MapSpec.fatal op) := by
  cases op <;> simp [MapSpec.fatal]

theorem safe_omapStep (sz : Nat) (op : MapOp K V) (m : OMap V) (hm : m.length < c.M) :
    Safe (fun m : OMap V => m.length < c.M) m (omapStep c J sz op) := by
  obtain ⟨ds, leak, rfl⟩ | ⟨h1, h2⟩ := drain_or op
  · refine safe_bind (fun st => ⟨(safe_drain hJ ds leak hm m rfl st).1, ?_⟩) fun e m h => ?_
    · rw [(safe_drain hJ ds leak hm m rfl st).2]; exact hm
    · cases e <;> exact safe_of _ (by simp [Sound]) h
  · rw [omapStep]
    · refine safe_catch (fun st => same_sound (same_omapOp sz m h2) ?_) (keep_omapOp (fun m i o h => by simpa using h) sz
        (fun m m' h hi => ?_) op m hm)
      · cases hk : op.key? with
        | some k => exact (mholds_omapKeyed hJ.traced sz m hm trivial op hk).sound
        | none =>
          rw [omapStep_keyless sz m op hk]
          exact (mholds_keyless hJ.traced m hm trivial op).sound
      · simp only [Eff.initFullMap] at hi
        split at hi
        · cases hs : J.size with
          | error e => simp [hs] at hi
          | ok n =>
            simp only [hs, ok_bind] at hi
            cases hw : withCapacity c sz n with
            | error e => simp [hw] at hi
            | ok u =>
              simp only [hw, ok_bind, Except.ok.injEq] at hi
              subst hi
              simpa using hJ.size_lt n hs
        · cases hi; exact h
    · exact h1

theorem safe_amapStep (op : MapOp K V) {n : Nat} (hn : n < c.M) (m : OrdinalArrayMap V) (hm : List.length m = n) :
    Safe (fun m : OrdinalArrayMap V => List.length m = n) m (amapStep c J op) := by
  obtain ⟨ds, leak, rfl⟩ | ⟨h1, h2⟩ := drain_or op
  · refine safe_bind (fun st => safe_drain hJ ds leak hn m hm st) fun e m h => ?_
    cases e <;> exact safe_of _ (by simp [Sound]) h
  · rw [amapStep]
    · refine safe_catch (fun st => same_sound (same_amapOp m h2) ?_)
        (keep_amapOp (P := fun m : OrdinalArrayMap V => List.length m = n) (fun m i o h => by simpa using h) op m hm)
      cases hk : op.key? with
      | some k => exact (mholds_amapKeyed hJ.traced m trivial op hk).sound
      | none =>
        rw [amapStep_keyless m op hk]
        exact (mholds_keyless hJ.traced m (hm ▸ hn) trivial op).sound
    · exact h1

theorem safe_totalStep (len : R Nat) (hlen : Sound len) (op : TotalOp K V) {n : Nat} (hn : n < c.M) (m : List V)
    (hm : m.length = n) : Safe (fun m : List V => m.length = n) m (totalStep c J len op) := by
  refine safe_catch (fun st => same_sound (same_totalOp len m op) ?_) (keep_totalOp len n op m hm)
  cases hk : op.key? with
  | some k => exact (mholds_totalKeyed hJ.traced len m trivial op hk).sound
  | none => exact (mholds_totalKeyless hJ.traced len hlen m (hm ▸ hn) trivial op hk).sound

end OrdinalMap.Ledger
