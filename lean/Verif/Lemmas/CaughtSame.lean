import Verif.Lemmas.CaughtMap
import Verif.Lemmas.Effect
/-! # The two models of operations with state agree -/

namespace OrdinalMap

variable {σ s t α β γ ι ω ο K V : Type} {c : Cfg} {J : SImpl σ K}

/-- `x` on the collection `p` is `y`; what `x` leaves when it fails does not matter. -/
def Same (p : s) (x : Upd σ s α) (y : M σ (α × s)) : Prop := ∀ st,
  match y st with
  | (.ok (a, q), st') => x (st, p) = (.ok a, (st', q))
  | (.error e, st') => ∃ q, x (st, p) = (.error e, (st', q))

namespace Same

variable {p : s}

theorem of (r : R α) : Same p (M.of r : Upd σ s α) (.of (do .ok (← r, p))) := by
  intro st
  cases r with
  | ok a => rfl
  | error e => exact ⟨p, rfl⟩

theorem ok (a : α) : Same p (M.of (.ok a) : Upd σ s α) (.of (.ok (a, p))) := of (.ok a)

theorem bind {x : Upd σ s α} {y : M σ (α × s)} {f : α → Upd σ s β} {g : α × s → M σ (β × s)} (h : Same p x y)
    (hf : ∀ a q, Same q (f a) (g (a, q))) : Same p (x >>= f) (y >>= g) := by
  intro st
  have h := h st
  simp only [M.bind_apply]
  rcases hy : y st with ⟨e | ⟨a, q⟩, st'⟩
  · rw [hy] at h
    obtain ⟨q, h⟩ := h
    exact ⟨q, by rw [h]⟩
  · rw [hy] at h
    simp only at h
    rw [h]
    exact hf a q st'

theorem read_bind {f : s → Upd σ s β} {y : M σ (β × s)} (h : Same p (f p) y) : Same p (Upd.read >>= f) y := h

theorem write_bind {q : s} {f : Unit → Upd σ s β} {y : M σ (β × s)} (h : Same q (f ()) y) :
    Same p (Upd.write q >>= f) y := h

theorem of_bind {r : R α} {f : α → Upd σ s β} {g : α → M σ (β × s)} (hf : ∀ a, Same p (f a) (g a)) :
    Same p (M.of r >>= f) (M.of r >>= g) := by
  cases r with
  | ok a => exact hf a
  | error e => intro st; exact ⟨p, rfl⟩

theorem of_bind' {r : R α} {f : α → Upd σ s β} {g : α → R (β × s)} (hf : ∀ a, Same p (f a) (.of (g a))) :
    Same p (M.of r >>= f) (.of (r >>= g)) := by
  cases r with
  | ok a => exact hf a
  | error e => intro st; exact ⟨p, rfl⟩

theorem user_bind {x : M σ α} {f : α → Upd σ s β} {g : α → M σ (β × s)} (hf : ∀ a, Same p (f a) (g a)) :
    Same p (Upd.user x >>= f) (x >>= g) := by
  intro st
  simp only [M.bind_apply, Upd.user]
  rcases x st with ⟨e | a, st'⟩
  · exact ⟨p, rfl⟩
  · exact hf a st'

theorem user (x : M σ α) : Same p (Upd.user x) (do
    let a ← x
    .of (.ok (a, p))) := by
  intro st
  simp only [M.bind_apply, Upd.user]
  rcases x st with ⟨e | a, st'⟩
  · exact ⟨p, rfl⟩
  · rfl

theorem zoom {get : s → t} {set : s → t → s} {x : Upd σ t α} {y : M σ (α × t)} (h : Same (get p) x y) :
    Same p (Upd.zoom get set x) (do
      let (a, q) ← y
      .of (.ok (a, set p q))) := by
  intro st
  have h := h st
  simp only [M.bind_apply, Upd.zoom]
  rcases hy : y st with ⟨e | ⟨a, q⟩, st'⟩
  · rw [hy] at h
    obtain ⟨q, h⟩ := h
    exact ⟨_, by rw [h]⟩
  · rw [hy] at h
    simp only at h
    rw [h]
    rfl

theorem zoom_bind {get : s → t} {set : s → t → s} {x : Upd σ t α} {y : M σ (α × t)} {f : α → Upd σ s β}
    {g : α × t → M σ (β × s)} (h : Same (get p) x y) (hf : ∀ a q, Same (set p q) (f a) (g (a, q))) :
    Same p (Upd.zoom get set x >>= f) (y >>= g) := by
  intro st
  have h := h st
  simp only [M.bind_apply, Upd.zoom]
  rcases hy : y st with ⟨e | ⟨a, q⟩, st'⟩
  · rw [hy] at h
    obtain ⟨q, h⟩ := h
    exact ⟨_, by rw [h]⟩
  · rw [hy] at h
    simp only at h
    rw [h]
    exact hf a q st'

theorem caught {x : Upd σ s α} {y : M σ (α × s)} (h : Same p x y) : AgreesWith p (Caught.catchUnwind x) y := by
  intro st
  have h := h st
  unfold Caught.catchUnwind
  rcases hy : y st with ⟨e | ⟨a, q⟩, st'⟩
  · rw [hy] at h
    obtain ⟨q, h⟩ := h
    rw [h]
    cases e <;> simp
  · rw [hy] at h
    simp only at h
    rw [h]

theorem congr {x : Upd σ s α} {y y' : M σ (α × s)} (h : Same p x y) (e : ∀ st, y st = y' st) : Same p x y' := by
  intro st
  rw [← e]
  exact h st

end Same

theorem same_mutNext (it : TotalIterMut V) : Same it (Caught.mutNext c J) (Eff.mutNext c J it) := by
  unfold Caught.mutNext Eff.mutNext Eff.enumNext
  refine Same.read_bind ?_
  simp only [show (slotIter.next it.it.iter) = Range.next it.it.iter from rfl]
  rcases Range.next it.it.iter with ⟨_ | slot, r⟩
  · exact .ok none
  · intro st
    simp only [M.bind_apply, Upd.write, Upd.user]
    rcases J.fromOrdinal it.it.next st with ⟨e | o, st'⟩
    · exact ⟨_, rfl⟩
    · cases o with
      | none => exact ⟨_, rfl⟩
      | some k =>
        simp only [unwrap, M.of]
        rcases addU c it.it.next 1 with e | next
        · exact ⟨_, rfl⟩
        · rfl

theorem same_mutNextBack (it : TotalIterMut V) : Same it (Caught.mutNextBack c J) (Eff.mutNextBack c J it) := by
  unfold Caught.mutNextBack Eff.mutNextBack Eff.enumNextBack
  refine Same.read_bind ?_
  simp only [show (slotIter.nextBack it.it.iter) = Range.nextBack it.it.iter from rfl]
  rcases Range.nextBack it.it.iter with ⟨_ | slot, r⟩
  · exact .ok none
  · intro st
    simp only [M.bind_apply, Upd.write, Upd.user, M.of, show slotIter.len r = Range.len r from rfl]
    rcases addU c it.it.next (Range.len r) with e | i
    · exact ⟨_, rfl⟩
    · simp only
      rcases J.fromOrdinal i st with ⟨e | o, st'⟩
      · exact ⟨_, rfl⟩
      · cases o with
        | none => exact ⟨_, rfl⟩
        | some k => rfl

theorem same_skipLoop {x : Upd σ s (Option α)} {y : s → M σ (Option α × s)} {f : α → Upd σ s (Option β)}
    {g : α → s → R (Option β × s)} (h : ∀ p, Same p x (y p)) (hf : ∀ a p, Same p (f a) (.of (g a p))) (fuel : Nat)
    (p : s) : Same p (Caught.skipLoop x f fuel) (Eff.skipLoop y g fuel p) := by
  induction fuel generalizing p with
  | zero => exact fun st => ⟨p, rfl⟩
  | succ fuel ih =>
    unfold Caught.skipLoop Eff.skipLoop
    refine (h p).bind fun o q => ?_
    cases o with
    | none => exact .ok none
    | some a =>
      refine (hf a q).bind fun o q => ?_
      cases o with
      | none => exact ih q
      | some b => exact .ok (some b)

theorem same_mapBody (a : K × Nat) (p : MapIterMut V) :
    Same p (Caught.mapBody (σ := σ) a) (.of (MapIterMut.body a p)) := by
  unfold Caught.mapBody MapIterMut.body
  refine Same.read_bind ?_
  rcases p.mem[a.2]? with _ | _ | v
  · exact fun st => ⟨_, rfl⟩
  · exact .ok _
  · exact .ok _

theorem same_drainBody (a : K × Nat) (p : Drain V) :
    Same p (Caught.drainBody (σ := σ) a) (.of (Drain.body a p)) := by
  unfold Caught.drainBody Drain.body
  obtain ⟨mem, e⟩ := p
  refine Same.read_bind ?_
  simp only
  rcases mem[a.2]? with _ | _ | v
  · exact fun st => ⟨_, rfl⟩
  · exact Same.write_bind (.ok _)
  · exact Same.write_bind (.ok _)

theorem same_mapMutNext (it : MapIterMut V) : Same it (Caught.mapMutNext c J) (Eff.mapMutNext c J it) :=
  Same.read_bind (same_skipLoop same_mutNext same_mapBody _ _)

theorem same_mapMutNextBack (it : MapIterMut V) : Same it (Caught.mapMutNextBack c J) (Eff.mapMutNextBack c J it) :=
  Same.read_bind (same_skipLoop same_mutNextBack same_mapBody _ _)

theorem same_drainNext (it : Drain V) : Same it (Caught.drainNext c J) (Eff.drainNext c J it) :=
  Same.read_bind (same_skipLoop same_mutNext same_drainBody _ _)

theorem same_drainNextBack (it : Drain V) : Same it (Caught.drainNextBack c J) (Eff.drainNextBack c J it) :=
  Same.read_bind (same_skipLoop same_mutNextBack same_drainBody _ _)

theorem same_runSteps {x : ω → Upd σ s ο} {y : s → ω → M σ (ο × s)} (h : ∀ p op, Same p (x op) (y p op))
    (ops : List ω) (p : s) : Same p (Caught.runSteps x ops) (Eff.runOps y p ops) := by
  induction ops generalizing p with
  | nil => exact .ok []
  | cons op ops ih =>
    unfold Caught.runSteps Eff.runOps
    exact (h p op).bind fun o q => (ih q).bind fun os q => .ok _

theorem same_runDirs {x x' : Upd σ s (Option ι)} {y y' : s → M σ (Option ι × s)} (h : ∀ p, Same p x (y p))
    (h' : ∀ p, Same p x' (y' p)) (ds : List Dir) (p : s) :
    Same p (Caught.runDirs x x' ds) (Eff.run y y' p ds) := by
  induction ds generalizing p with
  | nil => exact .ok []
  | cons d ds ih =>
    unfold Caught.runDirs Eff.run
    cases d
    · exact (h p).bind fun o q => (ih q).bind fun os q => .ok _
    · exact (h' p).bind fun o q => (ih q).bind fun os q => .ok _

theorem same_clientStep (p : MutClient V) (op : MutStep V) :
    Same p (Caught.clientStep c J op) (Eff.clientStep c J p op) := by
  cases op with
  | front =>
    unfold Caught.clientStep Eff.clientStep Caught.onIter
    refine Same.zoom_bind (same_mapMutNext p.it) fun o q => ?_
    rcases o with _ | ⟨k, slot⟩
    · exact .ok none
    · exact Same.read_bind (Same.of_bind' fun v => Same.write_bind (.ok _))
  | back =>
    unfold Caught.clientStep Eff.clientStep Caught.onIter
    refine Same.zoom_bind (same_mapMutNextBack p.it) fun o q => ?_
    rcases o with _ | ⟨k, slot⟩
    · exact .ok none
    · exact Same.read_bind (Same.of_bind' fun v => Same.write_bind (.ok _))
  | write j v =>
    unfold Caught.clientStep Eff.clientStep
    refine Same.read_bind ?_
    simp only
    cases p.handed[j]? with
    | none => exact .ok none
    | some slot => exact Same.of_bind' fun v => Same.write_bind (.ok _)

theorem same_clientStepT (p : MutClientT V) (op : MutStep V) :
    Same p (Caught.clientStepT c J op) (Eff.clientStepT c J p op) := by
  cases op with
  | front =>
    unfold Caught.clientStepT Eff.clientStepT Caught.onIterT
    refine Same.zoom_bind (same_mutNext p.it) fun o q => ?_
    rcases o with _ | ⟨k, slot⟩
    · exact .ok none
    · exact Same.read_bind (Same.of_bind' fun v => Same.write_bind (.ok _))
  | back =>
    unfold Caught.clientStepT Eff.clientStepT Caught.onIterT
    refine Same.zoom_bind (same_mutNextBack p.it) fun o q => ?_
    rcases o with _ | ⟨k, slot⟩
    · exact .ok none
    · exact Same.read_bind (Same.of_bind' fun v => Same.write_bind (.ok _))
  | write j v =>
    unfold Caught.clientStepT Eff.clientStepT
    refine Same.read_bind ?_
    simp only
    cases p.handed[j]? with
    | none => exact .ok none
    | some slot => exact Same.of_bind' fun v => Same.write_bind (.ok _)

/-- `values_mut()` is `iter_mut()` without the keys. -/
theorem clientStepV_apply (p : MutClient V) (op : MutStep V) (st : σ) :
    Eff.clientStepV c J p op st = match Eff.clientStep c J p op st with
      | (.ok (o, q), st') => (.ok (o.map (·.2), q), st')
      | (.error e, st') => (.error e, st') := by
  cases op with
  | front =>
    simp only [Eff.clientStepV, Eff.clientStep, Eff.mapItem, M.bind_apply]
    rcases Eff.mapMutNext c J p.it st with ⟨e | ⟨o, q⟩, st'⟩
    · rfl
    · rcases o with _ | ⟨k, slot⟩
      · rfl
      · simp only [M.of, Option.map_some]
        cases readSome q.mem slot <;> rfl
  | back =>
    simp only [Eff.clientStepV, Eff.clientStep, Eff.mapItem, M.bind_apply]
    rcases Eff.mapMutNextBack c J p.it st with ⟨e | ⟨o, q⟩, st'⟩
    · rfl
    · rcases o with _ | ⟨k, slot⟩
      · rfl
      · simp only [M.of, Option.map_some]
        cases readSome q.mem slot <;> rfl
  | write j v =>
    simp only [Eff.clientStepV, Eff.clientStep]
    cases p.handed[j]? with
    | none => rfl
    | some slot =>
      simp only [M.of]
      cases writeSome p.it.mem slot v <;> rfl

theorem runOpsV_apply (steps : List (MutStep V)) (p : MutClient V) (st : σ) :
    Eff.runOps (Eff.clientStepV c J) p steps st = match Eff.runOps (Eff.clientStep c J) p steps st with
      | (.ok (os, q), st') => (.ok (os.map (Option.map (·.2)), q), st')
      | (.error e, st') => (.error e, st') := by
  induction steps generalizing p st with
  | nil => rfl
  | cons op steps ih =>
    simp only [Eff.runOps, M.bind_apply, clientStepV_apply]
    rcases Eff.clientStep c J p op st with ⟨e | ⟨o, q⟩, st'⟩
    · rfl
    · simp only [ih]
      rcases Eff.runOps (Eff.clientStep c J) q steps st' with ⟨e | ⟨os, q'⟩, st''⟩ <;> rfl

/-- The destructor leaves the storage that the other model returns. -/
theorem same_dropLoop (fuel : Nat) (it : Drain V) (st : σ) :
    match Eff.dropLoop c J fuel it st with
    | (.ok mem, st') => ∃ q : Drain V, Caught.dropLoop c J fuel (st, it) = (.ok (), (st', q)) ∧ q.mem = mem
    | (.error e, st') => ∃ q, Caught.dropLoop c J fuel (st, it) = (.error e, (st', q)) := by
  induction fuel generalizing it st with
  | zero => exact ⟨it, rfl⟩
  | succ fuel ih =>
    simp only [Eff.dropLoop, Caught.dropLoop, M.bind_apply]
    have h := same_drainNext (c := c) (J := J) it st
    rcases hy : Eff.drainNext c J it st with ⟨e | ⟨o, q⟩, st'⟩
    · rw [hy] at h
      obtain ⟨q, h⟩ := h
      exact ⟨q, by rw [h]⟩
    · rw [hy] at h
      simp only at h
      rw [h]
      cases o with
      | none => exact ⟨q, rfl, rfl⟩
      | some a => exact ih q st'

theorem same_drainDrop (it : Drain V) (st : σ) :
    match Eff.drainDrop c J it st with
    | (.ok mem, st') => ∃ q : Drain V, Caught.drainDrop c J (st, it) = (.ok (), (st', q)) ∧ q.mem = mem
    | (.error e, st') => ∃ q, Caught.drainDrop c J (st, it) = (.error e, (st', q)) :=
  same_dropLoop _ it st

theorem same_iterMut (steps : List (MutStep V)) (m : List (Option V)) :
    Same m (Caught.iterMut c J steps) (do
      let (os, cl) ← Eff.runOps (Eff.clientStep c J) ⟨TotalIterMut.new m, []⟩ steps
      .of (.ok (os, cl.it.mem))) :=
  Same.zoom (same_runSteps same_clientStep steps _)

theorem same_iterMutT (steps : List (MutStep V)) (m : List V) :
    Same m (Caught.iterMutT c J steps) (do
      let (os, cl) ← Eff.runOps (Eff.clientStepT c J) ⟨TotalIterMut.new m, []⟩ steps
      .of (.ok (os, cl.it.mem))) :=
  Same.zoom (same_runSteps same_clientStepT steps _)

theorem same_keyless (m : List (Option V)) {op : MapOp K V} (hop : op.keyless = true) :
    Same m (Caught.keyless c J op) (Eff.keyless c J m op) := by
  cases op with
  | len => exact Same.read_bind (Same.user_bind fun n => .ok _)
  | isEmpty => exact Same.read_bind (Same.user_bind fun n => .ok _)
  | iter ds => exact Same.read_bind (Same.user_bind fun n => .ok _)
  | keys ds => exact Same.read_bind (Same.user_bind fun n => .ok _)
  | values ds => exact Same.read_bind (Same.user_bind fun n => .ok _)
  | iterMut steps =>
    refine ((same_iterMut steps m).bind (f := fun os => .of (.ok (MapOut.items os)))
      (g := fun p => .of (.ok (MapOut.items p.1, p.2))) fun os q => .ok _).congr fun st => ?_
    simp only [Eff.keyless, M.bind_apply]
    rcases Eff.runOps (Eff.clientStep c J) _ steps st with ⟨e | ⟨o, q⟩, st'⟩ <;> rfl
  | valuesMut steps =>
    refine ((same_iterMut steps m).bind (f := fun os => .of (.ok (MapOut.vals (os.map (Option.map fun p : K × V => p.2)))))
      (g := fun p => .of (.ok (MapOut.vals (p.1.map (Option.map fun p : K × V => p.2)), p.2))) fun os q => .ok _).congr fun st => ?_
    simp only [Eff.keyless, M.bind_apply, runOpsV_apply]
    rcases Eff.runOps (Eff.clientStep c J) _ steps st with ⟨e | ⟨o, q⟩, st'⟩ <;> rfl
  | clear =>
    intro st
    have h := same_drainDrop (c := c) (J := J) (Drain.new m) st
    simp only [Eff.keyless, Caught.keyless, Caught.clear, M.bind_apply, Upd.zoom]
    rcases hy : Eff.drainDrop c J (Drain.new m) st with ⟨e | q, st'⟩
    · rw [hy] at h
      obtain ⟨q, h⟩ := h
      exact ⟨_, by rw [h]⟩
    · rw [hy] at h
      obtain ⟨q, h, rfl⟩ := h
      rw [h]
      rfl
  | _ => simp [MapOp.keyless] at hop

theorem agrees_drain (m : List (Option V)) (ds : List Dir) (leak : Bool) :
    AgreesWith m (do
      match ← Caught.drain c J ds leak with
      | .returned os => M.of (.ok (.returned (.items os)))
      | .panicked => .of (.ok .panicked)
      | .aborted => .of (.ok .aborted)) (Eff.keyless c J m (.drain ds leak)) := by
  intro st
  have h := same_runDirs (same_drainNext (c := c) (J := J)) (same_drainNextBack (c := c) (J := J)) ds (Drain.new m) st
  simp only [Eff.keyless, M.bind_apply, Caught.drain, Upd.zoom, Caught.catchWith]
  rcases hy : Eff.run (Eff.drainNext c J) (Eff.drainNextBack c J) (Drain.new m) ds st with ⟨e | ⟨os, d⟩, st'⟩
  · rw [hy] at h
    obtain ⟨q, h⟩ := h
    simp only [h]
    cases e with
    | panic =>
      simp only
      rcases Caught.drainDrop c J (st', q) with ⟨e | u, p⟩
      · cases e <;> simp [M.of]
      · simp [M.of]
    | _ => simp
  · rw [hy] at h
    simp only at h
    simp only [h]
    cases leak with
    | true => rfl
    | false =>
      have h' := same_drainDrop (c := c) (J := J) d st'
      rw [if_neg Bool.false_ne_true]
      simp only [M.bind_apply, if_neg Bool.false_ne_true, Caught.catchUnwind]
      rcases hz : Eff.drainDrop c J d st' with ⟨e | q, st2⟩
      · rw [hz] at h'
        obtain ⟨q, h'⟩ := h'
        simp only [h']
        cases e <;> simp [M.of]
      · rw [hz] at h'
        obtain ⟨q, h', rfl⟩ := h'
        simp only [h']
        rfl

theorem same_client (f : List (Option V) → R (MapOut K V × List (Option V))) (m : List (Option V)) :
    Same m (Caught.client (σ := σ) f) (.of (f m)) := by
  refine Same.read_bind ?_
  intro st
  simp only [M.bind_apply, M.of]
  rcases f m with e | ⟨o, q⟩
  · exact ⟨_, rfl⟩
  · rfl

theorem same_orInsertClient (e : Entry K) (v w : V) (m : List (Option V)) :
    Same m (Caught.orInsertClient (σ := σ) e v w) (.of (do
      let (slot, m) ← e.orInsert m v
      .ok (.opt (some (← readSome m slot)), ← writeSome m slot w))) :=
  Same.read_bind (Same.of_bind' fun ⟨_, _⟩ => Same.write_bind (Same.of_bind' fun _ => Same.of_bind' fun _ =>
    Same.write_bind (.ok _)))

theorem same_omapEntry (sz : Nat) (k : K) (m : OMap V) :
    Same m (Caught.omapEntry c J sz k) (Eff.omapEntry c J sz m k) := by
  unfold Caught.omapEntry Eff.omapEntry Caught.initFullMap
  intro st
  simp only [M.bind_apply, M.of, Upd.read, Upd.write, Upd.user]
  rcases Eff.initFullMap c J sz m with e | m'
  · exact ⟨_, rfl⟩
  · simp only
    rcases J.ordinal k st with ⟨e | i, st'⟩
    · exact ⟨_, rfl⟩
    · simp only
      rcases OrdinalTotalMap.slotOf m' i with e | slot
      · exact ⟨_, rfl⟩
      · simp only [ok_bind]
        rcases Entry.new m' k slot with e | e
        · exact ⟨_, rfl⟩
        · rfl

theorem same_omapOp (sz : Nat) (m : OMap V) {op : MapOp K V} (hop : ¬ MapSpec.fatal op) :
    Same m (Caught.omapOp c J sz op) (Eff.omapStep c J sz m op) := by
  by_cases hk : op.keyless = true
  · rw [Caught.omapOp_keyless hk]
    have h := same_keyless (c := c) (J := J) m hk
    cases op <;> first | exact h | simp [MapOp.keyless] at hk
  cases op with
  | get k => exact Same.read_bind (Same.user_bind fun i => .ok _)
  | getMut k w => exact Same.user_bind fun i => same_client _ _
  | insert k v =>
    intro st
    simp only [Caught.omapOp, Eff.omapStep, Eff.omapInsert, Caught.initFullMap, M.bind_apply, M.of, Upd.read,
      Upd.write, Upd.user]
    rcases Eff.initFullMap c J sz m with e | m'
    · exact ⟨_, rfl⟩
    · simp only
      rcases J.ordinal k st with ⟨e | i, st'⟩
      · exact ⟨_, rfl⟩
      · simp only
        rcases getIdx m' i with e | old
        · exact ⟨_, rfl⟩
        · simp only [ok_bind]
          rcases setIdx m' i (some v) with e | m''
          · exact ⟨_, rfl⟩
          · rfl
  | remove k =>
    refine Same.user_bind fun i => Same.read_bind ?_
    cases m[i]? with
    | none => exact .ok _
    | some o => exact Same.write_bind (.ok _)
  | orInsert k v w => exact (same_omapEntry sz k m).bind fun e q => same_orInsertClient e v w q
  | entry k v w => exact (same_omapEntry sz k m).bind fun e q => same_client _ q
  | drain ds leak => simp [MapSpec.fatal] at hop
  | _ => simp [MapOp.keyless] at hk

theorem same_slotFor (k : K) (m : List V) : Same m (Caught.slotFor J k) (do
    let i ← Eff.slotFor J m k
    .of (.ok (i, m))) := by
  intro st
  simp only [Caught.slotFor, Eff.slotFor, M.bind_apply, M.of, Upd.read, Upd.user]
  rcases J.ordinal k st with ⟨e | i, st'⟩
  · exact ⟨_, rfl⟩
  · simp only
    rcases OrdinalTotalMap.slotOf m i with e | slot
    · exact ⟨_, rfl⟩
    · rfl

theorem same_slotFor_bind {k : K} {m : List V} {f : Nat → Upd σ (List V) β} {g : Nat → M σ (β × List V)}
    (hf : ∀ i, Same m (f i) (g i)) : Same m (Caught.slotFor J k >>= f) (Eff.slotFor J m k >>= g) := by
  intro st
  simp only [Caught.slotFor, Eff.slotFor, M.bind_apply, M.of, Upd.read, Upd.user]
  rcases J.ordinal k st with ⟨e | i, st'⟩
  · exact ⟨_, rfl⟩
  · simp only
    rcases OrdinalTotalMap.slotOf m i with e | slot
    · exact ⟨_, rfl⟩
    · exact hf slot st'

theorem same_amapEntry (k : K) (m : OrdinalArrayMap V) : Same m (Caught.amapEntry J k) (Eff.amapEntry J m k) :=
  same_slotFor_bind fun _ => Same.read_bind (.of _)

theorem same_totalGet_bind {k : K} {m : List V} {f : V → Upd σ (List V) β} {g : V → M σ (β × List V)}
    (hf : ∀ v, Same m (f v) (g v)) :
    Same m (do
      let m ← Upd.read
      let i ← Upd.user (J.ordinal k)
      let v ← M.of (getIdx m i)
      f v) (Eff.totalGet J m k >>= g) := by
  intro st
  simp only [Eff.totalGet, M.bind_apply, M.of, Upd.read, Upd.user]
  rcases J.ordinal k st with ⟨e | i, st'⟩
  · exact ⟨_, rfl⟩
  · simp only
    rcases getIdx m i with e | v
    · exact ⟨_, rfl⟩
    · exact hf v st'

theorem same_amapOp (m : OrdinalArrayMap V) {op : MapOp K V} (hop : ¬ MapSpec.fatal op) :
    Same m (Caught.amapOp c J op) (Eff.amapStep c J m op) := by
  by_cases hk : op.keyless = true
  · rw [Caught.amapOp_keyless hk]
    have h := same_keyless (c := c) (J := J) m hk
    cases op <;> first | exact h | simp [MapOp.keyless] at hk
  cases op with
  | get k => exact same_totalGet_bind fun o => .ok _
  | getMut k w => exact same_slotFor_bind fun i => same_client _ _
  | insert k v =>
    refine (same_slotFor_bind (g := fun slot => .of (do
      .ok (.opt (← readSlot m slot), ← writeSlot m slot (some v)))) fun i => same_client _ _).congr fun st => ?_
    simp only [Eff.amapStep, Eff.amapInsert, M.bind_apply]
    rcases Eff.slotFor J m k st with ⟨e | i, st'⟩
    · rfl
    · simp only [M.of]
      rcases readSlot m i with e | o
      · rfl
      · simp only [ok_bind]
        rcases writeSlot m i (some v) with e | o <;> rfl
  | remove k => exact same_slotFor_bind fun i => same_client _ _
  | orInsert k v w => exact (same_amapEntry k m).bind fun e q => same_orInsertClient e v w q
  | entry k v w => exact (same_amapEntry k m).bind fun e q => same_client _ q
  | drain ds leak => simp [MapSpec.fatal] at hop
  | _ => simp [MapOp.keyless] at hk

theorem same_totalOp (len : R Nat) (m : List V) (op : TotalOp K V) :
    Same m (Caught.totalOp c J len op) (Eff.totalStep c J len m op) := by
  cases op with
  | get k => exact same_totalGet_bind fun o => .ok _
  | index k => exact same_totalGet_bind fun o => .ok _
  | getMut k w =>
    exact same_slotFor_bind fun i => Same.read_bind (Same.of_bind' fun _ => Same.of_bind' fun _ =>
      Same.write_bind (.ok _))
  | indexMut k w =>
    exact same_slotFor_bind fun i => Same.read_bind (Same.of_bind' fun _ => Same.of_bind' fun _ =>
      Same.write_bind (.ok _))
  | insert k v =>
    exact Same.user_bind fun i => Same.read_bind (Same.of_bind' fun _ => Same.of_bind' fun _ =>
      Same.write_bind (.ok _))
  | len =>
    cases len with
    | ok n => exact .ok _
    | error e => exact fun st => ⟨_, rfl⟩
  | isEmpty =>
    cases len with
    | ok n => exact .ok _
    | error e => exact fun st => ⟨_, rfl⟩
  | iter ds => exact Same.read_bind (Same.user_bind fun n => .ok _)
  | keys ds => exact Same.of_bind fun r => Same.user_bind fun n => .ok _
  | values ds => exact Same.read_bind (Same.of_bind' fun _ => .ok _)
  | iterMut steps =>
    refine ((same_iterMutT steps m).bind (f := fun os => .of (.ok (MapOut.items os)))
      (g := fun p => .of (.ok (MapOut.items p.1, p.2))) fun os q => .ok _).congr fun st => ?_
    simp only [Eff.totalStep, M.bind_apply]
    rcases Eff.runOps (Eff.clientStepT c J) _ steps st with ⟨e | ⟨o, q⟩, st'⟩ <;> rfl
  | valuesMut steps => exact Same.read_bind (Same.of_bind' fun _ => Same.write_bind (.ok _))

theorem agrees_omapStep (sz : Nat) (m : OMap V) (op : MapOp K V) :
    AgreesWith m (Caught.omapStep c J sz op) (Eff.omapStep c J sz m op) := by
  by_cases hop : MapSpec.fatal op
  · cases op with
    | drain ds leak => exact agrees_drain m ds leak
    | _ => simp [MapSpec.fatal] at hop
  · have h := (same_omapOp (c := c) (J := J) sz m hop).caught
    cases op with
    | drain ds leak => simp [MapSpec.fatal] at hop
    | _ => exact h

theorem agrees_amapStep (m : OrdinalArrayMap V) (op : MapOp K V) :
    AgreesWith m (Caught.amapStep c J op) (Eff.amapStep c J m op) := by
  by_cases hop : MapSpec.fatal op
  · cases op with
    | drain ds leak => exact agrees_drain m ds leak
    | _ => simp [MapSpec.fatal] at hop
  · have h := (same_amapOp (c := c) (J := J) m hop).caught
    cases op with
    | drain ds leak => simp [MapSpec.fatal] at hop
    | _ => exact h

/-! ## Sets -/

theorem same_setInsert (ws : List (BitVec 64)) (x : K) :
    Same ws (Caught.setInsert c J x) (Eff.setInsert c J ws x) :=
  Same.read_bind (Same.of_bind fun _ => Same.user_bind fun _ => Same.user_bind fun _ => Same.of_bind fun _ =>
    Same.user_bind fun _ => Same.of_bind' fun _ => Same.of_bind' fun _ => Same.write_bind (.ok _))

theorem same_set64 (w : OrdinalSet64) (x : K) :
    Same w (Caught.set64Op c J (.insert x)) (Eff.set64Insert c J w x) ∧
    Same w (Caught.set64Op c J (.contains x)) (do
      let b ← Eff.set64Contains c J w x
      .of (.ok (b, w))) :=
  ⟨Same.read_bind (Same.of_bind fun _ => Same.user_bind fun _ => Same.user_bind fun _ => Same.of_bind' fun _ =>
    Same.write_bind (.ok _)), Same.read_bind (Same.user _)⟩

theorem same_aset (S : Nat) (w : OrdinalArraySet) (x : K) :
    Same w (Caught.asetOp c J S (.insert x)) (Eff.asetInsert c J S w x) ∧
    Same w (Caught.asetOp c J S (.contains x)) (do
      let b ← Eff.asetContains c J S w x
      .of (.ok (b, w))) := by
  refine ⟨Same.read_bind ?_, Same.read_bind (Same.user _)⟩
  unfold Eff.asetInsert Eff.mutNew
  intro st
  simp only [M.bind_apply, M.of]
  rcases J.size with e | n
  · exact ⟨_, rfl⟩
  · simp only [ok_bind]
    rcases constAssert (S == divCeil n 64) with e | u
    · exact ⟨_, rfl⟩
    · simp only [ok_bind]
      rcases debugAssert c (List.length w == divCeil n 64) with e | u
      · exact ⟨_, rfl⟩
      · exact same_setInsert w x st

theorem setInsert_length {ws ws' : List (BitVec 64)} {x : K} {b : Bool} {st st' : σ}
    (h : Eff.setInsert c J ws x st = (.ok (b, ws'), st')) : ws'.length = ws.length := by
  simp only [Eff.setInsert, M.bind_apply, M.of] at h
  rcases h1 : Eff.refNew c J ws with e | r
  · simp [h1] at h
  simp only [h1] at h
  rcases h2 : Eff.refContains c J r x st with ⟨e | prev, st1⟩
  · simp [h2] at h
  simp only [h2] at h
  rcases h3 : J.ordinal x st1 with ⟨e | j, st2⟩
  · simp [h3] at h
  simp only [h3] at h
  rcases h4 : shl64 c 1 (j % 64) with e | mask
  · rw [h4] at h; simp at h
  rw [h4] at h
  simp only at h
  rcases h5 : J.ordinal x st2 with ⟨e | i, st3⟩
  · simp [h5] at h
  simp only [h5, getIdx] at h
  rcases h7 : ws[i / 64]? with _ | w
  · simp [h7] at h
  · simp only [h7, ok_bind, setIdx] at h
    split at h
    · simp only [ok_bind, Prod.mk.injEq, Except.ok.injEq] at h
      rw [← h.1.2]
      simp
    · simp at h

theorem same_oset (t : OrdinalSet) (x : K) :
    Same t (Caught.osetOp c J (.insert x)) (Eff.osetInsert c J t x) ∧
    Same t (Caught.osetOp c J (.contains x)) (do
      let b ← Eff.osetContains c J t x
      .of (.ok (b, t))) := by
  refine ⟨?_, Same.read_bind (Same.user _)⟩
  refine Same.of_bind fun n => Same.read_bind ?_
  cases decide (n ≤ 64) with
  | true =>
    cases t with
    | small w =>
      intro st
      simp only [M.bind_apply, M.of, Eff.mutNew, Upd.zoom]
      rcases J.size with e | n
      · exact ⟨_, rfl⟩
      · simp only [ok_bind]
        rcases debugAssert c (List.length [w] == divCeil n 64) with e | u
        · exact ⟨_, rfl⟩
        · simp only [ok_bind]
          have h := same_setInsert (c := c) (J := J) [w] x st
          rcases hy : Eff.setInsert c J [w] x st with ⟨e | ⟨b, ws⟩, st'⟩
          · rw [hy] at h
            obtain ⟨q, h⟩ := h
            exact ⟨_, by rw [h]⟩
          · rw [hy] at h
            simp only at h
            have hl := setInsert_length hy
            match ws, hl with
            | [w'], _ =>
              simp only [h]
              rfl
    | large ws => exact fun st => ⟨_, rfl⟩
  | false =>
    cases t with
    | small w => exact fun st => ⟨_, rfl⟩
    | large ws =>
      intro st
      simp only [M.bind_apply, M.of, Eff.mutNew, Upd.zoom, Upd.write]
      rcases Eff.osetAlloc c J ws with e | ws1
      · exact ⟨_, rfl⟩
      · simp only [ok_bind]
        rcases J.size with e | n
        · exact ⟨_, rfl⟩
        · simp only [ok_bind]
          rcases debugAssert c (List.length ws1 == divCeil n 64) with e | u
          · exact ⟨_, rfl⟩
          · simp only [ok_bind]
            have h := same_setInsert (c := c) (J := J) ws1 x st
            rcases hy : Eff.setInsert c J ws1 x st with ⟨e | ⟨b, ws⟩, st'⟩
            · rw [hy] at h
              obtain ⟨q, h⟩ := h
              exact ⟨_, by rw [h]⟩
            · rw [hy] at h
              simp only at h
              simp only [h]

end OrdinalMap
