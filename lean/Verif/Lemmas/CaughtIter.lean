import Verif.Lemmas.Caught
import Verif.Lemmas.Map
/-! # Mutable iterators and `Drain` when a call panics -/

namespace OrdinalMap

variable {σ s t α β ι K V W E ω ο : Type} {c : Cfg} {I : OrdinalImpl K} {J : SImpl σ K} {n : Nat}

/-! ## Storage with some slots emptied -/

/-- The slots outside `P` emptied. -/
def mask (P : Nat → Bool) (mem : List (Option V)) : List (Option V) :=
  mem.mapIdx fun i o => if P i then o else none

@[simp] theorem mask_length (P : Nat → Bool) (mem : List (Option V)) : (mask P mem).length = mem.length := by
  simp [mask]

theorem mask_get (P : Nat → Bool) (mem : List (Option V)) (i : Nat) :
    (mask P mem)[i]? = mem[i]?.map fun o => if P i then o else none := by simp [mask]

theorem mask_congr {P Q : Nat → Bool} {mem : List (Option V)}
    (h : ∀ i v, mem[i]? = some (some v) → P i = Q i) : mask P mem = mask Q mem := by
  apply List.ext_getElem?
  intro i
  rw [mask_get, mask_get]
  rcases hm : mem[i]? with _ | _ | v
  · rfl
  · simp
  · simp [h i v hm]

theorem mask_mask (P Q : Nat → Bool) (mem : List (Option V)) :
    mask P (mask Q mem) = mask (fun i => P i && Q i) mem := by
  apply List.ext_getElem?
  intro i
  rw [mask_get, mask_get, mask_get]
  rcases mem[i]? with _ | o
  · rfl
  · cases h1 : P i <;> cases h2 : Q i <;> simp

theorem mask_true {P : Nat → Bool} {mem : List (Option V)} (h : ∀ i v, mem[i]? = some (some v) → P i = true) :
    mask P mem = mem := by
  apply List.ext_getElem?
  intro i
  rw [mask_get]
  rcases hm : mem[i]? with _ | _ | v
  · rfl
  · simp
  · simp [h i v hm]

theorem mask_set (P : Nat → Bool) (mem : List (Option V)) (j : Nat) :
    (mask P mem).set j none = mask (fun i => P i && i != j) mem := by
  apply List.ext_getElem?
  intro i
  rw [List.getElem?_set, mask_get, mask_get, mask_length]
  by_cases h : j = i
  · subst h
    by_cases hl : j < mem.length
    · simp [hl]
    · simp [hl]
  · simp only [h, if_false]
    have : (i != j) = true := by simp; omega
    simp [this]

theorem set_none {mem : List (Option V)} {j : Nat} (h : mem[j]? = some none) : mem.set j none = mem := by
  apply List.ext_getElem?
  intro i
  rw [List.getElem?_set]
  by_cases e : j = i
  · subst e
    simp only [if_true]
    have : j < mem.length := by
      rcases Nat.lt_or_ge j mem.length with h' | h'
      · exact h'
      · rw [List.getElem?_eq_none h'] at h; simp at h
    rw [if_pos this, h]
  · simp [e]

theorem Stored.mask (L : Lawful c I n) {b : Bool} {m : K → Option V} {mem : List (Option V)} (h : Stored I n b m mem)
    (P : Nat → Bool) : Stored I n b (fun k => if P (ordOf I k) then m k else none) (OrdinalMap.mask P mem) := by
  rcases h with ⟨rfl, rfl⟩ | ⟨rfl, rfl, rfl⟩
  · refine .inl ⟨rfl, ?_⟩
    apply List.ext_getElem?
    intro i
    rw [mask_get]
    rcases Nat.lt_or_ge i n with hi | hi
    · obtain ⟨a, h1, _, rfl⟩ := values_getElem L i hi
      rw [store_get L, store_get L]; rfl
    · rw [List.getElem?_eq_none (by simp [values_length L, hi]),
        List.getElem?_eq_none (by simp [values_length L, hi])]
      rfl
  · exact .inr ⟨rfl, rfl, by simp⟩

/-! ## Single steps -/

theorem sim_mutNext (H : Honest J I) (it : TotalIterMut V) :
    Sim it (Caught.mutNext c J) (it.next c I) (fun q => q.mem = it.mem ∧ q.it.next = it.it.next ∧
      it.it.iter.start < it.it.iter.stop ∧ q.it.iter = ⟨it.it.iter.start + 1, it.it.iter.stop⟩) := by
  obtain ⟨mem, next, a, b⟩ := it
  refine Sim.read_bind ?_
  by_cases h : a < b
  · have e : Range.next ⟨a, b⟩ = (some a, ⟨a + 1, b⟩) := by simp [Range.next, h]
    have e' : TotalIterMut.next c I (⟨mem, next, a, b⟩ : TotalIterMut V) = (do
        let o ← I.fromOrdinal next
        let k ← unwrap o
        let next ← addU c next 1
        .ok (some (k, a), ⟨mem, next, a + 1, b⟩)) := by
      simp only [TotalIterMut.next, Enumerate.nextItem, slotIter, e]
      cases I.fromOrdinal next with
      | error e => rfl
      | ok o => cases o with
        | none => rfl
        | some k => simp only [unwrap_some, ok_bind]; cases addU c next 1 <;> rfl
    simp only [e]
    rw [e']
    refine Sim.write_bind ?_
    refine Sim.user_bind (H.from' next) ⟨rfl, rfl, h, rfl⟩ fun o _ => ?_
    refine Sim.of_bind fun k _ => Sim.of_bind fun i _ => ?_
    exact Sim.write_bind (.ok _)
  · have e : Range.next ⟨a, b⟩ = (none, ⟨a, b⟩) := by simp [Range.next, h]
    have e' : TotalIterMut.next c I (⟨mem, next, a, b⟩ : TotalIterMut V) = .ok (none, ⟨mem, next, a, b⟩) := by
      simp only [TotalIterMut.next, Enumerate.nextItem, slotIter, e]; rfl
    simp only [e]
    rw [e']
    exact Sim.write_bind (.ok _)

theorem sim_mutNextBack (H : Honest J I) (it : TotalIterMut V) :
    Sim it (Caught.mutNextBack c J) (it.nextBack c I) (fun q => q.mem = it.mem ∧ q.it.next = it.it.next ∧
      it.it.iter.start < it.it.iter.stop ∧ q.it.iter = ⟨it.it.iter.start, it.it.iter.stop - 1⟩) := by
  obtain ⟨mem, next, a, b⟩ := it
  refine Sim.read_bind ?_
  by_cases h : a < b
  · have e : Range.nextBack ⟨a, b⟩ = (some (b - 1), ⟨a, b - 1⟩) := by simp [Range.nextBack, h]
    have e' : TotalIterMut.nextBack c I (⟨mem, next, a, b⟩ : TotalIterMut V) = (do
        let i ← addU c next (Range.len ⟨a, b - 1⟩)
        let o ← I.fromOrdinal i
        let k ← unwrap o
        .ok (some (k, b - 1), ⟨mem, next, a, b - 1⟩)) := by
      simp only [TotalIterMut.nextBack, Enumerate.nextBackItem, slotIter, e]
      cases addU c next (Range.len ⟨a, b - 1⟩) with
      | error e => rfl
      | ok i =>
        simp only [ok_bind]
        cases I.fromOrdinal i with
        | error e => rfl
        | ok o => cases o with
          | none => rfl
          | some k => rfl
    simp only [e]
    rw [e']
    refine Sim.write_bind ?_
    refine Sim.of_bind fun i _ => ?_
    refine Sim.user_bind (H.from' i) ⟨rfl, rfl, h, rfl⟩ fun o _ => ?_
    exact Sim.of_bind fun k _ => .ok _
  · have e : Range.nextBack ⟨a, b⟩ = (none, ⟨a, b⟩) := by simp [Range.nextBack, h]
    have e' : TotalIterMut.nextBack c I (⟨mem, next, a, b⟩ : TotalIterMut V) = .ok (none, ⟨mem, next, a, b⟩) := by
      simp only [TotalIterMut.nextBack, Enumerate.nextBackItem, slotIter, e]; rfl
    simp only [e]
    rw [e']
    exact Sim.write_bind (.ok _)

theorem sim_skipLoop {step : Upd σ s (Option α)} {step' : s → R (Option α × s)} {body : α → Upd σ s (Option β)}
    {body' : α → s → R (Option β × s)} {F : s → Prop} (Inv : s → Prop)
    (hs : ∀ p, Inv p → Sim p step (step' p) F)
    (hb : ∀ p a q, Inv p → step' p = .ok (some a, q) → Sim q (body a) (body' a q) F ∧
      ∀ q', body' a q = .ok (none, q') → Inv q') (fuel : Nat) (p : s) (h : Inv p) :
    Sim p (Caught.skipLoop step body fuel) (skipLoop step' body' fuel p) F := by
  induction fuel generalizing p with
  | zero => intro st; exact .inr rfl
  | succ fuel ih =>
    unfold Caught.skipLoop skipLoop
    refine (hs p h).bind fun o q e => ?_
    cases o with
    | none => exact .ok _
    | some a =>
      obtain ⟨h1, h2⟩ := hb p a q h e
      refine h1.bind fun o' q' e' => ?_
      cases o' with
      | some b => exact .ok _
      | none => exact ih q' (h2 q' e')

theorem totalNext_mem {it it' : TotalIterMut V} {o : Option (K × Nat)} (h : it.next c I = .ok (o, it')) :
    it'.mem = it.mem := by
  unfold TotalIterMut.next at h
  cases e : it.it.nextItem c I slotIter with
  | error e' => rw [e] at h; simp at h
  | ok p => rw [e] at h; simp at h; rw [← h.2]

theorem totalNextBack_mem {it it' : TotalIterMut V} {o : Option (K × Nat)} (h : it.nextBack c I = .ok (o, it')) :
    it'.mem = it.mem := by
  unfold TotalIterMut.nextBack at h
  cases e : it.it.nextBackItem c I slotIter with
  | error e' => rw [e] at h; simp at h
  | ok p => rw [e] at h; simp at h; rw [← h.2]

theorem sim_mapBody (p : K × Nat) (it : MapIterMut V) {F : MapIterMut V → Prop} :
    Sim (σ := σ) it (Caught.mapBody p) (MapIterMut.body p it) F := by
  refine Sim.read_bind ?_
  unfold MapIterMut.body
  rcases it.mem[p.2]? with _ | _ | v
  · intro st; exact .inr rfl
  · exact .ok _
  · exact .ok _

theorem mapBody_mem {p : K × Nat} {it it' : MapIterMut V} {o : Option (K × Nat)}
    (h : MapIterMut.body p it = .ok (o, it')) : it' = it := by
  unfold MapIterMut.body at h
  rcases he : it.mem[p.2]? with _ | _ | v <;> rw [he] at h <;> simp at h
  · exact h.2.symm
  · exact h.2.symm

theorem sim_mapMutNext (H : Honest J I) (it : MapIterMut V) :
    Sim it (Caught.mapMutNext c J) (MapIterMut.next c I it) (fun q => q.mem = it.mem) := by
  refine Sim.read_bind ?_
  refine sim_skipLoop (fun q => q.mem = it.mem) (fun p hp => (sim_mutNext H p).mono fun q hq => hq.1.trans hp) ?_ _ _ rfl
  intro p a q hp he
  refine ⟨sim_mapBody a q, fun q' hq' => ?_⟩
  rw [mapBody_mem hq', totalNext_mem he, hp]

theorem sim_mapMutNextBack (H : Honest J I) (it : MapIterMut V) :
    Sim it (Caught.mapMutNextBack c J) (MapIterMut.nextBack c I it) (fun q => q.mem = it.mem) := by
  refine Sim.read_bind ?_
  refine sim_skipLoop (fun q => q.mem = it.mem) (fun p hp => (sim_mutNextBack H p).mono fun q hq => hq.1.trans hp)
    ?_ _ _ rfl
  intro p a q hp he
  refine ⟨sim_mapBody a q, fun q' hq' => ?_⟩
  rw [mapBody_mem hq', totalNextBack_mem he, hp]

/-! ## Clients of mutable iterators -/

theorem sim_clientStep (H : Honest J I) (x : MutClient V) (op : MutStep V) :
    Sim x (Caught.clientStep c J op) (MutClient.step c I x op) (fun q => q.it.mem = x.it.mem) := by
  cases op with
  | front =>
    unfold Caught.clientStep MutClient.step
    have h : Sim x (Caught.onIter (Caught.mapMutNext c J)) (do
        let (o, it) ← MapIterMut.next c I x.it
        .ok (o, ⟨it, x.handed⟩)) (fun q => q.it.mem = x.it.mem) :=
      Sim.zoom (sim_mapMutNext H x.it) fun q hq => hq
    have := h.bind (f := fun o => (match o with
        | none => M.of (.ok none)
        | some (k, slot) => do
          let s ← Upd.read
          let v ← M.of (readSome s.it.mem slot)
          Upd.write ⟨s.it, s.handed ++ [slot]⟩
          M.of (.ok (some (k, v))) : Upd σ (MutClient V) (Option (K × V))))
      (g := fun p => match p.1 with
        | none => .ok (none, p.2)
        | some (k, slot) => do
          let v ← readSome p.2.it.mem slot
          .ok (some (k, v), ⟨p.2.it, p.2.handed ++ [slot]⟩)) (fun o q _ => by
        cases o with
        | none => exact .ok _
        | some p =>
          refine Sim.read_bind (Sim.of_bind fun v _ => ?_)
          exact Sim.write_bind (.ok _))
    refine cast ?_ this
    congr 1
    cases MapIterMut.next c I x.it with
    | error e => rfl
    | ok p =>
      obtain ⟨o, it⟩ := p
      rcases o with _ | ⟨k, slot⟩ <;> rfl
  | back =>
    unfold Caught.clientStep MutClient.step
    have h : Sim x (Caught.onIter (Caught.mapMutNextBack c J)) (do
        let (o, it) ← MapIterMut.nextBack c I x.it
        .ok (o, ⟨it, x.handed⟩)) (fun q => q.it.mem = x.it.mem) :=
      Sim.zoom (sim_mapMutNextBack H x.it) fun q hq => hq
    have := h.bind (f := fun o => (match o with
        | none => M.of (.ok none)
        | some (k, slot) => do
          let s ← Upd.read
          let v ← M.of (readSome s.it.mem slot)
          Upd.write ⟨s.it, s.handed ++ [slot]⟩
          M.of (.ok (some (k, v))) : Upd σ (MutClient V) (Option (K × V))))
      (g := fun p => match p.1 with
        | none => .ok (none, p.2)
        | some (k, slot) => do
          let v ← readSome p.2.it.mem slot
          .ok (some (k, v), ⟨p.2.it, p.2.handed ++ [slot]⟩)) (fun o q _ => by
        cases o with
        | none => exact .ok _
        | some p =>
          refine Sim.read_bind (Sim.of_bind fun v _ => ?_)
          exact Sim.write_bind (.ok _))
    refine cast ?_ this
    congr 1
    cases MapIterMut.nextBack c I x.it with
    | error e => rfl
    | ok p =>
      obtain ⟨o, it⟩ := p
      rcases o with _ | ⟨k, slot⟩ <;> rfl
  | write j v =>
    unfold Caught.clientStep MutClient.step
    refine Sim.read_bind ?_
    dsimp only
    cases x.handed[j]? with
    | none => exact .ok _
    | some slot =>
      refine Sim.of_bind fun mem _ => ?_
      exact Sim.write_bind (.ok _)

theorem sim_clientStepT (H : Honest J I) (x : MutClientT V) (op : MutStep V) :
    Sim x (Caught.clientStepT c J op) (MutClientT.step c I x op) (fun q => q.it.mem = x.it.mem) := by
  cases op with
  | front =>
    unfold Caught.clientStepT MutClientT.step
    have h : Sim x (Caught.onIterT (Caught.mutNext c J)) (do
        let (o, it) ← TotalIterMut.next c I x.it
        .ok (o, ⟨it, x.handed⟩)) (fun q => q.it.mem = x.it.mem) :=
      Sim.zoom (sim_mutNext H x.it) fun q hq => hq.1
    have := h.bind (f := fun o => (match o with
        | none => M.of (.ok none)
        | some (k, slot) => do
          let s ← Upd.read
          let v ← M.of (readSlot s.it.mem slot)
          Upd.write ⟨s.it, s.handed ++ [slot]⟩
          M.of (.ok (some (k, v))) : Upd σ (MutClientT V) (Option (K × V))))
      (g := fun p => match p.1 with
        | none => .ok (none, p.2)
        | some (k, slot) => do
          let v ← readSlot p.2.it.mem slot
          .ok (some (k, v), ⟨p.2.it, p.2.handed ++ [slot]⟩)) (fun o q _ => by
        cases o with
        | none => exact .ok _
        | some p =>
          refine Sim.read_bind (Sim.of_bind fun v _ => ?_)
          exact Sim.write_bind (.ok _))
    refine cast ?_ this
    congr 1
    cases TotalIterMut.next c I x.it with
    | error e => rfl
    | ok p =>
      obtain ⟨o, it⟩ := p
      rcases o with _ | ⟨k, slot⟩ <;> rfl
  | back =>
    unfold Caught.clientStepT MutClientT.step
    have h : Sim x (Caught.onIterT (Caught.mutNextBack c J)) (do
        let (o, it) ← TotalIterMut.nextBack c I x.it
        .ok (o, ⟨it, x.handed⟩)) (fun q => q.it.mem = x.it.mem) :=
      Sim.zoom (sim_mutNextBack H x.it) fun q hq => hq.1
    have := h.bind (f := fun o => (match o with
        | none => M.of (.ok none)
        | some (k, slot) => do
          let s ← Upd.read
          let v ← M.of (readSlot s.it.mem slot)
          Upd.write ⟨s.it, s.handed ++ [slot]⟩
          M.of (.ok (some (k, v))) : Upd σ (MutClientT V) (Option (K × V))))
      (g := fun p => match p.1 with
        | none => .ok (none, p.2)
        | some (k, slot) => do
          let v ← readSlot p.2.it.mem slot
          .ok (some (k, v), ⟨p.2.it, p.2.handed ++ [slot]⟩)) (fun o q _ => by
        cases o with
        | none => exact .ok _
        | some p =>
          refine Sim.read_bind (Sim.of_bind fun v _ => ?_)
          exact Sim.write_bind (.ok _))
    refine cast ?_ this
    congr 1
    cases TotalIterMut.nextBack c I x.it with
    | error e => rfl
    | ok p =>
      obtain ⟨o, it⟩ := p
      rcases o with _ | ⟨k, slot⟩ <;> rfl
  | write j v =>
    unfold Caught.clientStepT MutClientT.step
    refine Sim.read_bind ?_
    dsimp only
    cases x.handed[j]? with
    | none => exact .ok _
    | some slot =>
      refine Sim.of_bind fun mem _ => ?_
      exact Sim.write_bind (.ok _)

/-- A run of steps that panics has done some of them. -/
theorem sim_runSteps {step : ω → Upd σ s ο} {step' : s → ω → R (ο × s)} {f : s → β}
    (h : ∀ x op, Sim x (step op) (step' x op) (fun q => f q = f x)) (ops : List ω) (x : s) :
    Sim x (Caught.runSteps step ops) (runOps step' x ops)
      (fun q => ∃ done os y, done <+: ops ∧ runOps step' x done = .ok (os, y) ∧ f q = f y) := by
  induction ops generalizing x with
  | nil => exact .ok _
  | cons op ops ih =>
    unfold Caught.runSteps runOps
    refine Sim.bind ((h x op).mono fun q hq => ⟨[], [], x, List.nil_prefix, rfl, hq⟩) fun o q e => ?_
    refine Sim.bind ((ih q).mono ?_) fun os q' _ => .ok _
    rintro q' ⟨done, os, y, h1, h2, h3⟩
    refine ⟨op :: done, o :: os, y, ?_, ?_, h3⟩
    · obtain ⟨t, rfl⟩ := h1
      exact ⟨t, rfl⟩
    · simp only [e, ok_bind, h2]

theorem sim_iterMut (H : Honest J I) (steps : List (MutStep V)) (m : List (Option V)) :
    Sim m (Caught.iterMut c J steps) (do
      let (os, cl) ← runOps (MutClient.step c I) ⟨TotalIterMut.new m, []⟩ steps
      .ok (os, cl.it.mem)) (fun q => ∃ done os cl, done <+: steps ∧
        runOps (MutClient.step c I) ⟨TotalIterMut.new m, []⟩ done = .ok (os, cl) ∧ q = cl.it.mem) :=
  Sim.zoom (sim_runSteps (f := fun x : MutClient V => x.it.mem) (sim_clientStep H) steps ⟨TotalIterMut.new m, []⟩) fun _ hq => hq

theorem sim_iterMutT (H : Honest J I) (steps : List (MutStep V)) (m : List V) :
    Sim m (Caught.iterMutT c J steps) (do
      let (os, cl) ← runOps (MutClientT.step c I) ⟨TotalIterMut.new m, []⟩ steps
      .ok (os, cl.it.mem)) (fun q => ∃ done os cl, done <+: steps ∧
        runOps (MutClientT.step c I) ⟨TotalIterMut.new m, []⟩ done = .ok (os, cl) ∧ q = cl.it.mem) :=
  Sim.zoom (sim_runSteps (f := fun x : MutClientT V => x.it.mem) (sim_clientStepT H) steps ⟨TotalIterMut.new m, []⟩) fun _ hq => hq

end OrdinalMap
