import Verif.Lemmas.CaughtIter
/-! # `Drain` when a call or the drop panics -/

namespace OrdinalMap

variable {σ s t α β ι K V W E ω ο : Type} {c : Cfg} {I : OrdinalImpl K} {J : SImpl σ K} {n : Nat}

/-! ## Without panics, from any state whose counter is not ahead of the slice -/

theorem totalNext_ok (L : Lawful c I n) (mem : List V) {next a b : Nat} (h1 : next ≤ a) (h2 : a < b) (h3 : b ≤ n) :
    ∃ k, TotalIterMut.next c I ⟨mem, next, a, b⟩ = .ok (some (k, a), ⟨mem, next + 1, a + 1, b⟩) := by
  obtain ⟨k, hk, _⟩ := L.fromOrdinal next (by omega)
  have := L.fits
  refine ⟨k, ?_⟩
  simp [TotalIterMut.next, Enumerate.nextItem, slotIter, Range.next, h2, hk, addU_ok (show next + 1 < c.M by omega)]

theorem totalNext_end (mem : List V) {next a b : Nat} (h : ¬ a < b) :
    TotalIterMut.next c I ⟨mem, next, a, b⟩ = .ok (none, ⟨mem, next, a, b⟩) := by
  simp [TotalIterMut.next, Enumerate.nextItem, slotIter, Range.next, h]

theorem totalNextBack_ok (L : Lawful c I n) (mem : List V) {next a b : Nat} (h1 : next ≤ a) (h2 : a < b) (h3 : b ≤ n) :
    ∃ k, TotalIterMut.nextBack c I ⟨mem, next, a, b⟩ = .ok (some (k, b - 1), ⟨mem, next, a, b - 1⟩) := by
  have hl : Range.len ⟨a, b - 1⟩ = b - 1 - a := by simp only [Range.len]; split <;> omega
  obtain ⟨k, hk, _⟩ := L.fromOrdinal (next + (b - 1 - a)) (by omega)
  have := L.fits
  refine ⟨k, ?_⟩
  simp [TotalIterMut.nextBack, Enumerate.nextBackItem, slotIter, Range.nextBack, h2, hl, hk,
    addU_ok (show next + (b - 1 - a) < c.M by omega)]

theorem totalNextBack_end (mem : List V) {next a b : Nat} (h : ¬ a < b) :
    TotalIterMut.nextBack c I ⟨mem, next, a, b⟩ = .ok (none, ⟨mem, next, a, b⟩) := by
  simp [TotalIterMut.nextBack, Enumerate.nextBackItem, slotIter, Range.nextBack, h]

/-- The slots outside `a..b`. -/
def outside (a b : Nat) (i : Nat) : Bool := !(decide (a ≤ i) && decide (i < b))

/-- The slots in `a..b`. -/
def inside (a b : Nat) (i : Nat) : Bool := decide (a ≤ i) && decide (i < b)

theorem mask_outside_self (a : Nat) (mem : List (Option V)) : mask (outside a a) mem = mem :=
  mask_true fun i v _ => by simp [outside]; omega

theorem set_eq_mask (j : Nat) (mem : List (Option V)) : mem.set j none = mask (outside j (j + 1)) mem := by
  rw [← mask_true (P := fun _ => true) (mem := mem) (fun _ _ _ => rfl), mask_set, mask_mask]
  apply mask_congr
  intro i v _
  simp only [Bool.and_true, Bool.true_and, outside]
  rw [Bool.eq_iff_iff]; simp; omega

theorem body_some {mem : List (Option V)} {j : Nat} {v : V} (h : mem[j]? = some (some v)) (k : K) (e : Enumerate Range) :
    Drain.body (k, j) ⟨mem, e⟩ = .ok (some (k, v), ⟨mask (outside j (j + 1)) mem, e⟩) := by
  simp [Drain.body, h, set_eq_mask]

theorem body_none {mem : List (Option V)} {j : Nat} (h : mem[j]? = some none) (k : K) (e : Enumerate Range) :
    Drain.body (k, j) ⟨mem, e⟩ = .ok (none, (⟨mem, e⟩ : Drain V)) := by
  simp [Drain.body, h, set_none h]

theorem skip_front (L : Lawful c I n) : ∀ (fuel : Nat) (mem : List (Option V)) (next a b : Nat), next ≤ a → a ≤ b →
    b ≤ mem.length → mem.length ≤ n → b - a < fuel →
    ∃ o a', skipLoop (TotalIterMut.next c I) Drain.body fuel ⟨mem, next, a, b⟩ =
      .ok (o, ⟨mask (outside a a') mem, next + (a' - a), a', b⟩) ∧ a ≤ a' ∧ a' ≤ b ∧ (o = none → a' = b) ∧
      (o ≠ none → a < a') := by
  intro fuel
  induction fuel with
  | zero => intro mem next a b _ _ _ _ h; omega
  | succ fuel ih =>
    intro mem next a b h1 h2 h3 h4 h5
    by_cases hab : a < b
    · obtain ⟨k, e1⟩ := totalNext_ok L mem h1 hab (by omega)
      rcases hm : mem[a]? with _ | _ | v
      · rw [List.getElem?_eq_none_iff] at hm; omega
      · obtain ⟨o, a', e2, e3, e4, e5, e6⟩ := ih mem (next + 1) (a + 1) b (by omega) (by omega) h3 h4 (by omega)
        refine ⟨o, a', ?_, by omega, e4, e5, fun h => by have := e6 h; omega⟩
        unfold skipLoop
        rw [e1]
        simp only [ok_bind]
        rw [body_none hm]
        simp only [ok_bind]
        rw [e2, show next + 1 + (a' - (a + 1)) = next + (a' - a) by omega]
        congr 3
        apply mask_congr
        intro i v hi
        have : i ≠ a := fun e => by rw [e, hm] at hi; simp at hi
        simp only [outside]
        rw [Bool.eq_iff_iff]; simp; omega
      · refine ⟨some (k, v), a + 1, ?_, by omega, by omega, by simp, by omega⟩
        unfold skipLoop
        rw [e1]
        simp only [ok_bind]
        rw [body_some hm]
        simp only [ok_bind]
        rw [show a + 1 - a = 1 by omega]
    · obtain rfl : a = b := by omega
      refine ⟨none, a, ?_, by omega, by omega, by simp, by simp⟩
      unfold skipLoop
      rw [totalNext_end mem hab, mask_outside_self]
      simp

theorem skip_back (L : Lawful c I n) : ∀ (fuel : Nat) (mem : List (Option V)) (next a b : Nat), next ≤ a → a ≤ b →
    b ≤ mem.length → mem.length ≤ n → b - a < fuel →
    ∃ o b', skipLoop (TotalIterMut.nextBack c I) Drain.body fuel ⟨mem, next, a, b⟩ =
      .ok (o, ⟨mask (outside b' b) mem, next, a, b'⟩) ∧ a ≤ b' ∧ b' ≤ b ∧ (o = none → a = b') := by
  intro fuel
  induction fuel with
  | zero => intro mem next a b _ _ _ _ h; omega
  | succ fuel ih =>
    intro mem next a b h1 h2 h3 h4 h5
    by_cases hab : a < b
    · obtain ⟨k, e1⟩ := totalNextBack_ok L mem h1 hab (by omega)
      rcases hm : mem[b - 1]? with _ | _ | v
      · rw [List.getElem?_eq_none_iff] at hm; omega
      · obtain ⟨o, b', e2, e3, e4, e5⟩ := ih mem next a (b - 1) (by omega) (by omega) (by omega) h4 (by omega)
        refine ⟨o, b', ?_, by omega, by omega, e5⟩
        unfold skipLoop
        rw [e1]
        simp only [ok_bind]
        rw [body_none hm]
        simp only [ok_bind]
        rw [e2]
        congr 3
        apply mask_congr
        intro i v hi
        have : i ≠ b - 1 := fun e => by rw [e, hm] at hi; simp at hi
        simp only [outside]
        rw [Bool.eq_iff_iff]; simp; omega
      · refine ⟨some (k, v), b - 1, ?_, by omega, by omega, by simp⟩
        unfold skipLoop
        rw [e1]
        simp only [ok_bind]
        rw [body_some hm]
        simp only [ok_bind]
        rw [show b - 1 + 1 = b by omega]
    · obtain rfl : a = b := by omega
      refine ⟨none, a, ?_, by omega, by omega, by simp⟩
      unfold skipLoop
      rw [totalNextBack_end mem hab, mask_outside_self]
      simp

theorem len_le (a b : Nat) : b - a < Range.len ⟨a, b⟩ + 1 := by
  simp only [Range.len]; split <;> omega

theorem drainNext_ok (L : Lawful c I n) {mem : List (Option V)} {next a b : Nat} (h1 : next ≤ a) (h2 : a ≤ b)
    (h3 : b ≤ mem.length) (h4 : mem.length ≤ n) : ∃ o a', Drain.next c I ⟨mem, next, a, b⟩ =
      .ok (o, ⟨mask (outside a a') mem, next + (a' - a), a', b⟩) ∧ a ≤ a' ∧ a' ≤ b ∧ (o = none → a' = b) ∧
      (o ≠ none → a < a') :=
  skip_front L _ _ _ _ _ h1 h2 h3 h4 (len_le a b)

theorem drainNextBack_ok (L : Lawful c I n) {mem : List (Option V)} {next a b : Nat} (h1 : next ≤ a) (h2 : a ≤ b)
    (h3 : b ≤ mem.length) (h4 : mem.length ≤ n) : ∃ o b', Drain.nextBack c I ⟨mem, next, a, b⟩ =
      .ok (o, ⟨mask (outside b' b) mem, next, a, b'⟩) ∧ a ≤ b' ∧ b' ≤ b ∧ (o = none → a = b') :=
  skip_back L _ _ _ _ _ h1 h2 h3 h4 (len_le a b)

/-- `Drain.dropLoop`, with the state of the iterator. -/
def dropLoopD (c : Cfg) (I : OrdinalImpl K) : Nat → Drain V → R (Unit × Drain V)
  | 0, _ => .error .diverge
  | fuel + 1, d => do
    match ← Drain.next c I d with
    | (none, d) => .ok ((), d)
    | (some _, d) => dropLoopD c I fuel d

theorem dropLoopD_ok (L : Lawful c I n) : ∀ (fuel : Nat) (mem : List (Option V)) (next a b : Nat), next ≤ a → a ≤ b →
    b ≤ mem.length → mem.length ≤ n → b - a < fuel →
    ∃ e, dropLoopD c I fuel ⟨mem, next, a, b⟩ = .ok ((), ⟨mask (outside a b) mem, e⟩) := by
  intro fuel
  induction fuel with
  | zero => intro mem next a b _ _ _ _ h; omega
  | succ fuel ih =>
    intro mem next a b h1 h2 h3 h4 h5
    obtain ⟨o, a', e1, e2, e3, e4, e5⟩ := drainNext_ok L h1 h2 h3 h4
    unfold dropLoopD
    rw [e1]
    cases o with
    | none =>
      obtain rfl := e4 rfl
      exact ⟨_, rfl⟩
    | some p =>
      have := e5 (by simp)
      obtain ⟨e, he⟩ := ih (mask (outside a a') mem) (next + (a' - a)) a' b (by omega) e3 (by simpa using h3)
        (by simpa using h4) (by omega)
      refine ⟨e, ?_⟩
      simp only [ok_bind]
      rw [he, mask_mask]
      congr 3
      apply mask_congr
      intro i v _
      simp only [outside]
      rw [Bool.eq_iff_iff]; simp; omega

/-! ## With panics -/

theorem sim_drainBody (p : K × Nat) (it : Drain V) {F : Drain V → Prop} :
    Sim (σ := σ) it (Caught.drainBody p) (Drain.body p it) F := by
  obtain ⟨mem, e⟩ := it
  refine Sim.read_bind ?_
  unfold Drain.body
  dsimp only
  rcases mem[p.2]? with _ | _ | v
  · intro st; exact .inr rfl
  · exact Sim.write_bind (.ok _)
  · exact Sim.write_bind (.ok _)

/-- What a panicking `next` leaves: slot `i` is skipped, the slots before it are empty. -/
def FrontPanic (mem : List (Option V)) (a b : Nat) (q : Drain V) : Prop :=
  ∃ i next, a ≤ i ∧ i < b ∧ next ≤ i ∧ q = ⟨mem, next, i + 1, b⟩ ∧ ∀ x v, a ≤ x → x < i → mem[x]? ≠ some (some v)

theorem sim_drainNext (L : Lawful c I n) (H : Honest J I) {mem : List (Option V)} {next a b : Nat} (h1 : next ≤ a)
    (h2 : a ≤ b) (h4 : b ≤ n) :
    Sim ⟨mem, next, a, b⟩ (Caught.drainNext c J) (Drain.next c I ⟨mem, next, a, b⟩) (FrontPanic mem a b) := by
  refine Sim.read_bind ?_
  refine sim_skipLoop (fun p => ∃ i next', a ≤ i ∧ i ≤ b ∧ next' ≤ i ∧ p = ⟨mem, next', i, b⟩ ∧
    ∀ x v, a ≤ x → x < i → mem[x]? ≠ some (some v)) ?_ ?_ _ _
    ⟨a, next, by omega, h2, h1, rfl, fun x v hx hx' => by omega⟩
  · rintro p ⟨i, next', hi, hb, hn, rfl, he⟩
    refine (sim_mutNext H _).mono ?_
    rintro ⟨mem', next'', r⟩ ⟨e1, e2, e3, e4⟩
    simp only at e1 e2 e3 e4
    subst e1 e2 e4
    exact ⟨i, _, hi, e3, hn, rfl, he⟩
  · rintro p ⟨k, j⟩ q ⟨i, next', hi, hb, hn, rfl, he⟩ hq
    refine ⟨sim_drainBody _ _, fun q' hq' => ?_⟩
    by_cases hib : i < b
    · obtain ⟨k', e1⟩ := totalNext_ok L mem hn hib h4
      rw [e1] at hq
      simp only [Except.ok.injEq, Prod.mk.injEq, Option.some.injEq] at hq
      obtain ⟨⟨rfl, rfl⟩, rfl⟩ := hq
      rcases hm : mem[i]? with _ | _ | v
      · simp [Drain.body, hm] at hq'
      · rw [body_none hm] at hq'
        simp only [Except.ok.injEq, Prod.mk.injEq, true_and] at hq'
        subst hq'
        refine ⟨i + 1, next' + 1, by omega, by omega, by omega, rfl, fun x v hx hx' => ?_⟩
        rcases Nat.lt_or_ge x i with h | h
        · exact he x v hx h
        · obtain rfl : x = i := by omega
          rw [hm]; simp
      · rw [body_some hm] at hq'
        simp at hq'
    · rw [totalNext_end mem hib] at hq
      simp at hq

/-- What a panicking `next_back` leaves: slot `i` is skipped, the slots behind it are empty. -/
def BackPanic (mem : List (Option V)) (next a b : Nat) (q : Drain V) : Prop :=
  ∃ i, a ≤ i ∧ i < b ∧ q = ⟨mem, next, a, i⟩ ∧ ∀ x v, i < x → x < b → mem[x]? ≠ some (some v)

theorem sim_drainNextBack (L : Lawful c I n) (H : Honest J I) {mem : List (Option V)} {next a b : Nat} (h1 : next ≤ a)
    (h2 : a ≤ b) (h4 : b ≤ n) :
    Sim ⟨mem, next, a, b⟩ (Caught.drainNextBack c J) (Drain.nextBack c I ⟨mem, next, a, b⟩)
      (BackPanic mem next a b) := by
  refine Sim.read_bind ?_
  refine sim_skipLoop (fun p => ∃ i, a ≤ i ∧ i ≤ b ∧ p = ⟨mem, next, a, i⟩ ∧
    ∀ x v, i ≤ x → x < b → mem[x]? ≠ some (some v)) ?_ ?_ _ _
    ⟨b, h2, by omega, rfl, fun x v hx hx' => by omega⟩
  · rintro p ⟨i, hi, hb, rfl, he⟩
    refine (sim_mutNextBack H _).mono ?_
    rintro ⟨mem', next'', r⟩ ⟨e1, e2, e3, e4⟩
    simp only at e1 e2 e3 e4
    subst e1 e2 e4
    exact ⟨i - 1, by omega, by omega, rfl, fun x v hx hx' => he x v (by omega) hx'⟩
  · rintro p ⟨k, j⟩ q ⟨i, hi, hb, rfl, he⟩ hq
    refine ⟨sim_drainBody _ _, fun q' hq' => ?_⟩
    by_cases hib : a < i
    · obtain ⟨k', e1⟩ := totalNextBack_ok L mem h1 hib (by omega)
      rw [e1] at hq
      simp only [Except.ok.injEq, Prod.mk.injEq, Option.some.injEq] at hq
      obtain ⟨⟨rfl, rfl⟩, rfl⟩ := hq
      rcases hm : mem[i - 1]? with _ | _ | v
      · simp [Drain.body, hm] at hq'
      · rw [body_none hm] at hq'
        simp only [Except.ok.injEq, Prod.mk.injEq, true_and] at hq'
        subst hq'
        refine ⟨i - 1, by omega, by omega, rfl, fun x v hx hx' => ?_⟩
        rcases Nat.lt_or_ge x i with h | h
        · obtain rfl : x = i - 1 := by omega
          rw [hm]; simp
        · exact he x v h hx'
      · rw [body_some hm] at hq'
        simp at hq'
    · rw [totalNextBack_end mem hib] at hq
      simp at hq

theorem sim_dropLoop (L : Lawful c I n) (H : Honest J I) : ∀ (fuel : Nat) (mem : List (Option V)) (next a b : Nat),
    next ≤ a → a ≤ b → b ≤ mem.length → mem.length ≤ n →
    Sim ⟨mem, next, a, b⟩ (Caught.dropLoop c J fuel) (dropLoopD c I fuel ⟨mem, next, a, b⟩)
      (fun q => ∃ j, q.mem = mask (outside a j) mem) := by
  intro fuel
  induction fuel with
  | zero => intro mem next a b _ _ _ _ st; exact .inr rfl
  | succ fuel ih =>
    intro mem next a b h1 h2 h3 h4
    unfold Caught.dropLoop dropLoopD
    refine Sim.bind ((sim_drainNext L H h1 h2 (by omega)).mono ?_) fun o q e => ?_
    · rintro q ⟨i, next', _, _, _, rfl, _⟩
      exact ⟨a, (mask_outside_self a mem).symm⟩
    · obtain ⟨o', a', e1, e2, e3, _, _⟩ := drainNext_ok L h1 h2 h3 h4
      rw [e1] at e
      simp only [Except.ok.injEq, Prod.mk.injEq] at e
      obtain ⟨rfl, rfl⟩ := e
      cases o' with
      | none => exact .ok _
      | some p =>
        refine (ih (mask (outside a a') mem) (next + (a' - a)) a' b (by omega) e3 (by simpa using h3)
          (by simpa using h4)).mono ?_
        rintro q ⟨j, hj⟩
        by_cases hja : a' ≤ j
        · refine ⟨j, ?_⟩
          rw [hj, mask_mask]
          apply mask_congr
          intro i v _
          simp only [outside]
          rw [Bool.eq_iff_iff]; simp; omega
        · refine ⟨a', ?_⟩
          rw [hj, mask_mask]
          apply mask_congr
          intro i v _
          simp only [outside]
          rw [Bool.eq_iff_iff]; simp; omega

theorem sim_drainDrop (L : Lawful c I n) (H : Honest J I) (mem : List (Option V)) {next a b : Nat} (h1 : next ≤ a)
    (h2 : a ≤ b) (h3 : b ≤ mem.length) (h4 : mem.length ≤ n) :
    ∃ e, Sim ⟨mem, next, a, b⟩ (Caught.drainDrop c J) (.ok ((), ⟨mask (outside a b) mem, e⟩))
      (fun q => ∃ j, q.mem = mask (outside a j) mem) := by
  obtain ⟨e, he⟩ := dropLoopD_ok L (Range.len ⟨a, b⟩ + 1) mem next a b h1 h2 h3 h4 (len_le a b)
  refine ⟨e, Sim.read_bind ?_⟩
  rw [← he]
  exact sim_dropLoop L H _ mem next a b h1 h2 h3 h4

/-! ## A whole use of `drain()` -/

/-- A `Drain` between two calls: what is outside the slots left was taken out of `mem`. -/
def DInv (mem : List (Option V)) (d : Drain V) : Prop :=
  ∃ a b, a ≤ b ∧ b ≤ mem.length ∧ d = ⟨mask (inside a b) mem, a, a, b⟩

theorem DInv.new (mem : List (Option V)) : DInv mem (Drain.new mem) := by
  refine ⟨0, mem.length, by omega, by omega, ?_⟩
  rw [mask_true]
  · rfl
  · intro i v h
    simp only [inside]
    have : i < mem.length := by
      rcases Nat.lt_or_ge i mem.length with h' | h'
      · exact h'
      · rw [List.getElem?_eq_none h'] at h; simp at h
    simpa using this

/-- A `Drain` after a panic in a call: if the rest is dropped, at most slot `i` keeps what was in `mem`. -/
def DPanic (mem : List (Option V)) (d : Drain V) : Prop :=
  ∃ mem' next a b i, next ≤ a ∧ a ≤ b ∧ b ≤ mem.length ∧ mem'.length = mem.length ∧ i < mem.length ∧
    d = ⟨mem', next, a, b⟩ ∧ mask (outside a b) mem' = mask (inside i (i + 1)) mem

theorem DInv.step (L : Lawful c I n) {mem : List (Option V)} (hl : mem.length ≤ n) {d d' : Drain V} {dir : Dir}
    {o : Option (K × V)} (h : DInv mem d) (e : (Drain.it c I).step d dir = .ok (o, d')) : DInv mem d' := by
  obtain ⟨a, b, h1, h2, rfl⟩ := h
  cases dir with
  | front =>
    obtain ⟨o', a', e1, e2, e3, _, _⟩ := drainNext_ok (mem := mask (inside a b) mem) (next := a) L (Nat.le_refl a) h1 (by simpa using h2)
      (by simpa using hl)
    simp only [DEIter.step, Drain.it] at e
    rw [e1] at e
    simp only [Except.ok.injEq, Prod.mk.injEq] at e
    obtain ⟨_, rfl⟩ := e
    refine ⟨a', b, e3, h2, ?_⟩
    rw [mask_mask, show a + (a' - a) = a' by omega]
    congr 1
    apply mask_congr
    intro i v _
    simp only [outside, inside]
    rw [Bool.eq_iff_iff]; simp; omega
  | back =>
    obtain ⟨o', b', e1, e2, e3, _⟩ := drainNextBack_ok (mem := mask (inside a b) mem) (next := a) L (Nat.le_refl a) h1 (by simpa using h2)
      (by simpa using hl)
    simp only [DEIter.step, Drain.it] at e
    rw [e1] at e
    simp only [Except.ok.injEq, Prod.mk.injEq] at e
    obtain ⟨_, rfl⟩ := e
    refine ⟨a, b', e2, by omega, ?_⟩
    rw [mask_mask]
    congr 1
    apply mask_congr
    intro i v _
    simp only [outside, inside]
    rw [Bool.eq_iff_iff]; simp; omega

theorem DInv.run (L : Lawful c I n) {mem : List (Option V)} (hl : mem.length ≤ n) (ds : List Dir) {d d' : Drain V}
    {os : List (Option (K × V))} (h : DInv mem d) (e : (Drain.it c I).run d ds = .ok (os, d')) : DInv mem d' := by
  induction ds generalizing d os with
  | nil =>
    simp only [DEIter.run, Except.ok.injEq, Prod.mk.injEq] at e
    exact e.2 ▸ h
  | cons dir ds ih =>
    unfold DEIter.run at e
    cases e1 : (Drain.it c I).step d dir with
    | error e' => rw [e1] at e; simp at e
    | ok p =>
      rw [e1] at e
      simp only [ok_bind] at e
      cases e2 : (Drain.it c I).run p.2 ds with
      | error e' => rw [e2] at e; simp at e
      | ok q =>
        rw [e2] at e
        simp only [ok_bind, Except.ok.injEq, Prod.mk.injEq] at e
        obtain ⟨_, rfl⟩ := e
        exact ih (h.step L hl e1) e2

theorem mem_ne_some {P : Nat → Bool} {mem : List (Option V)} {x : Nat} (hP : P x = true)
    (h : ∀ v, (mask P mem)[x]? ≠ some (some v)) (v : V) : mem[x]? ≠ some (some v) := by
  intro e
  apply h v
  rw [mask_get, e]; simp [hP]

theorem sim_drainDir (L : Lawful c I n) (H : Honest J I) {mem : List (Option V)} (hl : mem.length ≤ n) {d : Drain V}
    (h : DInv mem d) (dir : Dir) :
    Sim d (match dir with
      | .front => Caught.drainNext c J
      | .back => Caught.drainNextBack c J) ((Drain.it c I).step d dir) (DPanic mem) := by
  obtain ⟨a, b, h1, h2, rfl⟩ := h
  cases dir with
  | front =>
    refine (sim_drainNext L H (Nat.le_refl a) h1 (by omega)).mono ?_
    rintro q ⟨i, next, g1, g2, g3, rfl, g4⟩
    refine ⟨_, next, i + 1, b, i, by omega, by omega, h2, by simp, by omega, rfl, ?_⟩
    rw [mask_mask]
    apply mask_congr
    intro x v hx
    rcases Nat.lt_or_ge x a with hxa | hxa
    · simp only [outside, inside]
      rw [Bool.eq_iff_iff]; simp; omega
    · rcases Nat.lt_or_ge x i with hxi | hxi
      · have := mem_ne_some (P := inside a b) (mem := mem) (x := x) (by simp only [inside]; simp; omega)
          (fun v => g4 x v hxa hxi) v
        exact absurd hx this
      · simp only [outside, inside]
        rw [Bool.eq_iff_iff]; simp; omega
  | back =>
    refine (sim_drainNextBack L H (Nat.le_refl a) h1 (by omega)).mono ?_
    rintro q ⟨i, g1, g2, rfl, g4⟩
    refine ⟨_, a, a, i, i, by omega, by omega, by omega, by simp, by omega, rfl, ?_⟩
    rw [mask_mask]
    apply mask_congr
    intro x v hx
    rcases Nat.lt_or_ge x b with hxb | hxb
    · rcases Nat.lt_or_ge i x with hxi | hxi
      · have := mem_ne_some (P := inside a b) (mem := mem) (x := x) (by simp only [inside]; simp; omega)
          (fun v => g4 x v hxi hxb) v
        exact absurd hx this
      · simp only [outside, inside]
        rw [Bool.eq_iff_iff]; simp; omega
    · simp only [outside, inside]
      rw [Bool.eq_iff_iff]; simp; omega

theorem sim_runDirs (L : Lawful c I n) (H : Honest J I) {mem : List (Option V)} (hl : mem.length ≤ n) (ds : List Dir)
    {d : Drain V} (h : DInv mem d) :
    Sim d (Caught.runDirs (Caught.drainNext c J) (Caught.drainNextBack c J) ds) ((Drain.it c I).run d ds)
      (DPanic mem) := by
  induction ds generalizing d with
  | nil => exact .ok _
  | cons dir ds ih =>
    unfold Caught.runDirs DEIter.run
    have := (sim_drainDir L H hl h dir).bind
      (f := fun o => (do
        let os ← Caught.runDirs (Caught.drainNext c J) (Caught.drainNextBack c J) ds
        .of (.ok (o :: os)) : Upd σ (Drain V) (List (Option (K × V)))))
      (g := fun p => do
        let (os, d) ← (Drain.it c I).run p.2 ds
        .ok (p.1 :: os, d))
      fun o q e => (ih (h.step L hl e)).bind fun os q' _ => .ok _
    cases dir <;> exact this

/-- A caught panic. -/
theorem Sim.caught {p : s} {x : Upd σ s α} {a : α} {q : s} {F : s → Prop} (h : Sim p x (.ok (a, q)) F) (st : σ) :
    ∃ e st' q', Caught.catchUnwind x (st, p) = (.ok e, (st', q')) ∧
      ((e = .returned a ∧ q' = q) ∨ (e = .panicked ∧ F q')) := by
  have h := h st
  unfold Caught.catchUnwind
  rcases hx : x (st, p) with ⟨e | a', st', q'⟩
  · rw [hx] at h
    rcases h with ⟨rfl, h⟩ | h
    · exact ⟨_, _, _, rfl, .inr ⟨rfl, h⟩⟩
    · simp at h
  · rw [hx] at h
    simp only [Except.ok.injEq, Prod.mk.injEq] at h
    obtain ⟨rfl, rfl⟩ := h
    exact ⟨_, _, _, rfl, .inl ⟨rfl, rfl⟩⟩

theorem mem_take (L : Lawful c I n) (k : K) (j : Nat) : k ∈ (values I n).take j ↔ ordOf I k < j := by
  rw [List.mem_take_iff_getElem]
  constructor
  · rintro ⟨i, hi, rfl⟩
    have : i < n := by have := values_length L (I := I); omega
    obtain ⟨a, h1, _, rfl⟩ := values_getElem L i this
    have h2 : (values I n)[ordOf I a]'(by omega) = a := by
      have := List.getElem?_eq_some_iff.1 h1
      exact this.2
    rw [h2]; omega
  · intro h
    have h1 := values_ord L k
    obtain ⟨h2, h3⟩ := List.getElem?_eq_some_iff.1 h1
    exact ⟨ordOf I k, by omega, h3⟩

variable [DecidableEq K]

theorem caught_drain (L : Lawful c I n) (H : Honest J I) {b : Bool} {m : K → Option V} {mem : List (Option V)}
    (h : Stored I n b m mem) (ds : List Dir) (leak : Bool) (st : σ) :
    ∃ e st' q, Caught.drain c J ds leak (st, mem) = (.ok e, (st', q)) ∧
      ((∃ os, e = .returned os ∧ os = (Deque.run (pairs I n m) ds).1 ∧
          Stored I n b (MapSpec.step I n m (.drain ds leak)).2 q) ∨
        (e = .panicked ∧ ∃ m', MapSpec.after I n m (.drain ds leak) m' ∧ Stored I n b m' q) ∨
        e = .aborted) := by
  have hl : mem.length ≤ n := by rw [h.length L]; split <;> omega
  obtain ⟨d, h1, h2, mem3, h3, h4⟩ := h.run_drain L ds
  have hs := sim_runDirs L H hl ds (DInv.new mem)
  rw [h1] at hs
  have hd := DInv.run L hl ds (DInv.new mem) h1
  have hs := hs st
  unfold Caught.drain
  simp only [Upd.zoom, M.bind_apply, Caught.catchWith]
  rcases hx : Caught.runDirs (Caught.drainNext c J) (Caught.drainNextBack c J) ds (st, Drain.new mem)
    with ⟨e | os, st1, q1⟩
  · rw [hx] at hs
    rcases hs with ⟨rfl, hp⟩ | hs
    · obtain ⟨mem', next, a, b', i, g1, g2, g3, g4, g5, rfl, g6⟩ := hp
      obtain ⟨e, hdrop⟩ := sim_drainDrop L H mem' g1 g2 (by omega) (by omega)
      have hdrop := hdrop st1
      simp only
      rcases hy : Caught.drainDrop c J (st1, ⟨mem', next, a, b'⟩) with ⟨e' | u, st2, q2⟩
      · rw [hy] at hdrop
        rcases hdrop with ⟨rfl, _⟩ | hdrop
        · exact ⟨_, _, _, rfl, .inr (.inr rfl)⟩
        · simp at hdrop
      · rw [hy] at hdrop
        simp only [Except.ok.injEq, Prod.mk.injEq] at hdrop
        obtain ⟨_, rfl⟩ := hdrop
        obtain ⟨k₀, _, hk₀, _⟩ := values_getElem L i (by omega)
        refine ⟨_, _, _, rfl, .inr (.inl ⟨rfl, _, .inl ⟨k₀, rfl⟩, ?_⟩)⟩
        simp only [g6]
        have := h.mask L (inside i (i + 1))
        refine cast ?_ this
        congr 1
        funext k
        by_cases e : k = k₀
        · subst e; simp [inside]; omega
        · have : ordOf I k ≠ i := fun e' => e (L.ord_inj (by omega))
          have hi : inside i (i + 1) (ordOf I k) = false := by simp [inside]; omega
          simp [e, hi]
    · simp at hs
  · rw [hx] at hs
    simp only [Except.ok.injEq, Prod.mk.injEq] at hs
    obtain ⟨rfl, rfl⟩ := hs
    simp only
    cases leak with
    | true =>
      exact ⟨_, _, _, rfl, .inl ⟨_, rfl, rfl, h2⟩⟩
    | false =>
      obtain ⟨a, b', g1, g2, rfl⟩ := hd
      obtain ⟨e, hdrop⟩ := sim_drainDrop L H (mask (inside a b') mem) (Nat.le_refl a) g1 (by simpa using g2)
        (by simpa using hl)
      obtain ⟨r, st2, q2, e1, e2⟩ := hdrop.caught st1
      simp only [Bool.false_eq_true, if_false, M.bind_apply, e1]
      rcases e2 with ⟨rfl, rfl⟩ | ⟨rfl, j, hj⟩
      · refine ⟨_, _, _, rfl, .inl ⟨_, rfl, rfl, ?_⟩⟩
        have := h.mask L (fun _ => false)
        simp only [Bool.false_eq_true, if_false] at this
        refine cast ?_ this
        congr 1
        rw [mask_mask]
        apply mask_congr
        intro i v _
        simp only [outside, inside]
        rw [Bool.eq_iff_iff]; simp; omega
      · refine ⟨_, _, q2.mem, rfl, .inr (.inl ⟨rfl, _, .inr ⟨rfl, max a j, rfl⟩, ?_⟩)⟩
        have := h2.mask L (fun i => decide (max a j ≤ i))
        rw [hj]
        refine cast ?_ this
        congr 1
        · funext k
          simp only [mem_take L, leftOver, decide_eq_true_eq]
          by_cases e : ordOf I k < max a j
          · rw [if_pos e, if_neg (by omega)]
          · rw [if_neg e, if_pos (by omega)]
        · rw [mask_mask, mask_mask]
          apply mask_congr
          intro i v _
          simp only [outside, inside]
          rw [Bool.eq_iff_iff]; simp; omega

theorem sim_clear (L : Lawful c I n) (H : Honest J I) {b : Bool} {m : K → Option V} {mem : List (Option V)}
    (h : Stored I n b m mem) : ∃ mem', Stored I n b (fun _ => none) mem' ∧
      Sim mem (Caught.clear c J) (.ok ((), mem')) (fun q => ∃ m', MapSpec.after I n m .clear m' ∧ Stored I n b m' q) := by
  have hl : mem.length ≤ n := by rw [h.length L]; split <;> omega
  obtain ⟨e, hdrop⟩ := sim_drainDrop L H mem (Nat.le_refl 0) (Nat.zero_le mem.length) (Nat.le_refl _) hl
  refine ⟨mask (outside 0 mem.length) mem, ?_, ?_⟩
  · have := h.mask L (fun _ => false)
    simp only [Bool.false_eq_true, if_false] at this
    refine cast ?_ this
    congr 1
    apply mask_congr
    intro i v hv
    have : i < mem.length := by
      rcases Nat.lt_or_ge i mem.length with h' | h'
      · exact h'
      · rw [List.getElem?_eq_none h'] at hv; simp at hv
    simp only [outside]
    simp; omega
  · refine (Sim.zoom (get := Drain.new) (set := fun _ d => d.mem) (p := mem) hdrop (F := fun q => ∃ m', MapSpec.after I n m .clear m' ∧ Stored I n b m' q) ?_)
    rintro q ⟨j, hj⟩
    refine ⟨_, ⟨j, rfl⟩, ?_⟩
    rw [hj]
    have := h.mask L (outside 0 j)
    refine cast ?_ this
    congr 1
    funext k
    simp only [mem_take L, outside]
    by_cases e : ordOf I k < j <;> simp [e]

end OrdinalMap
