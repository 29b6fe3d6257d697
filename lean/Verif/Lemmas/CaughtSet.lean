import Verif.Lemmas.CaughtDrain
import Verif.Lemmas.Set
import Verif.SpecClone
/-! # The sets when user code panics -/

namespace OrdinalMap

variable {σ τ : Type} {c : Cfg} {I : OrdinalImpl τ} {J : SImpl σ τ} {n : Nat}

theorem sim_setInsert (L : Lawful c I n) (H : Honest J I) (ws : List (BitVec 64)) (x : τ)
    (hlen : ws.length = divCeil n 64) {p : Bool × List (BitVec 64)} (hp : SetMut.insert c I ws x = .ok p) :
    Sim ws (Caught.setInsert c J x) (.ok p) (· = ws) := by
  unfold Caught.setInsert
  refine Sim.read_bind (Sim.of_ok (by rw [H.refNew]; exact SetRef.new_eq L ws (.inr hlen)) ?_)
  refine Sim.user_ok (H.refContains c ws x) (SetRef.contains_eq L ws x) rfl ?_
  refine Sim.user_ok (H.ord x) (L.ordinal_eq x) rfl ?_
  refine Sim.of_ok (shl64_ok c 1 (Nat.mod_lt _ (by omega))) ?_
  refine Sim.user_ok (H.ord x) (L.ordinal_eq x) rfl ?_
  simp only [SetMut.insert, SetRef.new_eq L ws (.inr hlen), SetRef.contains_eq L ws x, L.ordinal_eq, ok_bind,
    shl64_ok c 1 (Nat.mod_lt _ (by omega))] at hp
  rw [← hp]
  exact Sim.of_bind fun w _ => Sim.of_bind fun ws' _ => Sim.write_bind (.ok _)

variable [DecidableEq τ]

/-- What the step lemmas state. -/
def CaughtSet (View : (τ → Bool) → s → Prop) (m : τ → Bool) (op : SetOp τ) (p : s) (x : Upd σ s Bool) : Prop :=
  ∃ q, Sim p x (.ok ((SetSpec.step m op).1, q)) (View m) ∧ View (SetSpec.step m op).2 q

omit [DecidableEq τ] in
theorem osetAlloc_view (L : Lawful c I n) (H : Honest J I) (hfit : n + 64 < c.M) {m : τ → Bool}
    {ws : List (BitVec 64)} (h2 : ws = [] ∨ ws.length = divCeil n 64) (h3 : Bits I m ws) :
    ∃ ws1, Eff.osetAlloc c J ws = .ok ws1 ∧ ws1.length = divCeil n 64 ∧ Bits I m ws1 := by
  by_cases he : ws = []
  · subst he
    refine ⟨List.replicate ((n + 64 - 1) / 64) 0, ?_, ?_, ?_⟩
    · have e1 : checkedAdd c n 64 = some (n + 64) := by simp [checkedAdd]; omega
      simp [Eff.osetAlloc, H.size, L.size, e1, subU, divU]
    · have := divCeil_spec n
      simp; omega
    · intro a; rw [wbit_replicate, ← h3 a]; rfl
  · refine ⟨ws, by simp [Eff.osetAlloc, he], ?_, h3⟩
    rcases h2 with h2 | h2
    · exact absurd h2 he
    · exact h2

theorem sim_osetOp (L : Lawful c I n) (H : Honest J I) (hfit : n + 64 < c.M) {m : τ → Bool} {t : OrdinalSet}
    (h : OrdinalSet.View I n m t) (op : SetOp τ) :
    CaughtSet (OrdinalSet.View I n) m op t (Caught.osetOp c J op) := by
  cases op with
  | insert x =>
    have hsz : J.size = .ok n := H.size.trans L.size
    have hx := L.ord_lt x
    cases t with
    | small w =>
      have h' := h
      obtain ⟨h1, h2⟩ := h'
      have hd := divCeil_spec n
      have hlen : [w].length = divCeil n 64 := by simp; omega
      obtain ⟨ws', e1, e2, e3⟩ := SetMut.insert_eq (c := c) L [w] x hlen
      have hb : Bits I m [w] := fun a => by
        have := L.ord_lt a
        rw [wbit_single w (by omega)]; exact h2 a
      rw [hb x] at e1
      match ws', e2 with
      | [w'], _ =>
        refine ⟨.small w', Sim.of_ok hsz (Sim.read_bind ?_), h1, fun a => ?_⟩
        · simp only [h1, decide_true]
          refine Sim.of_ok (by rw [H.mutNew]; exact SetMut.new_eq L _ hlen) ?_
          exact (sim_setInsert L H [w] x hlen e1).zoom (p := OrdinalSet.small w) (get := fun _ => [w])
            (set := fun t ws => match ws with | [w] => .small w | _ => t) (F := OrdinalSet.View I n m) fun q e => by subst e; exact h
        · have := hb.insert L e3 a
          have ha := L.ord_lt a
          rwa [wbit_single w' (by omega)] at this
    | large ws =>
      obtain ⟨h1, h2, h3⟩ := h
      have hn : ¬ n ≤ 64 := by omega
      obtain ⟨ws1, a1, a2, a3⟩ := osetAlloc_view L H hfit h2 h3
      obtain ⟨ws', e1, e2, e3⟩ := SetMut.insert_eq (c := c) L ws1 x a2
      rw [a3 x] at e1
      refine ⟨.large ws', Sim.of_ok hsz (Sim.read_bind ?_), h1, .inr (e2.trans a2), a3.insert L e3⟩
      simp only [hn, decide_false]
      refine Sim.of_ok a1 (Sim.write_bind (Sim.of_ok (by rw [H.mutNew]; exact SetMut.new_eq L _ a2) ?_))
      exact (sim_setInsert L H ws1 x a2 e1).zoom (p := OrdinalSet.large ws1) (get := fun _ => ws1)
        (set := fun _ ws => .large ws) (F := OrdinalSet.View I n m) fun q e => by subst e; exact ⟨h1, .inr a2, a3⟩
  | contains x =>
    refine ⟨t, Sim.read_bind (Sim.user (r := .ok _) ?_ h), h⟩
    obtain ⟨ws, h1, h2⟩ := OrdinalSet.asRef_view L h (.inl (L.pos x))
    unfold Eff.osetContains
    have key : ∀ r : R SetRef, r = .ok ws →
        Ref (M.of r >>= fun ws => Eff.refContains c J ws x) (.ok (m x)) := by
      rintro _ rfl
      have := H.refContains c ws x
      rw [SetRef.contains_eq L, h2 x] at this
      exact this
    refine key _ ?_
    rw [← h1]
    simp only [OrdinalSet.asRef, OrdinalSet.isSmall, H.size, L.size, ok_bind]
    cases decide (n ≤ 64) <;> cases t <;> simp only [H.refNew]

theorem sim_asetOp (L : Lawful c I n) (H : Honest J I) {m : τ → Bool} {t : OrdinalArraySet}
    (h : OrdinalArraySet.View I n m t) (op : SetOp τ) :
    CaughtSet (OrdinalArraySet.View I n) m op t (Caught.asetOp c J (divCeil n 64) op) := by
  cases op with
  | insert x =>
    obtain ⟨ws', e1, e2, e3⟩ := SetMut.insert_eq (c := c) L t x h.1
    rw [h.2 x] at e1
    refine ⟨ws', Sim.read_bind ?_, e2.trans h.1, h.2.insert L e3⟩
    refine Sim.of_ok (a := t) ?_ ((sim_setInsert L H t x h.1 e1).mono fun q e => e ▸ h)
    rw [H.size, L.size]
    simp only [ok_bind, beq_self_eq_true, constAssert, if_true, H.mutNew, SetMut.new_eq L _ h.1]
  | contains x =>
    refine ⟨t, Sim.read_bind (Sim.user (r := .ok _) ?_ h), h⟩
    unfold Eff.asetContains
    have : (do
      constAssert (divCeil n 64 == divCeil (← J.size) 64)
      Eff.refNew c J t) = .ok t := by
      rw [H.size, L.size]
      simp only [ok_bind, beq_self_eq_true, constAssert, if_true, H.refNew, SetRef.new_eq L _ (.inr h.1)]
    rw [this]
    have := H.refContains c t x
    rw [SetRef.contains_eq L, h.2 x] at this
    exact this

theorem sim_set64Op (L : Lawful c I n) (H : Honest J I) (h64 : n ≤ 64) {m : τ → Bool} {t : OrdinalSet64}
    (h : OrdinalSet64.View I n m t) (op : SetOp τ) :
    CaughtSet (OrdinalSet64.View I n) m op t (Caught.set64Op c J op) := by
  have hs : (do constAssert ((← J.size) ≤ 64) : R Unit) = .ok () := by
    rw [H.size, L.size]
    simp [constAssert, h64]
  have hc : ∀ x, Ref (Eff.set64Contains c J t x) (.ok (m x)) := by
    intro x
    have : ordOf I x < 64 := by have := L.ord_lt x; omega
    unfold Eff.set64Contains
    rw [hs]
    have e := (H.ord x).bind (f := fun i => M.of (do
      let mask ← shl64 c 1 i
      .ok (t &&& mask != 0))) (g := fun i => do
      let mask ← shl64 c 1 i
      .ok (t &&& mask != 0)) fun i => .of _
    simp only [L.ordinal_eq x, ok_bind, shl64_ok c _ this, and_mask t _ this, h.1 x] at e
    exact e
  cases op with
  | insert x =>
    have hx : ordOf I x < 64 := by have := L.ord_lt x; omega
    refine ⟨_, Sim.read_bind (Sim.of_ok hs ?_), h.or L h64 x⟩
    refine Sim.user_ok (hc x) rfl h (Sim.user_ok (H.ord x) (L.ordinal_eq x) h ?_)
    exact Sim.of_ok (shl64_ok c _ hx) (Sim.write_bind (.ok _))
  | contains x => exact ⟨t, Sim.read_bind (Sim.user (hc x) h), h⟩

theorem caught_setStep {s : Type} {View : (τ → Bool) → s → Prop} {step : SetOp τ → Upd σ s Bool}
    (h : ∀ m t op, View m t → CaughtSet View m op t (step op)) (m : τ → Bool) (t : s) (op : SetOp τ) (st : σ)
    (ht : View m t) :
    ∃ e st' q, Caught.catchUnwind (step op) (st, t) = (.ok e, (st', q)) ∧
      ((e = .returned (SetSpec.step m op).1 ∧ View (SetSpec.step m op).2 q) ∨
        (e = .panicked ∧ ∃ m', m' = m ∧ View m' q) ∨ (e = .aborted ∧ False)) := by
  obtain ⟨q', h1, h2⟩ := h m t op ht
  obtain ⟨e, st', q, e1, e2⟩ := h1.caught st
  refine ⟨e, st', q, e1, ?_⟩
  rcases e2 with ⟨rfl, rfl⟩ | ⟨rfl, e2⟩
  · exact .inl ⟨rfl, h2⟩
  · exact .inr (.inl ⟨rfl, m, rfl, e2⟩)

end OrdinalMap
