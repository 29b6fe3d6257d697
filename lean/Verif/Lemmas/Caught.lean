import Verif.SpecCaught
import Verif.Lemmas.Effect
/-! # Code whose user code may panic at any time -/

namespace OrdinalMap

variable {σ s t α β ι K V W E ω ο : Type}

theorem M.bind_apply (x : M σ α) (f : α → M σ β) (st : σ) : (x >>= f) st =
    (match x st with
    | (.ok a, st) => f a st
    | (.error e, st) => (.error e, st)) := rfl

/-! ## Reading: the result is that of the pure code, or a panic -/

/-- `x` returns what `r` does, or panics. -/
def Ref (x : M σ α) (r : R α) : Prop := ∀ st,
  match (x st).1 with
  | .ok a => r = .ok a
  | .error e => e = .panic ∨ r = .error e

theorem Ref.of (r : R α) : Ref (M.of r : M σ α) r := by
  intro st
  unfold M.of
  cases r with
  | ok a => rfl
  | error e => exact .inr rfl

theorem Ref.bind {x : M σ α} {r : R α} {f : α → M σ β} {g : α → R β} (h : Ref x r) (hf : ∀ a, Ref (f a) (g a)) :
    Ref (x >>= f) (r >>= g) := by
  intro st
  have h := h st
  change match (M.bind x f st).1 with | .ok a => (r >>= g) = .ok a | .error e => e = .panic ∨ (r >>= g) = .error e
  unfold M.bind
  rcases hx : x st with ⟨a | a, st'⟩
  · rw [hx] at h
    rcases h with h | h
    · exact .inl h
    · rw [h]; exact .inr rfl
  · rw [hx] at h
    simp only at h
    rw [h]
    exact hf a st'

theorem Ref.of_bind {r : R α} {f : α → M σ β} {g : α → R β} (hf : ∀ a, Ref (f a) (g a)) :
    Ref (M.of r >>= f) (r >>= g) := (Ref.of r).bind hf

theorem Ref.call {x : M σ α} {r : R α} (h : ∀ st, (x st).1 = r ∨ (x st).1 = .error .panic) : Ref x r := by
  intro st
  rcases h st with h | h
  · rw [h]; cases r with
    | ok a => rfl
    | error e => exact .inr rfl
  · rw [h]; exact .inl rfl

namespace Honest

variable {J : SImpl σ K} {I : OrdinalImpl K} (H : Honest J I)
include H

theorem ord (k : K) : Ref (J.ordinal k) (I.ordinal k) := .call (H.ordinal k)
theorem from' (i : Nat) : Ref (J.fromOrdinal i) (I.fromOrdinal i) := .call (H.fromOrdinal i)

theorem valuesNew : Eff.valuesNew J = OrdinalValues.new I := by
  unfold Eff.valuesNew OrdinalValues.new
  rw [H.size]

theorem valuesNext (r : OrdinalValues) : Ref (Eff.valuesNext J r) (OrdinalValues.next I r) := by
  unfold Eff.valuesNext OrdinalValues.next
  rcases Range.next r with ⟨_ | i, r⟩
  · exact .of _
  · exact (H.from' i).bind fun o => .of_bind fun a => .of _

theorem valuesNextBack (r : OrdinalValues) : Ref (Eff.valuesNextBack J r) (OrdinalValues.nextBack I r) := by
  unfold Eff.valuesNextBack OrdinalValues.nextBack
  rcases Range.nextBack r with ⟨_ | i, r⟩
  · exact .of _
  · exact (H.from' i).bind fun o => .of_bind fun a => .of _

omit H in
theorem run {next nextBack : s → M σ (Option ι × s)} {it : DEIter s ι}
    (h1 : ∀ x, Ref (next x) (it.next x)) (h2 : ∀ x, Ref (nextBack x) (it.nextBack x)) (ds : List Dir) (x : s) :
    Ref (Eff.run next nextBack x ds) (it.run x ds) := by
  induction ds generalizing x with
  | nil => exact .of _
  | cons d ds ih =>
    unfold Eff.run DEIter.run
    cases d
    · exact (h1 x).bind fun p => (ih _).bind fun q => .of _
    · exact (h2 x).bind fun p => (ih _).bind fun q => .of _

theorem enumNext (c : Cfg) (S : StdIter s ι) (e : Enumerate s) :
    Ref (Eff.enumNext c J S e) (e.nextItem c I S) := by
  unfold Eff.enumNext Enumerate.nextItem
  rcases S.next e.iter with ⟨_ | v, iter⟩
  · exact .of _
  · exact (H.from' _).bind fun o => .of_bind fun k => .of_bind fun i => .of _

theorem enumNextBack (c : Cfg) (S : StdIter s ι) (e : Enumerate s) :
    Ref (Eff.enumNextBack c J S e) (e.nextBackItem c I S) := by
  unfold Eff.enumNextBack Enumerate.nextBackItem
  rcases S.nextBack e.iter with ⟨_ | v, iter⟩
  · exact .of _
  · exact .of_bind fun i => (H.from' _).bind fun o => .of_bind fun k => .of _

omit H in
theorem skipLoop {step : s → M σ (Option α × s)} {step' : s → R (Option α × s)}
    (h : ∀ x, Ref (step x) (step' x)) (body : α → s → R (Option β × s)) (fuel : Nat) (x : s) :
    Ref (Eff.skipLoop step body fuel x) (OrdinalMap.skipLoop step' body fuel x) := by
  induction fuel generalizing x with
  | zero => exact .of _
  | succ fuel ih =>
    unfold Eff.skipLoop OrdinalMap.skipLoop
    refine (h x).bind fun p => ?_
    rcases p with ⟨_ | a, y⟩
    · exact .of _
    · refine .of_bind fun q => ?_
      rcases q with ⟨_ | b, z⟩
      · exact ih z
      · exact .of _

theorem mapNext (c : Cfg) (it : MapIter V) : Ref (Eff.mapNext c J it) (it.next c I) :=
  skipLoop (fun x => H.enumNext c _ x) _ _ _

theorem mapNextBack (c : Cfg) (it : MapIter V) : Ref (Eff.mapNextBack c J it) (it.nextBack c I) :=
  skipLoop (fun x => H.enumNextBack c _ x) _ _ _

theorem mapLen (c : Cfg) (m : List (Option V)) :
    Ref (Eff.mapLen c J m) (MapIter.count c I (TotalIter.new m 0)) := by
  unfold Eff.mapLen MapIter.count
  generalize TotalIter.len (TotalIter.new m 0) + 1 = fuel
  generalize TotalIter.new m 0 = it
  generalize 0 = acc
  induction fuel generalizing it acc with
  | zero => exact .of _
  | succ fuel ih =>
    unfold Eff.countLoop MapIter.countLoop
    refine (H.mapNext c it).bind fun p => ?_
    rcases p with ⟨_ | a, y⟩
    · exact .of _
    · exact .of_bind fun acc => ih y acc

theorem mapIsEmpty (c : Cfg) (m : List (Option V)) :
    Ref (Eff.mapIsEmpty c J m) (do
      let (o, _) ← MapIter.next c I (TotalIter.new m 0)
      .ok o.isNone) := (H.mapNext c _).bind fun _ => .of _

omit H in
theorem mapItem {step : s → M σ (Option α × s)} {step' : s → R (Option α × s)} (h : ∀ x, Ref (step x) (step' x))
    (f : α → β) (x : s) : Ref (Eff.mapItem f step x) (do
      let (o, x) ← step' x
      .ok (o.map f, x)) := (h x).bind fun _ => .of _

theorem refContains (c : Cfg) (ws : SetRef) (x : K) : Ref (Eff.refContains c J ws x) (SetRef.contains c I ws x) := by
  unfold Eff.refContains SetRef.contains
  refine (H.ord x).bind fun i => ?_
  cases ws[i / 64]? with
  | none => exact .of _
  | some w => exact (H.ord x).bind fun j => .of _

theorem refNew (c : Cfg) (ws : List (BitVec 64)) : Eff.refNew c J ws = SetRef.new c I ws := by
  unfold Eff.refNew SetRef.new ordinalArraySetS
  rw [H.size]
  cases I.size <;> rfl

theorem mutNew (c : Cfg) (ws : List (BitVec 64)) : Eff.mutNew c J ws = SetMut.new c I ws := by
  unfold Eff.mutNew SetMut.new ordinalArraySetS
  rw [H.size]
  cases I.size <;> rfl

end Honest

/-! ## Writing: what was written before the panic stays -/

/-- On the collection `p`, `x` does what `r` says, or panics and leaves something that satisfies `F`. -/
def Sim (p : s) (x : Upd σ s α) (r : R (α × s)) (F : s → Prop) : Prop := ∀ st,
  match x (st, p) with
  | (.ok a, (_, q)) => r = .ok (a, q)
  | (.error e, (_, q)) => (e = .panic ∧ F q) ∨ r = .error e

namespace Sim

variable {p : s} {F G : s → Prop}

theorem mono {x : Upd σ s α} {r : R (α × s)} (h : Sim p x r F) (hf : ∀ q, F q → G q) : Sim p x r G := by
  intro st
  have h := h st
  rcases hx : x (st, p) with ⟨a | a, st', q⟩
  · rw [hx] at h
    exact h.imp (fun h => ⟨h.1, hf _ h.2⟩) id
  · rw [hx] at h; exact h

theorem of (r : R α) : Sim p (M.of r : Upd σ s α) (do .ok (← r, p)) F := by
  intro st
  unfold M.of
  cases r with
  | ok a => rfl
  | error e => exact .inr rfl

theorem ok (a : α) : Sim p (M.of (.ok a) : Upd σ s α) (.ok (a, p)) F := of (.ok a)

theorem bind {x : Upd σ s α} {r : R (α × s)} {f : α → Upd σ s β} {g : α × s → R (β × s)} (h : Sim p x r F)
    (hf : ∀ a q, r = .ok (a, q) → Sim q (f a) (g (a, q)) F) : Sim p (x >>= f) (r >>= g) F := by
  intro st
  have h := h st
  change match M.bind x f (st, p) with
    | (.ok a, (_, q)) => (r >>= g) = .ok (a, q)
    | (.error e, (_, q)) => (e = .panic ∧ F q) ∨ (r >>= g) = .error e
  unfold M.bind
  rcases hx : x (st, p) with ⟨a | a, st', q⟩
  · rw [hx] at h
    rcases h with h | h
    · exact .inl h
    · rw [h]; exact .inr rfl
  · rw [hx] at h
    simp only at h
    have := hf a q h st'
    rw [h]
    exact this

theorem read_bind {f : s → Upd σ s β} {r : R (β × s)} (h : Sim p (f p) r F) : Sim p (Upd.read >>= f) r F := h

theorem write_bind {q : s} {f : Unit → Upd σ s β} {r : R (β × s)} (h : Sim q (f ()) r F) :
    Sim p (Upd.write q >>= f) r F := h

theorem of_bind {r : R α} {f : α → Upd σ s β} {g : α → R (β × s)} (hf : ∀ a, r = .ok a → Sim p (f a) (g a) F) :
    Sim p (M.of r >>= f) (r >>= g) F := by
  cases r with
  | ok a => exact hf a rfl
  | error e => intro st; exact .inr rfl

theorem user_bind {x : M σ α} {r : R α} {f : α → Upd σ s β} {g : α → R (β × s)} (h : Ref x r) (hF : F p)
    (hf : ∀ a, r = .ok a → Sim p (f a) (g a) F) : Sim p (Upd.user x >>= f) (r >>= g) F := by
  intro st
  have h := h st
  change match M.bind (Upd.user x) f (st, p) with
    | (.ok a, (_, q)) => (r >>= g) = .ok (a, q)
    | (.error e, (_, q)) => (e = .panic ∧ F q) ∨ (r >>= g) = .error e
  unfold M.bind Upd.user
  rcases hx : x st with ⟨a | a, st'⟩
  · simp only
    rw [hx] at h
    rcases h with h | h
    · exact .inl ⟨h, hF⟩
    · rw [h]; exact .inr rfl
  · simp only
    rw [hx] at h
    simp only at h
    rw [h]
    exact hf a h st'

theorem user {x : M σ α} {r : R α} (h : Ref x r) (hF : F p) : Sim p (Upd.user x) (do .ok (← r, p)) F := by
  intro st
  have h := h st
  unfold Upd.user
  rcases hx : x st with ⟨a | a, st'⟩
  · simp only
    rw [hx] at h
    rcases h with h | h
    · exact .inl ⟨h, hF⟩
    · rw [h]; exact .inr rfl
  · simp only
    rw [hx] at h
    simp only at h
    rw [h]; rfl

theorem bind_ok {x : Upd σ s α} {a : α} {q : s} {f : α → Upd σ s β} {r : R (β × s)} (h : Sim p x (.ok (a, q)) F)
    (hf : Sim q (f a) r F) : Sim p (x >>= f) r F :=
  bind (g := fun _ => r) h fun a' q' e => by
    simp only [Except.ok.injEq, Prod.mk.injEq] at e
    obtain ⟨rfl, rfl⟩ := e
    exact hf

theorem of_ok {r0 : R α} {a : α} {f : α → Upd σ s β} {r : R (β × s)} (e : r0 = .ok a) (hf : Sim p (f a) r F) :
    Sim p (M.of r0 >>= f) r F := by subst e; exact hf

theorem user_ok {x : M σ α} {r0 : R α} {a : α} {f : α → Upd σ s β} {r : R (β × s)} (h : Ref x r0) (e : r0 = .ok a)
    (hF : F p) (hf : Sim p (f a) r F) : Sim p (Upd.user x >>= f) r F := by
  subst e
  exact user_bind (g := fun _ => r) h hF fun a' e => by
    simp only [Except.ok.injEq] at e
    subst e
    exact hf

theorem zoom {get : s → t} {set : s → t → s} {x : Upd σ t α} {r : R (α × t)} {H : t → Prop}
    (h : Sim (get p) x r H) (hF : ∀ q, H q → F (set p q)) :
    Sim p (Upd.zoom get set x) (do
      let (a, q) ← r
      .ok (a, set p q)) F := by
  intro st
  have h := h st
  unfold Upd.zoom
  rcases hx : x (st, get p) with ⟨a | a, st', q⟩
  · simp only
    rw [hx] at h
    rcases h with h | h
    · exact .inl ⟨h.1, hF _ h.2⟩
    · rw [h]; exact .inr rfl
  · simp only
    rw [hx] at h
    simp only at h
    rw [h]; rfl

end Sim

end OrdinalMap
