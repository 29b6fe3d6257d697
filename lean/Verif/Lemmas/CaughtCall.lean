import Verif.SpecCaughtIter
import Verif.Lemmas.CaughtSame
import Verif.Lemmas.CaughtSet
/-! # Iterators when a call panics -/

namespace OrdinalMap

variable {σ s α β ι K V : Type} {c : Cfg} {I : OrdinalImpl K} {J : SImpl σ K} {n : Nat}

/-- A run of caught calls from single calls. -/
theorem caught_calls {μ : Type} {next nextBack : Upd σ s (Option ι)} {spec : μ → Dir → Option ι × μ}
    {after : μ → Dir → μ → Prop} (View : μ → s → Prop)
    (h1 : ∀ m x, View m x → ∃ q, Sim x next (.ok ((spec m .front).1, q)) (fun q => ∃ m', after m .front m' ∧ View m' q) ∧
      View (spec m .front).2 q)
    (h2 : ∀ m x, View m x → ∃ q, Sim x nextBack (.ok ((spec m .back).1, q)) (fun q => ∃ m', after m .back m' ∧ View m' q) ∧
      View (spec m .back).2 q) {m : μ} {x : s} (h : View m x) :
    RunsCaught (Caught.call next nextBack) spec after (fun _ => False) x m View := by
  refine caught_run View (fun m x d st h => ?_) h
  cases d with
  | front =>
    obtain ⟨q', g1, g2⟩ := h1 m x h
    obtain ⟨e, st', q, e1, e2⟩ := g1.caught st
    refine ⟨e, st', q, e1, ?_⟩
    rcases e2 with ⟨rfl, rfl⟩ | ⟨rfl, e2⟩
    · exact .inl ⟨rfl, g2⟩
    · exact .inr (.inl ⟨rfl, e2⟩)
  | back =>
    obtain ⟨q', g1, g2⟩ := h2 m x h
    obtain ⟨e, st', q, e1, e2⟩ := g1.caught st
    refine ⟨e, st', q, e1, ?_⟩
    rcases e2 with ⟨rfl, rfl⟩ | ⟨rfl, e2⟩
    · exact .inl ⟨rfl, g2⟩
    · exact .inr (.inl ⟨rfl, e2⟩)

/-! ## `OrdinalEnumerate` -/

theorem sim_enumNext (H : Honest J I) (S : StdIter s ι) (e : Enumerate s) :
    Sim e (Caught.enumNext c J S) (e.nextItem c I S)
      (fun q => (S.next e.iter).1 ≠ none ∧ q = ⟨e.next, (S.next e.iter).2⟩) := by
  refine Sim.read_bind ?_
  unfold Enumerate.nextItem
  rcases hn : S.next e.iter with ⟨_ | v, it⟩
  · exact Sim.write_bind (.ok _)
  · refine Sim.write_bind ?_
    refine Sim.user_bind (H.from' e.next) ⟨by simp, rfl⟩ fun o _ => ?_
    refine Sim.of_bind fun k _ => Sim.of_bind fun i _ => ?_
    exact Sim.write_bind (.ok _)

theorem sim_enumNextBack (H : Honest J I) (S : StdIter s ι) (e : Enumerate s) :
    Sim e (Caught.enumNextBack c J S) (e.nextBackItem c I S)
      (fun q => (S.nextBack e.iter).1 ≠ none ∧ q = ⟨e.next, (S.nextBack e.iter).2⟩) := by
  refine Sim.read_bind ?_
  unfold Enumerate.nextBackItem
  rcases hn : S.nextBack e.iter with ⟨_ | v, it⟩
  · exact Sim.write_bind (.ok _)
  · refine Sim.write_bind ?_
    refine Sim.of_bind fun i _ => ?_
    refine Sim.user_bind (H.from' i) ⟨by simp, rfl⟩ fun o _ => ?_
    exact Sim.of_bind fun k _ => .ok _

theorem shift_length (ps : List (K × ι)) : (Pairing.shift ps).length = ps.length - 1 := by
  simp only [Pairing.shift, List.length_zip, List.length_map, List.length_tail]; omega

theorem shift_snd (ps : List (K × ι)) : (Pairing.shift ps).map (·.2) = (ps.map (·.2)).tail := by
  rw [Pairing.shift, List.map_snd_zip]
  simp

theorem shift_fst (ps : List (K × ι)) : (Pairing.shift ps).map (·.1) = (ps.map (·.1)).dropLast := by
  cases ps with
  | nil => rfl
  | cons p ps =>
    apply List.ext_getElem?
    intro i
    simp only [Pairing.shift, List.getElem?_map, List.map_cons, List.tail_cons,
      List.zip, List.getElem?_zipWith, List.getElem?_dropLast, List.length_cons, List.length_map]
    rcases Nat.lt_or_ge i ps.length with h | h
    · rw [if_pos (by omega)]
      obtain ⟨z, h1⟩ : ∃ z, (p.1 :: List.map (fun x => x.1) ps)[i]? = some z :=
        ⟨_, List.getElem?_eq_getElem (by simp; omega)⟩
      rw [h1, List.getElem?_eq_getElem h]
      rfl
    · rw [if_neg (by omega), List.getElem?_eq_none h]
      generalize (p.1 :: List.map (fun x => x.1) ps)[i]? = z
      cases z <;> rfl

variable {S : StdIter s ι} {SV : List ι → s → Prop}

theorem EView.shift (hS : S.Views SV) {L : Lawful c I n} {ps : List (K × ι)} {e : Enumerate s} (h : EView I n SV ps e)
    (hn : ps ≠ []) : EView I n SV (Pairing.shift ps) ⟨e.next, (S.next e.iter).2⟩ := by
  obtain ⟨h1, h2, h3⟩ := h
  obtain ⟨it', e1, e2⟩ := hS.next _ _ h1
  have hl : 0 < ps.length := List.length_pos_iff.2 hn
  refine ⟨?_, ?_, ?_⟩
  · rw [e1, shift_snd]; exact e2
  · rw [shift_length]; dsimp only; omega
  · rw [shift_fst, h3, shift_length, slice_dropLast_all _ _ _ (by rw [values_length L]; exact h2)]
    dsimp only
    congr 1; omega

theorem EView.lose (hS : S.Views SV) {L : Lawful c I n} {ps : List (K × ι)} {e : Enumerate s} (h : EView I n SV ps e)
    (hn : ps ≠ []) : EView I n SV ps.dropLast ⟨e.next, (S.nextBack e.iter).2⟩ := by
  obtain ⟨h1, h2, h3⟩ := h
  obtain ⟨it', e1, e2⟩ := hS.nextBack _ _ h1
  have hl : 0 < ps.length := List.length_pos_iff.2 hn
  refine ⟨?_, ?_, ?_⟩
  · rw [e1, List.map_dropLast]; exact e2
  · rw [List.length_dropLast]; dsimp only; omega
  · rw [List.map_dropLast, h3, List.length_dropLast, slice_dropLast_all _ _ _ (by rw [values_length L]; exact h2)]
    dsimp only
    congr 1; omega

theorem call_enumNext (L : Lawful c I n) (H : Honest J I) (hS : S.Views SV) (ps : List (K × ι)) (e : Enumerate s)
    (h : EView I n SV ps e) : ∃ q, Sim e (Caught.enumNext c J S) (.ok (ps.head?, q))
        (fun q => ∃ ps', Pairing.after ps .front ps' ∧ EView I n SV ps' q) ∧ EView I n SV ps.tail q := by
  obtain ⟨q, h1, h2⟩ := h.next L hS e ps
  refine ⟨q, ?_, h2⟩
  rw [← h1]
  refine (sim_enumNext H S e).mono ?_
  rintro q ⟨g1, rfl⟩
  obtain ⟨it', e1, e2⟩ := hS.next _ _ h.1
  have hn : ps ≠ [] := by rintro rfl; rw [e1] at g1; exact g1 rfl
  exact ⟨_, ⟨hn, rfl⟩, h.shift hS (L := L) hn⟩

theorem call_enumNextBack (L : Lawful c I n) (H : Honest J I) (hS : S.Views SV) (ps : List (K × ι)) (e : Enumerate s)
    (h : EView I n SV ps e) : ∃ q, Sim e (Caught.enumNextBack c J S) (.ok (ps.getLast?, q))
        (fun q => ∃ ps', Pairing.after ps .back ps' ∧ EView I n SV ps' q) ∧ EView I n SV ps.dropLast q := by
  obtain ⟨q, h1, h2⟩ := h.nextBack L hS e ps
  refine ⟨q, ?_, h2⟩
  rw [← h1]
  refine (sim_enumNextBack H S e).mono ?_
  rintro q ⟨g1, rfl⟩
  obtain ⟨it', e1, e2⟩ := hS.nextBack _ _ h.1
  have hn : ps ≠ [] := by rintro rfl; rw [e1] at g1; exact g1 rfl
  exact ⟨_, ⟨hn, rfl⟩, h.lose hS (L := L) hn⟩

/-! ## The loops -/

theorem absent_front_some (k : K) (v : V) (ps : List (K × Option V)) : Sparse.absent ((k, some v) :: ps) .front = 0 := rfl

theorem absent_front_none (k : K) (ps : List (K × Option V)) :
    Sparse.absent ((k, none) :: ps) .front = Sparse.absent ps .front + 1 := rfl

theorem absent_back_some (k : K) (v : V) (ps : List (K × Option V)) :
    Sparse.absent (ps ++ [(k, some v)]) .back = 0 := by
  simp [Sparse.absent]

theorem absent_back_none (k : K) (ps : List (K × Option V)) :
    Sparse.absent (ps ++ [(k, none)]) .back = Sparse.absent ps .back + 1 := by
  simp [Sparse.absent]

theorem skip_back_snoc (p : K × Option V) (ps : List (K × Option V)) (j : Nat) :
    Sparse.skip (ps ++ [p]) (j + 1) .back = Sparse.skip ps j .back := by
  simp only [Sparse.skip, List.length_append, List.length_cons, List.length_nil]
  rw [show ps.length + (0 + 1) - (j + 1) = ps.length - j by omega, List.take_append_of_le_length (by omega)]

theorem skip_zero (ps : List (K × Option V)) (d : Dir) : Sparse.skip ps 0 d = ps := by
  cases d <;> simp [Sparse.skip]

theorem call_skip_front {step : Upd σ s (Option ι)} {body : ι → Upd σ s (Option (K × V))}
    {View : List (K × Option V) → s → Prop} {P : List (K × Option V) → s → Prop}
    (hnil : ∀ x, View [] x → ∃ q, Sim x step (.ok (none, q)) (fun q => P [] q) ∧ View [] q)
    (hcons : ∀ k o l x, View ((k, o) :: l) x → ∃ a q q', Sim x step (.ok (some a, q)) (fun q => P ((k, o) :: l) q) ∧
      (∀ F, Sim q (body a) (.ok (o.map fun v => (k, v), q')) F) ∧ View l q') :
    ∀ (ps : List (K × Option V)) (fuel : Nat) (x : s), View ps x → ps.length < fuel →
      ∃ q, Sim x (Caught.skipLoop step body fuel) (.ok ((Sparse.step ps .front).1, q))
          (fun q => ∃ j, j ≤ Sparse.absent ps .front ∧ P (Sparse.skip ps j .front) q) ∧
        View (Sparse.step ps .front).2 q := by
  intro ps
  induction ps with
  | nil =>
    intro fuel x hv hf
    obtain ⟨fuel, rfl⟩ : ∃ k, fuel = k + 1 := ⟨fuel - 1, by omega⟩
    obtain ⟨q, h1, h2⟩ := hnil x hv
    unfold Caught.skipLoop
    refine ⟨q, (h1.mono fun q hq => ⟨0, Nat.zero_le _, hq⟩).bind_ok (.ok _), h2⟩
  | cons p ps ih =>
    intro fuel x hv hf
    obtain ⟨fuel, rfl⟩ : ∃ k, fuel = k + 1 := ⟨fuel - 1, by omega⟩
    obtain ⟨k, o⟩ := p
    obtain ⟨a, q, q', h1, h2, h3⟩ := hcons k o ps x hv
    unfold Caught.skipLoop
    cases o with
    | some v =>
      refine ⟨q', (h1.mono fun q hq => ⟨0, Nat.zero_le _, hq⟩).bind_ok ((h2 _).bind_ok (.ok _)), h3⟩
    | none =>
      obtain ⟨q'', g1, g2⟩ := ih fuel q' h3 (by simpa using hf)
      refine ⟨q'', (h1.mono fun q hq => ⟨0, Nat.zero_le _, hq⟩).bind_ok ((h2 _).bind_ok ?_), g2⟩
      exact g1.mono fun q ⟨j, hj, hq⟩ => ⟨j + 1, by rw [absent_front_none]; omega, hq⟩

theorem step_back_none (k : K) (ps : List (K × Option V)) :
    Sparse.step (ps ++ [(k, none)]) .back = Sparse.step ps .back := by
  simp only [Sparse.step, absent_back_none, skip_back_snoc]

theorem step_back_some (k : K) (v : V) (ps : List (K × Option V)) :
    Sparse.step (ps ++ [(k, some v)]) .back = (some (k, v), ps) := by
  simp [Sparse.step, absent_back_some, skip_zero, Deque.step]

theorem call_skip_back {step : Upd σ s (Option ι)} {body : ι → Upd σ s (Option (K × V))}
    {View : List (K × Option V) → s → Prop} {P : List (K × Option V) → s → Prop}
    (hnil : ∀ x, View [] x → ∃ q, Sim x step (.ok (none, q)) (fun q => P [] q) ∧ View [] q)
    (hcons : ∀ k o l x, View (l ++ [(k, o)]) x → ∃ a q q', Sim x step (.ok (some a, q)) (fun q => P (l ++ [(k, o)]) q) ∧
      (∀ F, Sim q (body a) (.ok (o.map fun v => (k, v), q')) F) ∧ View l q') (fuel : Nat) :
    ∀ (ps : List (K × Option V)) (x : s), View ps x → ps.length < fuel →
      ∃ q, Sim x (Caught.skipLoop step body fuel) (.ok ((Sparse.step ps .back).1, q))
          (fun q => ∃ j, j ≤ Sparse.absent ps .back ∧ P (Sparse.skip ps j .back) q) ∧
        View (Sparse.step ps .back).2 q := by
  induction fuel with
  | zero => intro ps x hv hf; omega
  | succ fuel ih =>
    intro ps x hv hf
    unfold Caught.skipLoop
    rcases List.eq_nil_or_concat ps with rfl | ⟨ps, ⟨k, o⟩, rfl⟩
    · obtain ⟨q, h1, h2⟩ := hnil x hv
      refine ⟨q, (h1.mono fun q hq => ⟨0, Nat.zero_le _, hq⟩).bind_ok (.ok _), h2⟩
    · simp only [List.concat_eq_append] at *
      obtain ⟨a, q, q', h1, h2, h3⟩ := hcons k o ps x hv
      cases o with
      | some v =>
        rw [step_back_some]
        refine ⟨q', (h1.mono fun q hq => ⟨0, Nat.zero_le _, by rwa [skip_zero]⟩).bind_ok ((h2 _).bind_ok (.ok _)), h3⟩
      | none =>
        rw [step_back_none]
        obtain ⟨q'', g1, g2⟩ := ih ps q' h3 (by simp at hf; omega)
        refine ⟨q'', (h1.mono fun q hq => ⟨0, Nat.zero_le _, by rwa [skip_zero]⟩).bind_ok ((h2 _).bind_ok ?_), g2⟩
        exact g1.mono fun q ⟨j, hj, hq⟩ => ⟨j + 1, by rw [absent_back_none]; omega, by rwa [skip_back_snoc]⟩

/-! ## Maps -/

theorem call_total (L : Lawful c I n) (H : Honest J I) (hS : S.Views SV) {ps : List (K × ι)} {e : Enumerate s}
    (h : EView I n SV ps e) : RunsCaught (Caught.call (Caught.enumNext c J S) (Caught.enumNextBack c J S)) Deque.step
      Pairing.after (fun _ => False) e ps (EView I n SV) :=
  caught_calls _ (call_enumNext L H hS) (call_enumNextBack L H hS) h

theorem call_map (L : Lawful c I n) (H : Honest J I) {ps : List (K × Option V)} {e : MapIter V}
    (h : EView I n (fun l s => s = l) ps e) :
    RunsCaught (Caught.call (Caught.mapNext c J) (Caught.mapNextBack c J)) Sparse.step
      Sparse.after (fun _ => False) e ps (EView I n (fun l s => s = l)) := by
  have hS := listIter_views (Option V)
  refine caught_calls _ (fun ps e h => ?_) (fun ps e h => ?_) h
  · obtain ⟨q, h1, h2⟩ := call_skip_front (View := EView I n (fun l s => s = l))
      (P := fun ps q => ∃ ps', Pairing.after ps .front ps' ∧ EView I n (fun l s => s = l) ps' q)
      (step := Caught.enumNext c J (listIter (Option V))) (body := fun p => .of (.ok (p.2.map fun v => (p.1, v))))
      (fun x hx => call_enumNext L H hS [] x hx)
      (fun k o l x hx => by
        obtain ⟨q, h1, h2⟩ := call_enumNext L H hS ((k, o) :: l) x hx
        exact ⟨(k, o), q, q, h1, fun F => .ok _, h2⟩)
      ps (TotalIter.len e + 1) e h (by rw [show TotalIter.len e = ps.length from h.len hS]; omega)
    refine ⟨q, Sim.read_bind (h1.mono ?_), h2⟩
    rintro q ⟨j, hj, ps', g1, g2⟩
    exact ⟨ps', ⟨j, hj, g1⟩, g2⟩
  · obtain ⟨q, h1, h2⟩ := call_skip_back (View := EView I n (fun l s => s = l))
      (P := fun ps q => ∃ ps', Pairing.after ps .back ps' ∧ EView I n (fun l s => s = l) ps' q)
      (step := Caught.enumNextBack c J (listIter (Option V))) (body := fun p => .of (.ok (p.2.map fun v => (p.1, v))))
      (fun x hx => call_enumNextBack L H hS [] x hx)
      (fun k o l x hx => by
        obtain ⟨q, h1, h2⟩ := call_enumNextBack L H hS (l ++ [(k, o)]) x hx
        rw [List.getLast?_concat] at h1
        rw [List.dropLast_concat] at h2
        exact ⟨(k, o), q, q, h1, fun F => .ok _, h2⟩)
      (TotalIter.len e + 1) ps e h (by rw [show TotalIter.len e = ps.length from h.len hS]; omega)
    refine ⟨q, Sim.read_bind (h1.mono ?_), h2⟩
    rintro q ⟨j, hj, ps', g1, g2⟩
    exact ⟨ps', ⟨j, hj, g1⟩, g2⟩

/-! ## Mutable iterators -/

/-- `mutNext` is `enumNext` on the iterator inside. -/
theorem mutNext_eq : Caught.mutNext (V := V) c J =
    Upd.zoom (fun x => x.it) (fun x e => ⟨x.mem, e⟩) (Caught.enumNext c J slotIter) := by
  funext ⟨st, mem, next, r⟩
  simp only [Caught.mutNext, Caught.enumNext, M.bind_apply, Upd.read, Upd.zoom, slotIter]
  rcases Range.next r with ⟨_ | slot, r⟩
  · rfl
  · simp only [M.bind_apply, Upd.write, Upd.user]
    rcases J.fromOrdinal next st with ⟨e | o, st'⟩
    · rfl
    · cases o with
      | none => rfl
      | some k =>
        simp only [unwrap, M.of]
        rcases addU c next 1 with e | next
        · rfl
        · rfl

theorem mutNextBack_eq : Caught.mutNextBack (V := V) c J =
    Upd.zoom (fun x => x.it) (fun x e => ⟨x.mem, e⟩) (Caught.enumNextBack c J slotIter) := by
  funext ⟨st, mem, next, r⟩
  simp only [Caught.mutNextBack, Caught.enumNextBack, M.bind_apply, Upd.read, Upd.zoom, slotIter]
  rcases Range.nextBack r with ⟨_ | slot, r⟩
  · rfl
  · simp only [M.bind_apply, Upd.write, Upd.user, M.of]
    rcases addU c next (Range.len r) with e | i
    · rfl
    · simp only
      rcases J.fromOrdinal i st with ⟨e | o, st'⟩
      · rfl
      · cases o with
        | none => rfl
        | some k => rfl

theorem call_mutNext (L : Lawful c I n) (H : Honest J I) (mem : List V) (ps : List (K × Nat)) (x : TotalIterMut V)
    (h : x.mem = mem ∧ EView I n SlotView ps x.it) : ∃ q, Sim x (Caught.mutNext c J) (.ok (ps.head?, q))
        (fun q => ∃ ps', Pairing.after ps .front ps' ∧ q.mem = mem ∧ EView I n SlotView ps' q.it) ∧
      q.mem = mem ∧ EView I n SlotView ps.tail q.it := by
  obtain ⟨q, h1, h2⟩ := call_enumNext L H slotIter_views ps x.it h.2
  rw [mutNext_eq]
  have h3 := Sim.zoom (p := x) (get := fun x : TotalIterMut V => x.it) (set := fun x e => ⟨x.mem, e⟩) h1
    (F := fun q => ∃ ps', Pairing.after ps .front ps' ∧ q.mem = mem ∧ EView I n SlotView ps' q.it)
    (fun q ⟨ps', e1, e2⟩ => ⟨ps', e1, h.1, e2⟩)
  exact ⟨⟨x.mem, q⟩, h3, h.1, h2⟩

theorem call_mutNextBack (L : Lawful c I n) (H : Honest J I) (mem : List V) (ps : List (K × Nat)) (x : TotalIterMut V)
    (h : x.mem = mem ∧ EView I n SlotView ps x.it) : ∃ q, Sim x (Caught.mutNextBack c J) (.ok (ps.getLast?, q))
        (fun q => ∃ ps', Pairing.after ps .back ps' ∧ q.mem = mem ∧ EView I n SlotView ps' q.it) ∧
      q.mem = mem ∧ EView I n SlotView ps.dropLast q.it := by
  obtain ⟨q, h1, h2⟩ := call_enumNextBack L H slotIter_views ps x.it h.2
  rw [mutNextBack_eq]
  have h3 := Sim.zoom (p := x) (get := fun x : TotalIterMut V => x.it) (set := fun x e => ⟨x.mem, e⟩) h1
    (F := fun q => ∃ ps', Pairing.after ps .back ps' ∧ q.mem = mem ∧ EView I n SlotView ps' q.it)
    (fun q ⟨ps', e1, e2⟩ => ⟨ps', e1, h.1, e2⟩)
  exact ⟨⟨x.mem, q⟩, h3, h.1, h2⟩

theorem call_totalMut (L : Lawful c I n) (H : Honest J I) {mem : List V} {ps : List (K × Nat)} {x : TotalIterMut V}
    (h : x.mem = mem ∧ EView I n SlotView ps x.it) :
    RunsCaught (Caught.call (Caught.mutNext c J) (Caught.mutNextBack c J)) Deque.step
      Pairing.after (fun _ => False) x ps (fun ps x => x.mem = mem ∧ EView I n SlotView ps x.it) :=
  caught_calls _ (fun ps x h => call_mutNext L H mem ps x h) (fun ps x h => call_mutNextBack L H mem ps x h) h

/-- The items `iter_mut()` of a sparse map has for these slots. -/
def slotItem (mem : List (Option V)) (p : K × Nat) : K × Option Nat := (p.1, (mem[p.2]?).join.map fun _ => p.2)

/-- What is left to yield. -/
def MutView (I : OrdinalImpl K) (n : Nat) (mem : List (Option V)) (ps : List (K × Option Nat)) (x : MapIterMut V) : Prop :=
  x.mem = mem ∧ ∃ qs, EView I n SlotView qs x.it ∧ (∀ q ∈ qs, q.2 < mem.length) ∧ ps = qs.map (slotItem mem)

theorem shift_map {α β : Type} (f : α → β) (ps : List (K × α)) :
    Pairing.shift (ps.map fun p => (p.1, f p.2)) = (Pairing.shift ps).map fun p => (p.1, f p.2) := by
  apply List.ext_getElem?
  intro i
  simp only [Pairing.shift, List.map_map, List.zip, List.getElem?_zipWith, List.getElem?_map, Function.comp_def,
    List.getElem?_tail]
  rcases ps[i]? with _ | a <;> rcases ps[i + 1]? with _ | b <;> rfl

theorem mem_shift {ps : List (K × ι)} {p : K × ι} (h : p ∈ Pairing.shift ps) : ∃ q ∈ ps, q.2 = p.2 := by
  have := (List.of_mem_zip (show (p.1, p.2) ∈ _ from h)).2
  have := List.mem_of_mem_tail this
  obtain ⟨q, h1, h2⟩ := List.mem_map.1 this
  exact ⟨q, h1, h2⟩

theorem MutView.after {mem : List (Option V)} {qs qs' : List (K × Nat)} {x : MapIterMut V} {d : Dir}
    (h1 : ∀ q ∈ qs, q.2 < mem.length) (h2 : Pairing.after qs d qs') (h3 : x.mem = mem) (h4 : EView I n SlotView qs' x.it) :
    ∃ ps', Pairing.after (qs.map (slotItem mem)) d ps' ∧ MutView I n mem ps' x := by
  cases d with
  | front =>
    obtain ⟨h2, rfl⟩ := h2
    refine ⟨_, ⟨by simpa using h2, rfl⟩, h3, _, h4, fun q hq => ?_, ?_⟩
    · obtain ⟨r, g1, g2⟩ := mem_shift hq
      rw [← g2]; exact h1 r g1
    · exact shift_map (fun i => (mem[i]?).join.map fun _ => i) qs
  | back =>
    obtain ⟨h2, rfl⟩ := h2
    refine ⟨_, ⟨by simpa using h2, rfl⟩, h3, _, h4, fun q hq => h1 q (List.dropLast_subset _ hq), ?_⟩
    rw [List.map_dropLast]

theorem sim_slotBody {mem : List (Option V)} {p : K × Nat} (h : p.2 < mem.length) (q : MapIterMut V) (hq : q.mem = mem)
    (F : MapIterMut V → Prop) : Sim (σ := σ) q (Caught.mapBody p)
      (.ok ((slotItem mem p).2.map fun i => ((slotItem mem p).1, i), q)) F := by
  refine Sim.read_bind ?_
  rw [hq]
  simp only [slotItem]
  rw [List.getElem?_eq_getElem h]
  rcases mem[p.2] with _ | v
  · exact .ok _
  · exact .ok _

theorem call_mapMut (L : Lawful c I n) (H : Honest J I) {mem : List (Option V)} {ps : List (K × Option Nat)}
    {x : MapIterMut V} (h : MutView I n mem ps x) :
    RunsCaught (Caught.call (Caught.mapMutNext c J) (Caught.mapMutNextBack c J)) Sparse.step
      Sparse.after (fun _ => False) x ps (MutView I n mem) := by
  refine caught_calls _ (fun ps x h => ?_) (fun ps x h => ?_) h
  · obtain ⟨q, h1, h2⟩ := call_skip_front (View := MutView I n mem)
      (P := fun ps q => ∃ ps', Pairing.after ps .front ps' ∧ MutView I n mem ps' q)
      (step := Caught.mutNext c J) (body := Caught.mapBody)
      (fun x hx => by
        obtain ⟨e1, qs, e2, e3, e4⟩ := hx
        obtain rfl : qs = [] := by simpa using e4.symm
        obtain ⟨q, g1, g2⟩ := call_mutNext L H mem [] x ⟨e1, e2⟩
        refine ⟨q, g1.mono ?_, g2.1, [], g2.2, by simp, rfl⟩
        rintro q ⟨ps', ⟨f1, _⟩, _⟩
        exact absurd rfl f1)
      (fun k o l x hx => by
        obtain ⟨e1, qs, e2, e3, e4⟩ := hx
        cases qs with
        | nil => simp at e4
        | cons p qs =>
          rw [List.map_cons, List.cons.injEq] at e4
          obtain ⟨e4, rfl⟩ := e4
          obtain ⟨q, g1, g2, g3⟩ := call_mutNext L H mem (p :: qs) x ⟨e1, e2⟩
          have := sim_slotBody (σ := σ) (e3 p (by simp)) q g2
          rw [← e4] at this
          refine ⟨p, q, q, g1.mono ?_, this, g2, qs, g3, fun q hq => e3 q (by simp [hq]), rfl⟩
          rintro q ⟨ps', f1, f2, f3⟩
          have := MutView.after e3 f1 f2 f3
          rwa [List.map_cons, ← e4] at this)
      ps (TotalIterMut.len x + 1) x h (by
        obtain ⟨e1, qs, e2, e3, rfl⟩ := h
        rw [show TotalIterMut.len x = qs.length from e2.len slotIter_views, List.length_map]; omega)
    refine ⟨q, Sim.read_bind (h1.mono ?_), h2⟩
    rintro q ⟨j, hj, ps', g1, g2⟩
    exact ⟨ps', ⟨j, hj, g1⟩, g2⟩
  · obtain ⟨q, h1, h2⟩ := call_skip_back (View := MutView I n mem)
      (P := fun ps q => ∃ ps', Pairing.after ps .back ps' ∧ MutView I n mem ps' q)
      (step := Caught.mutNextBack c J) (body := Caught.mapBody)
      (fun x hx => by
        obtain ⟨e1, qs, e2, e3, e4⟩ := hx
        obtain rfl : qs = [] := by simpa using e4.symm
        obtain ⟨q, g1, g2⟩ := call_mutNextBack L H mem [] x ⟨e1, e2⟩
        refine ⟨q, g1.mono ?_, g2.1, [], g2.2, by simp, rfl⟩
        rintro q ⟨ps', ⟨f1, _⟩, _⟩
        exact absurd rfl f1)
      (fun k o l x hx => by
        obtain ⟨e1, qs, e2, e3, e4⟩ := hx
        rcases List.eq_nil_or_concat qs with rfl | ⟨qs, p, rfl⟩
        · simp at e4
        · simp only [List.concat_eq_append] at *
          rw [List.map_append, List.map_cons, List.map_nil] at e4
          obtain ⟨rfl, e5⟩ := List.append_inj' e4 rfl
          clear e4
          have e4 := List.cons.inj e5
          clear e5
          obtain ⟨q, g1, g2, g3⟩ := call_mutNextBack L H mem (qs ++ [p]) x ⟨e1, e2⟩
          rw [List.getLast?_concat] at g1
          rw [List.dropLast_concat] at g3
          have := sim_slotBody (σ := σ) (e3 p (by simp)) q g2
          rw [← e4.1] at this
          refine ⟨p, q, q, g1.mono ?_, this, g2, qs, g3, fun q hq => e3 q (by simp [hq]), rfl⟩
          rintro q ⟨ps', f1, f2, f3⟩
          have := MutView.after e3 f1 f2 f3
          rwa [List.map_append, List.map_cons, List.map_nil, ← e4.1] at this)
      (TotalIterMut.len x + 1) ps x h (by
        obtain ⟨e1, qs, e2, e3, rfl⟩ := h
        rw [show TotalIterMut.len x = qs.length from e2.len slotIter_views, List.length_map]; omega)
    refine ⟨q, Sim.read_bind (h1.mono ?_), h2⟩
    rintro q ⟨j, hj, ps', g1, g2⟩
    exact ⟨ps', ⟨j, hj, g1⟩, g2⟩

/-! ## `OrdinalValues` -/

theorem sim_valuesNext (H : Honest J I) (r : OrdinalValues) : Sim r (Caught.valuesNext J) (OrdinalValues.next I r)
    (fun q => r.start < r.stop ∧ q = ⟨r.start + 1, r.stop⟩) := by
  refine Sim.read_bind ?_
  unfold OrdinalValues.next Range.next
  by_cases h : r.start < r.stop
  · simp only [h, if_true]
    refine Sim.write_bind ?_
    refine Sim.user_bind (H.from' _) ⟨trivial, rfl⟩ fun o _ => ?_
    exact Sim.of_bind fun k _ => .ok _
  · simp only [h, if_false]
    exact Sim.write_bind (.ok _)

theorem sim_valuesNextBack (H : Honest J I) (r : OrdinalValues) :
    Sim r (Caught.valuesNextBack J) (OrdinalValues.nextBack I r)
      (fun q => r.start < r.stop ∧ q = ⟨r.start, r.stop - 1⟩) := by
  refine Sim.read_bind ?_
  unfold OrdinalValues.nextBack Range.nextBack
  by_cases h : r.start < r.stop
  · simp only [h, if_true]
    refine Sim.write_bind ?_
    refine Sim.user_bind (H.from' _) ⟨trivial, rfl⟩ fun o _ => ?_
    exact Sim.of_bind fun k _ => .ok _
  · simp only [h, if_false]
    exact Sim.write_bind (.ok _)

theorem call_valuesNext (L : Lawful c I n) (H : Honest J I) (l : List K) (r : OrdinalValues)
    (h : OrdinalValues.View I n l r) : ∃ q, Sim r (Caught.valuesNext J) (.ok (l.head?, q))
        (fun q => ∃ l', Lossy.after l .front l' ∧ OrdinalValues.View I n l' q) ∧ OrdinalValues.View I n l.tail q := by
  obtain ⟨q, h1, h2, _⟩ := OrdinalValues.next_view L r l h
  refine ⟨q, ?_, h2⟩
  rw [← h1]
  refine (sim_valuesNext H r).mono ?_
  rintro q ⟨g1, rfl⟩
  obtain ⟨e1, e2, rfl⟩ := h
  refine ⟨_, ⟨?_, rfl⟩, ?_, e2, slice_tail _ _ _⟩
  · intro e
    have := congrArg List.length e
    rw [slice_length _ _ _ (by rw [values_length L]; exact e2), List.length_nil] at this
    omega
  · dsimp only; omega

theorem call_valuesNextBack (L : Lawful c I n) (H : Honest J I) (l : List K) (r : OrdinalValues)
    (h : OrdinalValues.View I n l r) : ∃ q, Sim r (Caught.valuesNextBack J) (.ok (l.getLast?, q))
        (fun q => ∃ l', Lossy.after l .back l' ∧ OrdinalValues.View I n l' q) ∧ OrdinalValues.View I n l.dropLast q := by
  obtain ⟨q, h1, h2⟩ := OrdinalValues.nextBack_view L r l h
  refine ⟨q, ?_, h2⟩
  rw [← h1]
  refine (sim_valuesNextBack H r).mono ?_
  rintro q ⟨g1, rfl⟩
  obtain ⟨e1, e2, rfl⟩ := h
  refine ⟨_, ⟨?_, rfl⟩, ?_, ?_, slice_dropLast _ g1 (by rw [values_length L]; exact e2)⟩
  · intro e
    have := congrArg List.length e
    rw [slice_length _ _ _ (by rw [values_length L]; exact e2), List.length_nil] at this
    omega
  · dsimp only; omega
  · dsimp only; omega

theorem call_values (L : Lawful c I n) (H : Honest J I) {l : List K} {r : OrdinalValues}
    (h : OrdinalValues.View I n l r) :
    RunsCaught (Caught.call (Caught.valuesNext J) (Caught.valuesNextBack J)) Deque.step Lossy.after (fun _ => False) r l
      (OrdinalValues.View I n) :=
  caught_calls _ (call_valuesNext L H) (call_valuesNextBack L H) h

/-! ## Sets -/

theorem sim_setContains (L : Lawful c I n) (H : Honest J I) {t : Type} {p : t} {ws : SetRef} (x : K) {f : Bool → Upd σ t β}
    {r : R (β × t)} {F : t → Prop} (hF : F p) (hf : Sim p (f (wbit ws (ordOf I x))) r F) :
    Sim p (Upd.user (Eff.refContains c J ws x) >>= f) r F :=
  Sim.user_ok (H.refContains c ws x) (SetRef.contains_eq L ws x) hF hf

theorem call_setLoop_front (L : Lawful c I n) (H : Honest J I) (ws : SetRef) (fuel : Nat) :
    ∀ (l : List K) (it : SetIter), it.set = ws → OrdinalValues.View I n l it.iter → l.length < fuel →
      ∃ q, Sim it (Caught.setLoop c J (Caught.valuesNext J) fuel)
          (.ok ((l.filter fun a => wbit ws (ordOf I a)).head?, q))
          (fun q => ∃ l', Lossy.afterSome (l.filter fun a => wbit ws (ordOf I a)) .front l' ∧ SetIter.View I n ws l' q) ∧
        SetIter.View I n ws (l.filter fun a => wbit ws (ordOf I a)).tail q := by
  induction fuel with
  | zero => intro l it _ _ hf; omega
  | succ fuel ih =>
    intro l it hs hv hf
    unfold Caught.setLoop
    obtain ⟨r, h1, h2⟩ := call_valuesNext L H l it.iter hv
    have h3 := Sim.zoom (p := it) (get := fun it : SetIter => it.iter) (set := fun it r => ⟨r, it.set⟩) h1
      (F := fun q => ∃ l', Lossy.afterSome (l.filter fun a => wbit ws (ordOf I a)) .front l' ∧ SetIter.View I n ws l' q)
      (fun q ⟨l', ⟨e1, e2⟩, e3⟩ => by
        cases l with
        | nil => exact absurd rfl e1
        | cons a l =>
          have e2 : l' = l := e2
          subst e2
          cases hb : wbit ws (ordOf I a) with
          | true =>
            refine ⟨_, .inr ⟨?_, rfl⟩, hs, _, e3, ?_⟩
            · simp [hb]
            · simp [hb, Deque.step]
          | false => exact ⟨_, .inl rfl, hs, _, e3, by simp [hb]⟩)
    cases l with
    | nil => exact ⟨⟨r, it.set⟩, h3.bind_ok (.ok _), hs, [], h2, rfl⟩
    | cons a l =>
      have hF : ∃ l', Lossy.afterSome ((a :: l).filter fun a => wbit ws (ordOf I a)) .front l' ∧
          SetIter.View I n ws l' ⟨r, it.set⟩ := by
        cases hb : wbit ws (ordOf I a) with
        | true =>
          refine ⟨_, .inr ⟨?_, rfl⟩, hs, _, h2, ?_⟩
          · simp [hb]
          · simp [hb, Deque.step]
        | false => exact ⟨_, .inl rfl, hs, _, h2, by simp [hb]⟩
      cases hb : wbit ws (ordOf I a) with
      | true =>
        refine ⟨⟨r, it.set⟩, h3.bind_ok (Sim.read_bind ?_), hs, l, h2, by simp [hb]⟩
        dsimp only
        rw [hs]
        refine sim_setContains L H a (by rwa [hs] at hF) ?_
        rw [hb, if_pos rfl]
        simp only [List.filter_cons, hb, if_true, List.head?_cons]
        exact .ok _
      | false =>
        obtain ⟨q, g1, g2⟩ := ih l ⟨r, ws⟩ rfl h2 (by simpa using hf)
        refine ⟨q, h3.bind_ok (Sim.read_bind ?_), by simpa [hb] using g2⟩
        dsimp only
        rw [hs]
        refine sim_setContains L H a (by rwa [hs] at hF) ?_
        rw [hb, if_neg Bool.false_ne_true]
        simpa only [List.filter_cons, hb, Bool.false_eq_true, if_false] using g1

theorem call_setLoop_back (L : Lawful c I n) (H : Honest J I) (ws : SetRef) (fuel : Nat) :
    ∀ (l : List K) (it : SetIter), it.set = ws → OrdinalValues.View I n l it.iter → l.length < fuel →
      ∃ q, Sim it (Caught.setLoop c J (Caught.valuesNextBack J) fuel)
          (.ok ((l.filter fun a => wbit ws (ordOf I a)).getLast?, q))
          (fun q => ∃ l', Lossy.afterSome (l.filter fun a => wbit ws (ordOf I a)) .back l' ∧ SetIter.View I n ws l' q) ∧
        SetIter.View I n ws (l.filter fun a => wbit ws (ordOf I a)).dropLast q := by
  induction fuel with
  | zero => intro l it _ _ hf; omega
  | succ fuel ih =>
    intro l it hs hv hf
    unfold Caught.setLoop
    obtain ⟨r, h1, h2⟩ := call_valuesNextBack L H l it.iter hv
    have hF : ∀ q : OrdinalValues, l ≠ [] → OrdinalValues.View I n l.dropLast q →
        ∃ l', Lossy.afterSome (l.filter fun a => wbit ws (ordOf I a)) .back l' ∧ SetIter.View I n ws l' ⟨q, it.set⟩ := by
      intro q hn hq
      rcases List.eq_nil_or_concat l with rfl | ⟨l, a, rfl⟩
      · exact absurd rfl hn
      · simp only [List.concat_eq_append] at *
        rw [List.dropLast_concat] at hq
        rw [SetIter.filter_append_single]
        cases hb : wbit ws (ordOf I a) with
        | true =>
          refine ⟨_, .inr ⟨?_, rfl⟩, hs, _, hq, ?_⟩
          · simp
          · simp [Deque.step]
        | false => exact ⟨_, .inl rfl, hs, _, hq, by simp⟩
    have h3 := Sim.zoom (p := it) (get := fun it : SetIter => it.iter) (set := fun it r => ⟨r, it.set⟩) h1
      (F := fun q => ∃ l', Lossy.afterSome (l.filter fun a => wbit ws (ordOf I a)) .back l' ∧ SetIter.View I n ws l' q)
      (fun q ⟨l', ⟨e1, e2⟩, e3⟩ => hF q e1 (by subst e2; exact e3))
    rcases List.eq_nil_or_concat l with rfl | ⟨l, a, rfl⟩
    · exact ⟨⟨r, it.set⟩, h3.bind_ok (.ok _), hs, [], h2, rfl⟩
    · have hF := hF r (by simp) h2
      simp only [List.concat_eq_append] at *
      rw [List.dropLast_concat] at h2
      rw [List.getLast?_concat] at h3
      rw [SetIter.filter_append_single] at *
      cases hb : wbit ws (ordOf I a) with
      | true =>
        rw [hb] at hF h3
        refine ⟨⟨r, it.set⟩, h3.bind_ok (Sim.read_bind ?_), hs, l, h2, by simp⟩
        dsimp only
        rw [hs]
        refine sim_setContains L H a (by rwa [hs] at hF) ?_
        rw [hb, if_pos rfl]
        simp only [if_true, List.getLast?_concat]
        exact .ok _
      | false =>
        rw [hb] at hF h3
        obtain ⟨q, g1, g2⟩ := ih l ⟨r, ws⟩ rfl h2 (by simp at hf; omega)
        refine ⟨q, h3.bind_ok (Sim.read_bind ?_), by simpa using g2⟩
        dsimp only
        rw [hs]
        refine sim_setContains L H a (by rwa [hs] at hF) ?_
        rw [hb, if_neg Bool.false_ne_true]
        simpa only [Bool.false_eq_true, if_false, List.append_nil] using g1

theorem call_set (L : Lawful c I n) (H : Honest J I) {ws : SetRef} {l : List K} {it : SetIter}
    (h : SetIter.View I n ws l it) :
    RunsCaught (Caught.call (Caught.setNext c J) (Caught.setNextBack c J)) Deque.step Lossy.afterSome (fun _ => False) it l
      (SetIter.View I n ws) := by
  refine caught_calls _ ?_ ?_ h
  · rintro l it ⟨h1, l0, h2, rfl⟩
    obtain ⟨q, g1, g2⟩ := call_setLoop_front L H ws (it.iter.len + 1) l0 it h1 h2 (by rw [OrdinalValues.view_len L h2]; omega)
    exact ⟨q, Sim.read_bind g1, g2⟩
  · rintro l it ⟨h1, l0, h2, rfl⟩
    obtain ⟨q, g1, g2⟩ := call_setLoop_back L H ws (it.iter.len + 1) l0 it h1 h2 (by rw [OrdinalValues.view_len L h2]; omega)
    exact ⟨q, Sim.read_bind g1, g2⟩

theorem call_iter64 (L : Lawful c I n) (H : Honest J I) (h64 : n ≤ 64) {l : List K} {w : Iter64}
    (h : Iter64.View I n l w) :
    RunsCaught (Caught.call (Caught.iter64Next c J) (Caught.iter64NextBack c J)) Deque.step Lossy.after (fun _ => False) w l
      (Iter64.View I n) := by
  refine caught_calls _ (fun l w h => ?_) (fun l w h => ?_) h
  · obtain ⟨q, h1, h2⟩ := Iter64.next_view (c := c) L h64 w l h
    refine ⟨q, Sim.read_bind ?_, h2⟩
    cases l with
    | nil =>
      have : trailingZeros w = 64 := by rw [trailingZeros_eq, Iter64.bitsOf_view L h64 h]; rfl
      simp only [Iter64.next, this, if_true] at h1 ⊢
      simp only [Except.ok.injEq, Prod.mk.injEq] at h1
      rw [← h1.2]
      exact .ok _
    | cons a l =>
      have ha : ordOf I a < 64 := by have := L.ord_lt a; omega
      have ht : trailingZeros w = ordOf I a := by rw [trailingZeros_eq, Iter64.bitsOf_view L h64 h]; rfl
      have hne : ordOf I a ≠ 64 := by omega
      simp only [Iter64.next, ht, hne, if_false, shl64_ok c _ ha, ok_bind, L.from_ord, unwrap_some, Except.ok.injEq,
        Prod.mk.injEq] at h1
      simp only [ht, hne, if_false]
      refine Sim.of_ok (shl64_ok c _ ha) (Sim.write_bind ?_)
      rw [h1.2]
      refine Sim.user_ok (H.from' _) (L.from_ord a) ⟨_, ⟨by simp, rfl⟩, h2⟩ ?_
      exact .ok _
  · obtain ⟨q, h1, h2⟩ := Iter64.nextBack_view (c := c) L h64 w l h
    refine ⟨q, Sim.read_bind ?_, h2⟩
    rcases List.eq_nil_or_concat l with rfl | ⟨l, a, rfl⟩
    · have : leadingZeros w = 64 := by rw [leadingZeros_eq, Iter64.bitsOf_view L h64 h]; rfl
      simp only [Iter64.nextBack, this, show checkedSub 63 64 = none from rfl] at h1 ⊢
      simp only [Except.ok.injEq, Prod.mk.injEq] at h1
      rw [← h1.2]
      exact .ok _
    · simp only [List.concat_eq_append] at *
      have ha : ordOf I a < 64 := by have := L.ord_lt a; omega
      have ht : leadingZeros w = 63 - ordOf I a := by
        rw [leadingZeros_eq, Iter64.bitsOf_view L h64 h]
        simp
      have hs : checkedSub 63 (63 - ordOf I a) = some (ordOf I a) := by
        simp [checkedSub]; omega
      simp only [Iter64.nextBack, ht, hs, shl64_ok c _ ha, ok_bind, L.from_ord, unwrap_some, Except.ok.injEq,
        Prod.mk.injEq] at h1
      simp only [ht, hs]
      refine Sim.of_ok (shl64_ok c _ ha) (Sim.write_bind ?_)
      rw [h1.2]
      refine Sim.user_ok (H.from' _) (L.from_ord a) ⟨_, ⟨by simp, rfl⟩, h2⟩ ?_
      simp only [Deque.step, List.getLast?_concat]
      exact .ok _

end OrdinalMap
