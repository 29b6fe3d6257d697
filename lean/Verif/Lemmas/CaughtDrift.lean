import Verif.Lemmas.CaughtCall
/-! # Which value comes with which key after caught panics; agreement of the two models of iterators -/

namespace OrdinalMap

variable {σ s ι K V : Type} {c : Cfg} {I : OrdinalImpl K} {J : SImpl σ K} {n : Nat}

theorem RunsCaught.obs {σ s ω ο μ : Type} {step : ω → Upd σ s (Ended ο)} {spec : μ → ω → ο × μ} {after : μ → ω → μ → Prop}
    {fatal : ω → Prop} {x : s} {m : μ} {P Q : μ → s → Prop} (h : RunsCaught step spec after fatal x m P)
    (hPQ : ∀ m x, P m x → Q m x) : RunsCaught step spec after fatal x m Q := by
  intro ops st
  obtain ⟨es, st', q, r, h1, h2, h3⟩ := h ops st
  exact ⟨es, st', q, r, h1, h2, fun m' e => hPQ _ _ (h3 m' e)⟩

/-! ## Keys and values -/

/-- One more after a panic of `next`. -/
def bump (f : Nat) : Dir → Nat
  | .front => f + 1
  | .back => f

/-- The keys are consecutive, and each has the value `f` keys further on. -/
def Drift (I : OrdinalImpl K) (m : K → V) (f : Nat) (ps : List (K × V)) : Prop :=
  ∃ a, ∀ i p, ps[i]? = some p → I.ordinal p.1 = .ok (a + i) ∧ ∃ k', I.ordinal k' = .ok (a + i + f) ∧ p.2 = m k'

namespace Drift

variable {m : K → V} {f : Nat} {ps : List (K × V)}

theorem drop (h : Drift I m f ps) (j : Nat) : Drift I m f (ps.drop j) := by
  obtain ⟨a, h⟩ := h
  refine ⟨a + j, fun i p hp => ?_⟩
  rw [List.getElem?_drop] at hp
  have := h (j + i) p hp
  rwa [show a + j + i = a + (j + i) by omega]

theorem take (h : Drift I m f ps) (j : Nat) : Drift I m f (ps.take j) := by
  obtain ⟨a, h⟩ := h
  refine ⟨a, fun i p hp => h i p ?_⟩
  rw [List.getElem?_take] at hp
  split at hp
  · exact hp
  · simp at hp

theorem tail (h : Drift I m f ps) : Drift I m f ps.tail := by rw [← List.drop_one]; exact h.drop 1

theorem dropLast (h : Drift I m f ps) : Drift I m f ps.dropLast := by
  rw [List.dropLast_eq_take]; exact h.take _

theorem shift (h : Drift I m f ps) : Drift I m (f + 1) (Pairing.shift ps) := by
  obtain ⟨a, h⟩ := h
  refine ⟨a, fun i p hp => ?_⟩
  simp only [Pairing.shift, List.zip, List.getElem?_zipWith, List.getElem?_map, List.getElem?_tail] at hp
  rcases h1 : ps[i]? with _ | p1
  · simp [h1] at hp
  · rcases h2 : ps[i + 1]? with _ | p2
    · simp [h1, h2] at hp
    · simp only [h1, h2, Option.map_some, Option.some.injEq] at hp
      subst hp
      obtain ⟨_, k', g1, g2⟩ := h (i + 1) p2 h2
      exact ⟨(h i p1 h1).1, k', by rw [g1]; congr 1; omega, g2⟩

theorem mem (h : Drift I m f ps) {p : K × V} (hp : p ∈ ps) : ∃ i k', I.ordinal p.1 = .ok i ∧
    I.ordinal k' = .ok (i + f) ∧ p.2 = m k' := by
  obtain ⟨i, hi⟩ := List.mem_iff_getElem?.1 hp
  obtain ⟨a, h⟩ := h
  obtain ⟨h1, k', h2, h3⟩ := h i p hi
  exact ⟨_, k', h1, h2, h3⟩

theorem fresh (L : Lawful c I n) (m : K → V) : Drift I m 0 (pairsT I n m) := by
  refine ⟨0, fun i p hp => ?_⟩
  rw [pairsT, List.getElem?_map] at hp
  rcases Nat.lt_or_ge i n with h | h
  · obtain ⟨k, e1, _, e3⟩ := values_getElem L i h
    rw [e1] at hp
    simp only [Option.map_some, Option.some.injEq] at hp
    subst hp
    have : I.ordinal k = .ok i := by rw [L.ordinal_eq, e3]
    exact ⟨by simpa using this, k, by simpa using this, rfl⟩
  · rw [List.getElem?_eq_none (by rw [values_length L]; exact h)] at hp
    simp at hp

theorem nil (m : K → V) : Drift I m f [] := ⟨0, fun i p hp => by simp at hp⟩

theorem after (h : Drift I m f ps) {d : Dir} {ps' : List (K × V)} (ha : Pairing.after ps d ps') :
    Drift I m (bump f d) ps' := by
  cases d with
  | front => obtain ⟨_, rfl⟩ := ha; exact h.shift
  | back => obtain ⟨_, rfl⟩ := ha; exact h.dropLast

end Drift

theorem frontPanics_returned {ο : Type} (d : Dir) (ds : List Dir) (o : ο) (es : List (Ended ο)) :
    frontPanics (d :: ds) (.returned o :: es) = frontPanics ds es := by cases d <;> rfl

theorem frontPanics_panicked {ο : Type} (d : Dir) (ds : List Dir) (es : List (Ended ο)) (f : Nat) :
    f + frontPanics (d :: ds) (.panicked :: es) = (bump f d) + frontPanics ds es := by
  cases d with
  | front => simp only [frontPanics, bump]; omega
  | back => rfl

/-- The invariant along a run. -/
theorem drift_run {μ : Type} {spec : μ → Dir → Option ι × μ}
    {after : μ → Dir → μ → Prop} {D : Nat → μ → Prop}
    (h1 : ∀ f ps d, D f ps → D f (spec ps d).2)
    (h2 : ∀ f ps d ps', D f ps → after ps d ps' → D (bump f d) ps')
    {Q : Nat → ι → Prop} (h3 : ∀ f ps d x, D f ps → (spec ps d).1 = some x → Q f x) {ps : μ} {ds : List Dir}
    {es : List (Ended (Option ι))} {r : Option μ} (h : CaughtLike spec after (fun _ => False) ps ds es r) {f : Nat}
    (hD : D f ps) (j : Nat) (x : ι) (hj : es[j]? = some (.returned (some x))) :
    Q (f + frontPanics (ds.take j) (es.take j)) x := by
  induction h generalizing f j with
  | nil => simp at hj
  | @returned ps d ds es r _ ih =>
    cases j with
    | zero =>
      simp only [List.getElem?_cons_zero, Option.some.injEq, Ended.returned.injEq] at hj
      simp only [List.take_zero, frontPanics, Nat.add_zero]
      exact h3 f ps d x hD hj
    | succ j =>
      simp only [List.getElem?_cons_succ] at hj
      simp only [List.take_succ_cons, frontPanics_returned]
      exact ih (h1 f ps d hD) j hj
  | @panicked ps ps' d ds es r ha _ ih =>
    cases j with
    | zero => simp at hj
    | succ j =>
      simp only [List.getElem?_cons_succ] at hj
      simp only [List.take_succ_cons, frontPanics_panicked]
      exact ih (h2 f ps d ps' hD ha) j hj
  | aborted hf => exact absurd hf id

theorem drift_total {m : K → V} {ps : List (K × V)} {ds : List Dir} {es : List (Ended (Option (K × V)))}
    {r : Option (List (K × V))} (h : CaughtLike Deque.step Pairing.after (fun _ => False) ps ds es r)
    (hD : Drift I m 0 ps) (j : Nat) (k : K) (v : V) (hj : es[j]? = some (.returned (some (k, v)))) :
    ∃ i k', I.ordinal k = .ok i ∧ I.ordinal k' = .ok (i + frontPanics (ds.take j) (es.take j)) ∧ v = m k' := by
  have := drift_run (D := Drift I m)
    (Q := fun f (p : K × V) => ∃ i k', I.ordinal p.1 = .ok i ∧ I.ordinal k' = .ok (i + f) ∧ p.2 = m k')
    (spec := Deque.step)
    (fun f ps d h => by cases d with | front => exact h.tail | back => exact h.dropLast) (fun f ps d ps' h ha => h.after ha)
    (fun f ps d x h e => by
      cases d with
      | front => exact h.mem (List.mem_of_head? e)
      | back => exact h.mem (List.mem_of_getLast? e)) h hD j (k, v) hj
  simpa using this

theorem drift_skip {m : K → Option V} {f : Nat} {ps : List (K × Option V)} (h : Drift I m f ps) (j : Nat) (d : Dir) :
    Drift I m f (Sparse.skip ps j d) := by
  cases d with
  | front => exact h.drop j
  | back => exact h.take _

theorem drift_sparse {m : K → Option V} {ps : List (K × Option V)} {ds : List Dir} {es : List (Ended (Option (K × V)))}
    {r : Option (List (K × Option V))} (h : CaughtLike Sparse.step Sparse.after (fun _ => False) ps ds es r)
    (hD : Drift I m 0 ps) (j : Nat) (k : K) (v : V) (hj : es[j]? = some (.returned (some (k, v)))) :
    ∃ i k', I.ordinal k = .ok i ∧ I.ordinal k' = .ok (i + frontPanics (ds.take j) (es.take j)) ∧ m k' = some v := by
  have := drift_run (D := Drift I m)
    (Q := fun f (p : K × V) => ∃ i k', I.ordinal p.1 = .ok i ∧ I.ordinal k' = .ok (i + f) ∧ m k' = some p.2)
    (spec := Sparse.step)
    (fun f ps d h => by
      have h := drift_skip h (Sparse.absent ps d) d
      cases d with | front => exact h.tail | back => exact h.dropLast)
    (fun f ps d ps' h ⟨j, _, ha⟩ => (drift_skip h j d).after ha)
    (fun f ps d x h e => by
      have h := drift_skip h (Sparse.absent ps d) d
      simp only [Sparse.step] at e
      obtain ⟨⟨k, o⟩, e1, e2⟩ := Option.bind_eq_some_iff.1 e
      obtain ⟨v, rfl, rfl⟩ := Option.map_eq_some_iff.1 e2
      cases d with
      | front =>
        obtain ⟨i, k', g1, g2, g3⟩ := h.mem (List.mem_of_head? e1)
        exact ⟨i, k', g1, g2, g3.symm⟩
      | back =>
        obtain ⟨i, k', g1, g2, g3⟩ := h.mem (List.mem_of_getLast? e1)
        exact ⟨i, k', g1, g2, g3.symm⟩) h hD j (k, v) hj
  simpa using this

/-! ## No item twice -/

/-- If what is left never has more than before, and not what a call returned, then nothing is returned twice. -/
theorem yielded_nodup {μ α : Type} {spec : μ → Dir → Option ι × μ} {after : μ → Dir → μ → Prop} {left : μ → List α}
    {g : ι → α} (h1 : ∀ ps d, (left (spec ps d).2).Sublist (left ps))
    (h2 : ∀ ps d x, (spec ps d).1 = some x → (left ps).Nodup → g x ∈ left ps ∧ g x ∉ left (spec ps d).2)
    (h3 : ∀ ps d ps', after ps d ps' → (left ps').Sublist (left ps)) {ps : μ} {ds : List Dir}
    {es : List (Ended (Option ι))} {r : Option μ} (h : CaughtLike spec after (fun _ => False) ps ds es r)
    (hn : (left ps).Nodup) : ((yielded es).map g).Nodup ∧ ∀ x ∈ yielded es, g x ∈ left ps := by
  induction h with
  | nil => exact ⟨.nil, by simp [yielded]⟩
  | @returned ps d ds es r _ ih =>
    obtain ⟨i1, i2⟩ := ih ((h1 ps d).nodup hn)
    rcases hx : (spec ps d).1 with _ | x
    · exact ⟨i1, fun y hy => (h1 ps d).subset (i2 y hy)⟩
    · obtain ⟨j1, j2⟩ := h2 ps d x hx hn
      refine ⟨?_, fun y hy => ?_⟩
      · simp only [yielded, List.map_cons, List.nodup_cons]
        refine ⟨fun hm => ?_, i1⟩
        obtain ⟨y, e1, e2⟩ := List.mem_map.1 hm
        exact j2 (e2 ▸ i2 y e1)
      · simp only [yielded, List.mem_cons] at hy
        rcases hy with rfl | hy
        · exact j1
        · exact (h1 ps d).subset (i2 y hy)
  | @panicked ps ps' d ds es r ha _ ih =>
    obtain ⟨i1, i2⟩ := ih ((h3 ps d ps' ha).nodup hn)
    exact ⟨i1, fun y hy => (h3 ps d ps' ha).subset (i2 y hy)⟩
  | aborted hf => exact absurd hf id

theorem deque_sublist (l : List ι) (d : Dir) : (Deque.step l d).2.Sublist l := by
  cases d with
  | front => exact List.tail_sublist l
  | back => exact List.dropLast_sublist l

theorem deque_fresh {α : Type} (g : ι → α) (l : List ι) (d : Dir) (x : ι) (hx : (Deque.step l d).1 = some x)
    (hn : (l.map g).Nodup) : g x ∈ l.map g ∧ g x ∉ (Deque.step l d).2.map g := by
  cases d with
  | front =>
    cases l with
    | nil => simp [Deque.step] at hx
    | cons a l =>
      simp only [Deque.step, List.head?_cons, Option.some.injEq] at hx
      subst hx
      simp only [List.map_cons, List.nodup_cons] at hn
      exact ⟨by simp, hn.1⟩
  | back =>
    rcases List.eq_nil_or_concat l with rfl | ⟨l, a, rfl⟩
    · simp [Deque.step] at hx
    · rw [List.concat_eq_append] at *
      simp only [Deque.step, List.getLast?_append, List.getLast?_singleton, Option.some_or, Option.some.injEq] at hx
      subst hx
      simp only [List.map_append, List.map_cons, List.map_nil, List.nodup_append] at hn
      refine ⟨by simp, fun hm => ?_⟩
      simp only [Deque.step, List.dropLast_concat] at hm
      exact hn.2.2 _ hm _ (by simp) rfl

theorem zip_fst_sublist {α β : Type} (l : List α) (r : List β) : ((l.zip r).map (·.1)).Sublist l := by
  induction l generalizing r with
  | nil => simp
  | cons a l ih => cases r with
    | nil => simp
    | cons b r => simpa using ih r

theorem zip_snd_sublist {α β : Type} (l : List α) (r : List β) : ((l.zip r).map (·.2)).Sublist r := by
  induction l generalizing r with
  | nil => simp
  | cons a l ih => cases r with
    | nil => simp
    | cons b r => simpa using ih r

theorem pairing_sublist {ps ps' : List (K × ι)} {d : Dir} (h : Pairing.after ps d ps') :
    (ps'.map (·.1)).Sublist (ps.map (·.1)) ∧ (ps'.map (·.2)).Sublist (ps.map (·.2)) := by
  cases d with
  | front =>
    obtain ⟨_, rfl⟩ := h
    exact ⟨zip_fst_sublist _ _, (zip_snd_sublist _ _).trans (List.tail_sublist _)⟩
  | back =>
    obtain ⟨_, rfl⟩ := h
    exact ⟨(List.dropLast_sublist _).map _, (List.dropLast_sublist _).map _⟩

theorem skip_sublist (ps : List (K × Option V)) (j : Nat) (d : Dir) : (Sparse.skip ps j d).Sublist ps := by
  cases d with
  | front => exact List.drop_sublist _ _
  | back => exact List.take_sublist _ _

theorem distinct_pairs {ps : List (K × ι)} {ds : List Dir} {es : List (Ended (Option (K × ι)))}
    {r : Option (List (K × ι))} (h : CaughtLike Deque.step Pairing.after (fun _ => False) ps ds es r) :
    ((ps.map (·.1)).Nodup → ((yielded es).map (·.1)).Nodup) ∧
    ((ps.map (·.2)).Nodup → ((yielded es).map (·.2)).Nodup) :=
  ⟨fun hn => (yielded_nodup (g := (·.1)) (left := List.map (·.1)) (fun ps d => (deque_sublist ps d).map _)
      (fun ps d x => deque_fresh _ ps d x) (fun _ _ _ h => (pairing_sublist h).1) h hn).1,
    fun hn => (yielded_nodup (g := (·.2)) (left := List.map (·.2)) (fun ps d => (deque_sublist ps d).map _)
      (fun ps d x => deque_fresh _ ps d x) (fun _ _ _ h => (pairing_sublist h).2) h hn).1⟩

theorem filterMap_snd (l : List (K × Option V)) : l.filterMap (·.2) = (l.map (·.2)).filterMap id := by
  rw [List.filterMap_map]; rfl

theorem distinct_sparse {ps : List (K × Option V)} {ds : List Dir} {es : List (Ended (Option (K × V)))}
    {r : Option (List (K × Option V))} (h : CaughtLike Sparse.step Sparse.after (fun _ => False) ps ds es r) :
    ((ps.map (·.1)).Nodup → ((yielded es).map (·.1)).Nodup) ∧
    ((ps.filterMap (·.2)).Nodup → ((yielded es).map (·.2)).Nodup) := by
  have sub : ∀ (ps : List (K × Option V)) d, (Sparse.step ps d).2.Sublist ps := fun ps d =>
    (deque_sublist _ d).trans (skip_sublist ps _ d)
  constructor
  · refine fun hn => (yielded_nodup (g := (·.1)) (left := List.map (·.1)) (fun ps d => (sub ps d).map _) (fun ps d x hx hn => ?_)
      (fun ps d ps' ⟨j, _, h⟩ => (pairing_sublist h).1.trans ((skip_sublist ps j d).map _)) h hn).1
    simp only [Sparse.step] at hx
    obtain ⟨⟨k, o⟩, e1, e2⟩ := Option.bind_eq_some_iff.1 hx
    obtain ⟨v, rfl, rfl⟩ := Option.map_eq_some_iff.1 e2
    have hs := (skip_sublist ps (Sparse.absent ps d) d).map (fun p : K × Option V => p.1)
    obtain ⟨g1, g2⟩ := deque_fresh (·.1) _ d _ e1 (hs.nodup hn)
    exact ⟨hs.subset g1, g2⟩
  · refine fun hn => (yielded_nodup (g := (·.2)) (left := List.filterMap (·.2)) (fun ps d => (sub ps d).filterMap _)
      (fun ps d x hx hn => ?_) (fun ps d ps' ⟨j, _, h⟩ => ?_) h hn).1
    · simp only [Sparse.step] at hx
      obtain ⟨⟨k, o⟩, e1, e2⟩ := Option.bind_eq_some_iff.1 hx
      obtain ⟨v, rfl, rfl⟩ := Option.map_eq_some_iff.1 e2
      have hs := (skip_sublist ps (Sparse.absent ps d) d).filterMap (fun p : K × Option V => p.2)
      have hn := hs.nodup hn
      refine ⟨hs.subset ?_, ?_⟩
      · refine List.mem_filterMap.2 ⟨(k, some v), ?_, rfl⟩
        cases d with
        | front => exact List.mem_of_head? e1
        | back => exact List.mem_of_getLast? e1
      · simp only [Sparse.step]
        generalize Sparse.skip ps (Sparse.absent ps d) d = l at e1 hn ⊢
        cases d with
        | front =>
          cases l with
          | nil => simp [Deque.step] at e1
          | cons a l =>
            simp only [Deque.step, List.head?_cons, Option.some.injEq] at e1
            subst e1
            simp only [List.filterMap_cons, List.nodup_cons] at hn
            exact hn.1
        | back =>
          rcases List.eq_nil_or_concat l with rfl | ⟨l, a, rfl⟩
          · simp [Deque.step] at e1
          · rw [List.concat_eq_append] at *
            simp only [Deque.step, List.getLast?_append, List.getLast?_singleton, Option.some_or,
              Option.some.injEq] at e1
            subst e1
            simp only [List.filterMap_append, List.filterMap_cons, List.filterMap_nil, List.nodup_append] at hn
            simp only [Deque.step, List.dropLast_concat]
            exact fun hm => hn.2.2 _ hm _ (by simp) rfl
    · have := ((pairing_sublist h).2.trans ((skip_sublist ps j d).map _)).filterMap id
      rwa [filterMap_snd, filterMap_snd ps]

theorem distinct_lossy {l : List ι} {ds : List Dir} {es : List (Ended (Option ι))} {r : Option (List ι)}
    (h : CaughtLike Deque.step Lossy.afterSome (fun _ => False) l ds es r) (hn : l.Nodup) : (yielded es).Nodup := by
  have := (yielded_nodup (left := List.map id) (g := id) (fun l d => (deque_sublist l d).map id)
    (fun l d x => deque_fresh _ l d x) (fun l d l' h => by
      rcases h with rfl | ⟨_, rfl⟩
      · exact List.Sublist.refl _
      · exact (deque_sublist l d).map id) h (by simpa using hn)).1
  simpa using this

/-! ## Agreement with `Model/Effect.lean` -/

theorem same_enumNext (S : StdIter s ι) (e : Enumerate s) : Same e (Caught.enumNext c J S) (Eff.enumNext c J S e) := by
  unfold Caught.enumNext Eff.enumNext
  refine Same.read_bind ?_
  rcases S.next e.iter with ⟨_ | v, it⟩
  · exact Same.write_bind (.ok _)
  · refine Same.write_bind (Same.user_bind fun o => Same.of_bind fun k => Same.of_bind fun i => ?_)
    exact Same.write_bind (.ok _)

theorem same_enumNextBack (S : StdIter s ι) (e : Enumerate s) :
    Same e (Caught.enumNextBack c J S) (Eff.enumNextBack c J S e) := by
  unfold Caught.enumNextBack Eff.enumNextBack
  refine Same.read_bind ?_
  rcases S.nextBack e.iter with ⟨_ | v, it⟩
  · exact Same.write_bind (.ok _)
  · refine Same.write_bind (Same.of_bind fun i => Same.user_bind fun o => Same.of_bind fun k => ?_)
    exact .ok _

theorem same_mapItem (p : K × Option V) (x : MapIter V) :
    Same (σ := σ) x (.of (.ok (p.2.map fun v => (p.1, v)))) (.of (MapIter.body p x)) := by
  obtain ⟨k, _ | v⟩ := p <;> exact .ok _

theorem same_mapNext (e : MapIter V) : Same e (Caught.mapNext c J) (Eff.mapNext c J e) :=
  Same.read_bind (same_skipLoop (same_enumNext _) same_mapItem _ e)

theorem same_mapNextBack (e : MapIter V) : Same e (Caught.mapNextBack c J) (Eff.mapNextBack c J e) :=
  Same.read_bind (same_skipLoop (same_enumNextBack _) same_mapItem _ e)

theorem same_valuesNext (r : OrdinalValues) : Same r (Caught.valuesNext J) (Eff.valuesNext J r) := by
  unfold Caught.valuesNext Eff.valuesNext
  refine Same.read_bind ?_
  rcases Range.next r with ⟨_ | v, it⟩
  · exact Same.write_bind (.ok _)
  · exact Same.write_bind (Same.user_bind fun o => Same.of_bind fun k => .ok _)

theorem same_valuesNextBack (r : OrdinalValues) : Same r (Caught.valuesNextBack J) (Eff.valuesNextBack J r) := by
  unfold Caught.valuesNextBack Eff.valuesNextBack
  refine Same.read_bind ?_
  rcases Range.nextBack r with ⟨_ | v, it⟩
  · exact Same.write_bind (.ok _)
  · exact Same.write_bind (Same.user_bind fun o => Same.of_bind fun k => .ok _)

theorem same_setLoop {step : Upd σ OrdinalValues (Option K)} {step' : OrdinalValues → M σ (Option K × OrdinalValues)}
    (h : ∀ r, Same r step (step' r)) (fuel : Nat) (it : SetIter) :
    Same it (Caught.setLoop c J step fuel) (Eff.setLoop c J step' fuel it) := by
  induction fuel generalizing it with
  | zero => intro st; exact ⟨it, rfl⟩
  | succ fuel ih =>
    unfold Caught.setLoop Eff.setLoop
    refine Same.zoom_bind (h it.iter) fun o r => ?_
    cases o with
    | none => exact .ok _
    | some x =>
      refine Same.read_bind (Same.user_bind fun b => ?_)
      cases b with
      | true => exact .ok _
      | false =>
        simp only [Bool.false_eq_true, if_false]
        exact ih _

theorem same_setNext (it : SetIter) : Same it (Caught.setNext c J) (Eff.setNext c J it) :=
  Same.read_bind (same_setLoop same_valuesNext _ it)

theorem same_setNextBack (it : SetIter) : Same it (Caught.setNextBack c J) (Eff.setNextBack c J it) :=
  Same.read_bind (same_setLoop same_valuesNextBack _ it)

theorem same_iter64Next (w : Iter64) : Same w (Caught.iter64Next c J) (Eff.iter64Next c J w) := by
  unfold Caught.iter64Next Eff.iter64Next
  refine Same.read_bind ?_
  dsimp only
  by_cases h : trailingZeros w = 64
  · simp only [h, if_true]; exact .ok _
  · simp only [h, if_false]
    exact Same.of_bind fun mask => Same.write_bind (Same.user_bind fun o => Same.of_bind fun k => .ok _)

theorem same_iter64NextBack (w : Iter64) : Same w (Caught.iter64NextBack c J) (Eff.iter64NextBack c J w) := by
  unfold Caught.iter64NextBack Eff.iter64NextBack
  refine Same.read_bind ?_
  rcases checkedSub 63 (leadingZeros w) with _ | i
  · exact .ok _
  · exact Same.of_bind fun mask => Same.write_bind (Same.user_bind fun o => Same.of_bind fun k => .ok _)

end OrdinalMap
