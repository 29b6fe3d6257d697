import Verif.Lemmas.CaughtDrift
import Verif.Lemmas.CaughtMap
import Verif.SpecCaughtDrain
/-! # `drain()` whose panics are caught call by call -/

namespace OrdinalMap

variable {σ s ι K V : Type} {c : Cfg} {I : OrdinalImpl K} {J : SImpl σ K} {n : Nat} {b : Bool} [DecidableEq K]

namespace Draining

omit [DecidableEq K] in
@[simp] theorem items_cons (m : K → Option V) (q : K × K) (qs : List (K × K)) :
    items (m, q :: qs) = (q.1, m q.2) :: items (m, qs) := rfl

omit [DecidableEq K] in
@[simp] theorem items_snoc (m : K → Option V) (q : K × K) (qs : List (K × K)) :
    items (m, qs ++ [q]) = items (m, qs) ++ [(q.1, m q.2)] := by simp [items]

omit [DecidableEq K] in
theorem skip_back_snoc' (p : ι) (ps : List ι) (j : Nat) :
    Sparse.skip (ps ++ [p]) (j + 1) .back = Sparse.skip ps j .back := by
  simp only [Sparse.skip, List.length_append, List.length_cons, List.length_nil]
  rw [show ps.length + (0 + 1) - (j + 1) = ps.length - j by omega, List.take_append_of_le_length (by omega)]

theorem skip_zero' (ps : List ι) (d : Dir) : Sparse.skip ps 0 d = ps := by cases d <;> simp [Sparse.skip]

theorem upd_none {m : K → Option V} {k : K} (h : m k = none) : upd m k none = m := by
  funext k'
  simp only [upd]
  split
  · next e => rw [e, h]
  · rfl

theorem step_nil (m : K → Option V) (d : Dir) : step (m, []) d = (none, (m, [])) := by cases d <;> rfl

theorem step_front_none {m : K → Option V} {q : K × K} {qs : List (K × K)} (h : m q.2 = none) :
    step (m, q :: qs) .front = step (m, qs) .front := by
  simp only [step, items_cons, h, absent_front_none]
  rfl

theorem step_front_some {m : K → Option V} {q : K × K} {qs : List (K × K)} {v : V} (h : m q.2 = some v) :
    step (m, q :: qs) .front = (some (q.1, v), (upd m q.2 none, qs)) := by
  simp only [step, items_cons, h, absent_front_some, skip_zero', Deque.step, List.head?_cons, List.tail_cons]
  simp

theorem step_back_none {m : K → Option V} {q : K × K} {qs : List (K × K)} (h : m q.2 = none) :
    step (m, qs ++ [q]) .back = step (m, qs) .back := by
  simp only [step, items_snoc, h, absent_back_none, skip_back_snoc']

theorem step_back_some {m : K → Option V} {q : K × K} {qs : List (K × K)} {v : V} (h : m q.2 = some v) :
    step (m, qs ++ [q]) .back = (some (q.1, v), (upd m q.2 none, qs)) := by
  simp only [step, items_snoc, h, absent_back_some, skip_zero', Deque.step]
  simp [h]

/-- The iterator between two calls. -/
def View (I : OrdinalImpl K) (n : Nat) (b : Bool) (s : State K V) (x : TotalIterMut (Option V)) : Prop :=
  (Stored I n b s.1 x.mem ∧ (b = false → s.2 = [])) ∧
    EView I n SlotView (s.2.map fun q => (q.1, ordOf I q.2)) x.it

omit [DecidableEq K] in
theorem View.pairing {m : K → Option V} {qs : List (K × K)} {ps' : List (K × Nat)} {d : Dir} {x q : TotalIterMut (Option V)}
    (hx : View I n b (m, qs) x) (hq : q.mem = x.mem)
    (h : Pairing.after (qs.map fun q => (q.1, ordOf I q.2)) d ps') (h2 : EView I n SlotView ps' q.it) :
    ∃ s', (s'.1 = m ∧ Pairing.after qs d s'.2) ∧ View I n b s' q := by
  cases d with
  | front =>
    obtain ⟨h, rfl⟩ := h
    refine ⟨(m, Pairing.shift qs), ⟨rfl, by simpa using h, rfl⟩, ?_, ?_⟩
    · rw [hq]
      exact ⟨hx.1.1, fun e => absurd (by rw [show qs = [] from hx.1.2 e]; rfl) h⟩
    · rw [shift_map] at h2; exact h2
  | back =>
    obtain ⟨h, rfl⟩ := h
    refine ⟨(m, qs.dropLast), ⟨rfl, by simpa using h, rfl⟩, ?_, ?_⟩
    · rw [hq]
      exact ⟨hx.1.1, fun e => absurd (by rw [show qs = [] from hx.1.2 e]; rfl) h⟩
    · rw [← List.map_dropLast] at h2; exact h2

theorem body_store (L : Lawful c I n) {m : K → Option V} {x : TotalIterMut (Option V)} (hx : x.mem = store I n m) (k o : K) :
    Drain.body (k, ordOf I o) x = .ok ((m o).map fun v => (k, v), ⟨store I n (upd m o none), x.it⟩) := by
  obtain ⟨mem, e⟩ := x
  dsimp only at hx
  subst hx
  have hs : (store I n m).set (ordOf I o) none = store I n (upd m o none) := store_set L m o none
  simp only [Drain.body, store_get L, hs]
  rcases m o with _ | v <;> rfl

theorem call_front (L : Lawful c I n) (H : Honest J I) (m : K → Option V) : ∀ (qs : List (K × K)) (fuel : Nat) (x : TotalIterMut (Option V)),
    View I n b (m, qs) x → qs.length < fuel →
    ∃ q, Sim x (Caught.skipLoop (Caught.mutNext c J) Caught.drainBody fuel) (.ok ((step (m, qs) .front).1, q))
        (fun q => ∃ s', after (m, qs) .front s' ∧ View I n b s' q) ∧ View I n b (step (m, qs) .front).2 q := by
  intro qs
  induction qs with
  | nil =>
    intro fuel x hx hf
    obtain ⟨fuel, rfl⟩ : ∃ k, fuel = k + 1 := ⟨fuel - 1, by omega⟩
    obtain ⟨q, g1, g2, g3⟩ := call_mutNext L H x.mem [] x ⟨rfl, hx.2⟩
    unfold Caught.skipLoop
    rw [step_nil]
    refine ⟨q, (g1.mono ?_).bind_ok (.ok _), by rw [g2]; exact hx.1, g3⟩
    rintro q ⟨ps', ⟨f1, _⟩, _⟩
    exact absurd rfl f1
  | cons p qs ih =>
    intro fuel x hx hf
    obtain ⟨fuel, rfl⟩ : ∃ k, fuel = k + 1 := ⟨fuel - 1, by omega⟩
    obtain ⟨q, g1, g2, g3⟩ := call_mutNext L H x.mem _ x ⟨rfl, hx.2⟩
    obtain ⟨hb1, hm⟩ : b = true ∧ x.mem = store I n m :=
      hx.1.1.elim id fun ⟨e, _⟩ => by have := hx.1.2 e; simp at this
    have g1 := g1.mono (G := fun q => ∃ s', after (m, p :: qs) .front s' ∧ View I n b s' q)
      (fun q ⟨ps', f1, f2, f3⟩ => by
        obtain ⟨s', ⟨e1, e2⟩, e3⟩ := View.pairing hx f2 f1 f3
        exact ⟨s', ⟨e1, 0, Nat.zero_le _, by rw [skip_zero']; exact e2⟩, e3⟩)
    have hb := fun F => sim_drainBody (σ := σ) (p.1, ordOf I p.2) q (F := F)
    rw [body_store L (g2.trans hm)] at hb
    unfold Caught.skipLoop
    rcases ho : m p.2 with _ | v
    · rw [step_front_none ho]
      rw [ho, upd_none ho] at hb
      obtain ⟨q', i1, i2⟩ := ih fuel ⟨store I n m, q.it⟩ ⟨⟨.inl ⟨hb1, rfl⟩, by simp [hb1]⟩, g3⟩ (by simpa using hf)
      refine ⟨q', g1.bind_ok ((hb _).bind_ok (i1.mono ?_)), i2⟩
      rintro q ⟨s', ⟨e1, j, e2, e3⟩, e4⟩
      refine ⟨s', ⟨e1, j + 1, ?_, e3⟩, e4⟩
      rw [items_cons, ho, absent_front_none]; omega
    · rw [step_front_some ho]
      rw [ho] at hb
      exact ⟨_, g1.bind_ok ((hb _).bind_ok (.ok _)), ⟨.inl ⟨hb1, rfl⟩, by simp [hb1]⟩, g3⟩

theorem call_back (L : Lawful c I n) (H : Honest J I) (m : K → Option V) (fuel : Nat) : ∀ (qs : List (K × K)) (x : TotalIterMut (Option V)),
    View I n b (m, qs) x → qs.length < fuel →
    ∃ q, Sim x (Caught.skipLoop (Caught.mutNextBack c J) Caught.drainBody fuel) (.ok ((step (m, qs) .back).1, q))
        (fun q => ∃ s', after (m, qs) .back s' ∧ View I n b s' q) ∧ View I n b (step (m, qs) .back).2 q := by
  induction fuel with
  | zero => intro qs x hx hf; omega
  | succ fuel ih =>
    intro qs x hx hf
    rcases List.eq_nil_or_concat qs with rfl | ⟨qs, p, rfl⟩
    · obtain ⟨q, g1, g2, g3⟩ := call_mutNextBack L H x.mem [] x ⟨rfl, hx.2⟩
      unfold Caught.skipLoop
      rw [step_nil]
      refine ⟨q, (g1.mono ?_).bind_ok (.ok _), by rw [g2]; exact hx.1, g3⟩
      rintro q ⟨ps', ⟨f1, _⟩, _⟩
      exact absurd rfl f1
    · simp only [List.concat_eq_append] at *
      obtain ⟨q, g1, g2, g3⟩ := call_mutNextBack L H x.mem _ x ⟨rfl, hx.2⟩
      obtain ⟨hb1, hm⟩ : b = true ∧ x.mem = store I n m :=
        hx.1.1.elim id fun ⟨e, _⟩ => by have := hx.1.2 e; simp at this
      have g1 := g1.mono (G := fun q => ∃ s', after (m, qs ++ [p]) .back s' ∧ View I n b s' q)
        (fun q ⟨ps', f1, f2, f3⟩ => by
          obtain ⟨s', ⟨e1, e2⟩, e3⟩ := View.pairing hx f2 f1 f3
          exact ⟨s', ⟨e1, 0, Nat.zero_le _, by rw [skip_zero']; exact e2⟩, e3⟩)
      simp only [List.map_append, List.map_cons, List.map_nil, List.getLast?_append, List.getLast?_singleton,
        Option.some_or, List.dropLast_concat] at g1 g3
      have hb := fun F => sim_drainBody (σ := σ) (p.1, ordOf I p.2) q (F := F)
      rw [body_store L (g2.trans hm)] at hb
      unfold Caught.skipLoop
      rcases ho : m p.2 with _ | v
      · rw [step_back_none ho]
        rw [ho, upd_none ho] at hb
        obtain ⟨q', i1, i2⟩ := ih qs ⟨store I n m, q.it⟩ ⟨⟨.inl ⟨hb1, rfl⟩, by simp [hb1]⟩, g3⟩ (by simp at hf; omega)
        refine ⟨q', g1.bind_ok ((hb _).bind_ok (i1.mono ?_)), i2⟩
        rintro q ⟨s', ⟨e1, j, e2, e3⟩, e4⟩
        refine ⟨s', ⟨e1, j + 1, ?_, by rwa [skip_back_snoc']⟩, e4⟩
        rw [items_snoc, ho, absent_back_none]; omega
      · rw [step_back_some ho]
        rw [ho] at hb
        exact ⟨_, g1.bind_ok ((hb _).bind_ok (.ok _)), ⟨.inl ⟨hb1, rfl⟩, by simp [hb1]⟩, g3⟩

omit [DecidableEq K] in
theorem View.len {s : State K V} {x : TotalIterMut (Option V)} (h : View I n b s x) : TotalIterMut.len x = s.2.length := by
  have := EView.len slotIter_views h.2
  rw [List.length_map] at this
  exact this

theorem sim_next (L : Lawful c I n) (H : Honest J I) (s : State K V) (x : TotalIterMut (Option V)) (h : View I n b s x) :
    ∃ q, Sim x (Caught.drainNext c J) (.ok ((step s .front).1, q))
        (fun q => ∃ s', after s .front s' ∧ View I n b s' q) ∧ View I n b (step s .front).2 q := by
  obtain ⟨q, h1, h2⟩ := call_front L H s.1 s.2 (TotalIterMut.len x + 1) x h (by rw [h.len]; omega)
  exact ⟨q, Sim.read_bind h1, h2⟩

theorem call_drain (L : Lawful c I n) (H : Honest J I) {s : State K V} {x : TotalIterMut (Option V)} (h : View I n b s x) :
    RunsCaught (Caught.call (Caught.drainNext c J) (Caught.drainNextBack c J)) step after (fun _ => False) x s
      (View I n b) := by
  refine caught_calls _ (sim_next L H) (fun s x h => ?_) h
  obtain ⟨q, h1, h2⟩ := call_back L H s.1 (TotalIterMut.len x + 1) s.2 x h (by rw [h.len]; omega)
  exact ⟨q, Sim.read_bind h1, h2⟩

/-! ## The destructor -/

theorem without_nil (m : K → Option V) : without m [] = m := by funext k; simp [without]

theorem step_front_cases (m : K → Option V) (qs : List (K × K)) :
    ((∀ q ∈ qs, m q.2 = none) ∧ step (m, qs) .front = (none, (m, []))) ∨
    ∃ pre p rest v, qs = pre ++ p :: rest ∧ (∀ q ∈ pre, m q.2 = none) ∧ m p.2 = some v ∧
      step (m, qs) .front = (some (p.1, v), (upd m p.2 none, rest)) := by
  induction qs with
  | nil => exact .inl ⟨by simp, step_nil m _⟩
  | cons q qs ih =>
    rcases ho : m q.2 with _ | v
    · rw [step_front_none ho]
      rcases ih with ⟨h1, h2⟩ | ⟨pre, p, rest, v, rfl, h1, h2, h3⟩
      · exact .inl ⟨fun p hp => by rcases List.mem_cons.1 hp with rfl | hp; exact ho; exact h1 p hp, h2⟩
      · refine .inr ⟨q :: pre, p, rest, v, rfl, fun p hp => ?_, h2, h3⟩
        rcases List.mem_cons.1 hp with rfl | hp
        · exact ho
        · exact h1 p hp
    · exact .inr ⟨[], q, qs, v, rfl, by simp, ho, step_front_some ho⟩

theorem without_absent {m : K → Option V} {ks : List K} (h : ∀ k ∈ ks, m k = none) : without m ks = m := by
  funext k
  simp only [without]
  split
  · next hk => exact (h k hk).symm
  · rfl

theorem without_upd {m : K → Option V} {pre : List K} (h : ∀ k ∈ pre, m k = none) (o : K) (ks : List K) :
    without (upd m o none) ks = without m (pre ++ o :: ks) := by
  funext k
  simp only [without, upd, List.mem_append, List.mem_cons]
  by_cases h1 : k ∈ ks
  · simp [h1]
  · by_cases h2 : k = o
    · simp [h2]
    · by_cases h3 : k ∈ pre
      · simp [h1, h2, h3, h k h3]
      · simp [h1, h2, h3]

theorem sim_dropLoop (L : Lawful c I n) (H : Honest J I) (fuel : Nat) : ∀ (m : K → Option V) (qs : List (K × K)) (x : TotalIterMut (Option V)),
    View I n b (m, qs) x → qs.length < fuel →
    ∃ q qs', Sim x (Caught.dropLoop c J fuel) (.ok ((), q))
        (fun q => ∃ j qs', View I n b (without m ((qs.map (·.2)).take j), qs') q) ∧
      View I n b (without m (qs.map (·.2)), qs') q := by
  induction fuel with
  | zero => intro m qs x _ h; omega
  | succ fuel ih =>
    intro m qs x hx hf
    obtain ⟨q, h1, h2⟩ := sim_next L H (m, qs) x hx
    have h1 := h1.mono (G := fun q => ∃ j qs', View I n b (without m ((qs.map (·.2)).take j), qs') q)
      (fun q ⟨s', e1, e2⟩ => ⟨0, s'.2, by
        obtain ⟨m', qs'⟩ := s'
        obtain ⟨rfl, _⟩ := e1
        rwa [List.take_zero, without_nil]⟩)
    unfold Caught.dropLoop
    rcases step_front_cases m qs with ⟨e1, e2⟩ | ⟨pre, p, rest, v, rfl, e1, e2, e3⟩
    · rw [e2] at h1 h2
      refine ⟨q, [], h1.bind_ok (.ok _), ?_⟩
      rw [without_absent]
      · exact h2
      · intro k hk
        obtain ⟨p, hp, rfl⟩ := List.mem_map.1 hk
        exact e1 p hp
    · have hpre : ∀ k ∈ pre.map (·.2), m k = none := by
        intro k hk
        obtain ⟨p, hp, rfl⟩ := List.mem_map.1 hk
        exact e1 p hp
      rw [e3] at h1 h2
      obtain ⟨q', qs', i1, i2⟩ := ih (upd m p.2 none) rest q h2 (by simp at hf; omega)
      refine ⟨q', qs', h1.bind_ok (i1.mono ?_), ?_⟩
      · rintro q ⟨j, qs', e4⟩
        refine ⟨pre.length + 1 + j, qs', ?_⟩
        rw [without_upd hpre] at e4
        have : (List.map (·.2) (pre ++ p :: rest)).take (pre.length + 1 + j) =
            pre.map (·.2) ++ p.2 :: (rest.map (·.2)).take j := by
          rw [List.map_append, List.take_append, List.take_of_length_le (by simp; omega), List.length_map,
            show pre.length + 1 + j - pre.length = j + 1 by omega, List.map_cons, List.take_succ_cons]
        rw [this]; exact e4
      · rw [without_upd hpre] at i2
        simpa using i2

theorem sim_drop (L : Lawful c I n) (H : Honest J I) {s : State K V} {x : TotalIterMut (Option V)} (h : View I n b s x) :
    ∃ q qs', Sim x (Caught.drainDrop c J) (.ok ((), q))
        (fun q => ∃ j qs', View I n b (without s.1 ((s.2.map (·.2)).take j), qs') q) ∧
      View I n b (without s.1 (s.2.map (·.2)), qs') q := by
  obtain ⟨q, qs', h1, h2⟩ := sim_dropLoop L H (TotalIterMut.len x + 1) s.1 s.2 x h (by rw [h.len]; omega)
  exact ⟨q, qs', Sim.read_bind h1, h2⟩

/-! ## Values are neither lost nor doubled -/

theorem held_upd (L : Lawful c I n) {m : K → Option V} {o : K} {v : V} (h : m o = some v) :
    (v :: held I n (upd m o none)).Perm (held I n m) := by
  have hmem : o ∈ values I n := mem_values L o
  have hn := values_nodup L
  unfold held
  generalize values I n = l at hmem hn
  induction l with
  | nil => simp at hmem
  | cons a l ih =>
    rw [List.nodup_cons] at hn
    by_cases e : a = o
    · subst e
      have : l.filterMap (upd m a none) = l.filterMap m := by
        clear ih hmem
        induction l with
        | nil => rfl
        | cons k l ih =>
          simp only [List.mem_cons, not_or] at hn
          have hk : upd m a none k = m k := by simp [upd, Ne.symm hn.1.1]
          simp only [List.filterMap_cons, hk, ih ⟨hn.1.2, (List.nodup_cons.1 hn.2).2⟩]
      rw [List.filterMap_cons_none (by simp [upd]), List.filterMap_cons_some h, this]
    · have hmem : o ∈ l := by
        rcases List.mem_cons.1 hmem with h | h
        · exact absurd h.symm e
        · exact h
      have ih := ih hmem hn.2
      have e2 : upd m o none a = m a := by simp [upd, e]
      rcases ha : m a with _ | w
      · rw [List.filterMap_cons_none (by rw [e2, ha]), List.filterMap_cons_none ha]; exact ih
      · rw [List.filterMap_cons_some (by rw [e2, ha]), List.filterMap_cons_some ha]
        exact (List.Perm.swap w v _).trans (ih.cons w)

theorem step_perm (L : Lawful c I n) (s : State K V) (d : Dir) :
    (((step s d).1.toList.map (·.2)) ++ held I n (step s d).2.1).Perm (held I n s.1) := by
  unfold step
  rcases Deque.step (Sparse.skip s.2 (Sparse.absent (items s) d) d) d with ⟨_ | ⟨k, o⟩, qs⟩
  · exact .refl _
  · rcases ho : s.1 o with _ | v
    · simp only [ho, Option.map_none, Option.toList_none, List.map_nil, List.nil_append, upd_none ho]
      exact .refl _
    · simp only [ho, Option.map_some, Option.toList_some, List.map_cons, List.map_nil, List.cons_append, List.nil_append]
      exact held_upd L ho

theorem yielded_cons {ο : Type} (o : Option ο) (es : List (Ended (Option ο))) :
    yielded (.returned o :: es) = o.toList ++ yielded es := by cases o <;> rfl

theorem calls_perm (L : Lawful c I n) {s : State K V} {ds : List Dir} {es : List (Ended (Option (K × V)))}
    {r : Option (State K V)} (h : CaughtLike step after (fun _ => False) s ds es r) :
    ∃ s', r = some s' ∧ ((yielded es).map (·.2) ++ held I n s'.1).Perm (held I n s.1) := by
  induction h with
  | nil m => exact ⟨m, rfl, by simp [yielded]⟩
  | @returned m d ds es r _ ih =>
    obtain ⟨s', rfl, ih⟩ := ih
    refine ⟨s', rfl, ?_⟩
    rw [yielded_cons, List.map_append, List.append_assoc]
    exact (ih.append_left _).trans (step_perm L m d)
  | @panicked m m' d ds es r ha _ ih =>
    obtain ⟨s', rfl, ih⟩ := ih
    refine ⟨s', rfl, ?_⟩
    rw [ha.1] at ih
    exact ih
  | aborted hf => exact absurd hf id

/-! ## What is left -/

/-- All keys of the map are still to be visited, except `j` at most. -/
def Missing (j : Nat) (s : State K V) : Prop :=
  ∃ lost : List K, lost.length ≤ j ∧ ∀ k, s.1 k ≠ none → k ∈ lost ∨ k ∈ s.2.map (·.2)

omit [DecidableEq K] in
theorem mem_skip {m : K → Option V} {qs : List (K × K)} {j : Nat} {d : Dir} (hj : j ≤ Sparse.absent (items (m, qs)) d)
    {k : K} (hk : m k ≠ none) (h : k ∈ qs.map (·.2)) : k ∈ (Sparse.skip qs j d).map (·.2) := by
  induction j generalizing qs with
  | zero => rwa [skip_zero']
  | succ j ih =>
    cases d with
    | front =>
      cases qs with
      | nil => simp at h
      | cons q qs =>
        rcases ho : m q.2 with _ | v
        · rw [items_cons, ho, absent_front_none] at hj
          refine ih (by omega) ?_
          simp only [List.map_cons, List.mem_cons] at h
          rcases h with rfl | h
          · exact absurd ho hk
          · exact h
        · rw [items_cons, ho, absent_front_some] at hj; omega
    | back =>
      rcases List.eq_nil_or_concat qs with rfl | ⟨qs, q, rfl⟩
      · simp at h
      · simp only [List.concat_eq_append] at *
        rcases ho : m q.2 with _ | v
        · rw [items_snoc, ho, absent_back_none] at hj
          rw [skip_back_snoc']
          refine ih (by omega) ?_
          simp only [List.map_append, List.map_cons, List.map_nil, List.mem_append, List.mem_singleton] at h
          rcases h with h | rfl
          · exact h
          · exact absurd ho hk
        · rw [items_snoc, ho, absent_back_some] at hj; omega

theorem Missing.step {j : Nat} {s : State K V} (h : Missing j s) (d : Dir) : Missing j (step s d).2 := by
  obtain ⟨lost, h1, h2⟩ := h
  refine ⟨lost, h1, fun k => ?_⟩
  unfold Draining.step
  obtain ⟨m, qs⟩ := s
  have key : ∀ k, m k ≠ none → k ∈ lost ∨ k ∈ (Sparse.skip qs (Sparse.absent (items (m, qs)) d) d).map (·.2) :=
    fun k hk => (h2 k hk).imp id (mem_skip (Nat.le_refl _) hk)
  dsimp only
  generalize Sparse.skip qs (Sparse.absent (items (m, qs)) d) d = l at key
  cases d with
  | front =>
    cases l with
    | nil => exact key k
    | cons p l =>
      intro hk
      simp only [Deque.step, List.head?_cons, List.tail_cons, upd] at hk ⊢
      by_cases e : k = p.2
      · simp [e] at hk
      · simp only [e, if_false] at hk
        rcases key k hk with h | h
        · exact .inl h
        · simp only [List.map_cons, List.mem_cons] at h
          exact .inr (h.resolve_left e)
  | back =>
    rcases List.eq_nil_or_concat l with rfl | ⟨l, p, rfl⟩
    · exact key k
    · intro hk
      simp only [List.concat_eq_append] at key hk ⊢
      simp only [Deque.step, List.getLast?_append, List.getLast?_singleton, Option.some_or, List.dropLast_concat,
        upd] at hk ⊢
      by_cases e : k = p.2
      · simp [e] at hk
      · simp only [e, if_false] at hk
        rcases key k hk with h | h
        · exact .inl h
        · simp only [List.map_append, List.map_cons, List.map_nil, List.mem_append, List.mem_singleton] at h
          exact .inr (h.resolve_right e)

omit [DecidableEq K] in
theorem Missing.after {j : Nat} {s s' : State K V} (h : Missing j s) {d : Dir} (ha : after s d s') :
    Missing (j + 1) s' := by
  obtain ⟨lost, h1, h2⟩ := h
  obtain ⟨m, qs⟩ := s
  obtain ⟨m', qs'⟩ := s'
  obtain ⟨rfl, i, hi, hp⟩ := ha
  have key : ∀ k, m' k ≠ none → k ∈ lost ∨ k ∈ (Sparse.skip qs i d).map (·.2) :=
    fun k hk => (h2 k hk).imp id (mem_skip hi hk)
  generalize Sparse.skip qs i d = l at key hp
  cases d with
  | front =>
    obtain ⟨hl, hs⟩ := hp
    dsimp only at hs
    subst hs
    cases l with
    | nil => exact absurd rfl hl
    | cons p l =>
      refine ⟨p.2 :: lost, by simp; omega, fun k hk => ?_⟩
      rw [shift_snd]
      rcases key k hk with h | h
      · exact .inl (List.mem_cons_of_mem _ h)
      · simp only [List.map_cons, List.mem_cons] at h
        rcases h with rfl | h
        · exact .inl (by simp)
        · exact .inr (by simpa using h)
  | back =>
    obtain ⟨hl, hs⟩ := hp
    dsimp only at hs
    subst hs
    rcases List.eq_nil_or_concat l with rfl | ⟨l, p, rfl⟩
    · exact absurd rfl hl
    · simp only [List.concat_eq_append] at key ⊢
      refine ⟨p.2 :: lost, by simp; omega, fun k hk => ?_⟩
      rw [List.dropLast_concat]
      rcases key k hk with h | h
      · exact .inl (List.mem_cons_of_mem _ h)
      · simp only [List.map_append, List.map_cons, List.map_nil, List.mem_append, List.mem_singleton] at h
        rcases h with h | rfl
        · exact .inr h
        · exact .inl (by simp)

theorem calls_missing {s s' : State K V} {ds : List Dir} {es : List (Ended (Option (K × V)))}
    {r : Option (State K V)} (h : CaughtLike step after (fun _ => False) s ds es r) (hr : r = some s') {j : Nat}
    (hs : Missing j s) : Missing (j + panics es) s' := by
  induction h generalizing j with
  | nil m => cases hr; exact hs
  | @returned m d ds es r _ ih => exact ih hr (hs.step d)
  | @panicked m m' d ds es r ha _ ih =>
    have := ih hr (hs.after ha)
    rwa [show j + panics (.panicked :: es) = j + 1 + panics es by simp only [panics]; omega]
  | aborted hf => exact absurd hf id

/-- What a caught history can only remove, it does not change. -/
theorem calls_shrink {s s' : State K V} {ds : List Dir} {es : List (Ended (Option (K × V)))}
    {r : Option (State K V)} (h : CaughtLike step after (fun _ => False) s ds es r) (hr : r = some s') (k : K) :
    s'.1 k = none ∨ s'.1 k = s.1 k := by
  induction h with
  | nil m => cases hr; exact .inr rfl
  | @returned m d ds es r _ ih =>
    rcases ih hr with e | e
    · exact .inl e
    · rw [e]
      unfold step
      rcases Deque.step (Sparse.skip m.2 (Sparse.absent (items m) d) d) d with ⟨_ | ⟨k', o⟩, qs⟩
      · exact .inr rfl
      · simp only [upd]
        by_cases hk : k = o
        · simp [hk]
        · simp [hk]
  | @panicked m m' d ds es r ha _ ih => rw [← ha.1]; exact ih hr
  | aborted hf => exact absurd hf id

omit [DecidableEq K] in
theorem drift_skip' {f : Nat} {qs : List (K × K)} (h : Drift I id f qs) (j : Nat) (d : Dir) :
    Drift I id f (Sparse.skip qs j d) := by
  cases d with
  | front => exact h.drop j
  | back => exact h.take _

/-- Which value comes with which key. -/
theorem calls_drift {m : K → Option V} {qs : List (K × K)} {ds : List Dir} {es : List (Ended (Option (K × V)))}
    {r : Option (State K V)} (h : CaughtLike step after (fun _ => False) (m, qs) ds es r) (hD : Drift I id 0 qs) (j : Nat)
    (k : K) (v : V) (hj : es[j]? = some (.returned (some (k, v)))) :
    ∃ i k', I.ordinal k = .ok i ∧ I.ordinal k' = .ok (i + frontPanics (ds.take j) (es.take j)) ∧ m k' = some v := by
  have := drift_run (D := fun f (s : State K V) => Drift I id f s.2 ∧ ∀ k, s.1 k = none ∨ s.1 k = m k)
    (Q := fun f (p : K × V) => ∃ i k', I.ordinal p.1 = .ok i ∧ I.ordinal k' = .ok (i + f) ∧ m k' = some p.2)
    (spec := step)
    (fun f s d ⟨h1, h2⟩ => by
      have h1 := drift_skip' h1 (Sparse.absent (items s) d) d
      unfold step
      generalize Sparse.skip s.2 (Sparse.absent (items s) d) d = l at h1
      have h3 : Drift I id f (Deque.step l d).2 := by
        cases d with
        | front => exact h1.tail
        | back => exact h1.dropLast
      rcases hl : Deque.step l d with ⟨_ | ⟨k, o⟩, l'⟩
      · rw [hl] at h3; exact ⟨h3, h2⟩
      · rw [hl] at h3
        refine ⟨h3, fun k' => ?_⟩
        simp only [upd]
        by_cases e : k' = o
        · simp [e]
        · simp only [e, if_false]; exact h2 k')
    (fun f s d s' ⟨h1, h2⟩ ⟨e, j, _, ha⟩ => ⟨(drift_skip' h1 j d).after ha, fun k => by rw [e]; exact h2 k⟩)
    (fun f s d x ⟨h1, h2⟩ e => by
      have h1 := drift_skip' h1 (Sparse.absent (items s) d) d
      unfold step at e
      generalize Sparse.skip s.2 (Sparse.absent (items s) d) d = l at h1 e
      rcases hl : Deque.step l d with ⟨_ | ⟨k, o⟩, l'⟩
      · rw [hl] at e; simp at e
      · rw [hl] at e
        dsimp only at e
        obtain ⟨v, e1, rfl⟩ := Option.map_eq_some_iff.1 e
        have hmem : (k, o) ∈ l := by
          cases d with
          | front => exact List.mem_of_head? (congrArg Prod.fst hl)
          | back => exact List.mem_of_getLast? (congrArg Prod.fst hl)
        obtain ⟨i, k', g1, g2, g3⟩ := h1.mem hmem
        have g3 : o = k' := g3
        subst g3
        refine ⟨i, o, g1, g2, ?_⟩
        rcases h2 o with e2 | e2
        · rw [e2] at e1; simp at e1
        · rw [← e2]; exact e1) h ⟨hD, fun k => .inr rfl⟩ j (k, v) hj
  simpa using this

end Draining

end OrdinalMap
