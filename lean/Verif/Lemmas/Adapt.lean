import Verif.Lemmas.Consume
/-! # Adapters over exact-size double-ended iterators -/

namespace OrdinalMap
variable {σ ι τ κ : Type} {it : DEIter σ ι} {obs : List ι → σ → Prop}

theorem BehavesLike.now {s : σ} {l : List ι} (h : BehavesLike it s l obs) : obs l s := by
  obtain ⟨s', h1, h2⟩ := h []
  simp only [DEIter.run, Deque.run, Except.ok.injEq, Prod.mk.injEq] at h1
  rw [← h1.2] at h2
  exact h2

theorem BehavesLike.stepObs {s : σ} {l : List ι} (h : BehavesLike it s l obs) (d : Dir) :
    ∃ s', it.step s d = .ok ((Deque.step l d).1, s') ∧ BehavesLike it s' (Deque.step l d).2 obs := by
  obtain ⟨s1, h1, _⟩ := h [d]
  cases hn : it.step s d with
  | error e => simp [DEIter.run, hn] at h1
  | ok p =>
    obtain ⟨o, s'⟩ := p
    have ho : o = (Deque.step l d).1 := by
      simp [DEIter.run, hn, Deque.run] at h1
      exact h1.1
    refine ⟨s', by rw [ho], fun ds => ?_⟩
    obtain ⟨s2, h2, h3⟩ := h (d :: ds)
    simp only [DEIter.run, hn, ok_bind, Deque.run] at h2
    cases hr : it.run s' ds with
    | error e => simp [hr] at h2
    | ok q =>
      obtain ⟨os, s3⟩ := q
      simp [hr] at h2
      refine ⟨s3, by rw [h2.1.2], ?_⟩
      rw [h2.2]
      exact h3

theorem BehavesLike.frontObs {s : σ} {l : List ι} (h : BehavesLike it s l obs) :
    ∃ s', it.next s = .ok (l.head?, s') ∧ BehavesLike it s' l.tail obs := h.stepObs .front

theorem BehavesLike.backObs {s : σ} {l : List ι} (h : BehavesLike it s l obs) :
    ∃ s', it.nextBack s = .ok (l.getLast?, s') ∧ BehavesLike it s' l.dropLast obs := h.stepObs .back

theorem BehavesLike.nthObs : ∀ (k : Nat) (l : List ι) (s : σ), BehavesLike it s l obs →
    ∃ s', it.nth k s = .ok (l[k]?, s') ∧ BehavesLike it s' (l.drop (k + 1)) obs := by
  intro k
  induction k with
  | zero =>
    intro l s h
    obtain ⟨s', h1, h2⟩ := h.frontObs
    refine ⟨s', by rw [DEIter.nth, h1, List.head?_eq_getElem?], by simpa using h2⟩
  | succ k ih =>
    intro l s h
    obtain ⟨s', h1, h2⟩ := h.frontObs
    unfold DEIter.nth
    cases l with
    | nil => exact ⟨s', by simp [h1], h2⟩
    | cons x l =>
      simp only [h1, List.head?_cons, ok_bind]
      simpa using ih l s' h2

theorem BehavesLike.nthBackObs : ∀ (k : Nat) (l : List ι) (s : σ), BehavesLike it s l obs → k < l.length →
    ∃ s', it.nthBack k s = .ok (l[l.length - 1 - k]?, s') ∧
      BehavesLike it s' (l.take (l.length - 1 - k)) obs := by
  intro k
  induction k with
  | zero =>
    intro l s h _
    obtain ⟨s', h1, h2⟩ := h.backObs
    refine ⟨s', by rw [DEIter.nthBack, h1, List.getLast?_eq_getElem?]; rfl, ?_⟩
    rwa [List.dropLast_eq_take] at h2
  | succ k ih =>
    intro l s h hk
    obtain ⟨s', h1, h2⟩ := h.backObs
    unfold DEIter.nthBack
    obtain ⟨x, hx⟩ : ∃ x, l.getLast? = some x := by
      cases l with
      | nil => simp at hk
      | cons a l => exact ⟨_, List.getLast?_eq_some_getLast (by simp)⟩
    simp only [h1, hx, ok_bind]
    obtain ⟨s'', h3, h4⟩ := ih l.dropLast s' h2 (by simp; omega)
    refine ⟨s'', ?_, ?_⟩
    · rw [h3]
      simp only [List.length_dropLast, Except.ok.injEq, Prod.mk.injEq, and_true]
      rw [List.getElem?_dropLast]
      rw [if_pos (by omega)]
      congr 1; omega
    · simp only [List.dropLast_eq_take, List.take_take, List.length_take] at h4
      have e : min (min (l.length - 1) l.length - 1 - k) (l.length - 1) = l.length - 1 - (k + 1) := by omega
      rwa [e] at h4

variable {E : ESIter σ ι} {F : ESIter τ κ}

theorem ESIter.rev_behaves {s : σ} {l : List ι} (h : BehavesLike E.toDEIter s l obs) :
    BehavesLike E.rev s l.reverse := by
  refine (behavesLike_of (it := E.rev) (fun r s => BehavesLike E.toDEIter s r.reverse obs) ?_ ?_
    (by simpa using h)).mono fun _ _ _ => trivial
  · intro s r h
    obtain ⟨s', h1, h2⟩ := h.backObs
    exact ⟨s', by simpa [ESIter.rev] using h1, by simpa using h2⟩
  · intro s r h
    obtain ⟨s', h1, h2⟩ := h.frontObs
    exact ⟨s', by simpa [ESIter.rev] using h1, by simpa using h2⟩

theorem ESIter.take_behaves {s : σ} {l : List ι} (h : BehavesLike E.toDEIter s l E.LenExact) (k : Nat) :
    BehavesLike E.take (s, k) (l.take k) := by
  refine (behavesLike_of (it := E.take) (fun r p => ∃ l, r = l.take p.2 ∧
    BehavesLike E.toDEIter p.1 l E.LenExact) ?_ ?_ ⟨l, rfl, h⟩).mono fun _ _ _ => trivial
  · rintro ⟨s, k⟩ r ⟨l, rfl, h⟩
    simp only [ESIter.take]
    cases k with
    | zero => exact ⟨(s, 0), by simp, l, by simp, h⟩
    | succ k =>
      obtain ⟨s', h1, h2⟩ := h.frontObs
      refine ⟨(s', k), ?_, l.tail, ?_, h2⟩
      · cases l <;> simp [h1]
      · cases l <;> simp
  · rintro ⟨s, k⟩ r ⟨l, rfl, h⟩
    simp only [ESIter.take]
    cases k with
    | zero => exact ⟨(s, 0), by simp, l, by simp, h⟩
    | succ k =>
      have hl : E.len s = l.length := h.now
      rcases Nat.eq_zero_or_pos l.length with h0 | h0
      · obtain rfl := List.eq_nil_of_length_eq_zero h0
        obtain ⟨s', h1, h2⟩ := h.backObs
        refine ⟨(s', k), ?_, [], by simp, h2⟩
        simp [hl, DEIter.nthBack, h1]
      · obtain ⟨s', h1, h2⟩ := h.nthBackObs (l.length - (k + 1)) l s (by omega)
        refine ⟨(s', k), ?_, _, ?_, h2⟩
        · simp only [hl, h1, ok_bind, Nat.add_one_sub_one, Nat.add_eq_zero_iff, Nat.one_ne_zero, and_false,
            if_false, Except.ok.injEq, Prod.mk.injEq, and_true]
          rw [List.getLast?_eq_getElem?, List.length_take, List.getElem?_take_of_lt (by omega)]
          congr 1; omega
        · rw [List.dropLast_eq_take, List.take_take, List.take_take, List.length_take]
          congr 1; omega

theorem ESIter.skip_behaves {s : σ} {l : List ι} (h : BehavesLike E.toDEIter s l E.HintExact) (k : Nat) :
    BehavesLike E.skip (s, k) (l.drop k) := by
  refine (behavesLike_of (it := E.skip) (fun r p => ∃ l, r = l.drop p.2 ∧
    BehavesLike E.toDEIter p.1 l E.HintExact) ?_ ?_ ⟨l, rfl, h⟩).mono fun _ _ _ => trivial
  · rintro ⟨s, k⟩ r ⟨l, rfl, h⟩
    simp only [ESIter.skip]
    rcases Nat.eq_zero_or_pos k with rfl | hk
    · obtain ⟨s', h1, h2⟩ := h.frontObs
      exact ⟨(s', 0), by simp [h1], l.tail, by simp, h2⟩
    · obtain ⟨s', h1, h2⟩ := h.nthObs k l s
      exact ⟨(s', 0), by simp [hk, h1], _, by simp, h2⟩
  · rintro ⟨s, k⟩ r ⟨l, rfl, h⟩
    have hl : E.sizeHint s = (l.length, some l.length) := h.now
    simp only [ESIter.skip, hl, Option.map_some, providedLen, if_true, ok_bind]
    by_cases hk : 0 < l.length - k
    · obtain ⟨s', h1, h2⟩ := h.backObs
      refine ⟨(s', k), ?_, l.dropLast, ?_, h2⟩
      · simp only [hk, if_true, h1, ok_bind, Except.ok.injEq, Prod.mk.injEq, and_true]
        rw [List.getLast?_drop, if_neg (by omega)]
      · simp only [List.dropLast_eq_take, List.length_drop, List.drop_take]
        congr 1; omega
    · refine ⟨(s, k), ?_, l, ?_, h⟩
      · rw [if_neg hk, List.drop_eq_nil_of_le (by omega)]; rfl
      · rw [List.drop_eq_nil_of_le (by omega)]; rfl

theorem ESIter.enumerate_behaves {s : σ} {l : List ι} (h : BehavesLike E.toDEIter s l E.LenExact) (k : Nat) :
    BehavesLike E.enumerate (s, k) (l.zipIdx k |>.map fun p => (p.2, p.1)) := by
  refine (behavesLike_of (it := E.enumerate) (fun r p => ∃ l, r = (l.zipIdx p.2 |>.map fun p => (p.2, p.1)) ∧
    BehavesLike E.toDEIter p.1 l E.LenExact) ?_ ?_ ⟨l, rfl, h⟩).mono fun _ _ _ => trivial
  · rintro ⟨s, k⟩ r ⟨l, rfl, h⟩
    obtain ⟨s', h1, h2⟩ := h.frontObs
    simp only [ESIter.enumerate, h1, ok_bind]
    cases l with
    | nil => exact ⟨(s', k), by simp, [], by simp, h2⟩
    | cons x l => exact ⟨(s', k + 1), by simp, l, by simp, h2⟩
  · rintro ⟨s, k⟩ r ⟨l, rfl, h⟩
    obtain ⟨s', h1, h2⟩ := h.backObs
    simp only [ESIter.enumerate, h1, ok_bind]
    rcases List.eq_nil_or_concat l with rfl | ⟨l, x, rfl⟩
    · exact ⟨(s', k), by simp, [], by simp, h2⟩
    · have hl : E.len s' = l.length := by simpa [ESIter.LenExact] using h2.now
      refine ⟨(s', k), by simp [List.zipIdx_append, hl], l, ?_, by simpa using h2⟩
      simp [List.zipIdx_append]

theorem ESIter.trim_behaves : ∀ (k : Nat) (s : σ) (l : List ι), BehavesLike E.toDEIter s l obs →
    ∃ s', E.trim k s = .ok s' ∧ BehavesLike E.toDEIter s' (l.take (l.length - k)) obs := by
  intro k
  induction k with
  | zero => intro s l h; exact ⟨s, rfl, by simpa using h⟩
  | succ k ih =>
    intro s l h
    obtain ⟨s', h1, h2⟩ := h.backObs
    obtain ⟨s'', h3, h4⟩ := ih s' _ h2
    refine ⟨s'', by simp [ESIter.trim, h1, h3], ?_⟩
    simp only [List.dropLast_eq_take, List.take_take, List.length_take] at h4
    have e : min (min (l.length - 1) l.length - k) (l.length - 1) = l.length - (k + 1) := by omega
    rwa [e] at h4

theorem ESIter.zip_behaves {s : σ} {l : List ι} {t : τ} {m : List κ}
    (h : BehavesLike E.toDEIter s l E.LenExact) (h' : BehavesLike F.toDEIter t m F.LenExact) :
    BehavesLike (E.zip F) (s, t) (l.zip m) := by
  refine (behavesLike_of (it := E.zip F) (fun r p => ∃ l m, r = l.zip m ∧
    BehavesLike E.toDEIter p.1 l E.LenExact ∧ BehavesLike F.toDEIter p.2 m F.LenExact) ?_ ?_
    ⟨l, m, rfl, h, h'⟩).mono fun _ _ _ => trivial
  · rintro ⟨s, t⟩ r ⟨l, m, rfl, h, h'⟩
    obtain ⟨s', h1, h2⟩ := h.frontObs
    simp only [ESIter.zip, h1, ok_bind]
    cases l with
    | nil => exact ⟨(s', t), by simp, [], m, by simp, h2, h'⟩
    | cons x l =>
      obtain ⟨t', h3, h4⟩ := h'.frontObs
      simp only [List.head?_cons, h3, ok_bind]
      cases m with
      | nil => exact ⟨(s', t'), by simp, l, [], by simp, h2, h4⟩
      | cons y m => exact ⟨(s', t'), by simp, l, m, by simp, h2, h4⟩
  · rintro ⟨s, t⟩ r ⟨l, m, rfl, h, h'⟩
    have hl : E.len s = l.length := h.now
    have hm : F.len t = m.length := h'.now
    obtain ⟨s1, a1, a2⟩ := ESIter.trim_behaves (l.length - m.length) s l h
    obtain ⟨t1, b1, b2⟩ := ESIter.trim_behaves (m.length - l.length) t m h'
    obtain ⟨s2, a3, a4⟩ := a2.backObs
    obtain ⟨t2, b3, b4⟩ := b2.backObs
    have e : l.zip m = (l.take (l.length - (l.length - m.length))).zip
        (m.take (m.length - (m.length - l.length))) := by
      rw [List.zip_eq_zip_take_min]
      congr 2 <;> omega
    have elen : (l.take (l.length - (l.length - m.length))).length =
        (m.take (m.length - (m.length - l.length))).length := by simp; omega
    simp only [ESIter.zip, hl, hm, a1, b1, a3, b3, ok_bind]
    rw [e]
    generalize l.take (l.length - (l.length - m.length)) = l' at *
    generalize m.take (m.length - (m.length - l.length)) = m' at *
    refine ⟨(s2, t2), ?_, l'.dropLast, m'.dropLast, ?_, a4, b4⟩
    · rcases List.eq_nil_or_concat l' with rfl | ⟨l', x, rfl⟩
      · obtain rfl := List.eq_nil_of_length_eq_zero elen.symm
        simp
      · rcases List.eq_nil_or_concat m' with rfl | ⟨m', y, rfl⟩
        · simp at elen
        · simp at elen
          simp [List.zip_append elen]
    · rcases List.eq_nil_or_concat l' with rfl | ⟨l', x, rfl⟩
      · simp
      · rcases List.eq_nil_or_concat m' with rfl | ⟨m', y, rfl⟩
        · simp at elen
        · simp at elen
          simp [List.zip_append elen]

theorem BehavesLike.adapts {s : σ} {l : List ι} (h : BehavesLike E.toDEIter s l E.LenExact) : Adapts E s l :=
  ⟨ESIter.rev_behaves h, ESIter.take_behaves h, ESIter.enumerate_behaves h,
    fun _ _ _ h' => ⟨ESIter.zip_behaves h h', ESIter.zip_behaves h' h⟩⟩

end OrdinalMap
