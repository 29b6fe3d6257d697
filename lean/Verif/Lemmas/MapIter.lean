import Verif.Model.MapIter
import Verif.Lemmas.Values
/-! # Simulations for histories, and the map iterators as deques -/

namespace OrdinalMap
variable {K V W σ ι μ ω ο : Type} {c : Cfg} {I : OrdinalImpl K} {n : Nat}

/-! ## Histories -/

theorem runsLike_of {step : σ → ω → R (ο × σ)} {spec : μ → ω → ο × μ} (rel : μ → σ → Prop)
    (h : ∀ m s op, rel m s → ∃ s', step s op = .ok ((spec m op).1, s') ∧ rel (spec m op).2 s')
    {s : σ} {m : μ} (hr : rel m s) : RunsLike step spec s m rel := by
  intro ops
  induction ops generalizing s m with
  | nil => exact ⟨s, rfl, hr⟩
  | cons op ops ih =>
    obtain ⟨s1, h1, h2⟩ := h m s op hr
    obtain ⟨s2, h3, h4⟩ := ih h2
    exact ⟨s2, by simp only [runOps, h1, ok_bind, h3, runSpec], h4⟩

theorem RunsLike.mono {step : σ → ω → R (ο × σ)} {spec : μ → ω → ο × μ} {s : σ} {m : μ}
    {P Q : μ → σ → Prop} (h : RunsLike step spec s m P) (hPQ : ∀ m s, P m s → Q m s) :
    RunsLike step spec s m Q := by
  intro ops
  obtain ⟨s', h1, h2⟩ := h ops
  exact ⟨s', h1, hPQ _ _ h2⟩

/-! ## Standard iterators -/

/-- `SV l s`: the iterator state `s` still has `l` to yield. -/
structure StdIter.Views (S : StdIter σ ι) (SV : List ι → σ → Prop) : Prop where
  next : ∀ l s, SV l s → ∃ s', S.next s = (l.head?, s') ∧ SV l.tail s'
  nextBack : ∀ l s, SV l s → ∃ s', S.nextBack s = (l.getLast?, s') ∧ SV l.dropLast s'
  len : ∀ l s, SV l s → S.len s = l.length

theorem listIter_views (V : Type) : (listIter V).Views (fun l s => s = l) where
  next := by rintro l s rfl; exact ⟨_, rfl, rfl⟩
  nextBack := by rintro l s rfl; exact ⟨_, rfl, rfl⟩
  len := by rintro l s rfl; rfl

/-- The slots left. -/
def SlotView (l : List Nat) (r : Range) : Prop :=
  r.start ≤ r.stop ∧ l = List.range' r.start (r.stop - r.start)

theorem slotIter_views : slotIter.Views SlotView where
  next := by
    rintro l ⟨a, b⟩ ⟨h, rfl⟩
    dsimp only at h ⊢
    rcases Nat.lt_or_ge a b with hlt | hge
    · obtain ⟨d, hd⟩ : ∃ d, b - a = d + 1 := ⟨b - a - 1, by omega⟩
      refine ⟨⟨a + 1, b⟩, ?_, ?_, ?_⟩
      · simp [slotIter, Range.next, hlt, hd, List.range'_succ]
      · dsimp only; omega
      · simp [hd, List.range'_succ, show b - (a + 1) = d by omega]
    · have hab : b - a = 0 := by omega
      refine ⟨⟨a, b⟩, ?_, ?_, ?_⟩
      · simp [slotIter, Range.next, show ¬ a < b by omega, hab]
      · dsimp only; omega
      · simp [hab]
  nextBack := by
    rintro l ⟨a, b⟩ ⟨h, rfl⟩
    dsimp only at h ⊢
    rcases Nat.lt_or_ge a b with hlt | hge
    · obtain ⟨d, hd⟩ : ∃ d, b - a = d + 1 := ⟨b - a - 1, by omega⟩
      refine ⟨⟨a, b - 1⟩, ?_, ?_, ?_⟩
      · simp [slotIter, Range.nextBack, hlt, hd, List.range'_1_concat]; omega
      · dsimp only; omega
      · simp [hd, List.range'_1_concat, show b - 1 - a = d by omega]
    · have hab : b - a = 0 := by omega
      refine ⟨⟨a, b⟩, ?_, ?_, ?_⟩
      · simp [slotIter, Range.nextBack, show ¬ a < b by omega, hab]
      · dsimp only; omega
      · simp [hab]
  len := by
    rintro l ⟨a, b⟩ ⟨h, rfl⟩
    dsimp only at h ⊢
    simp [slotIter, Range.len]; omega

theorem std_behaves {S : StdIter σ ι} {SV : List ι → σ → Prop} (hS : S.Views SV) {s : σ} {l : List ι}
    (h : SV l s) : BehavesLike S.it s l SV := by
  refine behavesLike_of SV ?_ ?_ h
  · intro s l h
    obtain ⟨s', h1, h2⟩ := hS.next l s h
    exact ⟨s', by simp [StdIter.it, h1], h2⟩
  · intro s l h
    obtain ⟨s', h1, h2⟩ := hS.nextBack l s h
    exact ⟨s', by simp [StdIter.it, h1], h2⟩

/-! ## `OrdinalEnumerate` -/

/-- The pairs `OrdinalEnumerate` has left: the items of the inner iterator with consecutive keys from
ordinal `next` on. -/
def EView (I : OrdinalImpl K) (n : Nat) (SV : List ι → σ → Prop) (ps : List (K × ι)) (s : Enumerate σ) :
    Prop :=
  SV (ps.map (·.2)) s.iter ∧ s.next + ps.length ≤ n ∧
    ps.map (·.1) = slice (values I n) s.next (s.next + ps.length)

variable {S : StdIter σ ι} {SV : List ι → σ → Prop}

theorem EView.len (hS : S.Views SV) {ps : List (K × ι)} {s : Enumerate σ} (h : EView I n SV ps s) :
    Enumerate.len S s = ps.length := by
  rw [Enumerate.len, hS.len _ _ h.1, List.length_map]

theorem EView.sizeHint (hS : S.Views SV) {ps : List (K × ι)} {s : Enumerate σ} (h : EView I n SV ps s) :
    Enumerate.sizeHint S s = (ps.length, some ps.length) := by
  rw [Enumerate.sizeHint, hS.len _ _ h.1, List.length_map]

theorem EView.next (L : Lawful c I n) (hS : S.Views SV) (s : Enumerate σ) (ps : List (K × ι))
    (h : EView I n SV ps s) :
    ∃ s', s.nextItem c I S = .ok (ps.head?, s') ∧ EView I n SV ps.tail s' := by
  obtain ⟨h1, h2, h3⟩ := h
  obtain ⟨it', e1, e2⟩ := hS.next _ _ h1
  cases ps with
  | nil =>
    refine ⟨⟨s.next, it'⟩, ?_, ?_⟩
    · simp [Enumerate.nextItem, e1]
    · exact ⟨by simpa using e2, by simpa using h2, by simpa using h3⟩
  | cons p ps =>
    obtain ⟨k, v⟩ := p
    simp only [List.map_cons, List.head?_cons, List.length_cons, List.tail_cons] at *
    have hk := congrArg List.head? h3
    rw [slice_head _ (by omega)] at hk
    obtain ⟨a, a1, a2, _⟩ := values_getElem L s.next (by omega)
    rw [a1] at hk
    simp only [List.head?_cons, Option.some.injEq] at hk
    have := L.fits
    refine ⟨⟨s.next + 1, it'⟩, ?_, ?_⟩
    · simp [Enumerate.nextItem, e1, a2, hk, addU_ok (show s.next + 1 < c.M by omega)]
    · refine ⟨e2, by dsimp only; omega, ?_⟩
      have := congrArg List.tail h3
      rw [slice_tail] at this
      simpa [Nat.add_assoc, Nat.add_comm 1] using this

theorem EView.nextBack (L : Lawful c I n) (hS : S.Views SV) (s : Enumerate σ) (ps : List (K × ι))
    (h : EView I n SV ps s) :
    ∃ s', s.nextBackItem c I S = .ok (ps.getLast?, s') ∧ EView I n SV ps.dropLast s' := by
  obtain ⟨h1, h2, h3⟩ := h
  obtain ⟨it', e1, e2⟩ := hS.nextBack _ _ h1
  rcases List.eq_nil_or_concat ps with rfl | ⟨qs, ⟨k, v⟩, rfl⟩
  · refine ⟨⟨s.next, it'⟩, ?_, ?_⟩
    · simp [Enumerate.nextBackItem, e1]
    · exact ⟨by simpa using e2, by simpa using h2, by simpa using h3⟩
  · simp only [List.concat_eq_append, List.map_append, List.map_cons, List.map_nil, List.length_append,
      List.length_cons, List.length_nil, List.dropLast_concat, List.getLast?_append,
      List.getLast?_singleton, Option.some_or] at *
    have hk := congrArg List.getLast? h3
    have hvl := values_length L
    rw [slice_getLast _ (by omega) (by omega)] at hk
    obtain ⟨a, a1, a2, _⟩ := values_getElem L (s.next + qs.length) (by omega)
    rw [show s.next + (qs.length + (0 + 1)) - 1 = s.next + qs.length by omega, a1] at hk
    simp only [List.getLast?_append, List.getLast?_singleton, Option.some_or, Option.some.injEq] at hk
    have := L.fits
    have hl : S.len it' = qs.length := by rw [hS.len _ _ e2, List.length_map]
    refine ⟨⟨s.next, it'⟩, ?_, ?_⟩
    · simp [Enumerate.nextBackItem, e1, hl, a2, hk, addU_ok (show s.next + qs.length < c.M by omega)]
    · refine ⟨e2, by dsimp only; omega, ?_⟩
      have := congrArg List.dropLast h3
      rw [slice_dropLast_all _ _ _ (by omega), List.dropLast_concat] at this
      rw [this]; rfl

/-- Keys and slots go together. -/
theorem EView.slot (L : Lawful c I n) {ps : List (K × Nat)} {s : Enumerate Range}
    (h : EView I n SlotView ps s) (h0 : s.next = s.iter.start) : ∀ p ∈ ps, p.2 = ordOf I p.1 := by
  obtain ⟨⟨h1, h2⟩, h3, h4⟩ := h
  intro p hp
  obtain ⟨i, hi, rfl⟩ := List.mem_iff_getElem.1 hp
  have e1 : (ps.map (·.1))[i]? = some ps[i].1 := by simp [hi]
  have e2 : (ps.map (·.2))[i]? = some ps[i].2 := by simp [hi]
  have hlen := congrArg List.length h2
  simp only [List.length_map, List.length_range'] at hlen
  rw [h4] at e1
  simp only [slice, List.getElem?_drop] at e1
  rw [List.getElem?_take_of_lt (by omega)] at e1
  obtain ⟨a, a1, _, a3⟩ := values_getElem L (s.next + i) (by omega)
  rw [a1] at e1
  simp only [Option.some.injEq] at e1
  rw [h2, List.getElem?_range' (by omega)] at e2
  simp only [Option.some.injEq] at e2
  rw [← e1, a3, ← e2]; omega

/-! ## The loops of `map/iter.rs` -/

theorem skipLoop_front {α β : Type} {step : σ → R (Option α × σ)} {body : α → σ → R (Option β × σ)}
    {f : α → Option β} (View : List α → σ → Prop)
    (hnil : ∀ s, View [] s → ∃ s', step s = .ok (none, s') ∧ View [] s')
    (hcons : ∀ a l s, View (a :: l) s →
      ∃ s1 s2, step s = .ok (some a, s1) ∧ body a s1 = .ok (f a, s2) ∧ View l s2) :
    ∀ (l : List α) (fuel : Nat) (s : σ), View l s → l.length < fuel →
      ∃ s' l', skipLoop step body fuel s = .ok ((l.filterMap f).head?, s') ∧ View l' s' ∧
        l'.filterMap f = (l.filterMap f).tail := by
  intro l
  induction l with
  | nil =>
    intro fuel s hv hf
    obtain ⟨fuel, rfl⟩ : ∃ k, fuel = k + 1 := ⟨fuel - 1, by omega⟩
    obtain ⟨s', h1, h2⟩ := hnil s hv
    exact ⟨s', [], by simp [skipLoop, h1], h2, rfl⟩
  | cons a l ih =>
    intro fuel s hv hf
    obtain ⟨fuel, rfl⟩ : ∃ k, fuel = k + 1 := ⟨fuel - 1, by omega⟩
    obtain ⟨s1, s2, h1, h2, h3⟩ := hcons a l s hv
    cases hfa : f a with
    | some b =>
      exact ⟨s2, l, by simp [skipLoop, h1, h2, hfa], h3, by simp [hfa]⟩
    | none =>
      obtain ⟨s', l', h4, h5, h6⟩ := ih fuel s2 h3 (by simp at hf; omega)
      refine ⟨s', l', ?_, h5, ?_⟩
      · simp [skipLoop, h1, h2, hfa, h4]
      · simpa [hfa] using h6

theorem skipLoop_back {α β : Type} {step : σ → R (Option α × σ)} {body : α → σ → R (Option β × σ)}
    {f : α → Option β} (View : List α → σ → Prop)
    (hnil : ∀ s, View [] s → ∃ s', step s = .ok (none, s') ∧ View [] s')
    (hcons : ∀ a l s, View (l ++ [a]) s →
      ∃ s1 s2, step s = .ok (some a, s1) ∧ body a s1 = .ok (f a, s2) ∧ View l s2) :
    ∀ (l : List α) (fuel : Nat) (s : σ), View l s → l.length < fuel →
      ∃ s' l', skipLoop step body fuel s = .ok ((l.filterMap f).getLast?, s') ∧ View l' s' ∧
        l'.filterMap f = (l.filterMap f).dropLast := by
  intro l
  generalize hr : l.length = r
  induction r generalizing l with
  | zero =>
    intro fuel s hv hf
    obtain rfl : l = [] := List.length_eq_zero_iff.1 hr
    obtain ⟨fuel, rfl⟩ : ∃ k, fuel = k + 1 := ⟨fuel - 1, by omega⟩
    obtain ⟨s', h1, h2⟩ := hnil s hv
    exact ⟨s', [], by simp [skipLoop, h1], h2, rfl⟩
  | succ r ih =>
    intro fuel s hv hf
    rcases List.eq_nil_or_concat l with rfl | ⟨l, a, rfl⟩
    · simp at hr
    rw [List.concat_eq_append] at *
    obtain ⟨fuel, rfl⟩ : ∃ k, fuel = k + 1 := ⟨fuel - 1, by omega⟩
    obtain ⟨s1, s2, h1, h2, h3⟩ := hcons a l s hv
    cases hfa : f a with
    | some b =>
      exact ⟨s2, l, by simp [skipLoop, h1, h2, hfa], h3, by simp [hfa]⟩
    | none =>
      obtain ⟨s', l', h4, h5, h6⟩ := ih l (by simpa using hr) fuel s2 h3 (by omega)
      refine ⟨s', l', ?_, h5, ?_⟩
      · simp [skipLoop, h1, h2, hfa, h4]
      · simpa [hfa] using h6

/-! ## The iterators that do not borrow mutably -/

/-- What `total::Iter`, `total::IntoIter` and `total::IntoIterArray` have left. -/
abbrev LView (I : OrdinalImpl K) (n : Nat) : List (K × V) → Enumerate (List V) → Prop :=
  EView I n (fun l s => s = l)

theorem TotalIter.behaves (L : Lawful c I n) {s : TotalIter V} {ps : List (K × V)} (h : LView I n ps s) :
    BehavesLike (TotalIter.it c I) s ps (LView I n) :=
  behavesLike_of (LView I n) (EView.next L (listIter_views V)) (EView.nextBack L (listIter_views V)) h

theorem TotalIntoIter.behaves (L : Lawful c I n) {s : TotalIntoIter V} {ps : List (K × V)}
    (h : LView I n ps s) : BehavesLike (TotalIntoIter.it c I) s ps (LView I n) :=
  behavesLike_of (LView I n) (EView.next L (listIter_views V)) (EView.nextBack L (listIter_views V)) h

theorem TotalIntoIterArray.behaves (L : Lawful c I n) {s : TotalIntoIterArray V} {ps : List (K × V)}
    (h : LView I n ps s) : BehavesLike (TotalIntoIterArray.it c I) s ps (LView I n) :=
  behavesLike_of (LView I n) (EView.next L (listIter_views V)) (EView.nextBack L (listIter_views V)) h

/-- The present pair at a slot. -/
def present (p : K × Option V) : Option (K × V) := p.2.map fun v => (p.1, v)

/-- What a sparse iterator has left. -/
def SView (I : OrdinalImpl K) (n : Nat) (l : List (K × V)) (s : Enumerate (List (Option V))) : Prop :=
  ∃ ps : List (K × Option V), LView I n ps s ∧ l = ps.filterMap present

theorem SView.len_le {l : List (K × V)} {s : Enumerate (List (Option V))} (h : SView I n l s) :
    l.length ≤ Enumerate.len (listIter (Option V)) s := by
  obtain ⟨ps, h1, rfl⟩ := h
  rw [h1.len (listIter_views _)]
  exact List.length_filterMap_le _ _

theorem sview_next (L : Lawful c I n)
    {body : K × Option V → Enumerate (List (Option V)) → R (Option (K × V) × Enumerate (List (Option V)))}
    (hb : ∀ p s, body p s = .ok (present p, s)) (s : Enumerate (List (Option V))) (l : List (K × V))
    (h : SView I n l s) :
    ∃ s', skipLoop (fun s : Enumerate (List (Option V)) => s.nextItem c I (listIter _)) body
      (Enumerate.len (listIter (Option V)) s + 1) s = .ok (l.head?, s') ∧ SView I n l.tail s' := by
  obtain ⟨ps, h1, rfl⟩ := h
  obtain ⟨s', l', e1, e2, e3⟩ := skipLoop_front (step := fun s : Enumerate (List (Option V)) =>
      s.nextItem c I (listIter _)) (body := body) (f := present) (LView I n)
    (fun s hv => EView.next L (listIter_views _) s [] hv)
    (fun a l s hv => by
      obtain ⟨s1, x1, x2⟩ := EView.next L (listIter_views _) s (a :: l) hv
      exact ⟨s1, s1, x1, hb _ _, x2⟩)
    ps (Enumerate.len (listIter (Option V)) s + 1) s h1 (by rw [h1.len (listIter_views _)]; omega)
  exact ⟨s', e1, l', e2, e3.symm⟩

theorem sview_nextBack (L : Lawful c I n)
    {body : K × Option V → Enumerate (List (Option V)) → R (Option (K × V) × Enumerate (List (Option V)))}
    (hb : ∀ p s, body p s = .ok (present p, s)) (s : Enumerate (List (Option V))) (l : List (K × V))
    (h : SView I n l s) :
    ∃ s', skipLoop (fun s : Enumerate (List (Option V)) => s.nextBackItem c I (listIter _)) body
      (Enumerate.len (listIter (Option V)) s + 1) s = .ok (l.getLast?, s') ∧ SView I n l.dropLast s' := by
  obtain ⟨ps, h1, rfl⟩ := h
  obtain ⟨s', l', e1, e2, e3⟩ := skipLoop_back (step := fun s : Enumerate (List (Option V)) =>
      s.nextBackItem c I (listIter _)) (body := body) (f := present) (LView I n)
    (fun s hv => EView.nextBack L (listIter_views _) s [] hv)
    (fun a l s hv => by
      obtain ⟨s1, x1, x2⟩ := EView.nextBack L (listIter_views _) s (l ++ [a]) hv
      rw [List.dropLast_concat] at x2
      exact ⟨s1, s1, by simpa using x1, hb _ _, x2⟩)
    ps (Enumerate.len (listIter (Option V)) s + 1) s h1 (by rw [h1.len (listIter_views _)]; omega)
  exact ⟨s', e1, l', e2, e3.symm⟩

theorem MapIter.body_eq (p : K × Option V) (s : MapIter V) : MapIter.body p s = .ok (present p, s) := by
  obtain ⟨k, o⟩ := p; cases o <;> rfl

theorem MapIntoIter.body_eq (p : K × Option V) (s : MapIntoIter V) :
    MapIntoIter.body p s = .ok (present p, s) := by
  obtain ⟨k, o⟩ := p; cases o <;> rfl

theorem MapIntoIterArray.body_eq (p : K × Option V) (s : MapIntoIterArray V) :
    MapIntoIterArray.body p s = .ok (present p, s) := by
  obtain ⟨k, o⟩ := p; cases o <;> rfl

theorem MapIter.next_view (L : Lawful c I n) (s : MapIter V) (l : List (K × V)) (h : SView I n l s) :
    ∃ s', MapIter.next c I s = .ok (l.head?, s') ∧ SView I n l.tail s' :=
  sview_next L MapIter.body_eq s l h

theorem MapIter.nextBack_view (L : Lawful c I n) (s : MapIter V) (l : List (K × V)) (h : SView I n l s) :
    ∃ s', MapIter.nextBack c I s = .ok (l.getLast?, s') ∧ SView I n l.dropLast s' :=
  sview_nextBack L MapIter.body_eq s l h

theorem MapIter.behaves (L : Lawful c I n) {s : MapIter V} {l : List (K × V)} (h : SView I n l s) :
    BehavesLike (MapIter.it c I) s l (SView I n) :=
  behavesLike_of (SView I n) (MapIter.next_view L) (MapIter.nextBack_view L) h

theorem MapIntoIter.behaves (L : Lawful c I n) {s : MapIntoIter V} {l : List (K × V)} (h : SView I n l s) :
    BehavesLike (MapIntoIter.it c I) s l (SView I n) :=
  behavesLike_of (SView I n) (sview_next L MapIntoIter.body_eq) (sview_nextBack L MapIntoIter.body_eq) h

theorem MapIntoIterArray.behaves (L : Lawful c I n) {s : MapIntoIterArray V} {l : List (K × V)}
    (h : SView I n l s) : BehavesLike (MapIntoIterArray.it c I) s l (SView I n) :=
  behavesLike_of (SView I n) (sview_next L MapIntoIterArray.body_eq)
    (sview_nextBack L MapIntoIterArray.body_eq) h

/-- What `Keys` has left. -/
def KView (I : OrdinalImpl K) (n : Nat) (l : List K) (s : Keys V) : Prop :=
  ∃ ps : List (K × V), SView I n ps s ∧ l = ps.map (·.1)

/-- What `Values` has left. -/
def VView (I : OrdinalImpl K) (n : Nat) (l : List V) (s : Values V) : Prop :=
  ∃ ps : List (K × V), SView I n ps s ∧ l = ps.map (·.2)

theorem Keys.behaves (L : Lawful c I n) {s : Keys V} {l : List K} (h : KView I n l s) :
    BehavesLike (Keys.it c I) s l (KView I n) := by
  refine behavesLike_of (KView I n) ?_ ?_ h
  · rintro s l ⟨ps, h1, rfl⟩
    obtain ⟨s', e1, e2⟩ := MapIter.next_view L s ps h1
    exact ⟨s', by simp [Keys.it, Keys.next, e1], ps.tail, e2, by simp⟩
  · rintro s l ⟨ps, h1, rfl⟩
    obtain ⟨s', e1, e2⟩ := MapIter.nextBack_view L s ps h1
    exact ⟨s', by simp [Keys.it, Keys.nextBack, e1], ps.dropLast, e2, by simp⟩

theorem Values.behaves (L : Lawful c I n) {s : Values V} {l : List V} (h : VView I n l s) :
    BehavesLike (Values.it c I) s l (VView I n) := by
  refine behavesLike_of (VView I n) ?_ ?_ h
  · rintro s l ⟨ps, h1, rfl⟩
    obtain ⟨s', e1, e2⟩ := MapIter.next_view L s ps h1
    exact ⟨s', by simp [Values.it, Values.next, e1], ps.tail, e2, by simp⟩
  · rintro s l ⟨ps, h1, rfl⟩
    obtain ⟨s', e1, e2⟩ := MapIter.nextBack_view L s ps h1
    exact ⟨s', by simp [Values.it, Values.nextBack, e1], ps.dropLast, e2, by simp⟩

theorem MapIter.countLoop_view (L : Lawful c I n) : ∀ (fuel : Nat) (s : MapIter V) (l : List (K × V))
    (acc : Nat), SView I n l s → l.length < fuel → acc + l.length < c.M →
    MapIter.countLoop c I fuel s acc = .ok (acc + l.length) := by
  intro fuel
  induction fuel with
  | zero => intro s l acc _ h; omega
  | succ fuel ih =>
    intro s l acc hv hf hM
    obtain ⟨s', e1, e2⟩ := MapIter.next_view L s l hv
    cases l with
    | nil => simp [MapIter.countLoop, e1]
    | cons p l =>
      simp only [List.length_cons] at *
      have := ih s' l (acc + 1) e2 (by omega) (by omega)
      simp [MapIter.countLoop, e1, addU_ok (show acc + 1 < c.M by omega), this]
      omega

theorem MapIter.count_view (L : Lawful c I n) {s : MapIter V} {l : List (K × V)} (h : SView I n l s) :
    MapIter.count c I s = .ok l.length := by
  have h1 := h.len_le
  have h2 : Enumerate.len (listIter (Option V)) s ≤ n := by
    obtain ⟨ps, h1, _⟩ := h
    rw [h1.len (listIter_views _)]; have := h1.2.1; omega
  have := L.fits
  rw [MapIter.count, MapIter.countLoop_view L _ s l 0 h (by simp only [TotalIter.len]; omega) (by omega)]
  simp

/-! ## Fresh iterators -/

/-- A slice holding `m k` at each key. -/
abbrev store (I : OrdinalImpl K) (n : Nat) (m : K → V) : List V := (values I n).map m

theorem fresh_view (L : Lawful c I n) (m : K → V) :
    LView I n (pairsT I n m) (Enumerate.new (store I n m) 0) := by
  have hl := values_length L
  refine ⟨by simp [Enumerate.new, pairsT, Function.comp_def], by simp [Enumerate.new, pairsT, hl], ?_⟩
  have := slice_full (values I n)
  simp only [Enumerate.new, pairsT, List.map_map, Function.comp_def, List.length_map, Nat.zero_add, this]
  simp

theorem empty_view : LView I n ([] : List (K × V)) (Enumerate.new [] 0) := by
  refine ⟨rfl, by simp [Enumerate.new], by simp [slice]⟩

theorem pairsT_present (m : K → Option V) : (pairsT I n m).filterMap present = pairs I n m := by
  simp only [pairsT, pairs, List.filterMap_map, Function.comp_def, present]

theorem pairs_none : pairs I n (fun _ : K => (none : Option V)) = [] := by simp [pairs]

theorem fresh_sview (L : Lawful c I n) (m : K → Option V) :
    SView I n (pairs I n m) (Enumerate.new (store I n m) 0) :=
  ⟨_, fresh_view L m, (pairsT_present m).symm⟩

theorem empty_sview : SView I n ([] : List (K × V)) (Enumerate.new [] 0) := ⟨[], empty_view, rfl⟩

end OrdinalMap
