import Verif.Lemmas.MapIter
/-! # Storage, mutable iterators and `Drain` -/

namespace OrdinalMap
variable {K V W : Type} {c : Cfg} {I : OrdinalImpl K} {n : Nat}

/-! ## Storage -/

theorem store_length (L : Lawful c I n) (m : K → V) : (store I n m).length = n := by
  simp [store, values_length L]

theorem store_get (L : Lawful c I n) (m : K → V) (k : K) : (store I n m)[ordOf I k]? = some (m k) := by
  simp [store, values_ord L]

theorem store_set [DecidableEq K] (L : Lawful c I n) (m : K → V) (k : K) (v : V) :
    (store I n m).set (ordOf I k) v = store I n (updT m k v) := by
  apply List.ext_getElem?
  intro i
  rcases Nat.lt_or_ge i n with hi | hi
  · obtain ⟨a, h1, _, rfl⟩ := values_getElem L i hi
    rw [List.getElem?_set, store_get L, store_length L]
    by_cases h : k = a
    · subst h; simp [hi, updT, values_ord L]
    · have : ordOf I k ≠ ordOf I a := fun e => h (L.ord_inj e)
      simp [this, store_get L, updT, Ne.symm h]
  · rw [List.getElem?_eq_none (by simp [values_length L, hi]),
      List.getElem?_eq_none (by simp [values_length L, hi])]

theorem store_inj (L : Lawful c I n) {m m' : K → V} (h : store I n m = store I n m') : m = m' := by
  funext k
  have h1 := store_get L m k
  rw [h, store_get L m' k] at h1
  simpa using h1.symm

/-- Every list of length `n` stores some function. -/
theorem exists_store (L : Lawful c I n) (l : List V) (h : l.length = n) : ∃ m : K → V, l = store I n m := by
  refine ⟨fun k => l[ordOf I k]'(by rw [h]; exact L.ord_lt k), ?_⟩
  apply List.ext_getElem?
  intro i
  rcases Nat.lt_or_ge i n with hi | hi
  · obtain ⟨a, h1, _, rfl⟩ := values_getElem L i hi
    rw [store_get L]; simp [h, hi]
  · rw [List.getElem?_eq_none (by omega), List.getElem?_eq_none (by simp [values_length L, hi])]

theorem getIdx_store (L : Lawful c I n) (m : K → V) (k : K) :
    getIdx (store I n m) (ordOf I k) = .ok (m k) := by
  simp [getIdx, store_get L]

theorem setIdx_store [DecidableEq K] (L : Lawful c I n) (m : K → V) (k : K) (v : V) :
    setIdx (store I n m) (ordOf I k) v = .ok (store I n (updT m k v)) := by
  have := L.ord_lt k
  unfold setIdx
  rw [if_pos (by rw [store_length L]; exact this), store_set L]

theorem readSlot_store (L : Lawful c I n) (m : K → V) (k : K) :
    readSlot (store I n m) (ordOf I k) = .ok (m k) := by
  unfold readSlot; rw [store_get L]

theorem writeSlot_store [DecidableEq K] (L : Lawful c I n) (m : K → V) (k : K) (v : V) :
    writeSlot (store I n m) (ordOf I k) v = .ok (store I n (updT m k v)) := by
  have := L.ord_lt k
  unfold writeSlot
  rw [if_pos (by rw [store_length L]; exact this), store_set L]

theorem updT_eq_upd [DecidableEq K] (m : K → Option V) (k : K) (o : Option V) : updT m k o = upd m k o := rfl

theorem readSome_store (L : Lawful c I n) (m : K → Option V) {k : K} {v : V} (h : m k = some v) :
    readSome (store I n m) (ordOf I k) = .ok v := by
  unfold readSome; rw [store_get L, h]

theorem writeSome_store [DecidableEq K] (L : Lawful c I n) (m : K → Option V) {k : K} (v : V)
    (h : (m k).isSome) : writeSome (store I n m) (ordOf I k) v = .ok (store I n (upd m k (some v))) := by
  obtain ⟨w, hw⟩ := Option.isSome_iff_exists.1 h
  unfold writeSome; rw [store_get L, hw]
  simp only [store_set L, updT_eq_upd]

/-! ## Pairs of keys and slots -/

/-- What `OrdinalEnumerate` over `slice::IterMut` has left. -/
def MV (I : OrdinalImpl K) (n : Nat) (ps : List (K × Nat)) (s : Enumerate Range) : Prop :=
  EView I n SlotView ps s ∧ ∀ p ∈ ps, p.2 = ordOf I p.1

theorem MV.next (L : Lawful c I n) (s : Enumerate Range) (ps : List (K × Nat)) (h : MV I n ps s) :
    ∃ s', s.nextItem c I slotIter = .ok (ps.head?, s') ∧ MV I n ps.tail s' := by
  obtain ⟨s', h1, h2⟩ := EView.next L slotIter_views s ps h.1
  exact ⟨s', h1, h2, fun p hp => h.2 p (List.mem_of_mem_tail hp)⟩

theorem MV.nextBack (L : Lawful c I n) (s : Enumerate Range) (ps : List (K × Nat)) (h : MV I n ps s) :
    ∃ s', s.nextBackItem c I slotIter = .ok (ps.getLast?, s') ∧ MV I n ps.dropLast s' := by
  obtain ⟨s', h1, h2⟩ := EView.nextBack L slotIter_views s ps h.1
  exact ⟨s', h1, h2, fun p hp => h.2 p ((List.dropLast_sublist ps).subset hp)⟩

theorem MV.nodup (L : Lawful c I n) {s : Enumerate Range} {ps : List (K × Nat)} (h : MV I n ps s) :
    (ps.map (·.1)).Nodup := by
  rw [h.1.2.2, slice]
  exact ((values_nodup L).sublist (List.take_sublist _ _)).sublist (List.drop_sublist _ _)

theorem MV.len {s : Enumerate Range} {ps : List (K × Nat)} (h : MV I n ps s) :
    Enumerate.len slotIter s = ps.length := h.1.len slotIter_views

/-- All keys with their slots. -/
def slots (I : OrdinalImpl K) (n : Nat) : List (K × Nat) := (values I n).map fun k => (k, ordOf I k)

theorem fresh_mv (L : Lawful c I n) : MV I n (slots I n) (Enumerate.new ⟨0, n⟩ 0) := by
  have hl := values_length L
  have := slice_full (values I n)
  refine ⟨⟨⟨?_, ?_⟩, ?_, ?_⟩, ?_⟩
  · exact Nat.zero_le _
  · have h2 : (slots I n).map (·.2) = (values I n).map (ordOf I) := by simp [slots, Function.comp_def]
    rw [h2, values_ords L]; simp [Enumerate.new, List.range_eq_range']
  · simp [Enumerate.new, slots, hl]
  · simp only [Enumerate.new, slots, List.map_map, Function.comp_def, List.length_map, Nat.zero_add, this]
    simp
  · intro p hp
    simp only [slots, List.mem_map] at hp
    obtain ⟨k, _, rfl⟩ := hp
    rfl

theorem empty_mv : MV I n [] (Enumerate.new ⟨0, 0⟩ 0) := by
  refine ⟨⟨⟨by simp [Enumerate.new], by simp [Enumerate.new]⟩, by simp [Enumerate.new], by simp [slice]⟩,
    by simp⟩

/-! ## Clients of `iter_mut` on total maps -/

variable [DecidableEq K] {b : Bool}

/-- Client and specification agree. -/
def TRel (I : OrdinalImpl K) (n : Nat) (sp : MutSpec K V) (s : MutClientT V) : Prop :=
  ∃ (ps : List (K × Nat)) (m : K → V), MV I n ps s.it.it ∧ sp.rest = ps.map (·.1) ∧
    s.handed = sp.handed.map (ordOf I) ∧ s.it.mem = store I n m ∧ sp.map = fun k => some (m k)

theorem upd_some (m : K → V) (k : K) (v : V) :
    upd (fun k => some (m k)) k (some v) = fun k' => some (updT m k v k') := by
  funext k'; simp only [upd, updT]; split <;> rfl

theorem TRel.step (L : Lawful c I n) (sp : MutSpec K V) (s : MutClientT V) (op : MutStep V)
    (h : TRel I n sp s) : ∃ s', MutClientT.step c I s op = .ok ((sp.step op).1, s') ∧
      TRel I n (sp.step op).2 s' := by
  obtain ⟨rest, shanded, smap⟩ := sp
  obtain ⟨⟨mem, it⟩, handed⟩ := s
  obtain ⟨ps, m, h1, h2, h3, h4, h5⟩ := h
  simp only at h1 h2 h3 h4 h5
  subst h2 h3 h4 h5
  cases op with
  | front =>
    obtain ⟨it', e1, e2⟩ := MV.next L it ps h1
    cases ps with
    | nil =>
      refine ⟨⟨⟨_, it'⟩, _⟩, ?_, [], m, e2, rfl, rfl, rfl, rfl⟩
      simp [MutClientT.step, TotalIterMut.next, e1, MutSpec.step]
    | cons p ps =>
      obtain ⟨k, slot⟩ := p
      have hs : slot = ordOf I k := h1.2 (k, slot) (by simp)
      subst hs
      refine ⟨⟨⟨store I n m, it'⟩, shanded.map (ordOf I) ++ [ordOf I k]⟩, ?_, ps, m, e2, rfl, ?_, rfl, rfl⟩
      · simp only [MutClientT.step, TotalIterMut.next, e1, MutSpec.step, ok_bind, List.head?_cons,
          readSlot_store L, List.map_cons, Option.map_some]
      · simp [MutSpec.step]
  | back =>
    obtain ⟨it', e1, e2⟩ := MV.nextBack L it ps h1
    rcases List.eq_nil_or_concat ps with rfl | ⟨qs, ⟨k, slot⟩, rfl⟩
    · refine ⟨⟨⟨_, it'⟩, _⟩, ?_, [], m, e2, rfl, rfl, rfl, rfl⟩
      simp [MutClientT.step, TotalIterMut.nextBack, e1, MutSpec.step]
    · rw [List.concat_eq_append] at *
      have hs : slot = ordOf I k := h1.2 (k, slot) (by simp)
      subst hs
      rw [List.dropLast_concat] at e2
      refine ⟨⟨⟨store I n m, it'⟩, shanded.map (ordOf I) ++ [ordOf I k]⟩, ?_, qs, m, e2, ?_, ?_, rfl, ?_⟩
      · simp only [MutClientT.step, TotalIterMut.nextBack, e1, MutSpec.step, ok_bind,
          List.map_append, List.map_cons, List.map_nil, List.getLast?_append, List.getLast?_singleton,
          Option.some_or, readSlot_store L, Option.map_some]
      · simp [MutSpec.step]
      · simp [MutSpec.step]
      · simp [MutSpec.step]
  | write j v =>
    cases hj : shanded[j]? with
    | none =>
      refine ⟨⟨⟨store I n m, it⟩, shanded.map (ordOf I)⟩, ?_, ps, m, h1, ?_, ?_, rfl, ?_⟩ <;>
        simp [MutClientT.step, MutSpec.step, hj]
    | some k =>
      refine ⟨⟨⟨store I n (updT m k v), it⟩, shanded.map (ordOf I)⟩, ?_, ps, updT m k v, h1, ?_, ?_,
        rfl, ?_⟩
      · simp [MutClientT.step, MutSpec.step, hj, writeSlot_store L]
      · simp [MutSpec.step, hj]
      · simp [MutSpec.step, hj]
      · simp only [MutSpec.step, hj]; exact upd_some m k v

theorem TRel.runs (L : Lawful c I n) (m : K → V) :
    RunsLike (MutClientT.step c I) MutSpec.step ⟨TotalIterMut.new (store I n m), []⟩
      ⟨values I n, [], fun k => some (m k)⟩ (TRel I n) := by
  refine runsLike_of (TRel I n) (TRel.step L) ⟨slots I n, m, ?_, ?_, rfl, rfl, rfl⟩
  · simp only [TotalIterMut.new, store_length L]; exact fresh_mv L
  · simp [slots, Function.comp_def]

/-! ## Clients of `iter_mut` and `values_mut` on sparse maps -/

/-- The keys that `IterMut` does not skip. -/
def keep (m : K → Option V) (p : K × Nat) : Option (K × Nat) := if (m p.1).isSome then some p else none

/-- Client and specification agree. -/
def SRel (I : OrdinalImpl K) (n : Nat) (b : Bool) (sp : MutSpec K V) (s : MutClient V) : Prop :=
  ∃ ps : List (K × Nat), MV I n ps s.it.it ∧ sp.rest = (ps.filterMap (keep sp.map)).map (·.1) ∧
    s.handed = sp.handed.map (ordOf I) ∧ (∀ k ∈ sp.handed, (sp.map k).isSome) ∧
    ((b = true ∧ s.it.mem = store I n sp.map) ∨ (b = false ∧ s.it.mem = [] ∧ ps = [] ∧ sp.map = fun _ => none))

omit [DecidableEq K] in
theorem MapIterMut.body_eq (L : Lawful c I n) (m : K → Option V) (k : K) (it : Enumerate Range) :
    MapIterMut.body (k, ordOf I k) ⟨store I n m, it⟩ = .ok (keep m (k, ordOf I k), ⟨store I n m, it⟩) := by
  unfold MapIterMut.body
  simp only [store_get L, keep]
  cases m k <;> rfl

/-- The view used inside one call. -/
def CallView (I : OrdinalImpl K) (n : Nat) (b : Bool) (m : K → Option V) (ps : List (K × Nat)) (s : MapIterMut V) :
    Prop :=
  MV I n ps s.it ∧ ((b = true ∧ s.mem = store I n m) ∨ (b = false ∧ s.mem = [] ∧ ps = [] ∧ m = fun _ => none))

omit [DecidableEq K] in
theorem MapIterMut.next_view (L : Lawful c I n) (m : K → Option V) (s : MapIterMut V) (ps : List (K × Nat))
    (h : CallView I n b m ps s) : ∃ s' ps', MapIterMut.next c I s = .ok ((ps.filterMap (keep m)).head?, s') ∧
      CallView I n b m ps' s' ∧ ps'.filterMap (keep m) = (ps.filterMap (keep m)).tail := by
  refine skipLoop_front (CallView I n b m) ?_ ?_ ps _ s h ?_
  · rintro ⟨mem, it⟩ ⟨hv, hm⟩
    obtain ⟨it', e1, e2⟩ := MV.next L it [] hv
    exact ⟨⟨mem, it'⟩, by simp [TotalIterMut.next, e1], e2, hm⟩
  · rintro ⟨k, slot⟩ l ⟨mem, it⟩ ⟨hv, hm⟩
    obtain ⟨rfl, rfl⟩ : b = true ∧ mem = store I n m := by simpa using hm
    obtain rfl : slot = ordOf I k := hv.2 (k, slot) (by simp)
    obtain ⟨it', e1, e2⟩ := MV.next L it _ hv
    exact ⟨_, _, by simp [TotalIterMut.next, e1], MapIterMut.body_eq L m k it', e2, .inl ⟨rfl, rfl⟩⟩
  · rw [TotalIterMut.len, h.1.len]; omega

omit [DecidableEq K] in
theorem MapIterMut.nextBack_view (L : Lawful c I n) (m : K → Option V) (s : MapIterMut V)
    (ps : List (K × Nat)) (h : CallView I n b m ps s) :
    ∃ s' ps', MapIterMut.nextBack c I s = .ok ((ps.filterMap (keep m)).getLast?, s') ∧
      CallView I n b m ps' s' ∧ ps'.filterMap (keep m) = (ps.filterMap (keep m)).dropLast := by
  refine skipLoop_back (CallView I n b m) ?_ ?_ ps _ s h ?_
  · rintro ⟨mem, it⟩ ⟨hv, hm⟩
    obtain ⟨it', e1, e2⟩ := MV.nextBack L it [] hv
    exact ⟨⟨mem, it'⟩, by simp [TotalIterMut.nextBack, e1], e2, hm⟩
  · rintro ⟨k, slot⟩ l ⟨mem, it⟩ ⟨hv, hm⟩
    obtain ⟨rfl, rfl⟩ : b = true ∧ mem = store I n m := by simpa using hm
    obtain rfl : slot = ordOf I k := hv.2 (k, slot) (by simp)
    obtain ⟨it', e1, e2⟩ := MV.nextBack L it _ hv
    rw [List.dropLast_concat] at e2
    exact ⟨_, _, by simp [TotalIterMut.nextBack, e1], MapIterMut.body_eq L m k it', e2, .inl ⟨rfl, rfl⟩⟩
  · rw [TotalIterMut.len, h.1.len]; omega

omit [DecidableEq K] in
theorem keep_mem {m : K → Option V} {ps : List (K × Nat)} {s : Enumerate Range}
    (h : MV I n ps s) : ∀ p ∈ ps.filterMap (keep m), p.2 = ordOf I p.1 ∧ (m p.1).isSome := by
  intro p hp
  obtain ⟨q, hq, e⟩ := List.mem_filterMap.1 hp
  simp only [keep] at e
  split at e
  · obtain rfl : q = p := by simpa using e
    exact ⟨h.2 _ hq, by assumption⟩
  · simp at e

theorem keep_upd (m : K → Option V) (k : K) (v : V) (h : (m k).isSome) :
    keep (upd m k (some v)) = keep m := by
  funext p
  simp only [keep, upd]
  by_cases e : p.1 = k
  · simp [e, h]
  · simp [e]

theorem SRel.step (L : Lawful c I n) (sp : MutSpec K V) (s : MutClient V) (op : MutStep V)
    (h : SRel I n b sp s) : ∃ s', MutClient.step c I s op = .ok ((sp.step op).1, s') ∧
      SRel I n b (sp.step op).2 s' := by
  obtain ⟨rest, shanded, m⟩ := sp
  obtain ⟨it, handed⟩ := s
  obtain ⟨ps, h1, h2, h3, h4, h5⟩ := h
  simp only at h1 h2 h3 h4 h5
  subst h2 h3
  cases op with
  | front =>
    obtain ⟨it', ps', e1, e2, e3⟩ := MapIterMut.next_view L m it ps ⟨h1, h5⟩
    have hk := keep_mem (m := m) h1
    generalize hq : ps.filterMap (keep m) = q at *
    cases q with
    | nil =>
      refine ⟨⟨it', shanded.map (ordOf I)⟩, ?_, ps', e2.1, ?_, ?_, ?_, e2.2⟩
      · simp [MutClient.step, e1, MutSpec.step]
      · simp [MutSpec.step, e3]
      · simp [MutSpec.step]
      · simpa [MutSpec.step] using h4
    | cons p q =>
      obtain ⟨k, slot⟩ := p
      obtain ⟨hs, hp⟩ := hk (k, slot) (by simp)
      simp only at hs hp
      subst hs
      obtain ⟨v, hv⟩ := Option.isSome_iff_exists.1 hp
      have hm : it'.mem = store I n m := by
        rcases e2.2 with ⟨_, hm⟩ | ⟨_, _, _, hm⟩
        · exact hm
        · rw [hm] at hv; simp at hv
      refine ⟨⟨it', shanded.map (ordOf I) ++ [ordOf I k]⟩, ?_, ps', e2.1, ?_, ?_, ?_, e2.2⟩
      · simp [MutClient.step, e1, MutSpec.step, hm, readSome_store L m hv, hv]
      · simp [MutSpec.step, e3]
      · simp [MutSpec.step]
      · intro k' hk'
        simp only [MutSpec.step, List.map_cons, List.mem_append, List.mem_singleton] at hk' ⊢
        rcases hk' with hk' | rfl
        · exact h4 _ hk'
        · exact hp
  | back =>
    obtain ⟨it', ps', e1, e2, e3⟩ := MapIterMut.nextBack_view L m it ps ⟨h1, h5⟩
    have hk := keep_mem (m := m) h1
    generalize hq : ps.filterMap (keep m) = q at *
    rcases List.eq_nil_or_concat q with rfl | ⟨q, ⟨k, slot⟩, rfl⟩
    · refine ⟨⟨it', shanded.map (ordOf I)⟩, ?_, ps', e2.1, ?_, ?_, ?_, e2.2⟩
      · simp [MutClient.step, e1, MutSpec.step]
      · simp [MutSpec.step, e3]
      · simp [MutSpec.step]
      · simpa [MutSpec.step] using h4
    · rw [List.concat_eq_append] at *
      obtain ⟨hs, hp⟩ := hk (k, slot) (by simp)
      simp only at hs hp
      subst hs
      obtain ⟨v, hv⟩ := Option.isSome_iff_exists.1 hp
      have hm : it'.mem = store I n m := by
        rcases e2.2 with ⟨_, hm⟩ | ⟨_, _, _, hm⟩
        · exact hm
        · rw [hm] at hv; simp at hv
      refine ⟨⟨it', shanded.map (ordOf I) ++ [ordOf I k]⟩, ?_, ps', e2.1, ?_, ?_, ?_, ?_⟩
      · simp [MutClient.step, e1, MutSpec.step, hm, readSome_store L m hv, hv]
      · simp [MutSpec.step, e3]
      · simp [MutSpec.step]
      · intro k' hk'
        simp only [MutSpec.step, List.map_append, List.map_cons, List.map_nil, List.getLast?_append,
          List.getLast?_singleton, Option.some_or, List.mem_append, List.mem_singleton] at hk' ⊢
        rcases hk' with hk' | rfl
        · exact h4 _ hk'
        · exact hp
      · simpa [MutSpec.step] using e2.2
  | write j v =>
    cases hj : shanded[j]? with
    | none =>
      refine ⟨⟨it, shanded.map (ordOf I)⟩, ?_, ps, h1, ?_, ?_, ?_, ?_⟩
      · simp [MutClient.step, MutSpec.step, hj]
      · simp [MutSpec.step, hj]
      · simp [MutSpec.step, hj]
      · simpa [MutSpec.step, hj] using h4
      · simpa [MutSpec.step, hj] using h5
    | some k =>
      have hp : (m k).isSome := h4 k (List.mem_of_getElem? hj)
      have hm : b = true ∧ it.mem = store I n m := by
        rcases h5 with hm | ⟨_, _, _, hm⟩
        · exact hm
        · rw [hm] at hp; simp at hp
      refine ⟨⟨⟨store I n (upd m k (some v)), it.it⟩, shanded.map (ordOf I)⟩, ?_, ps, h1, ?_, ?_, ?_, ?_⟩
      · simp [MutClient.step, MutSpec.step, hj, hm.2, writeSome_store L m v hp]
      · simp [MutSpec.step, hj, keep_upd m k v hp]
      · simp [MutSpec.step, hj]
      · intro k' hk'
        simp only [MutSpec.step, hj] at hk' ⊢
        simp only [upd]
        split
        · rfl
        · exact h4 _ hk'
      · left; simp [MutSpec.step, hj, hm.1]

omit [DecidableEq K] in
theorem presentKeys_keep (m : K → Option V) :
    presentKeys I n m = ((slots I n).filterMap (keep m)).map (·.1) := by
  simp only [presentKeys, slots, List.filterMap_map, List.map_filterMap, ← List.filterMap_eq_filter]
  congr 1
  funext k
  simp only [Option.guard, Function.comp_def, keep]
  split <;> simp_all

/-- The storage of a sparse map: allocated, or empty. -/
def Stored (I : OrdinalImpl K) (n : Nat) (b : Bool) (m : K → Option V) (mem : List (Option V)) : Prop :=
  (b = true ∧ mem = store I n m) ∨ (b = false ∧ mem = [] ∧ m = fun _ => none)

omit [DecidableEq K] in
theorem Stored.length (L : Lawful c I n) {b : Bool} {m : K → Option V} {mem : List (Option V)}
    (h : Stored I n b m mem) : mem.length = if b then n else 0 := by
  rcases h with ⟨rfl, rfl⟩ | ⟨rfl, rfl, _⟩
  · simp [store_length L]
  · rfl

omit [DecidableEq K] in
theorem SRel.start (L : Lawful c I n) {m : K → Option V} {mem : List (Option V)} (h : Stored I n b m mem) :
    SRel I n b ⟨presentKeys I n m, [], m⟩ ⟨TotalIterMut.new mem, []⟩ := by
  rcases h with ⟨rfl, rfl⟩ | ⟨rfl, rfl, rfl⟩
  · refine ⟨slots I n, ?_, presentKeys_keep m, rfl, by simp, .inl ⟨rfl, rfl⟩⟩
    simp only [TotalIterMut.new, store_length L]; exact fresh_mv L
  · exact ⟨[], empty_mv, by simp [presentKeys], rfl, by simp, .inr ⟨rfl, rfl, rfl, rfl⟩⟩

theorem SRel.runs (L : Lawful c I n) {m : K → Option V} {mem : List (Option V)} (h : Stored I n b m mem) :
    RunsLike (MutClient.step c I) MutSpec.step ⟨TotalIterMut.new mem, []⟩
      ⟨presentKeys I n m, [], m⟩ (SRel I n b) :=
  runsLike_of (SRel I n b) (SRel.step L) (SRel.start L h)

omit [DecidableEq K] in
theorem SRel.stored {sp : MutSpec K V} {s : MutClient V} (h : SRel I n b sp s) :
    Stored I n b sp.map s.it.mem := by
  obtain ⟨ps, _, _, _, _, h5⟩ := h
  rcases h5 with h | ⟨h0, h1, _, h2⟩
  · exact .inl h
  · exact .inr ⟨h0, h1, h2⟩

omit [DecidableEq K] in
/-- `values_mut` is `iter_mut` without the keys. -/
theorem stepV_eq (s : MutClient V) (op : MutStep V) :
    MutClient.stepV c I s op = (do
      let (o, s') ← MutClient.step c I s op
      .ok (o.map (·.2), s')) := by
  cases op with
  | front =>
    simp only [MutClient.stepV, MutClient.step, ValuesMut.next]
    cases h : MapIterMut.next c I s.it with
    | error e => rfl
    | ok r =>
      obtain ⟨o, it⟩ := r
      cases o with
      | none => rfl
      | some p =>
        obtain ⟨k, slot⟩ := p
        simp only [ok_bind, Option.map_some]
        cases readSome it.mem slot <;> rfl
  | back =>
    simp only [MutClient.stepV, MutClient.step, ValuesMut.nextBack]
    cases h : MapIterMut.nextBack c I s.it with
    | error e => rfl
    | ok r =>
      obtain ⟨o, it⟩ := r
      cases o with
      | none => rfl
      | some p =>
        obtain ⟨k, slot⟩ := p
        simp only [ok_bind, Option.map_some]
        cases readSome it.mem slot <;> rfl
  | write j v =>
    simp only [MutClient.stepV, MutClient.step]
    cases s.handed[j]? with
    | none => rfl
    | some slot => simp only; cases writeSome s.it.mem slot v <;> rfl

theorem SRel.runsV (L : Lawful c I n) {m : K → Option V} {mem : List (Option V)} (h : Stored I n b m mem) :
    ∀ steps, ∃ s', runOps (MutClient.stepV c I) ⟨TotalIterMut.new mem, []⟩ steps =
        .ok ((runSpec MutSpec.step ⟨presentKeys I n m, [], m⟩ steps).1.map (Option.map (·.2)), s') ∧
      SRel I n b (runSpec MutSpec.step ⟨presentKeys I n m, [], m⟩ steps).2 s' := by
  intro steps
  have h0 := SRel.start L h
  generalize (⟨presentKeys I n m, [], m⟩ : MutSpec K V) = sp at *
  generalize (⟨TotalIterMut.new mem, []⟩ : MutClient V) = s at *
  clear h
  induction steps generalizing sp s with
  | nil => exact ⟨s, rfl, h0⟩
  | cons op ops ih =>
    obtain ⟨s1, e1, e2⟩ := SRel.step L sp s op h0
    obtain ⟨s2, e3, e4⟩ := ih _ _ e2
    exact ⟨s2, by simp only [runOps, stepV_eq, e1, ok_bind, e3, runSpec, List.map_cons], e4⟩

/-! ## `Drain` -/

/-- The contents after everything outside `ps` was taken. -/
def only (m : K → Option V) (ps : List (K × Nat)) : K → Option V :=
  fun k => if k ∈ ps.map (·.1) then m k else none

/-- The item at a slot. -/
def item (m : K → Option V) (p : K × Nat) : Option (K × V) := (m p.1).map fun v => (p.1, v)

/-- The view used inside one call of `Drain`. -/
def DrainView (I : OrdinalImpl K) (n : Nat) (b : Bool) (m : K → Option V) (ps : List (K × Nat)) (s : Drain V) : Prop :=
  MV I n ps (TotalIterMut.it s) ∧ ((b = true ∧ s.mem = store I n (only m ps)) ∨ (b = false ∧ s.mem = [] ∧ ps = []))

theorem Drain.body_eq (L : Lawful c I n) (m : K → Option V) (k : K) (it : Enumerate Range) :
    Drain.body (k, ordOf I k) ⟨store I n m, it⟩ =
      .ok (item m (k, ordOf I k), ⟨store I n (upd m k none), it⟩) := by
  unfold Drain.body
  simp only [store_get L, store_set L, updT_eq_upd, item]
  cases m k <;> rfl

theorem only_cons {m : K → Option V} {k : K} {o : Nat} {ps : List (K × Nat)}
    (h : k ∉ ps.map (·.1)) : upd (only m ((k, o) :: ps)) k none = only m ps := by
  funext k'
  by_cases e : k' = k
  · subst e; simp only [upd, only, if_true, if_neg h]
  · simp only [upd, only, List.map_cons, List.mem_cons, e, false_or, if_false]

theorem only_concat {m : K → Option V} {k : K} {o : Nat} {ps : List (K × Nat)}
    (h : k ∉ ps.map (·.1)) : upd (only m (ps ++ [(k, o)])) k none = only m ps := by
  funext k'
  by_cases e : k' = k
  · subst e; simp only [upd, only, if_true, if_neg h]
  · simp only [upd, only, List.map_cons, List.map_append, List.map_nil, List.mem_append, List.mem_cons,
      List.not_mem_nil, or_false, e, if_false]

theorem Drain.next_view (L : Lawful c I n) (m : K → Option V) (s : Drain V) (ps : List (K × Nat))
    (h : DrainView I n b m ps s) : ∃ s' ps', Drain.next c I s = .ok ((ps.filterMap (item m)).head?, s') ∧
      DrainView I n b m ps' s' ∧ ps'.filterMap (item m) = (ps.filterMap (item m)).tail := by
  refine skipLoop_front (DrainView I n b m) ?_ ?_ ps _ s h ?_
  · rintro ⟨mem, it⟩ ⟨hv, hm⟩
    obtain ⟨it', e1, e2⟩ := MV.next L it [] hv
    exact ⟨⟨mem, it'⟩, by simp [TotalIterMut.next, e1], e2, hm⟩
  · rintro ⟨k, slot⟩ l ⟨mem, it⟩ ⟨hv, hm⟩
    obtain ⟨rfl, rfl⟩ : b = true ∧ mem = store I n (only m ((k, slot) :: l)) := by simpa using hm
    obtain rfl : slot = ordOf I k := hv.2 (k, slot) (by simp)
    obtain ⟨it', e1, e2⟩ := MV.next L it _ hv
    have hn := MV.nodup L hv
    simp only [List.map_cons, List.nodup_cons] at hn
    refine ⟨⟨_, it'⟩, ⟨store I n (only m l), it'⟩, by simp only [TotalIterMut.next, e1, ok_bind, List.head?_cons]; rfl,
      ?_, e2, .inl ⟨rfl, rfl⟩⟩
    rw [Drain.body_eq L, only_cons hn.1]
    simp [item, only]
  · rw [TotalIterMut.len, h.1.len]; omega

theorem Drain.nextBack_view (L : Lawful c I n) (m : K → Option V) (s : Drain V) (ps : List (K × Nat))
    (h : DrainView I n b m ps s) : ∃ s' ps', Drain.nextBack c I s = .ok ((ps.filterMap (item m)).getLast?, s') ∧
      DrainView I n b m ps' s' ∧ ps'.filterMap (item m) = (ps.filterMap (item m)).dropLast := by
  refine skipLoop_back (DrainView I n b m) ?_ ?_ ps _ s h ?_
  · rintro ⟨mem, it⟩ ⟨hv, hm⟩
    obtain ⟨it', e1, e2⟩ := MV.nextBack L it [] hv
    exact ⟨⟨mem, it'⟩, by simp [TotalIterMut.nextBack, e1], e2, hm⟩
  · rintro ⟨k, slot⟩ l ⟨mem, it⟩ ⟨hv, hm⟩
    obtain ⟨rfl, rfl⟩ : b = true ∧ mem = store I n (only m (l ++ [(k, slot)])) := by simpa using hm
    obtain rfl : slot = ordOf I k := hv.2 (k, slot) (by simp)
    obtain ⟨it', e1, e2⟩ := MV.nextBack L it _ hv
    rw [List.dropLast_concat] at e2
    have hn := MV.nodup L hv
    simp only [List.map_append, List.map_cons, List.map_nil, List.nodup_append, List.mem_singleton] at hn
    have hn' : k ∉ l.map (·.1) := fun hk => hn.2.2 k hk k rfl rfl
    refine ⟨⟨_, it'⟩, ⟨store I n (only m l), it'⟩, by simp [TotalIterMut.nextBack, e1]; rfl,
      ?_, e2, .inl ⟨rfl, rfl⟩⟩
    rw [Drain.body_eq L, only_concat hn']
    simp [item, only]
  · rw [TotalIterMut.len, h.1.len]; omega

/-- What a `Drain` of a map `m` has left. -/
def DView (I : OrdinalImpl K) (n : Nat) (b : Bool) (m : K → Option V) (l : List (K × V)) (s : Drain V) : Prop :=
  ∃ ps, DrainView I n b m ps s ∧ l = ps.filterMap (item m)

theorem Drain.next_dview (L : Lawful c I n) (m : K → Option V) (s : Drain V) (l : List (K × V))
    (h : DView I n b m l s) : ∃ s', Drain.next c I s = .ok (l.head?, s') ∧ DView I n b m l.tail s' := by
  obtain ⟨ps, h, rfl⟩ := h
  obtain ⟨s', ps', e1, e2, e3⟩ := Drain.next_view L m s ps h
  exact ⟨s', e1, ps', e2, e3.symm⟩

theorem Drain.nextBack_dview (L : Lawful c I n) (m : K → Option V) (s : Drain V) (l : List (K × V))
    (h : DView I n b m l s) : ∃ s', Drain.nextBack c I s = .ok (l.getLast?, s') ∧ DView I n b m l.dropLast s' := by
  obtain ⟨ps, h, rfl⟩ := h
  obtain ⟨s', ps', e1, e2, e3⟩ := Drain.nextBack_view L m s ps h
  exact ⟨s', e1, ps', e2, e3.symm⟩

theorem Drain.behaves (L : Lawful c I n) {m : K → Option V} {s : Drain V} {l : List (K × V)}
    (h : DView I n b m l s) : BehavesLike (Drain.it c I) s l (DView I n b m) :=
  behavesLike_of (DView I n b m) (Drain.next_dview L m) (Drain.nextBack_dview L m) h

theorem DView.start (L : Lawful c I n) {m : K → Option V} {mem : List (Option V)} (h : Stored I n b m mem) :
    DView I n b m (pairs I n m) (Drain.new mem) := by
  rcases h with ⟨rfl, rfl⟩ | ⟨rfl, rfl, rfl⟩
  · refine ⟨slots I n, ⟨?_, .inl ⟨rfl, ?_⟩⟩, ?_⟩
    · simp only [Drain.new, TotalIterMut.new, store_length L]; exact fresh_mv L
    · have : only m (slots I n) = m := by
        funext k
        have : k ∈ (slots I n).map (·.1) := by simp [slots, mem_values L]
        simp only [only, if_pos this]
      rw [this]; rfl
    · simp [pairs, slots, List.filterMap_map, Function.comp_def, item]
  · exact ⟨[], ⟨empty_mv, .inr ⟨rfl, rfl, rfl⟩⟩, by simp [pairs_none]⟩

/-- The map described by what is left of a drain. -/
def leftOver (l : List (K × V)) : K → Option V := fun k => (l.find? fun p => p.1 = k).map (·.2)

theorem leftOver_item (m : K → Option V) (ps : List (K × Nat)) :
    leftOver (ps.filterMap (item m)) = only m ps := by
  funext k
  simp only [leftOver]
  induction ps with
  | nil => simp [only]
  | cons p ps ih =>
    obtain ⟨a, i⟩ := p
    cases hm : m a with
    | none =>
      have : item m (a, i) = none := by simp [item, hm]
      rw [List.filterMap_cons_none this, ih]
      simp only [only, List.map_cons, List.mem_cons]
      by_cases e : k = a
      · subst e; simp [hm]
      · simp only [e, false_or]
    | some v =>
      have : item m (a, i) = some (a, v) := by simp [item, hm]
      rw [List.filterMap_cons_some this, List.find?_cons]
      by_cases e : a = k
      · subst e; simp [only, hm]
      · rw [show decide ((a, v).1 = k) = false by simp [e]]
        dsimp only
        rw [ih]
        have : ¬ k = a := fun h => e h.symm
        simp only [only, List.map_cons, List.mem_cons, this, false_or]

theorem DView.stored {m : K → Option V} {l : List (K × V)} {s : Drain V} (h : DView I n b m l s) :
    Stored I n b (leftOver l) s.mem := by
  obtain ⟨ps, ⟨_, h⟩, rfl⟩ := h
  rw [leftOver_item]
  rcases h with h | ⟨h0, h1, rfl⟩
  · exact .inl h
  · exact .inr ⟨h0, h1, by funext k; simp [only]⟩

theorem DView.len_le {m : K → Option V} {l : List (K × V)} {s : Drain V} (h : DView I n b m l s) :
    l.length ≤ TotalIterMut.len s := by
  obtain ⟨ps, ⟨h, _⟩, rfl⟩ := h
  rw [TotalIterMut.len, h.len]
  exact List.length_filterMap_le _ _

theorem Drain.dropLoop_dview (L : Lawful c I n) (m : K → Option V) : ∀ (fuel : Nat) (s : Drain V)
    (l : List (K × V)), DView I n b m l s → l.length < fuel →
    ∃ mem, Drain.dropLoop c I fuel s = .ok mem ∧ Stored I n b (fun _ => none) mem := by
  intro fuel
  induction fuel with
  | zero => intro s l _ h; omega
  | succ fuel ih =>
    intro s l hv hf
    obtain ⟨s', e1, e2⟩ := Drain.next_dview L m s l hv
    cases l with
    | nil => exact ⟨s'.mem, by simp [Drain.dropLoop, e1], e2.stored⟩
    | cons p l =>
      obtain ⟨mem, h1, h2⟩ := ih s' l e2 (by simp at hf; omega)
      exact ⟨mem, by simp [Drain.dropLoop, e1, h1], h2⟩

theorem Drain.drop_dview (L : Lawful c I n) {m : K → Option V} {s : Drain V} {l : List (K × V)}
    (h : DView I n b m l s) : ∃ mem, Drain.drop c I s = .ok mem ∧ Stored I n b (fun _ => none) mem := by
  have := h.len_le
  exact Drain.dropLoop_dview L m _ s l h (by omega)

end OrdinalMap
