import Verif.Model.Map
import Verif.Lemmas.MapMut
/-! # The maps refine their specifications, one operation at a time -/

namespace OrdinalMap
variable {K V W : Type} {c : Cfg} {I : OrdinalImpl K} {n : Nat} [DecidableEq K] {b : Bool}

omit [DecidableEq K] in
theorem Stored.get (L : Lawful c I n) {m : K → Option V} {s : List (Option V)} (h : Stored I n b m s) (k : K) :
    s[ordOf I k]? = if b then some (m k) else none := by
  rcases h with ⟨rfl, rfl⟩ | ⟨rfl, rfl, rfl⟩
  · simpa using store_get L m k
  · rfl

omit [DecidableEq K] in
theorem Stored.sview (L : Lawful c I n) {m : K → Option V} {s : List (Option V)} (h : Stored I n b m s) :
    SView I n (pairs I n m) (TotalIter.new s 0) := by
  rcases h with ⟨rfl, rfl⟩ | ⟨rfl, rfl, rfl⟩
  · exact fresh_sview L m
  · rw [pairs_none]; exact empty_sview

/-! ## Operations on the shared iterators -/

omit [DecidableEq K] in
theorem Stored.run_iter (L : Lawful c I n) {m : K → Option V} {s : List (Option V)} (h : Stored I n b m s)
    (ds : List Dir) : ∃ it, (MapIter.it c I).run (TotalIter.new s 0) ds =
      .ok ((Deque.run (pairs I n m) ds).1, it) := by
  obtain ⟨it, h1, _⟩ := MapIter.behaves L (h.sview L) ds
  exact ⟨it, h1⟩

omit [DecidableEq K] in
theorem Stored.run_keys (L : Lawful c I n) {m : K → Option V} {s : List (Option V)} (h : Stored I n b m s)
    (ds : List Dir) : ∃ it, (Keys.it c I).run (TotalIter.new s 0) ds =
      .ok ((Deque.run ((pairs I n m).map (·.1)) ds).1, it) := by
  obtain ⟨it, h1, _⟩ := Keys.behaves L ⟨_, h.sview L, rfl⟩ ds
  exact ⟨it, h1⟩

omit [DecidableEq K] in
theorem Stored.run_values (L : Lawful c I n) {m : K → Option V} {s : List (Option V)} (h : Stored I n b m s)
    (ds : List Dir) : ∃ it, (Values.it c I).run (TotalIter.new s 0) ds =
      .ok ((Deque.run ((pairs I n m).map (·.2)) ds).1, it) := by
  obtain ⟨it, h1, _⟩ := Values.behaves L ⟨_, h.sview L, rfl⟩ ds
  exact ⟨it, h1⟩

omit [DecidableEq K] in
theorem Stored.count (L : Lawful c I n) {m : K → Option V} {s : List (Option V)} (h : Stored I n b m s) :
    MapIter.count c I (TotalIter.new s 0) = .ok (pairs I n m).length := MapIter.count_view L (h.sview L)

omit [DecidableEq K] in
theorem Stored.first (L : Lawful c I n) {m : K → Option V} {s : List (Option V)} (h : Stored I n b m s) :
    ∃ it, MapIter.next c I (TotalIter.new s 0) = .ok ((pairs I n m).head?, it) := by
  obtain ⟨it, h1, _⟩ := MapIter.next_view L _ _ (h.sview L)
  exact ⟨it, h1⟩

theorem Stored.run_drain (L : Lawful c I n) {m : K → Option V} {s : List (Option V)} (h : Stored I n b m s)
    (ds : List Dir) : ∃ d, (Drain.it c I).run (Drain.new s) ds = .ok ((Deque.run (pairs I n m) ds).1, d) ∧
      Stored I n b (leftOver (Deque.run (pairs I n m) ds).2) d.mem ∧
      ∃ mem, Drain.drop c I d = .ok mem ∧ Stored I n b (fun _ => none) mem := by
  obtain ⟨d, h1, h2⟩ := Drain.behaves L (DView.start L h) ds
  exact ⟨d, h1, h2.stored, Drain.drop_dview L h2⟩

theorem isEmpty_head {α : Type} (l : List α) : l.head?.isNone = l.isEmpty := by cases l <;> rfl

/-! ## `OrdinalMap` -/

/-- The specification, with a flag that says whether the storage is allocated. -/
def specAlloc (I : OrdinalImpl K) (n : Nat) (p : (K → Option V) × Bool) (op : MapOp K V) :
    MapOut K V × ((K → Option V) × Bool) :=
  ((MapSpec.step I n p.1 op).1, ((MapSpec.step I n p.1 op).2, p.2 || op.allocates))

omit [DecidableEq K] in
theorem OMap.initFullMap_eq (L : Lawful c I n) {sz : Nat} (hsz : n * sz ≤ 2 ^ (c.bits - 1) - 1)
    {m : K → Option V} {s : OMap V} (h : Stored I n b m s) (k : K) :
    OMap.initFullMap c I sz s = .ok (store I n m) := by
  have hp := L.pos k
  rcases h with ⟨rfl, rfl⟩ | ⟨rfl, rfl, rfl⟩
  · have : List.isEmpty (store I n m) = false := by
      have := store_length L m
      cases h : store I n m with
      | nil => rw [h] at this; simp at this; omega
      | cons _ _ => rfl
    simp [OMap.initFullMap, this]
  · have : List.replicate n (none : Option V) = store I n fun _ => none := by
      simp [store, List.map_const', values_length L]
    simp [OMap.initFullMap, withCapacity, L.size, hsz, this]

omit [DecidableEq K] in
theorem slotOf_store (L : Lawful c I n) (m : K → V) (k : K) :
    OrdinalTotalMap.slotOf (store I n m) (ordOf I k) = .ok (ordOf I k) := by
  unfold OrdinalTotalMap.slotOf
  rw [if_pos (by rw [store_length L]; exact L.ord_lt k)]

omit [DecidableEq K] in
theorem Entry.new_store (L : Lawful c I n) (m : K → Option V) (k : K) :
    Entry.new (store I n m) k (ordOf I k) =
      .ok (if (m k).isSome then .occupied k (ordOf I k) else .vacant k (ordOf I k)) := by
  simp only [Entry.new, store_get L]

omit [DecidableEq K] in
theorem OMap.entry_eq (L : Lawful c I n) {sz : Nat} (hsz : n * sz ≤ 2 ^ (c.bits - 1) - 1)
    {m : K → Option V} {s : OMap V} (h : Stored I n b m s) (k : K) :
    OMap.entry c I sz s k = .ok (if (m k).isSome then .occupied k (ordOf I k) else .vacant k (ordOf I k),
      store I n m) := by
  simp only [OMap.entry, OMap.initFullMap_eq L hsz h k, L.ordinal_eq, ok_bind, slotOf_store L,
    Entry.new_store L]

theorem orInsert_store (L : Lawful c I n) (m : K → Option V) (k : K) (v : V) :
    (if (m k).isSome then Entry.occupied k (ordOf I k) else .vacant k (ordOf I k)).orInsert (store I n m) v =
      .ok (ordOf I k, store I n (upd m k (some ((m k).getD v)))) := by
  cases hm : m k with
  | none =>
    simp only [Option.isSome_none, Bool.false_eq_true, if_false, Entry.orInsert, writeSlot_store L, ok_bind,
      Option.getD_none, updT_eq_upd]
  | some w =>
    have : upd m k (some w) = m := by
      funext k'; simp only [upd]; split
      · subst_vars; exact hm.symm
      · rfl
    simp only [Option.isSome_some, if_true, Entry.orInsert, Entry.occupiedGetMut, store_get L, hm, unwrap_some,
      ok_bind, Option.getD_some, this]

theorem upd_upd (m : K → Option V) (k : K) (o o' : Option V) : upd (upd m k o) k o' = upd m k o' := by
  funext k'; simp only [upd]; split <;> rfl

theorem entryClient_store (L : Lawful c I n) (m : K → Option V) (k : K) (v w : V) :
    entryClient (if (m k).isSome then Entry.occupied k (ordOf I k) else .vacant k (ordOf I k)) (store I n m) v w =
      .ok (.entry k (m k), store I n (upd m k (some (if (m k).isSome then w else v)))) := by
  cases hm : m k with
  | none =>
    simp only [Option.isSome_none, Bool.false_eq_true, if_false, entryClient, Entry.vacantInsert,
      writeSlot_store L, ok_bind, Entry.key, updT_eq_upd]
  | some x =>
    have hs : (m k).isSome := by rw [hm]; rfl
    simp only [Option.isSome_some, if_true, entryClient, Entry.occupiedGet, Entry.occupiedGetMut, store_get L,
      hm, unwrap_some, ok_bind, writeSome_store L m w hs, Entry.key]

theorem orInsertRest_store (L : Lawful c I n) (m : K → Option V) (k : K) (v w : V) :
    (do
      let (slot, s) ← (if (m k).isSome then Entry.occupied k (ordOf I k)
        else .vacant k (ordOf I k)).orInsert (store I n m) v
      .ok (MapOut.opt (some (← readSome s slot)), ← writeSome s slot w) : R (MapOut K V × List (Option V))) =
      .ok (.opt (some ((m k).getD v)), store I n (upd m k (some w))) := by
  have h1 : upd m k (some ((m k).getD v)) k = some ((m k).getD v) := by simp [upd]
  have h2 : (upd m k (some ((m k).getD v)) k).isSome := by rw [h1]; rfl
  simp only [orInsert_store L, ok_bind, readSome_store L _ h1, writeSome_store L _ w h2, upd_upd]

theorem getMutClient_store (L : Lawful c I n) (m : K → Option V) (k : K) (w : V) :
    getMutClient ((m k).map fun _ => ordOf I k) (store I n m) w =
      .ok (.opt (m k) (K := K), store I n (if (m k).isSome then upd m k (some w) else m)) := by
  cases hm : m k with
  | none => simp [getMutClient]
  | some v =>
    have hs : (m k).isSome := by rw [hm]; rfl
    simp only [Option.map_some, getMutClient, readSome_store L m hm, writeSome_store L m w hs, ok_bind,
      Option.isSome_some, if_true]

theorem OMap.step_rel (L : Lawful c I n) {sz : Nat} (hsz : n * sz ≤ 2 ^ (c.bits - 1) - 1)
    (p : (K → Option V) × Bool) (s : OMap V) (op : MapOp K V) (h : Stored I n p.2 p.1 s) :
    ∃ s', OMap.step c I sz s op = .ok ((specAlloc I n p op).1, s') ∧
      Stored I n (specAlloc I n p op).2.2 (specAlloc I n p op).2.1 s' := by
  obtain ⟨m, b⟩ := p
  simp only at h
  cases op with
  | get k =>
    refine ⟨s, ?_, by simpa [specAlloc, MapSpec.step, MapOp.allocates] using h⟩
    simp only [OMap.step, OMap.get, L.ordinal_eq, ok_bind, h.get L k, specAlloc, MapSpec.step]
    rcases h with ⟨rfl, rfl⟩ | ⟨rfl, rfl, rfl⟩ <;> rfl
  | getMut k w =>
    rcases h with ⟨rfl, rfl⟩ | ⟨rfl, rfl, rfl⟩
    · refine ⟨_, ?_, .inl ⟨rfl, rfl⟩⟩
      simp only [OMap.step, OMap.getMut, L.ordinal_eq, ok_bind, store_get L, getMutClient_store L, specAlloc,
        MapSpec.step]
    · refine ⟨[], ?_, .inr ⟨rfl, rfl, rfl⟩⟩
      simp [OMap.step, OMap.getMut, L.ordinal_eq, getMutClient, specAlloc, MapSpec.step]
  | insert k v =>
    refine ⟨_, ?_, .inl ⟨by simp [specAlloc, MapOp.allocates], rfl⟩⟩
    simp only [OMap.step, OMap.insert, OMap.initFullMap_eq L hsz h k, L.ordinal_eq, ok_bind, getIdx_store L,
      setIdx_store L, specAlloc, MapSpec.step, updT_eq_upd]
  | remove k =>
    rcases h with ⟨rfl, rfl⟩ | ⟨rfl, rfl, rfl⟩
    · refine ⟨_, ?_, .inl ⟨rfl, rfl⟩⟩
      simp only [OMap.step, OMap.remove, L.ordinal_eq, ok_bind, store_get L, store_set L, specAlloc,
        MapSpec.step, updT_eq_upd]
    · refine ⟨[], ?_, .inr ⟨rfl, rfl, ?_⟩⟩
      · simp [OMap.step, OMap.remove, L.ordinal_eq, specAlloc, MapSpec.step]
      · funext k'; simp [specAlloc, MapSpec.step, upd]
  | orInsert k v w =>
    refine ⟨_, ?_, .inl ⟨by simp [specAlloc, MapOp.allocates], rfl⟩⟩
    simp only [OMap.step, OMap.entry_eq L hsz h k, ok_bind, orInsertRest_store L, specAlloc, MapSpec.step]
  | entry k v w =>
    refine ⟨_, ?_, .inl ⟨by simp [specAlloc, MapOp.allocates], rfl⟩⟩
    simp only [OMap.step, OMap.entry_eq L hsz h k, ok_bind, entryClient_store L, specAlloc, MapSpec.step]
  | len =>
    refine ⟨s, ?_, by simpa [specAlloc, MapSpec.step, MapOp.allocates] using h⟩
    simp only [OMap.step, OMap.len, OMap.iter, h.count L, ok_bind, specAlloc, MapSpec.step]
  | isEmpty =>
    refine ⟨s, ?_, by simpa [specAlloc, MapSpec.step, MapOp.allocates] using h⟩
    obtain ⟨it, h1⟩ := h.first L
    simp only [OMap.step, OMap.isEmpty, OMap.iter, h1, ok_bind, specAlloc, MapSpec.step, isEmpty_head]
  | iter ds =>
    refine ⟨s, ?_, by simpa [specAlloc, MapSpec.step, MapOp.allocates] using h⟩
    obtain ⟨it, h1⟩ := h.run_iter L ds
    simp only [OMap.step, OMap.iter, h1, ok_bind, specAlloc, MapSpec.step]
  | keys ds =>
    refine ⟨s, ?_, by simpa [specAlloc, MapSpec.step, MapOp.allocates] using h⟩
    obtain ⟨it, h1⟩ := h.run_keys L ds
    simp only [OMap.step, OMap.keys, OMap.iter, h1, ok_bind, specAlloc, MapSpec.step]
  | values ds =>
    refine ⟨s, ?_, by simpa [specAlloc, MapSpec.step, MapOp.allocates] using h⟩
    obtain ⟨it, h1⟩ := h.run_values L ds
    simp only [OMap.step, OMap.values, OMap.iter, h1, ok_bind, specAlloc, MapSpec.step]
  | iterMut steps =>
    obtain ⟨cl, h1, h2⟩ := SRel.runs L h steps
    refine ⟨cl.it.mem, ?_, by simpa [specAlloc, MapSpec.step, MapOp.allocates] using h2.stored⟩
    simp only [OMap.step, OMap.iterMut, h1, ok_bind, specAlloc, MapSpec.step]
  | valuesMut steps =>
    obtain ⟨cl, h1, h2⟩ := SRel.runsV L h steps
    refine ⟨cl.it.mem, ?_, by simpa [specAlloc, MapSpec.step, MapOp.allocates] using h2.stored⟩
    simp only [OMap.step, OMap.iterMut, h1, ok_bind, specAlloc, MapSpec.step]
  | drain ds leak =>
    obtain ⟨d, h1, h2, mem, h3, h4⟩ := h.run_drain L ds
    cases leak with
    | true =>
      refine ⟨d.mem, ?_, by
        simp only [specAlloc, MapOp.allocates, Bool.or_false]; exact h2⟩
      simp only [OMap.step, OMap.drain, h1, ok_bind, specAlloc, MapSpec.step, if_true]
    | false =>
      refine ⟨mem, ?_, by simpa [specAlloc, MapSpec.step, MapOp.allocates] using h4⟩
      simp [OMap.step, OMap.drain, h1, h3, specAlloc, MapSpec.step]
  | clear =>
    obtain ⟨mem, h3, h4⟩ := Drain.drop_dview L (DView.start L h)
    refine ⟨mem, ?_, by simpa [specAlloc, MapSpec.step, MapOp.allocates] using h4⟩
    simp [OMap.step, OMap.clear, OMap.drain, h3, specAlloc, MapSpec.step]

/-! ## `OrdinalArrayMap` -/

omit [DecidableEq K] in
theorem OrdinalArrayMap.entry_eq (L : Lawful c I n) (m : K → Option V) (k : K) :
    OrdinalArrayMap.entry I (store I n m) k =
      .ok (if (m k).isSome then .occupied k (ordOf I k) else .vacant k (ordOf I k), store I n m) := by
  simp only [OrdinalArrayMap.entry, OrdinalTotalArrayMap.indexMut, L.ordinal_eq, ok_bind, slotOf_store L,
    Entry.new_store L]

theorem OrdinalArrayMap.step_rel (L : Lawful c I n) (m : K → Option V) (s : OrdinalArrayMap V)
    (op : MapOp K V) (h : s = store I n m) :
    ∃ s', OrdinalArrayMap.step c I s op = .ok ((MapSpec.step I n m op).1, s') ∧
      s' = store I n (MapSpec.step I n m op).2 := by
  subst h
  have h : Stored I n true m (store I n m) := .inl ⟨rfl, rfl⟩
  have unst : ∀ {m' : K → Option V} {s}, Stored I n true m' s → s = store I n m' := by
    intro m' s h; simpa [Stored] using h
  cases op with
  | get k =>
    refine ⟨_, ?_, rfl⟩
    simp only [OrdinalArrayMap.step, OrdinalArrayMap.get, OrdinalTotalArrayMap.get, L.ordinal_eq, ok_bind,
      getIdx_store L, MapSpec.step]
  | getMut k w =>
    refine ⟨_, ?_, rfl⟩
    simp only [OrdinalArrayMap.step, OrdinalArrayMap.getMut, OrdinalTotalArrayMap.getMut, L.ordinal_eq, ok_bind,
      slotOf_store L, readSlot_store L, getMutClient_store L, MapSpec.step]
  | insert k v =>
    refine ⟨_, ?_, rfl⟩
    simp only [OrdinalArrayMap.step, OrdinalArrayMap.insert, OrdinalTotalArrayMap.getMut, L.ordinal_eq, ok_bind,
      slotOf_store L, readSlot_store L, writeSlot_store L, MapSpec.step, updT_eq_upd]
  | remove k =>
    refine ⟨_, ?_, rfl⟩
    simp only [OrdinalArrayMap.step, OrdinalArrayMap.remove, OrdinalTotalArrayMap.getMut, L.ordinal_eq, ok_bind,
      slotOf_store L, readSlot_store L, writeSlot_store L, MapSpec.step, updT_eq_upd]
  | orInsert k v w =>
    refine ⟨_, ?_, rfl⟩
    simp only [OrdinalArrayMap.step, OrdinalArrayMap.entry_eq L, ok_bind, orInsertRest_store L, MapSpec.step]
  | entry k v w =>
    refine ⟨_, ?_, rfl⟩
    simp only [OrdinalArrayMap.step, OrdinalArrayMap.entry_eq L, ok_bind, entryClient_store L, MapSpec.step]
  | len =>
    refine ⟨_, ?_, rfl⟩
    simp only [OrdinalArrayMap.step, OrdinalArrayMap.len, OrdinalArrayMap.iter, OrdinalTotalArrayMap.iter,
      h.count L, ok_bind, MapSpec.step]
  | isEmpty =>
    refine ⟨_, ?_, rfl⟩
    obtain ⟨it, h1⟩ := h.first L
    simp only [OrdinalArrayMap.step, OrdinalArrayMap.isEmpty, OrdinalArrayMap.iter, OrdinalTotalArrayMap.iter,
      h1, ok_bind, MapSpec.step, isEmpty_head]
  | iter ds =>
    refine ⟨_, ?_, rfl⟩
    obtain ⟨it, h1⟩ := h.run_iter L ds
    simp only [OrdinalArrayMap.step, OrdinalArrayMap.iter, OrdinalTotalArrayMap.iter, h1, ok_bind, MapSpec.step]
  | keys ds =>
    refine ⟨_, ?_, rfl⟩
    obtain ⟨it, h1⟩ := h.run_keys L ds
    simp only [OrdinalArrayMap.step, OrdinalArrayMap.keys, OrdinalArrayMap.iter, OrdinalTotalArrayMap.iter, h1,
      ok_bind, MapSpec.step]
  | values ds =>
    refine ⟨_, ?_, rfl⟩
    obtain ⟨it, h1⟩ := h.run_values L ds
    simp only [OrdinalArrayMap.step, OrdinalArrayMap.values, OrdinalArrayMap.iter, OrdinalTotalArrayMap.iter, h1,
      ok_bind, MapSpec.step]
  | iterMut steps =>
    obtain ⟨cl, h1, h2⟩ := SRel.runs L h steps
    refine ⟨cl.it.mem, ?_, unst h2.stored⟩
    simp only [OrdinalArrayMap.step, OrdinalArrayMap.iterMut, OrdinalTotalArrayMap.iterMut, h1, ok_bind,
      MapSpec.step]
  | valuesMut steps =>
    obtain ⟨cl, h1, h2⟩ := SRel.runsV L h steps
    refine ⟨cl.it.mem, ?_, unst h2.stored⟩
    simp only [OrdinalArrayMap.step, OrdinalArrayMap.iterMut, OrdinalTotalArrayMap.iterMut, h1, ok_bind,
      MapSpec.step]
  | drain ds leak =>
    obtain ⟨d, h1, h2, mem, h3, h4⟩ := h.run_drain L ds
    cases leak with
    | true =>
      refine ⟨d.mem, ?_, unst h2⟩
      simp only [OrdinalArrayMap.step, OrdinalArrayMap.drain, h1, ok_bind, MapSpec.step, if_true]
    | false =>
      refine ⟨mem, ?_, unst h4⟩
      simp [OrdinalArrayMap.step, OrdinalArrayMap.drain, h1, h3, MapSpec.step]
  | clear =>
    obtain ⟨mem, h3, h4⟩ := Drain.drop_dview L (DView.start L h)
    refine ⟨mem, ?_, unst h4⟩
    simp [OrdinalArrayMap.step, OrdinalArrayMap.clear, OrdinalArrayMap.drain, h3, MapSpec.step]

/-! ## Total maps -/

/-- `values_mut` of a total map agrees with the specification. -/
def TVRel (I : OrdinalImpl K) (n : Nat) (sp : MutSpec K V) (s : SlotClient V) : Prop :=
  ∃ m : K → V, SlotView (sp.rest.map (ordOf I)) s.it ∧
    s.handed = sp.handed.map (ordOf I) ∧ s.mem = store I n m ∧ sp.map = fun k => some (m k)

theorem TVRel.step (L : Lawful c I n) (sp : MutSpec K V) (s : SlotClient V) (op : MutStep V)
    (h : TVRel I n sp s) : ∃ s', SlotClient.step s op = .ok ((sp.step op).1.map (·.2), s') ∧
      TVRel I n (sp.step op).2 s' := by
  obtain ⟨rest, shanded, smap⟩ := sp
  obtain ⟨mem, it, handed⟩ := s
  obtain ⟨m, h1, h3, h4, h5⟩ := h
  simp only at h1 h3 h4 h5
  subst h3 h4 h5
  cases op with
  | front =>
    obtain ⟨it', e1, e2⟩ := slotIter_views.next _ _ h1
    cases rest with
    | nil =>
      refine ⟨⟨store I n m, it', shanded.map (ordOf I)⟩, ?_, m, e2, rfl, rfl, rfl⟩
      simp [SlotClient.step, e1, MutSpec.step]
    | cons k ks =>
      refine ⟨⟨store I n m, it', shanded.map (ordOf I) ++ [ordOf I k]⟩, ?_, m, e2, ?_, rfl, rfl⟩
      · simp [SlotClient.step, e1, MutSpec.step, readSlot_store L]
      · simp [MutSpec.step]
  | back =>
    obtain ⟨it', e1, e2⟩ := slotIter_views.nextBack _ _ h1
    rcases List.eq_nil_or_concat rest with rfl | ⟨ks, k, rfl⟩
    · refine ⟨⟨store I n m, it', shanded.map (ordOf I)⟩, ?_, m, e2, rfl, rfl, rfl⟩
      simp [SlotClient.step, e1, MutSpec.step]
    · rw [List.concat_eq_append] at *
      refine ⟨⟨store I n m, it', shanded.map (ordOf I) ++ [ordOf I k]⟩, ?_, m, ?_, ?_, rfl, ?_⟩
      · simp [SlotClient.step, e1, MutSpec.step, readSlot_store L]
      · simpa [MutSpec.step] using e2
      · simp [MutSpec.step]
      · simp [MutSpec.step]
  | write j v =>
    cases hj : shanded[j]? with
    | none =>
      refine ⟨⟨store I n m, it, shanded.map (ordOf I)⟩, ?_, m, ?_, ?_, rfl, ?_⟩
      · simp [SlotClient.step, MutSpec.step, hj]
      · simpa [MutSpec.step, hj] using h1
      · simp [MutSpec.step, hj]
      · simp [MutSpec.step, hj]
    | some k =>
      refine ⟨⟨store I n (updT m k v), it, shanded.map (ordOf I)⟩, ?_, updT m k v, ?_, ?_, rfl, ?_⟩
      · simp [SlotClient.step, MutSpec.step, hj, writeSlot_store L]
      · simpa [MutSpec.step, hj] using h1
      · simp [MutSpec.step, hj]
      · simp only [MutSpec.step, hj]; exact upd_some m k v

theorem TVRel.runs (L : Lawful c I n) (m : K → V) (steps : List (MutStep V)) :
    ∃ s', runOps SlotClient.step ⟨store I n m, ⟨0, n⟩, []⟩ steps =
        .ok ((runSpec MutSpec.step ⟨values I n, [], fun k => some (m k)⟩ steps).1.map (Option.map (·.2)), s') ∧
      TVRel I n (runSpec MutSpec.step ⟨values I n, [], fun k => some (m k)⟩ steps).2 s' := by
  have h0 : TVRel I n ⟨values I n, [], fun k => some (m k)⟩ ⟨store I n m, ⟨0, n⟩, []⟩ := by
    refine ⟨m, ⟨Nat.zero_le _, ?_⟩, rfl, rfl, rfl⟩
    simp only [values_ords L]; simp [List.range_eq_range']
  generalize (⟨values I n, [], fun k => some (m k)⟩ : MutSpec K V) = sp at *
  generalize (⟨store I n m, ⟨0, n⟩, []⟩ : SlotClient V) = s at *
  induction steps generalizing sp s with
  | nil => exact ⟨s, rfl, h0⟩
  | cons op ops ih =>
    obtain ⟨s1, e1, e2⟩ := TVRel.step L sp s op h0
    obtain ⟨s2, e3, e4⟩ := ih _ _ e2
    exact ⟨s2, by simp only [runOps, e1, ok_bind, e3, runSpec, List.map_cons], e4⟩

omit [DecidableEq K] in
theorem total_iter (L : Lawful c I n) (m : K → V) (ds : List Dir) :
    ∃ it, (TotalIter.it c I).run (TotalIter.new (store I n m) 0) ds =
      .ok ((Deque.run (pairsT I n m) ds).1, it) := by
  obtain ⟨it, h1, _⟩ := TotalIter.behaves L (fresh_view L m) ds
  exact ⟨it, h1⟩

omit [DecidableEq K] in
theorem total_keys (L : Lawful c I n) (ds : List Dir) :
    ∃ v, OrdinalValues.new I = .ok v ∧
      ∃ it, (OrdinalValues.iter I).run v ds = .ok ((Deque.run (values I n) ds).1, it) := by
  obtain ⟨v, h1, h2⟩ := OrdinalValues.new_view L
  obtain ⟨it, h3, _⟩ := OrdinalValues.behaves L h2 ds
  exact ⟨v, h1, it, h3⟩

omit [DecidableEq K] in
theorem total_values (m : K → V) (ds : List Dir) :
    ∃ it, (listIter V).it.run (store I n m) ds = .ok ((Deque.run ((values I n).map m) ds).1, it) := by
  obtain ⟨it, h3, _⟩ := std_behaves (listIter_views V) (s := store I n m) rfl ds
  exact ⟨it, h3⟩

theorem total_iterMut (L : Lawful c I n) (m : K → V) (steps : List (MutStep V)) :
    ∃ cl, runOps (MutClientT.step c I) ⟨TotalIterMut.new (store I n m), []⟩ steps =
        .ok ((TotalSpec.mutRun I n m steps).1, cl) ∧
      cl.it.mem = store I n (TotalSpec.mutRun I n m steps).2 := by
  obtain ⟨cl, h1, ps, m', _, _, _, h2, h3⟩ := TRel.runs L m steps
  refine ⟨cl, h1, ?_⟩
  rw [h2]; simp only [TotalSpec.mutRun]; rw [h3]; rfl

theorem total_valuesMut (L : Lawful c I n) (m : K → V) (steps : List (MutStep V)) :
    ∃ cl, runOps SlotClient.step ⟨store I n m, ⟨0, n⟩, []⟩ steps =
        .ok ((TotalSpec.mutRun I n m steps).1.map (Option.map (·.2)), cl) ∧
      cl.mem = store I n (TotalSpec.mutRun I n m steps).2 := by
  obtain ⟨cl, h1, m', _, _, h2, h3⟩ := TVRel.runs L m steps
  refine ⟨cl, h1, ?_⟩
  rw [h2]; simp only [TotalSpec.mutRun]; rw [h3]; rfl

theorem OrdinalTotalMap.step_rel (L : Lawful c I n) (m : K → V) (s : OrdinalTotalMap V) (op : TotalOp K V)
    (h : s = store I n m) :
    ∃ s', OrdinalTotalMap.step c I s op = .ok ((TotalSpec.step I n m op).1, s') ∧
      s' = store I n (TotalSpec.step I n m op).2 := by
  subst h
  cases op with
  | get k =>
    refine ⟨_, ?_, rfl⟩
    simp only [OrdinalTotalMap.step, OrdinalTotalMap.get, L.ordinal_eq, ok_bind, getIdx_store L, TotalSpec.step]
  | index k =>
    refine ⟨_, ?_, rfl⟩
    simp only [OrdinalTotalMap.step, OrdinalTotalMap.index, OrdinalTotalMap.get, L.ordinal_eq, ok_bind,
      getIdx_store L, TotalSpec.step]
  | getMut k w =>
    refine ⟨_, ?_, rfl⟩
    simp only [OrdinalTotalMap.step, OrdinalTotalMap.getMut, L.ordinal_eq, ok_bind, slotOf_store L,
      readSlot_store L, writeSlot_store L, TotalSpec.step]
  | indexMut k w =>
    refine ⟨_, ?_, rfl⟩
    simp only [OrdinalTotalMap.step, OrdinalTotalMap.indexMut, OrdinalTotalMap.getMut, L.ordinal_eq, ok_bind,
      slotOf_store L, readSlot_store L, writeSlot_store L, TotalSpec.step]
  | insert k v =>
    refine ⟨_, ?_, rfl⟩
    simp only [OrdinalTotalMap.step, OrdinalTotalMap.insert, L.ordinal_eq, ok_bind, getIdx_store L,
      setIdx_store L, TotalSpec.step]
  | len =>
    refine ⟨_, ?_, rfl⟩
    simp only [OrdinalTotalMap.step, OrdinalTotalMap.len, L.size, ok_bind, TotalSpec.step]
  | isEmpty =>
    refine ⟨_, ?_, rfl⟩
    simp only [OrdinalTotalMap.step, OrdinalTotalMap.isEmpty, OrdinalTotalMap.len, L.size, ok_bind,
      TotalSpec.step]
  | iter ds =>
    refine ⟨_, ?_, rfl⟩
    obtain ⟨it, h1⟩ := total_iter L m ds
    simp only [OrdinalTotalMap.step, OrdinalTotalMap.iter, h1, ok_bind, TotalSpec.step]
  | keys ds =>
    refine ⟨_, ?_, rfl⟩
    obtain ⟨v, h1, it, h2⟩ := total_keys L ds
    simp only [OrdinalTotalMap.step, OrdinalTotalMap.keys, h1, h2, ok_bind, TotalSpec.step]
  | values ds =>
    refine ⟨_, ?_, rfl⟩
    obtain ⟨it, h1⟩ := total_values (I := I) (n := n) m ds
    simp only [OrdinalTotalMap.step, OrdinalTotalMap.values, h1, ok_bind, TotalSpec.step]
  | iterMut steps =>
    obtain ⟨cl, h1, h2⟩ := total_iterMut L m steps
    refine ⟨_, ?_, h2⟩
    simp only [OrdinalTotalMap.step, OrdinalTotalMap.iterMut, h1, ok_bind, TotalSpec.step]
  | valuesMut steps =>
    obtain ⟨cl, h1, h2⟩ := total_valuesMut L m steps
    refine ⟨_, ?_, h2⟩
    simp only [OrdinalTotalMap.step, store_length L, h1, ok_bind, TotalSpec.step]

theorem OrdinalTotalArrayMap.step_rel (L : Lawful c I n) (m : K → V) (s : OrdinalTotalArrayMap V)
    (op : TotalOp K V) (h : s = store I n m) :
    ∃ s', OrdinalTotalArrayMap.step c I n s op = .ok ((TotalSpec.step I n m op).1, s') ∧
      s' = store I n (TotalSpec.step I n m op).2 := by
  subst h
  cases op with
  | get k =>
    refine ⟨_, ?_, rfl⟩
    simp only [OrdinalTotalArrayMap.step, OrdinalTotalArrayMap.get, L.ordinal_eq, ok_bind, getIdx_store L,
      TotalSpec.step]
  | index k =>
    refine ⟨_, ?_, rfl⟩
    simp only [OrdinalTotalArrayMap.step, OrdinalTotalArrayMap.index, L.ordinal_eq, ok_bind, getIdx_store L,
      TotalSpec.step]
  | getMut k w =>
    refine ⟨_, ?_, rfl⟩
    simp only [OrdinalTotalArrayMap.step, OrdinalTotalArrayMap.getMut, L.ordinal_eq, ok_bind, slotOf_store L,
      readSlot_store L, writeSlot_store L, TotalSpec.step]
  | indexMut k w =>
    refine ⟨_, ?_, rfl⟩
    simp only [OrdinalTotalArrayMap.step, OrdinalTotalArrayMap.indexMut, L.ordinal_eq, ok_bind, slotOf_store L,
      readSlot_store L, writeSlot_store L, TotalSpec.step]
  | insert k v =>
    refine ⟨_, ?_, rfl⟩
    simp only [OrdinalTotalArrayMap.step, OrdinalTotalArrayMap.insert, L.ordinal_eq, ok_bind, getIdx_store L,
      setIdx_store L, TotalSpec.step]
  | len => exact ⟨_, rfl, rfl⟩
  | isEmpty => exact ⟨_, rfl, rfl⟩
  | iter ds =>
    refine ⟨_, ?_, rfl⟩
    obtain ⟨it, h1⟩ := total_iter L m ds
    simp only [OrdinalTotalArrayMap.step, OrdinalTotalArrayMap.iter, h1, ok_bind, TotalSpec.step]
  | keys ds =>
    refine ⟨_, ?_, rfl⟩
    obtain ⟨v, h1, it, h2⟩ := total_keys L ds
    simp only [OrdinalTotalArrayMap.step, OrdinalTotalArrayMap.keys, h1, h2, ok_bind, TotalSpec.step]
  | values ds =>
    refine ⟨_, ?_, rfl⟩
    obtain ⟨it, h1⟩ := total_values (I := I) (n := n) m ds
    simp only [OrdinalTotalArrayMap.step, OrdinalTotalArrayMap.values, h1, ok_bind, TotalSpec.step]
  | iterMut steps =>
    obtain ⟨cl, h1, h2⟩ := total_iterMut L m steps
    refine ⟨_, ?_, h2⟩
    simp only [OrdinalTotalArrayMap.step, OrdinalTotalArrayMap.iterMut, h1, ok_bind, TotalSpec.step]
  | valuesMut steps =>
    obtain ⟨cl, h1, h2⟩ := total_valuesMut L m steps
    refine ⟨_, ?_, h2⟩
    simp only [OrdinalTotalArrayMap.step, store_length L, h1, ok_bind, TotalSpec.step]

end OrdinalMap
