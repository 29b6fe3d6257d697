import Verif.Props.Own
/-!
# C76: `from_iter` neither leaks nor double-drops
-/

namespace OrdinalMap.Props
open OrdinalMap

variable {K V : Type} {c : Cfg} {I : OrdinalImpl K} {n : Nat}

theorem held_set {s : List (Option V)} {i : Nat} {old : Option V} (h : s[i]? = some old) (v : V) :
    (held (s.set i (some v)) ++ old.toList).Perm (v :: held s) := by
  induction s generalizing i with
  | nil => simp at h
  | cons o s ih =>
    cases i with
    | zero =>
      simp only [List.getElem?_cons_zero, Option.some.injEq] at h
      subst h
      cases o with
      | none => simp [held]
      | some w =>
        simp only [held, List.set_cons_zero, Option.toList_some]
        exact .cons _ (List.perm_append_singleton _ _)
    | succ i =>
      simp only [List.getElem?_cons_succ] at h
      have ih := ih h
      cases o with
      | none => simpa [held] using ih
      | some w =>
        simp only [held, List.set_cons_succ] at ih ⊢
        exact (ih.cons w).trans (.swap _ _ _)

/-- What is needed of `insert`: it returns or panics, the value it is given is then held, and the value
it returns no longer is. -/
def Conserves (insert : List (Option V) → K → V → R (Option V × List (Option V))) : Prop :=
  ∀ s k v, insert s k v = .error .panic ∨
    ∃ old s', insert s k v = .ok (old, s') ∧ (held s' ++ old.toList).Perm (v :: held s)

theorem conserves_omap (c : Cfg) (hI : UserImpl I) (ho : ∀ k, Returns (I.ordinal k)) (sz : Nat) :
    Conserves (V := V) (OMap.insert c I sz) := by
  intro s k v
  obtain ⟨n, hn⟩ := hI.size
  have h1 : OMap.initFullMap c I sz s = .error .panic ∨ ∃ s', OMap.initFullMap c I sz s = .ok s' ∧ held s' = held s := by
    unfold OMap.initFullMap
    cases s with
    | nil =>
      by_cases h : n * sz ≤ 2 ^ (c.bits - 1) - 1
      · refine .inr ⟨List.replicate n none, by simp [hn, withCapacity, h], ?_⟩
        simp only [held, List.filterMap_nil, List.filterMap_eq_nil_iff]
        intro a ha
        rw [List.eq_of_mem_replicate ha]; rfl
      · exact .inl (by simp [hn, withCapacity, h])
    | cons a s => exact .inr ⟨a :: s, by simp, rfl⟩
  unfold OMap.insert
  rcases h1 with h1 | ⟨s', h1, h2⟩
  · exact .inl (by simp [h1])
  · rcases ho k with h | ⟨i, h⟩
    · exact .inl (by simp [h1, h])
    · cases hi : s'[i]? with
      | none => exact .inl (by simp [h1, h, getIdx, hi])
      | some old =>
        have hlt : i < s'.length := by
          obtain ⟨h, -⟩ := List.getElem?_eq_some_iff.1 hi
          exact h
        refine .inr ⟨old, s'.set i (some v), by simp only [h1, h, getIdx, hi, setIdx, hlt, ok_bind, if_true], ?_⟩
        rw [← h2]
        exact held_set hi v

theorem conserves_array (ho : ∀ k, Returns (I.ordinal k)) : Conserves (V := V) (OrdinalArrayMap.insert I) := by
  intro s k v
  unfold OrdinalArrayMap.insert OrdinalTotalArrayMap.getMut
  rcases ho k with h | ⟨i, h⟩
  · exact .inl (by simp [h])
  · by_cases hlt : i < s.length
    · have hi : s[i]? = some s[i] := List.getElem?_eq_getElem hlt
      exact .inr ⟨s[i], s.set i (some v), by simp [h, OrdinalTotalMap.slotOf, hlt, readSlot, writeSlot],
        held_set hi v⟩
    · exact .inl (by simp [h, OrdinalTotalMap.slotOf, hlt])

/-- What `from_iter` must do with the values it takes, whatever the `Ordinal` impl answers: it takes the
values of a prefix of the items; each is in the map it returns or was dropped, exactly once. -/
def FromIterGood (items : List (K × V)) (e : IterEnd) (plain : R (List (Option V)))
    (r : R (List V × Outcome V (List (Option V)))) : Prop :=
  ∃ taken o, r = .ok (taken, o) ∧ taken <+: items.map (·.2) ∧
    (((o.returned.map held).getD []) ++ o.dropped).Perm taken ∧
    (e = .exhausted → plain = o.result) ∧ (e = .panics → o.returned = none)

theorem fromIterLoopO_spec {insert : List (Option V) → K → V → R (Option V × List (Option V))}
    (h : Conserves insert) (loop : List (Option V) → List (K × V) → R (List (Option V)))
    (hnil : ∀ s, loop s [] = .ok s)
    (hcons : ∀ s k v ps, loop s ((k, v) :: ps) = (do let (_, s) ← insert s k v; loop s ps))
    (items : List (K × V)) (e : IterEnd) : ∀ (s : List (Option V)) (dropped taken : List V),
    (held s ++ dropped).Perm taken →
    ∃ tk o, fromIterLoopO insert s dropped taken items e = .ok (taken ++ tk, o) ∧ tk <+: items.map (·.2) ∧
      (((o.returned.map held).getD []) ++ o.dropped).Perm (taken ++ tk) ∧
      (e = .exhausted → loop s items = o.result) ∧ (e = .panics → o.returned = none) := by
  induction items with
  | nil =>
    intro s dropped taken hp
    cases e with
    | exhausted =>
      exact ⟨[], ⟨some s, dropped⟩, by simp [fromIterLoopO], by simp, by simpa using hp,
        fun _ => by simp [hnil, Outcome.result], fun h => by cases h⟩
    | panics =>
      exact ⟨[], ⟨none, dropped ++ held s⟩, by simp [fromIterLoopO], by simp,
        by simpa using List.perm_append_comm.trans hp, ⟨fun h => (by cases h), fun _ => rfl⟩⟩
  | cons p items ih =>
    intro s dropped taken hp
    obtain ⟨k, v⟩ := p
    rcases h s k v with h1 | ⟨old, s', h1, h2⟩
    · refine ⟨[v], ⟨none, dropped ++ v :: held s⟩, by simp [fromIterLoopO, h1], by simp, ?_,
        fun _ => by simp [hcons, h1, Outcome.result], fun _ => rfl⟩
      simp only [Option.map_none, Option.getD_none, List.nil_append]
      refine (List.perm_append_comm.trans ?_)
      rw [List.cons_append]
      exact (hp.cons v).trans (List.perm_append_singleton _ _).symm
    · have hp' : (held s' ++ (dropped ++ old.toList)).Perm (taken ++ [v]) := by
        have e1 : (held s' ++ (dropped ++ old.toList)).Perm (held s' ++ old.toList ++ dropped) := by
          rw [List.append_assoc]
          exact List.perm_append_comm.append_left _
        refine e1.trans ((h2.append_right dropped).trans ?_)
        rw [List.cons_append]
        exact (hp.cons v).trans (List.perm_append_singleton _ _).symm
      obtain ⟨tk, o, g1, g2, g3, g4, g5⟩ := ih s' (dropped ++ old.toList) (taken ++ [v]) hp'
      refine ⟨v :: tk, o, by simp [fromIterLoopO, h1, g1], by simpa using g2, by simpa using g3,
        fun he => ?_, g5⟩
      rw [hcons, h1, ← g4 he]
      rfl

/-- C76, `OrdinalMap`: for any impl, which may panic or answer anything, any items and an iterator that
ends or panics. -/
theorem C76_from_iter (c : Cfg) (hI : UserImpl I) (ho : ∀ k, Returns (I.ordinal k)) (sz : Nat)
    (items : List (K × V)) (e : IterEnd) :
    FromIterGood items e (OMap.fromIter c I sz items) (OMap.fromIterO c I sz items e) := by
  obtain ⟨tk, o, h⟩ := fromIterLoopO_spec (conserves_omap (V := V) c hI ho sz) (OMap.extendLoop c I sz)
    (fun _ => rfl) (fun _ _ _ _ => rfl) items e (OMap.new V) [] [] (by simp [held, OMap.new])
  exact ⟨tk, o, by simpa [OMap.fromIterO, OMap.fromIter] using h⟩

example := C76_from_iter debug64 bogus_user (fun k => .inr ⟨_, rfl⟩) 16 [(true, 1), (false, 2), (true, 3)] .panics

theorem newLoop_none (hI : UserImpl I) (S : Nat) : ∀ fuel it (vs : List (Option V)),
    OrdinalValues.len it < fuel → vs.length ≤ S → (∀ o ∈ vs, o = none) →
    OrdinalTotalArrayMap.tryNewLoop (E := Empty) I (fun _ (r : Unit) => .ok (.ok none, r)) fuel it
        (ArrayBuilder.holding S vs) () = .error .panic ∨
    ∃ l, OrdinalTotalArrayMap.tryNewLoop (E := Empty) I (fun _ (r : Unit) => .ok (.ok none, r)) fuel it
        (ArrayBuilder.holding S vs) () = .ok (.ok l, ()) ∧ ∀ o ∈ l, o = none := by
  intro fuel
  induction fuel with
  | zero => intro _ _ h; omega
  | succ fuel ih =>
    intro it vs hl hS hv
    unfold OrdinalTotalArrayMap.tryNewLoop
    rcases valuesNext_cases hI it with e | ⟨it', e⟩ | ⟨k, it', e, hlt⟩
    · exact .inl (by simp [e])
    · rcases Nat.lt_or_eq_of_le hS with h1 | h1
      · exact .inl (by simp [e, ArrayBuilder.finish, ArrayBuilder.tryFinish_partial h1, unwrap])
      · exact .inr ⟨vs, by simp [e, ArrayBuilder.finish, ArrayBuilder.tryFinish_full h1, unwrap], hv⟩
    · simp only [e, ok_bind]
      rcases Nat.lt_or_eq_of_le hS with h1 | h1
      · simp only [ArrayBuilder.push_holding none h1, ok_bind]
        exact ih it' (vs ++ [none]) (by omega) (by simp; omega)
          (fun o ho => (List.mem_append.1 ho).elim (hv o) (by simp))
      · exact .inl (by simp [ArrayBuilder.push_full none h1])

theorem new_none (hI : UserImpl I) {S : Nat} (hS : I.size = .ok S) :
    OrdinalArrayMap.new V I S = .error .panic ∨ ∃ s, OrdinalArrayMap.new V I S = .ok s ∧ held s = [] := by
  have hA : OrdinalTotalArrayMap.assertS I S = .ok () := by
    simp [OrdinalTotalArrayMap.assertS, hS, constAssert]
  have := newLoop_none (V := V) hI S (OrdinalValues.len ⟨0, S⟩ + 1) ⟨0, S⟩ [] (by omega) (by simp) (by simp)
  rw [← ArrayBuilder.new_eq] at this
  simp only [OrdinalArrayMap.new, OrdinalTotalArrayMap.new, OrdinalTotalArrayMap.tryNew, hA, hS,
    OrdinalValues.new, ok_bind]
  rcases this with h | ⟨l, h, hl⟩
  · exact .inl (by simp [h])
  · refine .inr ⟨l, by simp [h], ?_⟩
    simp only [held, List.filterMap_eq_nil_iff]
    intro o ho
    rw [hl o ho]; rfl

/-- C76, `OrdinalArrayMap`. -/
theorem C76_from_iter_array (hI : UserImpl I) (ho : ∀ k, Returns (I.ordinal k)) {S : Nat}
    (hS : I.size = .ok S) (items : List (K × V)) (e : IterEnd) :
    FromIterGood items e (OrdinalArrayMap.fromIter I S items) (OrdinalArrayMap.fromIterO I S items e) := by
  rcases new_none (V := V) hI hS with hn | ⟨s, hn, hs⟩
  · exact ⟨[], ⟨none, []⟩, by simp [OrdinalArrayMap.fromIterO, hn], by simp, by simp,
      fun _ => by simp [OrdinalArrayMap.fromIter, hn, Outcome.result], fun _ => rfl⟩
  · obtain ⟨tk, o, h⟩ := fromIterLoopO_spec (conserves_array (V := V) ho) (OrdinalArrayMap.extendLoop I)
      (fun _ => rfl) (fun _ _ _ _ => rfl) items e s [] [] (by simp [hs])
    exact ⟨tk, o, by simpa [OrdinalArrayMap.fromIterO, OrdinalArrayMap.fromIter, hn] using h⟩

example := C76_from_iter_array bogus_user (fun k => .inr ⟨_, rfl⟩) (S := 5) rfl
  [(true, 1), (false, 2), (true, 3)] .exhausted

/-! ## Lawful key types -/

variable [DecidableEq K]

/-- `replaced` starting from a map. -/
def replacedFrom : (K → Option V) → List (K × V) → List V
  | _, [] => []
  | m, p :: ps => (m p.1).toList ++ replacedFrom (upd m p.1 (some p.2)) ps

theorem replacedFrom_eq (m : K → Option V) (ps : List (K × V)) :
    replacedFrom m ps =
      (List.range ps.length).filterMap fun i => ps[i]?.bind fun p => inserted m (ps.take i) p.1 := by
  induction ps generalizing m with
  | nil => rfl
  | cons p ps ih =>
    rw [replacedFrom, ih, List.length_cons, List.range_succ_eq_map, List.filterMap_cons, List.filterMap_map]
    have : ((fun i => (p :: ps)[i]?.bind fun q => inserted m ((p :: ps).take i) q.1) ∘ Nat.succ) =
        fun i => ps[i]?.bind fun q => inserted (upd m p.1 (some p.2)) (ps.take i) q.1 := by
      funext i; simp [inserted]
    rw [this]
    cases h : m p.1 <;> simp [inserted, h]

theorem replacedFrom_none (ps : List (K × V)) : replacedFrom (fun _ => none) ps = replaced ps := by
  rw [replacedFrom_eq, replaced]
  have : ∀ qs : List (K × V), inserted (fun _ => none) qs = lastValue qs := by
    intro qs; funext k; rw [inserted_eq]; simp
  simp only [this]

omit [DecidableEq K] in
theorem held_store (m : K → Option V) : held (store I n m) = (pairs I n m).map (·.2) := by
  simp only [held, store, pairs, List.filterMap_map, List.map_filterMap]
  congr 1
  funext k
  cases h : m k <;> simp [h]

theorem fromIterLoopO_lawful {insert : List (Option V) → K → V → R (Option V × List (Option V))}
    (rel : (K → Option V) → List (Option V) → Prop)
    (hins : ∀ m s k v, rel m s → ∃ s', insert s k v = .ok (m k, s') ∧ rel (upd m k (some v)) s')
    (hheld : ∀ m s, rel m s → held s = (pairs I n m).map (·.2))
    (loop : List (Option V) → List (K × V) → R (List (Option V))) (hnil : ∀ s, loop s [] = .ok s)
    (hcons : ∀ s k v ps, loop s ((k, v) :: ps) = (do let (_, s) ← insert s k v; loop s ps))
    (items : List (K × V)) (e : IterEnd) :
    ∀ (m : K → Option V) (s : List (Option V)) (dropped taken : List V), rel m s →
    ∃ s', loop s items = .ok s' ∧ fromIterLoopO insert s dropped taken items e =
      .ok (taken ++ items.map (·.2), match e with
        | .exhausted => ⟨some s', dropped ++ replacedFrom m items⟩
        | .panics => ⟨none, dropped ++ replacedFrom m items ++ (pairs I n (inserted m items)).map (·.2)⟩) := by
  induction items with
  | nil =>
    intro m s dropped taken h
    refine ⟨s, hnil s, ?_⟩
    cases e <;> simp [fromIterLoopO, replacedFrom, inserted, hheld m s h]
  | cons p items ih =>
    intro m s dropped taken h
    obtain ⟨k, v⟩ := p
    obtain ⟨s', h1, h2⟩ := hins m s k v h
    obtain ⟨s'', h3, h4⟩ := ih _ s' (dropped ++ (m k).toList) (taken ++ [v]) h2
    refine ⟨s'', by rw [hcons, h1]; exact h3, ?_⟩
    rw [fromIterLoopO, h1]
    simp only [h4]
    cases e <;> simp [replacedFrom, inserted]

/-- What `from_iter` drops for a lawful key type: everything is taken; the values replaced are dropped
in order while inserting; and if the iterator panics, the others after that, in ordinal order. -/
def FromIterExact (I : OrdinalImpl K) (n : Nat) (items : List (K × V)) (plain : R (List (Option V)))
    (r : IterEnd → R (List V × Outcome V (List (Option V)))) : Prop :=
  (∃ s, plain = .ok s ∧ r .exhausted = .ok (items.map (·.2), ⟨some s, replaced items⟩)) ∧
  r .panics = .ok (items.map (·.2),
    ⟨none, replaced items ++ (pairs I n (lastValue items)).map (·.2)⟩)

/-- C76 for lawful key types. -/
theorem C76_lawful (L : Lawful c I n) (items : List (K × V)) :
    (∀ sz, n * sz ≤ 2 ^ (c.bits - 1) - 1 →
      FromIterExact I n items (OMap.fromIter c I sz items) (OMap.fromIterO c I sz items)) ∧
    FromIterExact I n items (OrdinalArrayMap.fromIter I n items) (OrdinalArrayMap.fromIterO I n items) := by
  have e1 : inserted (fun _ => none) items = lastValue items := by
    funext k; rw [inserted_eq]; simp
  constructor
  · intro sz hsz
    have key := fun e => fromIterLoopO_lawful (I := I) (n := n) (insert := OMap.insert c I sz)
      (fun m s => ∃ b, Stored I n b m s)
      (fun m s k v ⟨b, h⟩ => ⟨_, OMap.insert_eq L hsz h k v, true, .inl ⟨rfl, rfl⟩⟩)
      (fun m s ⟨b, h⟩ => by
        rcases h with ⟨rfl, rfl⟩ | ⟨rfl, rfl, rfl⟩
        · exact held_store m
        · simp [held, pairs_none])
      (OMap.extendLoop c I sz) (fun _ => rfl) (fun _ _ _ _ => rfl)
      items e (fun _ => none) (OMap.new V) [] [] ⟨false, .inr ⟨rfl, rfl, rfl⟩⟩
    obtain ⟨s, h0, h1⟩ := key .exhausted
    obtain ⟨_, -, h2⟩ := key .panics
    simp only [replacedFrom_none, e1, List.nil_append] at h1 h2
    exact ⟨⟨s, h0, h1⟩, h2⟩
  · have key := fun e => fromIterLoopO_lawful (I := I) (n := n) (insert := OrdinalArrayMap.insert I)
      (fun m s => s = store I n m)
      (fun m s k v h => ⟨_, by rw [h]; exact OrdinalArrayMap.insert_eq L m k v, rfl⟩)
      (fun m s h => by rw [h]; exact held_store m)
      (OrdinalArrayMap.extendLoop I) (fun _ => rfl) (fun _ _ _ _ => rfl)
      items e (fun _ => none) _ [] [] rfl
    obtain ⟨s, h0, h1⟩ := key .exhausted
    obtain ⟨_, -, h2⟩ := key .panics
    simp only [replacedFrom_none, e1, List.nil_append] at h1 h2
    simp only [FromIterExact, OrdinalArrayMap.fromIter, OrdinalArrayMap.fromIterO, OrdinalArrayMap.new_eq L, ok_bind]
    exact ⟨⟨s, h0, h1⟩, h2⟩

example := C76_lawful (ordering_lawful debug64).1 [(.gt, 1), (.lt, 2), (.gt, 3)]

/-! ## Examples -/

/-- Three pairs, two with the same key; then the iterator panics. -/
example :
    OMap.fromIterO debug64 orderingImpl 16 [(.gt, 1), (.lt, 2), (.gt, 3)] .panics =
      .ok ([1, 2, 3], ⟨none, [1, 2, 3]⟩) ∧
    OMap.fromIterO debug64 orderingImpl 16 [(.gt, 1), (.lt, 2), (.gt, 3)] .exhausted =
      .ok ([1, 2, 3], ⟨some [some 2, none, some 3], [1]⟩) ∧
    replaced [(Ordering.gt, 1), (.lt, 2), (.gt, 3)] = [1] := ⟨rfl, rfl, by decide⟩

/-- An impl whose `ordinal` is out of range: `insert` panics on the second pair; the pair after it is
not taken. -/
example :
    let I : OrdinalImpl Nat := ⟨.ok 2, fun x => .ok x, fun i => .ok (some i)⟩
    OMap.fromIterO debug64 I 16 [(1, 10), (5, 11), (0, 12)] .exhausted = .ok ([10, 11], ⟨none, [11, 10]⟩) := rfl

end OrdinalMap.Props
