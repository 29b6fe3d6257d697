import Verif.Lemmas.Unwind
import Verif.Lemmas.Leaf
/-!
# C75: destructors that panic

Dropping a value is a call of user code, which may panic.  The map stays usable: nothing is dropped
twice and nothing that was not reached is lost.
-/

namespace OrdinalMap.Props
open OrdinalMap

variable {K V ρ : Type} {c : Cfg} {I : OrdinalImpl K} {n : Nat} [DecidableEq K]

/-- What dropping a drain that has `rest` to visit must do: destructors run on the items in order until
one panics (`dropSpec`); the items not reached stay in the map, which then behaves accordingly under
every further history. -/
def DropGood (c : Cfg) (I : OrdinalImpl K) (get : List (Option V) → K → R (Option V))
    (runs : List (Option V) → (K → Option V) → Prop) (dtor : K × V → ρ → Bool × ρ) (r : ρ)
    (rest : List (K × V)) (d : Drain V) : Prop :=
  match dropSpec dtor rest r with
  | (returned, dropped, left, r') =>
    ∃ mem, Drain.dropD c I dtor d r = .ok (returned, dropped, mem, r') ∧
      (∀ k v, get mem k = .ok (some v) ↔ (k, v) ∈ left) ∧
      (∀ k, get mem k = .ok none ↔ ∀ v, (k, v) ∉ left) ∧
      runs mem (fun k => (left.find? fun p => p.1 = k).map (·.2))

theorem dropSpec_append {α : Type} (dtor : α → ρ → Bool × ρ) (l : List α) (r : ρ) :
    (dropSpec dtor l r).2.1 ++ (dropSpec dtor l r).2.2.1 = l := by
  induction l generalizing r with
  | nil => rfl
  | cons p l ih =>
    rcases h : dtor p r with ⟨_ | _, r'⟩
    · simpa [dropSpec, h] using ih r'
    · simp [dropSpec, h]

theorem leftOver_mem {l : List (K × V)} (h : (l.map (·.1)).Nodup) (k : K) (v : V) :
    leftOver l k = some v ↔ (k, v) ∈ l := by
  induction l with
  | nil => simp [leftOver]
  | cons p l ih =>
    obtain ⟨a, w⟩ := p
    simp only [List.map_cons, List.nodup_cons] at h
    have ih := ih h.2
    simp only [leftOver, List.find?_cons] at ih ⊢
    by_cases e : a = k
    · subst e
      simp only [decide_true, Option.map_some, Option.some.injEq, List.mem_cons, Prod.mk.injEq, true_and]
      constructor
      · rintro rfl; exact .inl rfl
      · rintro (rfl | h')
        · rfl
        · exact absurd (List.mem_map.2 ⟨_, h', rfl⟩) h.1
    · simp only [e, decide_false, List.mem_cons, Prod.mk.injEq, Ne.symm e, false_and, false_or]
      exact ih

theorem dropGood_of (L : Lawful c I n) {b : Bool} {get : List (Option V) → K → R (Option V)}
    {runs : List (Option V) → (K → Option V) → Prop} (dtor : K × V → ρ → Bool × ρ) (r : ρ)
    (hget : ∀ (m : K → Option V) s, Stored I n b m s → ∀ k, get s k = .ok (m k))
    (hruns : ∀ (m : K → Option V) s, Stored I n b m s → runs s m)
    {m : K → Option V} {l : List (K × V)} {d : Drain V} (h : DView I n b m l d)
    (hn : (l.map (·.1)).Nodup) : DropGood c I get runs dtor r l d := by
  obtain ⟨mem, h1, h2⟩ := Drain.dropD_dview L dtor r h
  have ha := dropSpec_append dtor l r
  rcases hs : dropSpec dtor l r with ⟨rt, dr, lf, r'⟩
  rw [hs] at h1 h2 ha
  have hn' : (lf.map (·.1)).Nodup := by
    rw [← ha, List.map_append] at hn
    exact (List.nodup_append.1 hn).2.1
  unfold DropGood
  rw [hs]
  refine ⟨mem, h1, fun k v => ?_, fun k => ?_, hruns _ _ h2⟩
  · rw [hget _ _ h2 k, Except.ok.injEq, leftOver_mem hn']
  · rw [hget _ _ h2 k, Except.ok.injEq, Option.eq_none_iff_forall_ne_some]
    exact forall_congr' fun v => by rw [ne_eq, leftOver_mem hn']

omit [DecidableEq K] in
theorem pairs_keys_nodup (L : Lawful c I n) (m : K → Option V) : ((pairs I n m).map (·.1)).Nodup := by
  have : (pairs I n m).map (·.1) = (values I n).filter fun k => (m k).isSome := by
    rw [pairs]
    induction values I n with
    | nil => rfl
    | cons k ks ih => cases h : m k <;> simp [h, ih]
  rw [this]
  exact (values_nodup L).filter _

theorem drop_behaves (L : Lawful c I n) {b : Bool} {get : List (Option V) → K → R (Option V)}
    {runs : List (Option V) → (K → Option V) → Prop} {m : K → Option V} {s : List (Option V)}
    (h : Stored I n b m s) (dtor : K × V → ρ → Bool × ρ) (r : ρ)
    (hget : ∀ (m : K → Option V) s, Stored I n b m s → ∀ k, get s k = .ok (m k))
    (hruns : ∀ (m : K → Option V) s, Stored I n b m s → runs s m) :
    BehavesLike (Drain.it c I) (Drain.new s) (pairs I n m) (DropGood c I get runs dtor r) := by
  refine (behavesLike_of (fun l d => DView I n b m l d ∧ (l.map (·.1)).Nodup) ?_ ?_
    ⟨DView.start L h, pairs_keys_nodup L m⟩).mono fun l d h => dropGood_of L dtor r hget hruns h.1 h.2
  · rintro s l ⟨h1, h2⟩
    obtain ⟨s', e1, e2⟩ := Drain.next_dview L m s l h1
    exact ⟨s', e1, e2, h2.sublist ((List.tail_sublist l).map _)⟩
  · rintro s l ⟨h1, h2⟩
    obtain ⟨s', e1, e2⟩ := Drain.nextBack_dview L m s l h1
    exact ⟨s', e1, e2, h2.sublist ((List.dropLast_sublist l).map _)⟩

/-- C75, `clear()` and dropping a `Drain`: for every reachable map, after any `next`/`next_back` calls
on the drain (none for `clear`), for every destructor that may panic at any item. -/
theorem C75_drain (L : Lawful c I n) (dtor : K × V → ρ → Bool × ρ) (r : ρ) :
    (∀ sz, n * sz ≤ 2 ^ (c.bits - 1) - 1 →
      RunsLike (OMap.step c I sz) (MapSpec.step I n) (OMap.new V) (fun _ => none) (fun m s =>
        BehavesLike (Drain.it c I) (OMap.drain s) (pairs I n m)
          (DropGood c I (OMap.get I)
            (fun s m => RunsLike (OMap.step c I sz) (MapSpec.step I n) s m) dtor r))) ∧
    ∃ s, OrdinalArrayMap.new V I n = .ok s ∧
      RunsLike (OrdinalArrayMap.step c I) (MapSpec.step I n) s (fun _ => none) (fun m s =>
        BehavesLike (Drain.it c I) (OrdinalArrayMap.drain s) (pairs I n m)
          (DropGood c I (OrdinalArrayMap.get I)
            (fun s m => RunsLike (OrdinalArrayMap.step c I) (MapSpec.step I n) s m) dtor r)) := by
  constructor
  · intro sz hsz ops
    obtain ⟨s', h1, h2⟩ := OMap.runs_new L hsz ops
    refine ⟨s', h1, drop_behaves L h2 dtor r (fun m s h => OMap.get_eq L h) fun m s h ops => ?_⟩
    obtain ⟨s', h1, -⟩ := OMap.runs L hsz h ops
    exact ⟨s', h1, trivial⟩
  · refine ⟨_, OrdinalArrayMap.new_eq L, (OrdinalArrayMap.runs L _).mono ?_⟩
    rintro m s rfl
    refine drop_behaves L (b := true) (.inl ⟨rfl, rfl⟩) dtor r (fun m s h => ?_) fun m s h => ?_
    · obtain rfl : s = store I n m := by simpa [Stored] using h
      exact OrdinalArrayMap.get_eq L m
    · obtain rfl : s = store I n m := by simpa [Stored] using h
      exact (OrdinalArrayMap.runs L m).mono fun _ _ _ => trivial

example := C75_drain (ordering_lawful debug64).1 (fun p (r : Nat) => (p.2 == r, r + 1)) 0

/-- What `dropSpec` says: the items whose destructor ran and the items left are together all items, each
once and in order; for a destructor without memory the run ends with the first item that panics. -/
theorem C75_drop_spec_meaning {α : Type} (dtor : α → ρ → Bool × ρ) (bad : α → Bool) (l : List α) (r : ρ) :
    (dropSpec dtor l r).2.1 ++ (dropSpec dtor l r).2.2.1 = l ∧
    dropSpec (fun p (log : List α) => (bad p, log ++ [p])) l [] =
      match l.findIdx? bad with
      | none => (true, l, [], l)
      | some j => (false, l.take (j + 1), l.drop (j + 1), l.take (j + 1)) := by
  refine ⟨dropSpec_append dtor l r, ?_⟩
  have key : ∀ log : List α, dropSpec (fun p (log : List α) => (bad p, log ++ [p])) l log =
      match l.findIdx? bad with
      | none => (true, l, [], log ++ l)
      | some j => (false, l.take (j + 1), l.drop (j + 1), log ++ l.take (j + 1)) := by
    induction l with
    | nil => intro log; simp [dropSpec]
    | cons p l ih =>
      intro log
      simp only [dropSpec, List.findIdx?_cons]
      cases h : bad p with
      | true => simp
      | false =>
        simp only [ih, Bool.false_eq_true, if_false]
        cases l.findIdx? bad <;> simp
  simpa using key []

example := C75_drop_spec_meaning (fun v (r : Nat) => (v == 6, r + v)) (· == 6) [5, 6, 7] 0

omit [DecidableEq K] in
/-- A destructor that does not panic: `dropD` is `drop`. -/
theorem C75_drop_agrees (c : Cfg) (I : OrdinalImpl K) (d : Drain V) :
    (Drain.dropD c I (fun _ (r : Unit) => (false, r)) d ()).map (fun x => (x.1, x.2.2.1)) =
      (Drain.drop c I d).map fun mem => (true, mem) := by
  have key : ∀ fuel (d : Drain V),
      (Drain.dropLoopD c I (fun _ (r : Unit) => (false, r)) fuel d ()).map (fun x => (x.1, x.2.2.1)) =
      (Drain.dropLoop c I fuel d).map fun mem => (true, mem) := by
    intro fuel
    induction fuel with
    | zero => intros; rfl
    | succ fuel ih =>
      intro d
      unfold Drain.dropLoopD Drain.dropLoop
      cases Drain.next c I d with
      | error e => rfl
      | ok p =>
        obtain ⟨_ | q, d'⟩ := p
        · rfl
        · simp only [ok_bind, Bool.false_eq_true, if_false]
          rw [← ih d']
          cases Drain.dropLoopD c I (fun _ (r : Unit) => (false, r)) fuel d' () <;> rfl
  exact key ..

/-! ## `retain` -/

/-- C75, `retain`: for every reachable `OrdinalArrayMap`, every stateful closure and every destructor,
both of which may panic at any call: the map is then as `retainDSpec` says, under every further
history. -/
theorem C75_retain (L : Lawful c I n) (f : K → V → ρ → Option Bool × V × ρ) (dtor : V → ρ → Bool × ρ) (r : ρ) :
    ∃ s, OrdinalArrayMap.new V I n = .ok s ∧
      RunsLike (OrdinalArrayMap.step c I) (MapSpec.step I n) s (fun _ => none) (fun m s =>
        ∃ s', OrdinalArrayMap.retainD c I s f dtor r =
            .ok ((retainDSpec f dtor (values I n) m r).1, s', (retainDSpec f dtor (values I n) m r).2.2) ∧
          (∀ k, OrdinalArrayMap.get I s' k = .ok ((retainDSpec f dtor (values I n) m r).2.1 k)) ∧
          RunsLike (OrdinalArrayMap.step c I) (MapSpec.step I n) s' (retainDSpec f dtor (values I n) m r).2.1) := by
  refine ⟨_, OrdinalArrayMap.new_eq L, (OrdinalArrayMap.runs L _).mono ?_⟩
  rintro m s rfl
  exact ⟨_, OrdinalArrayMap.retainD_eq L m f dtor r, OrdinalArrayMap.get_eq L _,
    (OrdinalArrayMap.runs L _).mono fun _ _ _ => trivial⟩

example := C75_retain (ordering_lawful debug64).1 (fun _ v (r : Nat) => (some false, v, r))
  (fun v r => (v == r, r + 1)) 0

/-- What `retainDSpec` says when the destructor panics on the value of key `p` and neither closure nor
destructor panics before: `p` is gone, keys before it are decided, keys after it are untouched, and
destructors ran exactly on the rejected values up to `p`. -/
theorem C75_retain_spec_meaning (L : Lawful c I n) (m : K → Option V) (keep : K → V → Bool) (g : K → V → V)
    (bad : V → Bool) (pre post : List K) (p : K) (v : V) (hsplit : values I n = pre ++ p :: post)
    (hp : m p = some v) (hrej : keep p v = false) (hbad : bad (g p v) = true)
    (hpre : ∀ k ∈ pre, ∀ w, m k = some w → keep k w = false → bad (g k w) = false) :
    ∃ m', retainDSpec (fun k w (log : List V) => (some (keep k w), g k w, log))
        (fun w log => (bad w, log ++ [w])) (values I n) m [] =
        (false, m', (pre.filterMap fun k => (m k).bind fun w => if keep k w then none else some (g k w)) ++ [g p v]) ∧
      (∀ k ∈ pre, m' k = (m k).bind fun w => if keep k w then some (g k w) else none) ∧
      m' p = none ∧ ∀ k ∈ post, m' k = m k := by
  have key : ∀ (ks : List K) (m0 : K → Option V) (log : List V), ks.Nodup → p ∉ ks →
      (∀ k ∈ ks, m0 k = m k) →
      (∀ k ∈ ks, ∀ w, m k = some w → keep k w = false → bad (g k w) = false) → m0 p = some v →
      ∃ m', retainDSpec (fun k w (log : List V) => (some (keep k w), g k w, log))
          (fun w log => (bad w, log ++ [w])) (ks ++ p :: post) m0 log =
          (false, m', log ++ (ks.filterMap fun k => (m k).bind fun w => if keep k w then none else some (g k w)) ++
            [g p v]) ∧
        ∀ k, m' k = if k = p then none else if k ∈ ks then
          (m k).bind fun w => if keep k w then some (g k w) else none else m0 k := by
    intro ks
    induction ks with
    | nil =>
      intro m0 log _ _ _ _ hp0
      refine ⟨upd m0 p none, by simp [retainDSpec, hp0, hrej, hbad], fun k => ?_⟩
      simp [upd]
    | cons a ks ih =>
      intro m0 log hn hpn hm hk hp0
      obtain ⟨hna, hn⟩ := List.nodup_cons.1 hn
      have ha := hm a (by simp)
      have hpa : p ≠ a := fun e => hpn (by simp [e])
      have hpn' : p ∉ ks := fun h => hpn (by simp [h])
      cases h : m a with
      | none =>
        obtain ⟨m', h1, h2⟩ := ih m0 log hn hpn' (fun k hk => hm k (by simp [hk]))
          (fun k h' => hk k (by simp [h'])) hp0
        refine ⟨m', by simp [retainDSpec, ha, h, h1], fun k => ?_⟩
        rw [h2 k]
        by_cases e : k = a
        · subst e; simp [Ne.symm hpa, hna, ha, h]
        · simp [e]
      | some w =>
        have step : ∀ o log', ∃ m', retainDSpec (fun k w (log : List V) => (some (keep k w), g k w, log))
            (fun w log => (bad w, log ++ [w])) (ks ++ p :: post) (upd m0 a o) log' =
            (false, m', log' ++ (ks.filterMap fun k => (m k).bind fun w => if keep k w then none else some (g k w)) ++
              [g p v]) ∧
          ∀ k, m' k = if k = p then none else if k ∈ ks then
            (m k).bind fun w => if keep k w then some (g k w) else none else upd m0 a o k := by
          intro o log'
          exact ih (upd m0 a o) log' hn hpn'
            (fun k hk => by
              have : k ≠ a := fun e => hna (e ▸ hk)
              simp only [upd, if_neg this]; exact hm k (by simp [hk]))
            (fun k h' => hk k (by simp [h'])) (by simp [upd, hpa, hp0])
        cases hb : keep a w with
        | true =>
          obtain ⟨m', h1, h2⟩ := step (some (g a w)) log
          refine ⟨m', by simp [retainDSpec, ha, h, hb, h1], fun k => ?_⟩
          rw [h2 k]
          by_cases e : k = a
          · subst e; simp [Ne.symm hpa, hna, upd, h, hb]
          · simp [e, upd]
        | false =>
          have hbd := hk a (by simp) w h hb
          obtain ⟨m', h1, h2⟩ := step none (log ++ [g a w])
          refine ⟨m', by simp [retainDSpec, ha, h, hb, hbd, h1], fun k => ?_⟩
          rw [h2 k]
          by_cases e : k = a
          · subst e; simp [Ne.symm hpa, hna, upd, h, hb]
          · simp [e, upd]
  have hn := values_nodup L
  rw [hsplit] at hn ⊢
  obtain ⟨hn1, hn2, hn3⟩ := List.nodup_append.1 hn
  obtain ⟨hpp, _⟩ := List.nodup_cons.1 hn2
  have hpnot : p ∉ pre := fun h => hn3 p h p (by simp) rfl
  obtain ⟨m', h1, h2⟩ := key pre m [] hn1 hpnot (fun _ _ => rfl) hpre hp
  refine ⟨m', by simpa using h1, fun k hk => ?_, ?_, fun k hk => ?_⟩
  · rw [h2 k, if_neg (fun e : k = p => hpnot (e ▸ hk)), if_pos hk]
  · rw [h2 p, if_pos rfl]
  · rw [h2 k, if_neg (fun e : k = p => hpp (e ▸ hk)), if_neg (fun h => hn3 k h k (by simp [hk]) rfl)]

example := C75_retain_spec_meaning (ordering_lawful debug64).1 (fun k => some (if k = .eq then 6 else 5))
  (fun _ _ => false) (fun _ v => v)
  (fun v => v == 6) [.lt] [.gt] .eq 6 (by decide) rfl rfl rfl (by decide)

omit [DecidableEq K] in
/-- A destructor that does not panic: `retainD` is the `retainU` of C57. -/
theorem C75_retain_agrees (c : Cfg) (I : OrdinalImpl K) (s : OrdinalArrayMap V)
    (f : K → V → ρ → Option Bool × V × ρ) (r : ρ) :
    OrdinalArrayMap.retainD c I s f (fun _ r => (false, r)) r = OrdinalArrayMap.retainU c I s f r := by
  have key : ∀ fuel (s : MapIterMut V) r,
      OrdinalArrayMap.retainLoopD c I f (fun _ r => (false, r)) fuel s r =
        OrdinalArrayMap.retainLoopU c I f fuel s r := by
    intro fuel
    induction fuel with
    | zero => intros; rfl
    | succ fuel ih =>
      intro s r
      unfold OrdinalArrayMap.retainLoopU OrdinalArrayMap.retainLoopD
      cases TotalIterMut.next c I s with
      | error e => rfl
      | ok p =>
        obtain ⟨_ | ⟨k, i⟩, s'⟩ := p
        · rfl
        · simp only [ok_bind]
          cases readSlot s'.mem i with
          | error e => rfl
          | ok o =>
            cases o with
            | none => exact ih _ _
            | some v =>
              simp only [ok_bind]
              rcases hq : f k v r with ⟨_ | b, v', r'⟩
              · rfl
              · simp only
                cases writeSome s'.mem i v' with
                | error e => rfl
                | ok m =>
                  simp only [ok_bind]
                  cases b with
                  | true => exact ih _ _
                  | false =>
                    simp only [Bool.false_eq_true, if_false]
                    cases writeSlot m i none with
                    | error e => rfl
                    | ok m => exact ih _ _
  exact key ..

/-! ## Examples -/

/-- `clear()` of `{Less: 5, Equal: 6, Greater: 7}` where dropping `6` panics: `Greater` stays. -/
example :
    Drain.dropD debug64 orderingImpl (fun (p : Ordering × Nat) (_ : Unit) => (p.2 == 6, ()))
      (OMap.drain [some 5, some 6, some 7]) () =
      .ok (false, [(.lt, 5), (.eq, 6)], [none, none, some 7], ()) := by rfl

/-- `retain` that rejects everything, where dropping `6` panics. -/
example :
    values orderingImpl 3 = [Ordering.lt] ++ .eq :: [.gt] ∧
    OrdinalArrayMap.retainD debug64 orderingImpl [some 5, some 6, some 7]
      (fun _ v (log : List Nat) => (some false, v, log)) (fun v log => (v == 6, log ++ [v])) [] =
      .ok (false, [none, none, some 7], [5, 6]) := ⟨by decide, rfl⟩

end OrdinalMap.Props
