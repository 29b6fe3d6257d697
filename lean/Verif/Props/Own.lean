import Verif.Lemmas.Own
import Verif.Lemmas.Leaf
import Verif.Lemmas.SoundMap
/-!
# C56–C57: ownership and unwinding

The statements are about the loops of Model/Own.lean, which say what is dropped when; each theorem
also says that these loops return what the model of the function returns (`Outcome.result`).
-/

namespace OrdinalMap.Props
open OrdinalMap

variable {K V W E ρ : Type} {c : Cfg} {I : OrdinalImpl K} {n : Nat}

/-- The wrong impl `bogusImpl` panics at worst, so it counts as a user's impl. -/
theorem bogus_user : UserImpl bogusImpl := by
  refine ⟨⟨5, rfl⟩, fun i => ?_⟩
  unfold Returns bogusImpl
  dsimp only
  split
  · exact .inr ⟨_, rfl⟩
  · split
    · exact .inr ⟨_, rfl⟩
    · exact .inl rfl

/-- C56, `OrdinalTotalMap::try_new`: for *any* impl and any initialiser, which may return, fail or
panic at any call: every value the initialiser returned is handed to the caller or dropped, exactly
once.  For a lawful key type the values are those of the calls up to the first failure. -/
theorem C56_try_new (c : Cfg) (hI : UserImpl I) (sz : Nat) (init : K → ρ → R (Except E V × ρ))
    (hf : ∀ k r, Returns (init k r)) (r : ρ) :
    ∃ made o, OrdinalTotalMap.tryNewO c I sz init r = .ok (made, o) ∧
      OrdinalTotalMap.tryNew c I sz init r = o.result ∧
      (o.handed ++ o.dropped).Perm made ∧
      (∀ n, Lawful c I n → n * sz ≤ 2 ^ (c.bits - 1) - 1 → made = initLog init (values I n) r) := by
  obtain ⟨s, hs⟩ := hI.size
  by_cases h : s * sz ≤ 2 ^ (c.bits - 1) - 1
  · obtain ⟨log, o, h1, h2⟩ := OrdinalTotalMap.tryNewLoopO_spec hI hf (OrdinalValues.len ⟨0, s⟩ + 1) ⟨0, s⟩ [] r
      (by omega)
    refine ⟨log, o, by simp [OrdinalTotalMap.tryNewO, hs, withCapacity, h, OrdinalValues.new, h1], ?_,
      by rw [h2], fun n L hn => ?_⟩
    · rw [show OrdinalTotalMap.tryNew c I sz init r =
        OrdinalTotalMap.tryNewLoop I init (OrdinalValues.len ⟨0, s⟩ + 1) ⟨0, s⟩ [] r by
          simp [OrdinalTotalMap.tryNew, hs, withCapacity, h, OrdinalValues.new],
        ← OrdinalTotalMap.tryNewLoopO_refines init _ _ [] [] r, h1]
      rfl
    · obtain ⟨it, hit, hv⟩ := OrdinalValues.new_view L
      have hit' : it = ⟨0, s⟩ := by simpa [OrdinalValues.new, hs] using hit.symm
      subst hit'
      simpa using OrdinalTotalMap.tryNewLoopO_log L init _ _ _ _ _ _ _ _ hv h1
  · refine ⟨[], ⟨none, []⟩, by simp [OrdinalTotalMap.tryNewO, hs, withCapacity, h],
      by simp [OrdinalTotalMap.tryNew, hs, withCapacity, h, Outcome.result], by simp [Outcome.handed],
      fun n L hn => ?_⟩
    have : s = n := by have := L.size; rw [hs] at this; simpa using this
    subst this; exact absurd hn h

example := C56_try_new debug64 bogus_user 8
  (fun k (i : Nat) => if k then .error .panic else .ok ((.ok i : Except String Nat), i + 1))
  (fun k r => by cases k <;> first | exact .inr ⟨_, rfl⟩ | exact .inl rfl) 7

/-- C56, `OrdinalTotalArrayMap::try_new`: the same, through `ArrayBuilder`.  The size check is the only
assumption on the impl besides returning or panicking. -/
theorem C56_try_new_array (hI : UserImpl I) {S : Nat} (hS : I.size = .ok S)
    (init : K → ρ → R (Except E V × ρ)) (hf : ∀ k r, Returns (init k r)) (r : ρ) :
    ∃ made o, OrdinalTotalArrayMap.tryNewO I S init r = .ok (made, o) ∧
      OrdinalTotalArrayMap.tryNew I S init r = o.result ∧
      (o.handed ++ o.dropped).Perm made ∧
      (∀ c, Lawful c I S → made = initLog init (values I S) r) := by
  have hA : OrdinalTotalArrayMap.assertS I S = .ok () := by
    simp [OrdinalTotalArrayMap.assertS, hS, constAssert]
  obtain ⟨log, o, h1, h2⟩ := OrdinalTotalArrayMap.tryNewLoopO_spec hI hf S (OrdinalValues.len ⟨0, S⟩ + 1) ⟨0, S⟩ []
    r (by omega) (by simp)
  rw [← ArrayBuilder.new_eq] at h1
  refine ⟨log, o, by simp [OrdinalTotalArrayMap.tryNewO, hA, hS, OrdinalValues.new, h1], ?_, h2, fun c L => ?_⟩
  · rw [show OrdinalTotalArrayMap.tryNew I S init r =
      OrdinalTotalArrayMap.tryNewLoop I init (OrdinalValues.len ⟨0, S⟩ + 1) ⟨0, S⟩ (ArrayBuilder.new V S) r by
        simp [OrdinalTotalArrayMap.tryNew, hA, hS, OrdinalValues.new],
      ArrayBuilder.new_eq, ← OrdinalTotalArrayMap.tryNewLoopO_refines init S _ _ [] [] r (by simp),
      ← ArrayBuilder.new_eq, h1]
    rfl
  · obtain ⟨it, hit, hv⟩ := OrdinalValues.new_view L
    have hit' : it = ⟨0, S⟩ := by simpa [OrdinalValues.new, hS] using hit.symm
    subst hit'
    rw [ArrayBuilder.new_eq] at h1
    simpa using OrdinalTotalArrayMap.tryNewLoopO_log L init S _ _ _ _ _ _ _ _ hv
      (by simp [values_length L]) h1

example := C56_try_new_array bogus_user (S := 5) rfl (fun _ (i : Nat) => .ok ((.ok i : Except String Nat), i + 1))
  (fun _ _ => .inr ⟨_, rfl⟩) 7

/-- C56, `map` (and `map_values`, which is `map` with another closure): for *any* impl and any closure,
which may panic at any call: every input is moved into the closure or dropped, exactly once and in
order; every output the closure returned is handed to the caller or dropped, exactly once. -/
theorem C56_map (c : Cfg) (hI : UserImpl I) (S : Nat) (s : List V) (f : K → V → ρ → R (W × ρ))
    (hf : ∀ k v r, Returns (f k v r)) (r : ρ) :
    ∃ g, OrdinalTotalArrayMap.mapO c I S s f r = .ok g ∧
      OrdinalTotalArrayMap.map c I S s f r = g.out.result ∧
      g.passed ++ g.droppedIn = s ∧
      ((g.out.returned.map (·.1)).getD [] ++ g.out.dropped).Perm g.made := by
  obtain ⟨g, h1, h2, h3⟩ := OrdinalTotalArrayMap.mapLoopO_spec (c := c) hI hf S
    (TotalIntoIterArray.len (OrdinalTotalArrayMap.intoIter s) + 1) (OrdinalTotalArrayMap.intoIter s) [] [] r
    (Nat.lt_succ_self _) (by simp)
  refine ⟨g, by rw [OrdinalTotalArrayMap.mapO, ArrayBuilder.new_eq, h1], ?_, h2, h3⟩
  rw [OrdinalTotalArrayMap.map, ArrayBuilder.new_eq,
    ← OrdinalTotalArrayMap.mapLoopO_refines f S _ _ [] [] [] r (by simp), h1]
  rfl

example := C56_map debug64 bogus_user 3 [10, 20, 30]
  (fun k v (i : Nat) => if k then .error .panic else .ok (v + i, i + 1))
  (fun k v r => by cases k <;> first | exact .inr ⟨_, rfl⟩ | exact .inl rfl) 7

/-- C56, `zip`: nothing is dropped, and the pairs contain the values of both maps, each once and at
its place. -/
theorem C56_zip (S : Nat) (s : List V) (t : List W) (hs : s.length = S) (ht : t.length = S) :
    ∃ l, arrayFromIterOutcome S (List.zip s t) .exhausted = .ok ⟨some l, []⟩ ∧
      OrdinalTotalArrayMap.zip S s t = .ok l ∧ l.map (·.1) = s ∧ l.map (·.2) = t := by
  have hl : (List.zip s t).length = S := by simp [List.length_zip, hs, ht]
  refine ⟨List.zip s t, ?_, arrayFromIter_ok hl, ?_, ?_⟩
  · rw [arrayFromIterOutcome_spec]; simp [hl]
  · exact List.map_fst_zip (by omega)
  · exact List.map_snd_zip (by omega)

example := C56_zip 2 [5, 6] ["a", "b"] rfl rfl

/-- C56 on concrete programs over `Ordering`: `try_new` of both maps failing and panicking at the third
key, `map` panicking at the second value, and `try_new` with the wrong impl `bogusImpl`. -/
example :
    (∃ f : Ordering → Unit → R (Except String Nat × Unit), (∀ k r, Returns (f k r)) ∧
      OrdinalTotalMap.tryNewO debug64 orderingImpl 8 f () =
        .ok ([1, 1], ⟨some (.error "gt", ()), [1, 1]⟩) ∧
      OrdinalTotalArrayMap.tryNewO orderingImpl 3 f () =
        .ok ([1, 1], ⟨some (.error "gt", ()), [1, 1]⟩)) ∧
    (OrdinalTotalArrayMap.tryNewO orderingImpl 3 (E := Empty)
      (fun k (i : Nat) => if k = .gt then .error .panic else .ok (.ok i, i + 1)) 7 =
        .ok ([7, 8], ⟨none, [7, 8]⟩)) ∧
    (∃ g, OrdinalTotalArrayMap.mapO debug64 orderingImpl 3 [10, 20, 30]
      (fun k v () => if k = .eq then .error .panic else .ok (v + 1, ())) () = .ok g ∧
      g.passed = [10, 20] ∧ g.droppedIn = [30] ∧ g.made = [11] ∧ g.out = ⟨none, [11]⟩) ∧
    UserImpl bogusImpl ∧ bogusImpl.size = .ok 5 ∧
    OrdinalTotalArrayMap.tryNewO bogusImpl 5 (E := Empty) (fun _ (i : Nat) => .ok (.ok i, i + 1)) 7 =
        .ok ([7, 8, 9], ⟨none, [7, 8, 9]⟩) := by
  refine ⟨⟨fun k () => .ok (if k = .gt then .error "gt" else .ok 1, ()), fun k r => .inr ⟨_, rfl⟩, rfl, rfl⟩,
    rfl, ⟨_, rfl, rfl, rfl, rfl, rfl⟩, bogus_user, rfl, rfl⟩

/-! ## C57 -/

variable [DecidableEq K]

/-- C57: `retain` on every reachable `OrdinalArrayMap`, for every stateful closure that may write
through its reference and may panic at any call: `retain` returns iff no call panicked, and the map is
then as `retainUSpec` says, also after a panic, under every further history. -/
theorem C57_retain_unwind (L : Lawful c I n) (f : K → V → ρ → Option Bool × V × ρ) (r : ρ) :
    ∃ s, OrdinalArrayMap.new V I n = .ok s ∧
      RunsLike (OrdinalArrayMap.step c I) (MapSpec.step I n) s (fun _ => none) (fun m s =>
        ∃ s', OrdinalArrayMap.retainU c I s f r =
            .ok ((retainUSpec f (values I n) m r).1, s', (retainUSpec f (values I n) m r).2.2) ∧
          (∀ k, OrdinalArrayMap.get I s' k = .ok ((retainUSpec f (values I n) m r).2.1 k)) ∧
          RunsLike (OrdinalArrayMap.step c I) (MapSpec.step I n) s' (retainUSpec f (values I n) m r).2.1) := by
  refine ⟨_, OrdinalArrayMap.new_eq L, (OrdinalArrayMap.runs L _).mono ?_⟩
  rintro m s rfl
  exact ⟨_, OrdinalArrayMap.retainU_eq L m f r, OrdinalArrayMap.get_eq L _,
    (OrdinalArrayMap.runs L _).mono fun _ _ _ => trivial⟩

example := C57_retain_unwind (ordering_lawful debug64).1
  (fun k v (r : Nat) => (if k = .eq then none else some true, v + r, r + 1)) 7

/-- What `retainUSpec` says when the closure panics on a key `p` and on no present key before it: keys
before `p` are decided, `p` keeps the value the panicking call left behind, keys after `p` are
untouched and the closure is not called on them. -/
theorem C57_spec_meaning (L : Lawful c I n) (m : K → Option V) (keep : K → V → Option Bool) (g : K → V → V)
    (pre post : List K) (p : K) (v : V) (hsplit : values I n = pre ++ p :: post) (hp : m p = some v)
    (hbad : keep p v = none) (hpre : ∀ k ∈ pre, ∀ w, m k = some w → keep k w ≠ none) :
    ∃ m', retainUSpec (fun k w (calls : List (K × V)) => (keep k w, g k w, calls ++ [(k, w)]))
        (values I n) m [] =
        (false, m', (pre.filterMap fun k => (m k).map fun w => (k, w)) ++ [(p, v)]) ∧
      (∀ k ∈ pre, m' k = (m k).bind fun w => if keep k w = some true then some (g k w) else none) ∧
      m' p = some (g p v) ∧ ∀ k ∈ post, m' k = m k := by
  have key : ∀ (ks : List K) (m0 : K → Option V) (calls : List (K × V)), ks.Nodup → p ∉ ks →
      (∀ k ∈ ks, m0 k = m k) → (∀ k ∈ ks, ∀ w, m k = some w → keep k w ≠ none) → m0 p = some v →
      ∃ m', retainUSpec (fun k w (calls : List (K × V)) => (keep k w, g k w, calls ++ [(k, w)]))
          (ks ++ p :: post) m0 calls =
          (false, m', calls ++ (ks.filterMap fun k => (m k).map fun w => (k, w)) ++ [(p, v)]) ∧
        ∀ k, m' k = if k = p then some (g p v) else if k ∈ ks then
          (m k).bind fun w => if keep k w = some true then some (g k w) else none else m0 k := by
    intro ks
    induction ks with
    | nil =>
      intro m0 calls _ _ _ _ hp0
      refine ⟨upd m0 p (some (g p v)), by simp [retainUSpec, hp0, hbad], fun k => ?_⟩
      simp [upd]
    | cons a ks ih =>
      intro m0 calls hn hpn hm hk hp0
      obtain ⟨hna, hn⟩ := List.nodup_cons.1 hn
      have ha := hm a (by simp)
      have hpa : p ≠ a := fun e => hpn (by simp [e])
      have hpn' : p ∉ ks := fun h => hpn (by simp [h])
      cases h : m a with
      | none =>
        obtain ⟨m', h1, h2⟩ := ih m0 calls hn hpn' (fun k hk => hm k (by simp [hk]))
          (fun k h' => hk k (by simp [h'])) hp0
        refine ⟨m', by simp [retainUSpec, ha, h, h1], fun k => ?_⟩
        rw [h2 k]
        by_cases e : k = a
        · subst e; simp [Ne.symm hpa, hna, ha, h]
        · simp [e]
      | some w =>
        obtain ⟨b, hb⟩ := Option.ne_none_iff_exists'.1 (hk a (by simp) w h)
        obtain ⟨m', h1, h2⟩ := ih (upd m0 a (if b then some (g a w) else none)) (calls ++ [(a, w)]) hn hpn'
          (fun k hk => by
            have : k ≠ a := fun e => hna (e ▸ hk)
            simp only [upd, if_neg this]; exact hm k (by simp [hk]))
          (fun k h' => hk k (by simp [h'])) (by simp [upd, hpa, hp0])
        refine ⟨m', by simp [retainUSpec, ha, h, hb, h1], fun k => ?_⟩
        rw [h2 k]
        by_cases e : k = a
        · subst e; simp [Ne.symm hpa, hna, upd, h, hb]
        · simp [e, upd]
  have hn := values_nodup L
  rw [hsplit] at hn ⊢
  obtain ⟨hn1, hn2, hn3⟩ := List.nodup_append.1 hn
  obtain ⟨hpp, _⟩ := List.nodup_cons.1 hn2
  have hpnot : p ∉ pre := fun h => hn3 p h p (by simp) rfl
  obtain ⟨m', h1, h2⟩ := key pre m [] hn1 hpnot (fun _ _ => rfl) hpre hp
  refine ⟨m', by simpa using h1, fun k hk => ?_, ?_, fun k hk => ?_⟩
  · rw [h2 k, if_neg (fun e : k = p => hpnot (e ▸ hk)), if_pos hk]
  · rw [h2 p, if_pos rfl]
  · rw [h2 k, if_neg (fun e : k = p => hpp (e ▸ hk)), if_neg (fun h => hn3 k h k (by simp [hk]) rfl)]

example := C57_spec_meaning (ordering_lawful debug64).1 (fun _ => some 5)
  (fun k _ => if k = .eq then none else some true) (fun _ v => 2 * v)
  [.lt] [.gt] .eq 5 (by decide) rfl rfl (by decide)

omit [DecidableEq K] in
/-- A closure that does not panic: `retainU` is `retain`. -/
theorem C57_agrees (c : Cfg) (I : OrdinalImpl K) (s : OrdinalArrayMap V) (f : K → V → ρ → Bool × V × ρ) (r : ρ) :
    (OrdinalArrayMap.retainU c I s (fun k v r => (some (f k v r).1, (f k v r).2)) r).map (·.2) =
      OrdinalArrayMap.retain c I s (fun k v r => .ok (f k v r)) r := by
  have key : ∀ fuel (s : MapIterMut V) r,
      (OrdinalArrayMap.retainLoopU c I (fun k v r => (some (f k v r).1, (f k v r).2)) fuel s r).map (·.2) =
        OrdinalArrayMap.retainLoop c I (fun k v r => .ok (f k v r)) fuel s r := by
    intro fuel
    induction fuel with
    | zero => intros; rfl
    | succ fuel ih =>
      intro s r
      unfold OrdinalArrayMap.retainLoopU OrdinalArrayMap.retainLoop
      cases TotalIterMut.next c I s with
      | error e => rfl
      | ok p =>
        obtain ⟨_ | ⟨k, i⟩, s'⟩ := p
        · rfl
        · simp only [ok_bind]
          cases readSlot s'.mem i with
          | error e => rfl
          | ok o =>
            cases o with
            | none => exact ih _ _
            | some v =>
              simp only [ok_bind]
              rcases hq : f k v r with ⟨b, v', r'⟩
              simp only
              cases writeSome s'.mem i v' with
              | error e => rfl
              | ok m =>
                simp only [ok_bind]
                cases b with
                | true => exact ih _ _
                | false =>
                  simp only [Bool.false_eq_true, if_false]
                  cases writeSlot m i none with
                  | error e => rfl
                  | ok m => exact ih _ _
  exact key ..

/-- C57 on a concrete map: the closure doubles each value and panics at `Equal`; it removes `Less`. -/
example :
    values orderingImpl 3 = [Ordering.lt] ++ .eq :: [.gt] ∧
    OrdinalArrayMap.retainU debug64 orderingImpl [some 5, some 6, some 7]
      (fun k v (calls : List Ordering) =>
        (if k = .eq then none else some (k = .gt), 2 * v, calls ++ [k])) [] =
      .ok (false, [none, some 12, some 7], [.lt, .eq]) :=
  ⟨by decide, rfl⟩

end OrdinalMap.Props
