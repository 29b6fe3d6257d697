import Verif.Lemmas.Format
import Verif.Props.Debug
import Verif.Props.Values
/-!
# C98: `Debug` on any writer, with any flags

C52 and C53 say which text is printed.  Here the writer may refuse or panic at any call, the caller may give any flags,
and the `Debug` of keys, values and items may do anything.  The specification (SpecFormat.lean) lists the calls of the
writer and of the other `Debug` impls; the equations below are equations of functions of the writer and the flags.
-/

namespace OrdinalMap.Props
open OrdinalMap OrdinalMap.Format

variable {K V τ : Type} [DecidableEq K] [DecidableEq τ] {c : Cfg} {I : OrdinalImpl K} {J : OrdinalImpl τ} {n : Nat}

/-- How `bool` prints. -/
def keyShow (b : Bool) : Show := plainShow (showBool b)

/-- A `Debug` that panics when the writer refuses. -/
def angryShow (n : Nat) : Show := fun ω w o => do
  if ← natShow n ω w o then .of (.ok true) else .of (.error .panic)

/-- C98 for the sparse maps: after any history. -/
theorem C98_maps (L : Lawful c I n) (key : K → Show) (value : V → Show) :
    (∀ sz, n * sz ≤ 2 ^ (c.bits - 1) - 1 →
      RunsLike (OMap.step c I sz) (MapSpec.step I n) (OMap.new V) (fun _ => none) (fun m s =>
        omap c I key value s = mapShow key value (pairs I n m))) ∧
    ∃ s, OrdinalArrayMap.new V I n = .ok s ∧
      RunsLike (OrdinalArrayMap.step c I) (MapSpec.step I n) s (fun _ => none) (fun m s =>
        arrayMap c I key value s = mapShow key value (pairs I n m)) := by
  constructor
  · intro sz hsz ops
    obtain ⟨s', h1, h2⟩ := OMap.runs_new L hsz ops
    exact ⟨s', h1, sparse_map L key value (h2.sview L)⟩
  · refine ⟨_, OrdinalArrayMap.new_eq L, (OrdinalArrayMap.runs L _).mono ?_⟩
    rintro m s rfl
    have h : Stored I n true m (store I n m) := .inl ⟨rfl, rfl⟩
    exact sparse_map L key value (h.sview L)

example := C98_maps (bool_lawful debug64).1 keyShow angryShow

/-- C98 for the total maps: after any history from any contents. -/
theorem C98_total_maps (L : Lawful c I n) (key : K → Show) (value : V → Show) (vs : List V) (hvs : vs.length = n) :
    ∃ m0 : K → V,
      (∀ k, OrdinalTotalMap.get I vs k = .ok (m0 k)) ∧
      RunsLike (OrdinalTotalMap.step c I) (TotalSpec.step I n) vs m0 (fun m s =>
        totalMap c I key value s = mapShow key value (pairsT I n m)) ∧
      RunsLike (OrdinalTotalArrayMap.step c I n) (TotalSpec.step I n) vs m0 (fun m s =>
        totalArrayMap c I key value s = mapShow key value (pairsT I n m)) := by
  obtain ⟨m0, rfl⟩ := exists_store L vs hvs
  refine ⟨m0, OrdinalTotalMap_get L m0, (totalMap_runs L m0).mono ?_, (totalArrayMap_runs L m0).mono ?_⟩
  · rintro m s rfl
    exact total_map L key value (fresh_view L m)
  · rintro m s rfl
    exact total_map L key value (fresh_view L m)

example := C98_total_maps (bool_lawful debug64).1 keyShow angryShow [5, 6] rfl

/-- C98 for the sets: after any history from any items.  Not for `OrdinalSet` and `OrdinalSet64` of an uninhabited type in
builds with debug assertions; see `C98_sets_panic`. -/
theorem C98_sets (L : Lawful c J n) (item : τ → Show) (xs : List τ) :
    (n + 64 < c.M → (0 < n ∨ c.debugAssertions = false) → ∃ s, OrdinalSet.fromIter c J xs = .ok s ∧
      SetBehavesLike (OrdinalSet.api c J) s (fun x => decide (x ∈ xs)) (fun m s =>
        oset c J item s = setShow item (elements J n m))) ∧
    (n ≤ 64 → (0 < n ∨ c.debugAssertions = false) → ∃ s, OrdinalSet64.fromIter c J xs = .ok s ∧
      SetBehavesLike (OrdinalSet64.api c J) s (fun x => decide (x ∈ xs)) (fun m s =>
        set64 c J item s = setShow item (elements J n m))) ∧
    ∃ S s, ordinalArraySetS J = .ok S ∧ OrdinalArraySet.fromIter c J S xs = .ok s ∧
      SetBehavesLike (OrdinalArraySet.api c J S) s (fun x => decide (x ∈ xs)) (fun m s =>
        arraySet c J S item s = setShow item (elements J n m)) := by
  refine ⟨fun hfit hp => ?_, fun h64 hp => ?_, ?_⟩
  · obtain ⟨s, h1, h2⟩ := OrdinalSet.fromIter_view L hfit xs
    refine ⟨s, h1, (OrdinalSet.behaves L hfit h2).mono fun m s h => ?_⟩
    obtain ⟨ws, h3, h4⟩ := OrdinalSet.asRef_view L h hp
    rw [oset, h3]
    exact setRef_eq L item h4
  · obtain ⟨s, h1, h2⟩ := OrdinalSet64.fromIter_view L h64 xs
    refine ⟨s, h1, (OrdinalSet64.behaves L h64 h2).mono fun m s h => ?_⟩
    have h3 : OrdinalSet64.asRef c J s = .ok [s] := by
      unfold OrdinalSet64.asRef SetRef.new
      simp only [arraySetS_eq L, ok_bind]
      rcases hp with hp | hp
      · have : divCeil n 64 = 1 := by have := divCeil_spec n; omega
        simp [this, debugAssert]
      · simp [debugAssert, hp]
    have h4 : Bits J m [s] := fun a => by
      have : ordOf J a < 64 := by have := L.ord_lt a; omega
      rw [← h.1 a]
      simp [wbit, Nat.div_eq_of_lt this, Nat.mod_eq_of_lt this]
    rw [set64, h3]
    exact setRef_eq L item h4
  · obtain ⟨s, h1, h2⟩ := OrdinalArraySet.fromIter_view L xs
    refine ⟨_, s, arraySetS_eq L, h1, (OrdinalArraySet.behaves L h2).mono fun m s h => ?_⟩
    obtain ⟨ws, h3, h4⟩ := OrdinalArraySet.asRef_view L h
    rw [arraySet, h3]
    exact setRef_eq L item h4

example := C98_sets (bool_lawful debug64).1 keyShow [true]
example : 2 + 64 < debug64.M ∧ (0 < 2 ∨ debug64.debugAssertions = false) := ⟨by decide, .inl (by decide)⟩

omit [DecidableEq τ] in
/-- C98, the exception: with debug assertions, printing an `OrdinalSet` or `OrdinalSet64` of an uninhabited type panics
before anything is written. -/
theorem C98_sets_panic (L : Lawful c J 0) (hd : c.debugAssertions = true) (item : τ → Show) :
    (∃ s, OrdinalSet.new J = .ok s ∧ oset c J item s = fun _ _ _ => .of (.error .panic)) ∧
    ∃ s, OrdinalSet64.new J = .ok s ∧ set64 c J item s = fun _ _ _ => .of (.error .panic) := by
  refine ⟨⟨.small 0, by simp [OrdinalSet.new, OrdinalSet.isSmall, L.size], ?_⟩,
    ⟨0, by simp [OrdinalSet64.new, OrdinalSet64.assert64_ok L (Nat.zero_le _)], ?_⟩⟩
  · have : OrdinalSet.asRef c J (.small 0) = .error .panic := by
      simp [OrdinalSet.asRef, OrdinalSet.isSmall, L.size, SetRef.new, arraySetS_eq L, debugAssert, hd, divCeil]
    rw [oset, this]
    rfl
  · have : OrdinalSet64.asRef c J 0 = .error .panic := by
      simp [OrdinalSet64.asRef, SetRef.new, arraySetS_eq L, debugAssert, hd, divCeil]
    rw [set64, this]
    rfl

example := C98_sets_panic (infallible_lawful debug64).1 rfl (fun _ => plainShow "")

/-- C98 for the iterators of the sparse maps, after any history on the map and any sequence of `next`/`next_back` on the
iterator. -/
theorem C98_map_iters (L : Lawful c I n) (key : K → Show) (value : V → Show) :
    (∀ sz, n * sz ≤ 2 ^ (c.bits - 1) - 1 →
      RunsLike (OMap.step c I sz) (MapSpec.step I n) (OMap.new V) (fun _ => none) (fun m s =>
        BehavesLike (MapIter.it c I) (OMap.iter s) (pairs I n m) (fun rest it =>
          mapIter c I key value it = listShow (pairShow key value) rest) ∧
        BehavesLike (Values.it c I) (OMap.values s) ((pairs I n m).map (·.2)) (fun rest it =>
          Format.values c I value it = listShow value rest) ∧
        BehavesLike (MapIntoIter.it c I) (OMap.intoIter s) (pairs I n m) (fun rest it =>
          mapIntoIter c I key value it = listShow (pairShow key value) rest))) ∧
    (∀ sz, n * sz ≤ 2 ^ (c.bits - 1) - 1 →
      RunsLike (OMap.step c I sz) (MapSpec.step I n) (OMap.new Unit) (fun _ => none) (fun m s =>
        BehavesLike (Keys.it c I) (OMap.keys s) ((pairs I n m).map (·.1)) (fun rest it =>
          keys c I key it = listShow key rest))) ∧
    (∃ s, OrdinalArrayMap.new V I n = .ok s ∧
      RunsLike (OrdinalArrayMap.step c I) (MapSpec.step I n) s (fun _ => none) (fun m s =>
        BehavesLike (MapIter.it c I) (OrdinalArrayMap.iter s) (pairs I n m) (fun rest it =>
          mapIter c I key value it = listShow (pairShow key value) rest) ∧
        BehavesLike (Values.it c I) (OrdinalArrayMap.values s) ((pairs I n m).map (·.2)) (fun rest it =>
          Format.values c I value it = listShow value rest) ∧
        BehavesLike (MapIntoIterArray.it c I) (OrdinalArrayMap.intoIter s) (pairs I n m) (fun rest it =>
          mapIntoIterArray c I key value it = listShow (pairShow key value) rest))) ∧
    ∃ s, OrdinalArrayMap.new Unit I n = .ok s ∧
      RunsLike (OrdinalArrayMap.step c I) (MapSpec.step I n) s (fun _ => none) (fun m s =>
        BehavesLike (Keys.it c I) (OrdinalArrayMap.keys s) ((pairs I n m).map (·.1)) (fun rest it =>
          keys c I key it = listShow key rest)) := by
  have hk : ∀ (b : Bool) (m : K → Option Unit) (s : List (Option Unit)), Stored I n b m s →
      BehavesLike (Keys.it c I) (TotalIter.new s 0) ((pairs I n m).map (·.1)) (fun rest it =>
          keys c I key it = listShow key rest) := by
    intro b m s h
    exact (Keys.behaves L ⟨_, h.sview L, rfl⟩).mono fun rest it h => keys_list L key h
  have hv : ∀ (b : Bool) (m : K → Option V) (s : List (Option V)), Stored I n b m s →
      BehavesLike (MapIter.it c I) (TotalIter.new s 0) (pairs I n m) (fun rest it =>
          mapIter c I key value it = listShow (pairShow key value) rest) ∧
        BehavesLike (Values.it c I) (TotalIter.new s 0) ((pairs I n m).map (·.2)) (fun rest it =>
          Format.values c I value it = listShow value rest) := by
    intro b m s h
    exact ⟨(MapIter.behaves L (h.sview L)).mono fun _ _ h => sparse_list L key value h,
      (Values.behaves L ⟨_, h.sview L, rfl⟩).mono fun _ _ h => values_list L value h⟩
  refine ⟨fun sz hsz ops => ?_, fun sz hsz ops => ?_, ⟨_, OrdinalArrayMap.new_eq L, (OrdinalArrayMap.runs L _).mono ?_⟩,
    ⟨_, OrdinalArrayMap.new_eq L, (OrdinalArrayMap.runs L _).mono ?_⟩⟩
  · obtain ⟨s', h1, h2⟩ := OMap.runs_new L hsz ops
    exact ⟨s', h1, (hv _ _ _ h2).1, (hv _ _ _ h2).2,
      (MapIntoIter.behaves L (h2.sview L)).mono fun _ _ h => sparse_list L key value h⟩
  · obtain ⟨s', h1, h2⟩ := OMap.runs_new L hsz ops
    exact ⟨s', h1, hk _ _ _ h2⟩
  · rintro m s rfl
    have h : Stored I n true m (store I n m) := .inl ⟨rfl, rfl⟩
    exact ⟨(hv _ _ _ h).1, (hv _ _ _ h).2,
      (MapIntoIterArray.behaves L (h.sview L)).mono fun _ _ h => sparse_list L key value h⟩
  · rintro m s rfl
    exact hk true _ _ (.inl ⟨rfl, rfl⟩)

example := C98_map_iters (bool_lawful debug64).1 keyShow angryShow

/-- C98 for `iter_mut()` and `values_mut()` of a sparse map, after any interleaving of `next`, `next_back` and writes
through references handed out. -/
theorem C98_iter_mut (L : Lawful c I n) (key : K → Show) (value : V → Show) :
    (∀ sz, n * sz ≤ 2 ^ (c.bits - 1) - 1 →
      RunsLike (OMap.step c I sz) (MapSpec.step I n) (OMap.new V) (fun _ => none) (fun m s =>
        RunsLike (MutClient.step c I) MutSpec.step ⟨OMap.iterMut s, []⟩ ⟨presentKeys I n m, [], m⟩ (fun sp cl =>
          mapIterMut c I key value cl.it = listShow (pairShow key value) (restPairs sp) ∧
          valuesMut c I value cl.it = listShow value ((restPairs sp).map (·.2))))) ∧
    ∃ s, OrdinalArrayMap.new V I n = .ok s ∧
      RunsLike (OrdinalArrayMap.step c I) (MapSpec.step I n) s (fun _ => none) (fun m s =>
        RunsLike (MutClient.step c I) MutSpec.step ⟨OrdinalArrayMap.iterMut s, []⟩ ⟨presentKeys I n m, [], m⟩ (fun sp cl =>
          mapIterMut c I key value cl.it = listShow (pairShow key value) (restPairs sp) ∧
          valuesMut c I value cl.it = listShow value ((restPairs sp).map (·.2)))) := by
  have hm : ∀ (b : Bool) (m : K → Option V) (s : List (Option V)), Stored I n b m s →
      RunsLike (MutClient.step c I) MutSpec.step ⟨TotalIterMut.new s, []⟩ ⟨presentKeys I n m, [], m⟩ (fun sp cl =>
          mapIterMut c I key value cl.it = listShow (pairShow key value) (restPairs sp) ∧
          valuesMut c I value cl.it = listShow value ((restPairs sp).map (·.2))) := by
    intro b m s h
    refine (SRel.runs L h).mono fun sp cl h => ?_
    have hs := srel_sview L h
    exact ⟨sparse_list L key value hs, values_list L value ⟨_, hs, rfl⟩⟩
  constructor
  · intro sz hsz ops
    obtain ⟨s', h1, h2⟩ := OMap.runs_new L hsz ops
    exact ⟨s', h1, hm _ _ _ h2⟩
  · refine ⟨_, OrdinalArrayMap.new_eq L, (OrdinalArrayMap.runs L _).mono ?_⟩
    rintro m s rfl
    exact hm true _ _ (.inl ⟨rfl, rfl⟩)

example := C98_iter_mut (bool_lawful debug64).1 keyShow angryShow

/-- C98 for the iterators of the total maps. -/
theorem C98_total_iters (L : Lawful c I n) (key : K → Show) (value : V → Show) (vs : List V) (hvs : vs.length = n) :
    ∃ m0 : K → V,
      (∀ k, OrdinalTotalMap.get I vs k = .ok (m0 k)) ∧
      BehavesLike (TotalIter.it c I) (OrdinalTotalMap.iter vs) (pairsT I n m0) (fun rest it =>
        totalIter c I key value it = listShow (pairShow key value) rest) ∧
      BehavesLike (TotalIntoIter.it c I) (OrdinalTotalMap.intoIter vs) (pairsT I n m0) (fun rest it =>
        totalIntoIter c I key value it = listShow (pairShow key value) rest) ∧
      BehavesLike (TotalIter.it c I) (OrdinalTotalArrayMap.iter vs) (pairsT I n m0) (fun rest it =>
        totalIter c I key value it = listShow (pairShow key value) rest) ∧
      BehavesLike (TotalIntoIterArray.it c I) (OrdinalTotalArrayMap.intoIter vs) (pairsT I n m0) (fun rest it =>
        totalIntoIterArray c I key value it = listShow (pairShow key value) rest) ∧
      RunsLike (MutClientT.step c I) MutSpec.step ⟨OrdinalTotalMap.iterMut vs, []⟩
        ⟨OrdinalMap.values I n, [], fun k => some (m0 k)⟩ (fun sp cl =>
          totalIterMut c I key value cl.it = listShow (pairShow key value) (restPairs sp)) ∧
      RunsLike (MutClientT.step c I) MutSpec.step ⟨OrdinalTotalArrayMap.iterMut vs, []⟩
        ⟨OrdinalMap.values I n, [], fun k => some (m0 k)⟩ (fun sp cl =>
          totalIterMut c I key value cl.it = listShow (pairShow key value) (restPairs sp)) := by
  obtain ⟨m0, rfl⟩ := exists_store L vs hvs
  have hf := fresh_view L m0
  have hm : RunsLike (MutClientT.step c I) MutSpec.step ⟨TotalIterMut.new (store I n m0), []⟩
        ⟨OrdinalMap.values I n, [], fun k => some (m0 k)⟩ (fun sp cl =>
          totalIterMut c I key value cl.it = listShow (pairShow key value) (restPairs sp)) := by
    refine (TRel.runs L m0).mono ?_
    rintro sp cl ⟨ps, m, h1, h2, _, h4, h5⟩
    have e : restPairs sp = ps.map fun p => (p.1, m p.1) := by
      rw [restPairs, h2, h5, List.filterMap_map]
      simp [Function.comp_def]
    rw [e]
    exact total_list L key value (mv_iter L m h1 h4)
  exact ⟨m0, OrdinalTotalMap_get L m0,
    (TotalIter.behaves L hf).mono fun _ _ h => total_list L key value h,
    (TotalIntoIter.behaves L hf).mono fun _ _ h => total_list L key value h,
    (TotalIter.behaves L hf).mono fun _ _ h => total_list L key value h,
    (TotalIntoIterArray.behaves L hf).mono fun _ _ h => total_list L key value h, hm, hm⟩

example := C98_total_iters (bool_lawful debug64).1 keyShow angryShow [5, 6] rfl

/-- C98 for the iterators of the sets. -/
theorem C98_set_iters (L : Lawful c J n) (item : τ → Show) (xs : List τ) :
    (n + 64 < c.M → (0 < n ∨ c.debugAssertions = false) → ∃ s, OrdinalSet.fromIter c J xs = .ok s ∧
      SetBehavesLike (OrdinalSet.api c J) s (fun x => decide (x ∈ xs)) (fun m s =>
        ∃ it, OrdinalSet.iter c J s = .ok it ∧ BehavesLike (SetIter.it c J) it (elements J n m) (fun rest it =>
          setIter c J item it = listShow item rest))) ∧
    (n ≤ 64 → ∃ s, OrdinalSet64.fromIter c J xs = .ok s ∧
      SetBehavesLike (OrdinalSet64.api c J) s (fun x => decide (x ∈ xs)) (fun m s =>
        ∃ it, OrdinalSet64.iter J s = .ok it ∧ BehavesLike (Iter64.it c J) it (elements J n m) (fun rest it =>
          iter64 c J item it = listShow item rest))) := by
  have hs : ∀ {ws l it}, SetIter.View J n ws l it → BehavesLike (SetIter.it c J) it l (fun rest it =>
      setIter c J item it = listShow item rest) := by
    intro ws l it h
    refine (SetIter.behaves L h).mono fun rest it h => ?_
    have := SetIter.len_le L h
    exact debugSeq_show "[" "]" (SetIter.View J n ws) (SetIter.next_view L ws) item h (by omega)
  refine ⟨fun hfit hp => ?_, fun h64 => ?_⟩
  · obtain ⟨s, h1, h2⟩ := OrdinalSet.fromIter_view L hfit xs
    refine ⟨s, h1, (OrdinalSet.behaves L hfit h2).mono fun m s h => ?_⟩
    obtain ⟨ws, it, h3, h4⟩ := OrdinalSet.iter_view L h hp
    exact ⟨it, h3, hs h4⟩
  · obtain ⟨s, h1, h2⟩ := OrdinalSet64.fromIter_view L h64 xs
    refine ⟨s, h1, (OrdinalSet64.behaves L h64 h2).mono fun m s h => ?_⟩
    refine ⟨s, by simp [OrdinalSet64.iter, OrdinalSet64.assert64_ok L h64], ?_⟩
    refine (Iter64.behaves L h64 (Iter64.view_of_set h)).mono fun rest it h => ?_
    have := Iter64.len_view L h64 h
    exact debugSeq_show "[" "]" (Iter64.View J n) (Iter64.next_view L h64) item h (by omega)

example := C98_set_iters (bool_lawful debug64).1 keyShow [true]

omit [DecidableEq τ] in
/-- C98 for `OrdinalValues`, after any sequence of calls: the flags of the caller do not reach the items, which are printed
as `{:?}` prints them. -/
theorem C98_values (L : Lawful c J n) (item : τ → Show) :
    ∃ s, OrdinalValues.new J = .ok s ∧ BehavesLike (OrdinalValues.iter J) s (OrdinalMap.values J n) (fun rest s =>
      (rest = [] → ordinalValues J item s = fun _ w _ => w (.str "[]")) ∧
      (∀ first more, rest = first :: more → rest.getLast? = (OrdinalMap.values J n).getLast? →
        ordinalValues J item s = fun ω w _ => inOrder [w (.str "["), item first ω w {}, w (.str "..]")]) ∧
      (∀ x, rest = [x] → rest.getLast? ≠ (OrdinalMap.values J n).getLast? →
        ordinalValues J item s = fun ω w _ => inOrder [w (.str "["), item x ω w {}, w (.str "]")]) ∧
      ∀ first mid last, rest = first :: (mid ++ [last]) → rest.getLast? ≠ (OrdinalMap.values J n).getLast? →
        ordinalValues J item s = fun ω w _ =>
          inOrder [w (.str "["), item first ω w {}, w (.str "..="), item last ω w {}, w (.str "]")]) := by
  obtain ⟨s, h1, h2⟩ := OrdinalValues.new_view L
  refine ⟨s, h1, (OrdinalValues.behaves L h2).mono fun rest s h => ?_⟩
  have hs := OrdinalValues.stop_iff L h
  obtain ⟨s', h3, h4, -⟩ := OrdinalValues.next_view L s rest h
  obtain ⟨s'', h5, -⟩ := OrdinalValues.nextBack_view L s' rest.tail h4
  refine ⟨?_, ?_, ?_, ?_⟩
  · rintro rfl
    funext ω w o
    simp [ordinalValues, ofR, OrdinalValues.clone, h3, writeFmt, tryThen_eq, andThen_okay]
  · rintro first more rfl hl
    have : s.stop = n := (hs (by simp)).2 hl
    funext ω w o
    simp [ordinalValues, ofR, OrdinalValues.clone, h3, L.size, this, writeFmt, tryThen_eq, andThen_okay, inOrder, andThen_true]
  · rintro x rfl hl
    have : s.stop ≠ n := fun e => hl ((hs (by simp)).1 e)
    funext ω w o
    simp only [List.tail_cons, List.getLast?_nil] at h5
    simp [ordinalValues, ofR, OrdinalValues.clone, h3, L.size, this, h5, writeFmt, tryThen_eq, andThen_okay, inOrder, andThen_true]
  · rintro first mid last rfl hl
    have : s.stop ≠ n := fun e => hl ((hs (by simp)).1 e)
    funext ω w o
    simp only [List.tail_cons, List.getLast?_append, List.getLast?_singleton, Option.some_or] at h5
    simp [ordinalValues, ofR, OrdinalValues.clone, h3, L.size, this, h5, writeFmt, tryThen_eq, andThen_okay, inOrder, andThen_true]

example := C98_values (ordering_lawful debug64).1 fun | .lt => plainShow "lt" | .eq => plainShow "eq" | .gt => plainShow "gt"

omit [DecidableEq τ] in
/-- C98 for `AtomicOrdinal`: the value, with the flags of the caller. -/
theorem C98_atomic (L : Lawful c J n) (item : τ → Show) (v : τ) :
    ∃ cell, AtomicOrdinal.new J v = .ok cell ∧ atomicOrdinal J item cell = item v := by
  refine ⟨ordOf J v, L.ordinal_eq v, ?_⟩
  simp [atomicOrdinal, AtomicOrdinal.step, AtomicOrdinal.call, Prim.exec, AtomicOrdinal.ret, L.from_ord]

example := C98_atomic (bool_lawful debug64).1 keyShow true

omit [DecidableEq K] [DecidableEq τ] in
/-- C98, the text: if the `Debug` of the keys, values and items writes a text under the flags and stops when refused, so do
maps, sets, and lists of items and of pairs, and what they write is the text of C52; in particular, a writer that accepts
everything gets that text, and a refused call is the last one and makes the result an error. -/
theorem C98_text (o : Options) (key : K → Show) (value : V → Show) (item : τ → Show) (ks : K → String) (vs : V → String)
    (is : τ → String) (hk : ∀ k, Writes (key k) o (ks k)) (hv : ∀ v, Writes (value v) o (vs v))
    (hi : ∀ x, Writes (item x) o (is x)) :
    (∀ l, Writes (mapShow key value l) o (mapText o.alternate ks vs l)) ∧
    (∀ l, Writes (listShow (pairShow key value) l) o (listText o.alternate (pairText o.alternate ks vs) l)) ∧
    (∀ l, Writes (listShow item l) o (listText o.alternate is l)) ∧
    ∀ l, Writes (setShow item l) o (setText o.alternate is l) :=
  ⟨fun l => writes_seq "{" "}" l fun p _ => writes_entry (hk p.1) (hv p.2),
    fun l => writes_seq "[" "]" l fun p _ => writes_pair p (hk p.1) (hv p.2),
    fun l => writes_seq "[" "]" l fun x _ => hi x, fun l => writes_seq "{" "}" l fun x _ => hi x⟩

/-- C98: what a `Debug` that writes a text leaves in a `String`, and in a buffer of any size. -/
theorem C98_strings (x : Show) (o : Options) (t : String) (h : Writes x o t) (s : String) :
    x String stringWriter o s = (.ok true, s ++ t) ∧
    ∀ size, (s ++ t).length ≤ size → x String (bufferWriter size) o s = (.ok true, s ++ t) := by
  obtain ⟨ps, rfl, h⟩ := h
  rw [h]
  refine ⟨?_, fun size hs => ?_⟩
  · clear h
    induction ps generalizing s with
    | nil => simp [emitAll, inOrder, textOf, M.of]
    | cons p ps ih =>
      show andThen (stringWriter p) (emitAll stringWriter ps) s = _
      simp only [andThen, stringWriter, textOf, ← String.append_assoc]
      exact ih _
  · rw [h]
    clear h
    induction ps generalizing s with
    | nil => simp [emitAll, inOrder, textOf, M.of]
    | cons p ps ih =>
      show andThen (bufferWriter size p) (emitAll (bufferWriter size) ps) s = _
      have h1 : (s ++ p.text).length ≤ size := by
        simp only [textOf, String.length_append] at hs ⊢; omega
      simp only [andThen, bufferWriter, h1, if_true]
      rw [ih _ (by simpa only [textOf, String.append_assoc] using hs), textOf, String.append_assoc]

/-! ## Concrete cases -/

theorem writes_plain (t : String) (o : Options) : Writes (plainShow t) o t := Emits.piece t
theorem writes_nat (n : Nat) : Writes (natShow n) {} (toString n) := by
  refine ⟨[.str (toString n)], by simp [textOf, Piece.text], fun ω w => ?_⟩
  simp [natShow, emitAll, inOrder, andThen_true]

example := C98_text {} keyShow natShow keyShow showBool toString showBool (fun _ => writes_plain _ _) writes_nat
  (fun _ => writes_plain _ _)
example := C98_strings _ _ _ (writes_nat 7) "x"

/-- The width is used for each number, not for the whole. -/
example : omap debug64 boolImpl keyShow natShow [some 5, some 7] String stringWriter { width := some 3 } "" =
    (.ok true, "{false:   5, true:   7}") := by rfl
/-- A full buffer: the rest is not tried. -/
example : omap debug64 boolImpl keyShow natShow [some 5, some 7] String (bufferWriter 12) {} "" =
    (.ok false, "{false: 5, ") := by rfl
example : omap debug64 boolImpl keyShow angryShow [some 5, some 7] String (bufferWriter 8) {} "" =
    (.error .panic, "{false: ") := by rfl
example : mapIter debug64 boolImpl keyShow natShow ⟨1, [some 7]⟩ String stringWriter {} "" = (.ok true, "[(true, 7)]") := by
  rfl
example : omap debug64 boolImpl keyShow natShow [none, some 7] String stringWriter { alternate := true } "" =
    (.ok true, "{\n    true: 7,\n}") := by rfl
example : oset debug64 boolImpl keyShow (.small 2) String (bufferWriter 4) { alternate := true } "" =
    (.ok false, "{\n") := by rfl
/-- `OrdinalValues` drops the width; `AtomicOrdinal` passes it on. -/
example : ordinalValues boolImpl (fun b => natShow (if b then 1 else 0)) ⟨0, 1⟩ String stringWriter { width := some 3 } "" =
    (.ok true, "[0]") ∧
    atomicOrdinal boolImpl (fun b => natShow (if b then 1 else 0)) 1 String stringWriter { width := some 3 } "" =
    (.ok true, "  1") := by
  constructor <;> rfl

end OrdinalMap.Props
