import Verif.Lemmas.MapMore
import Verif.Lemmas.Leaf
/-!
# C27–C38: sparse maps

`RunsLike step spec s m obs` (SpecMap.lean): every history of operations on `s` succeeds and returns
exactly what the partial function `m` says (`MapSpec.step`), and `obs` holds afterwards between the
partial function and the state.

For `OrdinalMap`, `sz` is `size_of::<Option<V>>()`; the hypothesis `n * sz ≤ 2^(bits-1) - 1` says
that the storage fits in `isize::MAX` bytes (see `C27_limit`).
-/

namespace OrdinalMap.Props
open OrdinalMap

variable {K V ρ : Type} {c : Cfg} {I : OrdinalImpl K} {n : Nat} [DecidableEq K]

/-- Whether a call to `get` found a value. -/
def found (r : R (Option V)) : Bool :=
  match r with
  | .ok (some _) => true
  | _ => false

/-- An upper and a lower bound on `len`. -/
def Brackets (h : Nat × Option Nat) (len : Nat) : Prop := h.1 ≤ len ∧ ∀ hi, h.2 = some hi → len ≤ hi

/-- C27: `OrdinalMap` from `new()` behaves like a partial function under every history of `insert`,
`remove`, `get`, `get_mut`, `entry`, `or_insert`, `len`, `is_empty`, iterator, `drain` and `clear`
operations; no operation panics. -/
theorem C27_ordinal_map (L : Lawful c I n) {sz : Nat} (hsz : n * sz ≤ 2 ^ (c.bits - 1) - 1) :
    RunsLike (OMap.step c I sz) (MapSpec.step I n) (OMap.new V) (fun _ => none)
      (fun m s => ∀ k, OMap.get I s k = .ok (m k)) := by
  intro ops
  obtain ⟨s', h1, h2⟩ := OMap.runs_new L hsz ops
  exact ⟨s', h1, OMap.get_eq L h2⟩

example := C27_ordinal_map (V := Nat) (ordering_lawful debug64).1 (sz := 8) (by decide)

omit [DecidableEq K] in
/-- C27, the size limit is sharp: beyond it the first `insert` or `entry` panics (capacity
overflow). -/
theorem C27_limit (L : Lawful c I n) {sz : Nat} (hsz : 2 ^ (c.bits - 1) - 1 < n * sz) (k : K) (v : V) :
    OMap.insert c I sz (OMap.new V) k v = .error .panic ∧
    OMap.entry c I sz (OMap.new V) k = .error .panic := by
  have : ¬ n * sz ≤ 2 ^ (c.bits - 1) - 1 := by omega
  simp [OMap.insert, OMap.entry, OMap.new, OMap.initFullMap, withCapacity, L.size, this]

example := C27_limit (u8_lawful debug32).1 (sz := 2 ^ 30) (by decide) ⟨7, by decide⟩ "value"

omit [DecidableEq K] in
/-- On a new map, an operation other than `insert` and `entry` does the same whatever the size. -/
theorem step_size {sz sz' : Nat} (s : OMap V) (op : MapOp K V) (h : op.allocates = false) :
    OMap.step c I sz s op = OMap.step c I sz' s op := by
  cases op <;> first | rfl | simp [MapOp.allocates] at h

/-- C27, beyond the size limit: a history without `insert` and `entry` is answered as by the empty
map, and any other panics (at the first of these operations). -/
theorem C27_over_limit (L : Lawful c I n) {sz : Nat} (hsz : 2 ^ (c.bits - 1) - 1 < n * sz)
    (ops : List (MapOp K V)) :
    runOps (OMap.step c I sz) (OMap.new V) ops =
      if ops.any MapOp.allocates then .error .panic
      else .ok ((runSpec (MapSpec.step I n) (fun _ => none) ops).1, OMap.new V) := by
  induction ops with
  | nil => rfl
  | cons op ops ih =>
    cases ha : op.allocates with
    | true =>
      have hp : OMap.step c I sz (OMap.new V) op = .error .panic := by
        cases op <;> first
          | (rename_i k v; simp [OMap.step, (C27_limit L hsz k v).1]; done)
          | (rename_i k v w; simp [OMap.step, (C27_limit L hsz k v).2]; done)
          | simp [MapOp.allocates] at ha
      simp [runOps, hp, ha]
    | false =>
      obtain ⟨s', h1, h2⟩ := OMap.step_rel L (sz := 0) (by simp) ((fun _ => none : K → Option V), false)
        (OMap.new V) op (.inr ⟨rfl, rfl, rfl⟩)
      simp only [specAlloc, ha, Bool.or_false] at h1 h2
      rcases h2 with ⟨h2, -⟩ | ⟨-, rfl, hm⟩
      · cases h2
      · rw [step_size (sz' := sz) _ _ ha] at h1
        simp only [runOps, h1, ok_bind, runSpec, hm, List.any_cons, ha, Bool.false_or]
        have ih' : runOps (OMap.step c I sz) ([] : List (Option V)) ops = _ := ih
        rw [ih']
        by_cases hh : ops.any MapOp.allocates = true
        · simp only [hh, if_true]; rfl
        · simp only [hh]; rfl

example := C27_over_limit (V := String) (u8_lawful debug32).1 (sz := 2 ^ 30) (by decide)
  [.get ⟨7, by decide⟩, .len, .drain [.front] false, .insert ⟨7, by decide⟩ "value"]

/-- C28 is false: after inserting one key, `contains_key` answers `true` for every other key,
although `get` finds nothing. -/
theorem C28_false (L : Lawful c I n) {sz : Nat} (hsz : n * sz ≤ 2 ^ (c.bits - 1) - 1) (k k' : K) (h : k ≠ k')
    (v : V) : ∃ s, OMap.insert c I sz (OMap.new V) k v = .ok (none, s) ∧
      OMap.containsKey I s k' = .ok true ∧ OMap.get I s k' = .ok none := by
  have h0 : Stored I n false (fun _ => none) (OMap.new V) := .inr ⟨rfl, rfl, rfl⟩
  have h1 : Stored I n true (upd (fun _ => none) k (some v)) (store I n (upd (fun _ => none) k (some v))) :=
    .inl ⟨rfl, rfl⟩
  refine ⟨_, OMap.insert_eq L hsz h0 k v, OMap.containsKey_eq L h1 k', ?_⟩
  rw [OMap.get_eq L h1]
  simp [upd, Ne.symm h]

example := C28_false (bool_lawful debug64).1 (sz := 8) (by decide) false true (by decide) 5

/-- C28, what `contains_key` really says: whether storage was ever allocated, i.e. whether `insert` or
`entry` was ever called on any key. -/
theorem C28_exact (L : Lawful c I n) {sz : Nat} (hsz : n * sz ≤ 2 ^ (c.bits - 1) - 1)
    (ops : List (MapOp K V)) :
    ∃ os s, runOps (OMap.step c I sz) (OMap.new V) ops = .ok (os, s) ∧
      ∀ k, OMap.containsKey I s k = .ok (ops.any MapOp.allocates) := by
  obtain ⟨s', h1, h2⟩ := OMap.runs_new L hsz ops
  exact ⟨_, s', h1, OMap.containsKey_eq L h2⟩

example := C28_exact (ordering_lawful debug64).1 (sz := 8) (by decide) [.insert .eq 5, .remove .eq, .get .lt]

/-- C28 (partial): `contains_key(k) == get(k).is_some()` holds exactly for present keys and for maps
on which neither `insert` nor `entry` was ever called.  Missing: absent keys of allocated maps, for
which it fails. -/
theorem C28_contains_key_partial (L : Lawful c I n) {sz : Nat} (hsz : n * sz ≤ 2 ^ (c.bits - 1) - 1)
    (ops : List (MapOp K V)) :
    ∃ os s, runOps (OMap.step c I sz) (OMap.new V) ops = .ok (os, s) ∧
      ∀ k, (OMap.containsKey I s k = .ok (found (OMap.get I s k)) ↔
        found (OMap.get I s k) = true ∨ ops.any MapOp.allocates = false) := by
  obtain ⟨s', h1, h2⟩ := OMap.runs_new L hsz ops
  refine ⟨_, s', h1, fun k => ?_⟩
  rw [OMap.containsKey_eq L h2, OMap.get_eq L h2]
  rcases h2 with ⟨hb, _⟩ | ⟨hb, _, hm⟩
  · rw [hb, Except.ok.injEq]
    generalize found _ = f
    cases f <;> decide
  · rw [hb, hm]; simp [found]

example := C28_contains_key_partial (ordering_lawful debug64).1 (sz := 8) (by decide)
  [.insert .eq 5, .remove .eq, .get .lt]

/-- C29: `len()` is the number of keys that `get` finds and `is_empty()` says there is none. -/
theorem C29_len (L : Lawful c I n) {sz : Nat} (hsz : n * sz ≤ 2 ^ (c.bits - 1) - 1)
    (ops : List (MapOp K V)) :
    ∃ os s, runOps (OMap.step c I sz) (OMap.new V) ops = .ok (os, s) ∧
      OMap.len c I s = .ok ((values I n).filter fun k => found (OMap.get I s k)).length ∧
      ∃ e, OMap.isEmpty c I s = .ok e ∧ (e = true ↔ ∀ k, OMap.get I s k = .ok none) := by
  obtain ⟨s', h1, h2⟩ := OMap.runs_new L hsz ops
  generalize (runSpec (MapSpec.step I n) (fun _ => none) ops).2 = m at h2
  have hf : (fun k => found (OMap.get I s' k)) = fun k => (m k).isSome := by
    funext k; rw [OMap.get_eq L h2]; cases m k <;> rfl
  obtain ⟨it, h3⟩ := h2.first L
  refine ⟨_, s', h1, ?_, (pairs I n m).head?.isNone, ?_, ?_⟩
  · rw [hf, ← pairs_length]
    exact h2.count L
  · simp only [OMap.isEmpty, OMap.iter, h3, ok_bind]
  · rw [isEmpty_head, List.isEmpty_iff]
    simp only [OMap.get_eq L h2]
    constructor
    · intro h k
      have : ¬ (m k).isSome := by
        intro hs
        obtain ⟨v, hv⟩ := Option.isSome_iff_exists.1 hs
        have : (k, v) ∈ pairs I n m := List.mem_filterMap.2 ⟨k, mem_values L k, by simp [hv]⟩
        rw [h] at this; simp at this
      simpa using this
    · intro h
      have : m = fun _ => none := by funext k; simpa using h k
      rw [this, pairs_none]

example := C29_len (ordering_lawful debug64).1 (sz := 8) (by decide) [.insert .eq 5, .insert .lt 6, .remove .eq]

/-- C30: the number of slots of storage is zero until the first `insert` or `entry`, and
`ORDINAL_SIZE` ever after. -/
theorem C30_storage (L : Lawful c I n) {sz : Nat} (hsz : n * sz ≤ 2 ^ (c.bits - 1) - 1)
    (ops : List (MapOp K V)) :
    ∃ os s, runOps (OMap.step c I sz) (OMap.new V) ops = .ok (os, s) ∧
      s.length = if ops.any MapOp.allocates then n else 0 := by
  obtain ⟨s', h1, h2⟩ := OMap.runs_new L hsz ops
  exact ⟨_, s', h1, h2.length L⟩

example := C30_storage (ordering_lawful debug64).1 (sz := 8) (by decide) [.get .eq, .insert .lt 6]

/-! ## Entries -/

/-- What `entry` must do on a map `s` that represents `m`: leave the contents alone, report the key,
be occupied iff the key is present, and give access to that key's value only. -/
def EntryGood (get : List (Option V) → K → R (Option V))
    (entry : List (Option V) → K → R (Entry K × List (Option V))) (m : K → Option V) (s : List (Option V)) :
    Prop :=
  ∀ k, ∃ e s1, entry s k = .ok (e, s1) ∧ e.key = k ∧ (∀ k', get s1 k' = .ok (m k')) ∧
    (match e with
    | .vacant _ slot => m k = none ∧ ∀ v, ∃ s2, Entry.vacantInsert s1 slot v = .ok s2 ∧
        ∀ k', get s2 k' = .ok (upd m k (some v) k')
    | .occupied _ slot => ∃ v, m k = some v ∧ Entry.occupiedGet s1 slot = .ok v ∧
        ∃ r, Entry.occupiedGetMut s1 slot = .ok r ∧ readSome s1 r = .ok v ∧
          ∀ w, ∃ s2, writeSome s1 r w = .ok s2 ∧ ∀ k', get s2 k' = .ok (upd m k (some w) k')) ∧
    ∀ v, ∃ r s2, e.orInsert s1 v = .ok (r, s2) ∧ readSome s2 r = .ok ((m k).getD v) ∧
      (∀ k', get s2 k' = .ok (upd m k (some ((m k).getD v)) k')) ∧
      ∀ w, ∃ s3, writeSome s2 r w = .ok s3 ∧ ∀ k', get s3 k' = .ok (upd m k (some w) k')

theorem entryGood_of (L : Lawful c I n) {get : List (Option V) → K → R (Option V)}
    {entry : List (Option V) → K → R (Entry K × List (Option V))} {m : K → Option V} {s : List (Option V)}
    (hget : ∀ (m : K → Option V) (k : K), get (store I n m) k = .ok (m k))
    (hentry : ∀ k, entry s k =
      .ok (if (m k).isSome then .occupied k (ordOf I k) else .vacant k (ordOf I k), store I n m)) :
    EntryGood get entry m s := by
  intro k
  refine ⟨_, _, hentry k, ?_, hget m, ?_, ?_⟩
  · split <;> rfl
  · cases hm : m k with
    | none =>
      simp only [Option.isSome_none, Bool.false_eq_true, if_false]
      exact ⟨trivial, fun v => ⟨_, writeSlot_store L m k (some v), hget _⟩⟩
    | some v =>
      simp only [Option.isSome_some, if_true]
      have hs : (m k).isSome := by rw [hm]; rfl
      refine ⟨v, rfl, ?_, ordOf I k, ?_, readSome_store L m hm, fun w => ⟨_, writeSome_store L m w hs, hget _⟩⟩
      · simp only [Entry.occupiedGet, store_get L, hm, unwrap_some]
      · simp only [Entry.occupiedGetMut, store_get L, hm, unwrap_some, ok_bind]
  · intro v
    have h1 : upd m k (some ((m k).getD v)) k = some ((m k).getD v) := by simp [upd]
    have h2 : (upd m k (some ((m k).getD v)) k).isSome := by rw [h1]; rfl
    refine ⟨_, _, orInsert_store L m k v, readSome_store L _ h1, hget _, fun w => ⟨_, writeSome_store L _ w h2, ?_⟩⟩
    rw [upd_upd]; exact hget _

/-- C31: the entry API of every reachable `OrdinalMap` and `OrdinalArrayMap`. -/
theorem C31_entry (L : Lawful c I n) :
    (∀ sz, n * sz ≤ 2 ^ (c.bits - 1) - 1 →
      RunsLike (OMap.step c I sz) (MapSpec.step I n) (OMap.new V) (fun _ => none)
        (EntryGood (OMap.get I) (OMap.entry c I sz))) ∧
    ∃ s, OrdinalArrayMap.new V I n = .ok s ∧
      RunsLike (OrdinalArrayMap.step c I) (MapSpec.step I n) s (fun _ => none)
        (EntryGood (OrdinalArrayMap.get I) (OrdinalArrayMap.entry I)) := by
  constructor
  · intro sz hsz ops
    obtain ⟨s', h1, h2⟩ := OMap.runs_new L hsz ops
    exact ⟨s', h1, entryGood_of L (fun m => OMap.get_eq L (b := true) (.inl ⟨rfl, rfl⟩))
      (OMap.entry_eq L hsz h2)⟩
  · refine ⟨_, OrdinalArrayMap.new_eq L, (OrdinalArrayMap.runs L _).mono ?_⟩
    rintro m s rfl
    exact entryGood_of L (OrdinalArrayMap.get_eq L) (OrdinalArrayMap.entry_eq L m)

example := C31_entry (V := Nat) (ordering_lawful debug64).1

/-! ## Iteration -/

/-- What the borrowing iterators of a map that represents `m` must do. -/
def IterGood (c : Cfg) (I : OrdinalImpl K) (n : Nat) (m : K → Option V)
    (iter : MapIter V) (keys : Keys V) (vals : Values V) : Prop :=
  BehavesLike (MapIter.it c I) iter (pairs I n m) (fun rest s => Brackets (MapIter.sizeHint s) rest.length) ∧
  BehavesLike (Keys.it c I) keys ((pairs I n m).map (·.1))
    (fun rest s => Brackets (Keys.sizeHint s) rest.length) ∧
  BehavesLike (Values.it c I) vals ((pairs I n m).map (·.2))
    (fun rest s => Brackets (Values.sizeHint s) rest.length)

omit [DecidableEq K] in
theorem sview_brackets {l : List (K × V)} {s : MapIter V} (h : SView I n l s) :
    Brackets (MapIter.sizeHint s) l.length := by
  refine ⟨Nat.zero_le _, fun hi e => ?_⟩
  simp only [MapIter.sizeHint, Option.some.injEq] at e
  rw [← e]; exact h.len_le

omit [DecidableEq K] in
theorem iterGood_of (L : Lawful c I n) {b : Bool} {m : K → Option V} {s : List (Option V)}
    (h : Stored I n b m s) : IterGood c I n m (TotalIter.new s 0) (TotalIter.new s 0) (TotalIter.new s 0) := by
  refine ⟨(MapIter.behaves L (h.sview L)).mono fun _ _ h => sview_brackets h,
    (Keys.behaves L ⟨_, h.sview L, rfl⟩).mono ?_, (Values.behaves L ⟨_, h.sview L, rfl⟩).mono ?_⟩
  · rintro rest it ⟨ps, h, rfl⟩; rw [List.length_map]; exact sview_brackets h
  · rintro rest it ⟨ps, h, rfl⟩; rw [List.length_map]; exact sview_brackets h

/-- C32: the iterators of every reachable sparse map. -/
theorem C32_iteration (L : Lawful c I n) :
    (∀ sz, n * sz ≤ 2 ^ (c.bits - 1) - 1 →
      RunsLike (OMap.step c I sz) (MapSpec.step I n) (OMap.new V) (fun _ => none) (fun m s =>
        IterGood c I n m (OMap.iter s) (OMap.keys s) (OMap.values s) ∧
        BehavesLike (MapIntoIter.it c I) (OMap.intoIter s) (pairs I n m)
          (fun rest s => Brackets (MapIntoIter.sizeHint s) rest.length))) ∧
    ∃ s, OrdinalArrayMap.new V I n = .ok s ∧
      RunsLike (OrdinalArrayMap.step c I) (MapSpec.step I n) s (fun _ => none) (fun m s =>
        IterGood c I n m (OrdinalArrayMap.iter s) (OrdinalArrayMap.keys s) (OrdinalArrayMap.values s) ∧
        BehavesLike (MapIntoIterArray.it c I) (OrdinalArrayMap.intoIter s) (pairs I n m)
          (fun rest s => Brackets (MapIntoIterArray.sizeHint s) rest.length)) := by
  constructor
  · intro sz hsz ops
    obtain ⟨s', h1, h2⟩ := OMap.runs_new L hsz ops
    exact ⟨s', h1, iterGood_of L h2, (MapIntoIter.behaves L (h2.sview L)).mono fun _ _ h => sview_brackets h⟩
  · refine ⟨_, OrdinalArrayMap.new_eq L, (OrdinalArrayMap.runs L _).mono ?_⟩
    rintro m s rfl
    have h : Stored I n true m (store I n m) := .inl ⟨rfl, rfl⟩
    refine ⟨iterGood_of L h, (MapIntoIterArray.behaves L (h.sview L)).mono fun _ _ _ => ?_⟩
    exact ⟨Nat.zero_le _, fun hi e => by simp [MapIntoIterArray.sizeHint] at e⟩

example := C32_iteration (V := Nat) (ordering_lawful debug64).1

omit [DecidableEq K] in
/-- The present pairs that C32 speaks about: exactly those found by the partial function, each key
once, in increasing ordinal order. -/
theorem C32_spec_meaning (L : Lawful c I n) (m : K → Option V) :
    (∀ k v, (k, v) ∈ pairs I n m ↔ m k = some v) ∧
    ((pairs I n m).map (·.1)).Pairwise (fun a b => ordOf I a < ordOf I b) := by
  constructor
  · intro k v
    simp only [pairs, List.mem_filterMap]
    constructor
    · rintro ⟨k', _, h⟩
      cases hm : m k' with
      | none => simp [hm] at h
      | some w => simp [hm] at h; rw [← h.1, hm, h.2]
    · intro h; exact ⟨k, mem_values L k, by simp [h]⟩
  · have : (pairs I n m).map (·.1) = (values I n).filter fun k => (m k).isSome := by
      simp only [pairs, List.map_filterMap, ← List.filterMap_eq_filter]
      congr 1
      funext k
      cases h : m k <;> simp [Option.guard, h]
    rw [this]
    exact (values_sorted L).filter _

example := C32_spec_meaning (ordering_lawful debug64).1 fun k => if k = .eq then none else some 5

/-! ## Mutable iteration -/

/-- What `iter_mut()` and `values_mut()` of a map that represents `m` must do, for every interleaving
of `next`, `next_back` and writes through any reference handed out so far. -/
def IterMutGood (c : Cfg) (I : OrdinalImpl K) (n : Nat) (get : List (Option V) → K → R (Option V))
    (m : K → Option V) (it : MapIterMut V) : Prop :=
  RunsLike (MutClient.step c I) MutSpec.step ⟨it, []⟩ ⟨presentKeys I n m, [], m⟩ (fun sp s =>
    (∀ k, get s.it.mem k = .ok (sp.map k)) ∧ Brackets (MapIterMut.sizeHint s.it) sp.rest.length) ∧
  ∀ steps, ∃ s, runOps (MutClient.stepV c I) ⟨it, []⟩ steps =
      .ok ((runSpec MutSpec.step ⟨presentKeys I n m, [], m⟩ steps).1.map (Option.map (·.2)), s) ∧
    (∀ k, get s.it.mem k = .ok ((runSpec MutSpec.step ⟨presentKeys I n m, [], m⟩ steps).2.map k)) ∧
    Brackets (ValuesMut.sizeHint s.it) (runSpec MutSpec.step ⟨presentKeys I n m, [], m⟩ steps).2.rest.length

omit [DecidableEq K] in
theorem srel_brackets {b : Bool} {sp : MutSpec K V} {s : MutClient V} (h : SRel I n b sp s) :
    Brackets (MapIterMut.sizeHint s.it) sp.rest.length := by
  obtain ⟨ps, h1, h2, _⟩ := h
  refine ⟨Nat.zero_le _, fun hi e => ?_⟩
  simp only [MapIterMut.sizeHint, Option.some.injEq] at e
  rw [← e, TotalIterMut.len, h1.len, h2, List.length_map]
  exact List.length_filterMap_le _ _

theorem iterMutGood_of (L : Lawful c I n) {b : Bool} {get : List (Option V) → K → R (Option V)}
    {m : K → Option V} {s : List (Option V)} (h : Stored I n b m s)
    (hget : ∀ (m : K → Option V) s, Stored I n b m s → ∀ k, get s k = .ok (m k)) :
    IterMutGood c I n get m (TotalIterMut.new s) := by
  refine ⟨(SRel.runs L h).mono fun sp s h => ⟨hget _ _ h.stored, srel_brackets h⟩, fun steps => ?_⟩
  obtain ⟨s', h1, h2⟩ := SRel.runsV L h steps
  exact ⟨s', h1, hget _ _ h2.stored, srel_brackets h2⟩

/-- C33: `iter_mut()` and `values_mut()` of every reachable sparse map. -/
theorem C33_iter_mut (L : Lawful c I n) :
    (∀ sz, n * sz ≤ 2 ^ (c.bits - 1) - 1 →
      RunsLike (OMap.step c I sz) (MapSpec.step I n) (OMap.new V) (fun _ => none) (fun m s =>
        IterMutGood c I n (OMap.get I) m (OMap.iterMut s))) ∧
    ∃ s, OrdinalArrayMap.new V I n = .ok s ∧
      RunsLike (OrdinalArrayMap.step c I) (MapSpec.step I n) s (fun _ => none) (fun m s =>
        IterMutGood c I n (OrdinalArrayMap.get I) m (OrdinalArrayMap.iterMut s)) := by
  constructor
  · intro sz hsz ops
    obtain ⟨s', h1, h2⟩ := OMap.runs_new L hsz ops
    exact ⟨s', h1, iterMutGood_of L h2 fun m s h => OMap.get_eq L h⟩
  · refine ⟨_, OrdinalArrayMap.new_eq L, (OrdinalArrayMap.runs L _).mono ?_⟩
    rintro m s rfl
    refine iterMutGood_of L (b := true) (.inl ⟨rfl, rfl⟩) fun m s h => ?_
    obtain rfl : s = store I n m := by simpa [Stored] using h
    exact OrdinalArrayMap.get_eq L m

example := C33_iter_mut (V := Nat) (ordering_lawful debug64).1

omit [DecidableEq K] in
theorem presentKeys_nodup (L : Lawful c I n) (m : K → Option V) : (presentKeys I n m).Nodup :=
  (values_nodup L).filter _

/-- What the ideal mutable iterator of C33 does: at any time the keys handed out and the keys left
are together the present keys, each once; presence of keys never changes; and a key that was not
handed out keeps its value. -/
theorem C33_spec_meaning (L : Lawful c I n) (m : K → Option V) (steps : List (MutStep V)) :
    let s := (runSpec MutSpec.step (⟨presentKeys I n m, [], m⟩ : MutSpec K V) steps).2
    (s.handed ++ s.rest).Nodup ∧ (∀ k, k ∈ s.handed ∨ k ∈ s.rest ↔ (m k).isSome) ∧
    (∀ k, (s.map k).isSome = (m k).isSome) ∧ ∀ k, k ∉ s.handed → s.map k = m k := by
  obtain ⟨h1, h2, h3⟩ := MutSpec.inv m (presentKeys I n m) (fun k hk => (List.mem_filter.1 hk).2) steps
  refine ⟨h1.nodup_iff.2 (presentKeys_nodup L m), fun k => ?_, h2, h3⟩
  rw [← List.mem_append, h1.mem_iff]
  simp [presentKeys, mem_values L]

example := C33_spec_meaning (ordering_lawful debug64).1 (fun k => if k = .eq then none else some 5)
  [.back, .write 0 7, .front]

/-! ## Draining -/

/-- What `drain()` and `clear()` of a map that represents `m` must do. -/
def DrainGood (c : Cfg) (I : OrdinalImpl K) (n : Nat) (get : List (Option V) → K → R (Option V))
    (m : K → Option V) (d : Drain V) (clear : R (List (Option V))) : Prop :=
  BehavesLike (Drain.it c I) d (pairs I n m) (fun rest d =>
    Brackets (Drain.sizeHint d) rest.length ∧
    -- leaked
    (∀ k, get d.mem k = .ok ((rest.find? fun p => p.1 = k).map (·.2))) ∧
    -- dropped
    ∃ mem, Drain.drop c I d = .ok mem ∧ ∀ k, get mem k = .ok none) ∧
  ∃ mem, clear = .ok mem ∧ ∀ k, get mem k = .ok none

theorem drainGood_of (L : Lawful c I n) {b : Bool} {get : List (Option V) → K → R (Option V)}
    {m : K → Option V} {s : List (Option V)} (h : Stored I n b m s)
    (hget : ∀ (m : K → Option V) s, Stored I n b m s → ∀ k, get s k = .ok (m k)) :
    DrainGood c I n get m (Drain.new s) (Drain.drop c I (Drain.new s)) := by
  have hd := DView.start L h
  refine ⟨(Drain.behaves L hd).mono fun rest d h => ⟨⟨Nat.zero_le _, fun hi e => ?_⟩, hget _ _ h.stored, ?_⟩, ?_⟩
  · simp only [Drain.sizeHint, Option.some.injEq] at e
    rw [← e]; exact h.len_le
  · obtain ⟨mem, h1, h2⟩ := Drain.drop_dview L h
    exact ⟨mem, h1, hget _ _ h2⟩
  · obtain ⟨mem, h1, h2⟩ := Drain.drop_dview L hd
    exact ⟨mem, h1, hget _ _ h2⟩

/-- C34: `drain()` and `clear()` of every reachable sparse map.  (What follows on a map that was
drained, also when the `Drain` was leaked, is part of C27 and C36.) -/
theorem C34_drain (L : Lawful c I n) :
    (∀ sz, n * sz ≤ 2 ^ (c.bits - 1) - 1 →
      RunsLike (OMap.step c I sz) (MapSpec.step I n) (OMap.new V) (fun _ => none) (fun m s =>
        DrainGood c I n (OMap.get I) m (OMap.drain s) (OMap.clear c I s))) ∧
    ∃ s, OrdinalArrayMap.new V I n = .ok s ∧
      RunsLike (OrdinalArrayMap.step c I) (MapSpec.step I n) s (fun _ => none) (fun m s =>
        DrainGood c I n (OrdinalArrayMap.get I) m (OrdinalArrayMap.drain s) (OrdinalArrayMap.clear c I s)) := by
  constructor
  · intro sz hsz ops
    obtain ⟨s', h1, h2⟩ := OMap.runs_new L hsz ops
    exact ⟨s', h1, drainGood_of L h2 fun m s h => OMap.get_eq L h⟩
  · refine ⟨_, OrdinalArrayMap.new_eq L, (OrdinalArrayMap.runs L _).mono ?_⟩
    rintro m s rfl
    refine drainGood_of L (b := true) (.inl ⟨rfl, rfl⟩) fun m s h => ?_
    obtain rfl : s = store I n m := by simpa [Stored] using h
    exact OrdinalArrayMap.get_eq L m

example := C34_drain (V := Nat) (ordering_lawful debug64).1

/-! ## `from_iter` -/

/-- C35: `from_iter` keeps the last value for each key, and the map behaves accordingly under every
history. -/
theorem C35_from_iter (L : Lawful c I n) (ps : List (K × V)) :
    (∀ sz, n * sz ≤ 2 ^ (c.bits - 1) - 1 → ∃ s, OMap.fromIter c I sz ps = .ok s ∧
      (∀ k, OMap.get I s k = .ok (lastValue ps k)) ∧
      RunsLike (OMap.step c I sz) (MapSpec.step I n) s (lastValue ps)) ∧
    ∃ s, OrdinalArrayMap.fromIter I n ps = .ok s ∧
      (∀ k, OrdinalArrayMap.get I s k = .ok (lastValue ps k)) ∧
      RunsLike (OrdinalArrayMap.step c I) (MapSpec.step I n) s (lastValue ps) := by
  have e : inserted (fun _ => none) ps = lastValue ps := by
    funext k; rw [inserted_eq]; simp
  constructor
  · intro sz hsz
    obtain ⟨s, h1, h2⟩ := OMap.extendLoop_eq L hsz ps false (fun _ => none) (OMap.new V) (.inr ⟨rfl, rfl, rfl⟩)
    rw [e] at h2
    refine ⟨s, h1, OMap.get_eq L h2, fun ops => ?_⟩
    obtain ⟨s', h3, _⟩ := OMap.runs L hsz h2 ops
    exact ⟨s', h3, trivial⟩
  · refine ⟨store I n (lastValue ps), ?_, OrdinalArrayMap.get_eq L _,
      (OrdinalArrayMap.runs L _).mono fun _ _ _ => trivial⟩
    simp only [OrdinalArrayMap.fromIter, OrdinalArrayMap.new_eq L, ok_bind, OrdinalArrayMap.extendLoop_eq L, e]

example := C35_from_iter (ordering_lawful debug64).1 [(.gt, 1), (.lt, 2), (.gt, 3)]

/-- What `lastValue` means. -/
theorem C35_spec_meaning (ps : List (K × V)) (k : K) (v : V) :
    lastValue ps k = some v ↔ ∃ before after, ps = before ++ (k, v) :: after ∧ ∀ w, (k, w) ∉ after := by
  induction ps with
  | nil => simp [lastValue]
  | cons p ps ih =>
    have hc : lastValue (p :: ps) k = (lastValue ps k).or (if p.1 = k then some p.2 else none) := by
      simp only [lastValue, List.reverse_cons, List.find?_append]
      cases ps.reverse.find? fun q => q.1 = k with
      | some q => simp
      | none => by_cases e : p.1 = k <;> simp [e]
    rw [hc]
    constructor
    · intro h
      cases hl : lastValue ps k with
      | some w =>
        rw [hl] at h
        obtain rfl : w = v := by simpa using h
        obtain ⟨b, a, h1, h2⟩ := ih.1 hl
        exact ⟨p :: b, a, by rw [h1]; rfl, h2⟩
      | none =>
        rw [hl] at h
        simp only [Option.none_or, Option.ite_none_right_eq_some, Option.some.injEq] at h
        refine ⟨[], ps, by simp [← h.1, ← h.2], fun w hw => ?_⟩
        simp only [lastValue, Option.map_eq_none_iff, List.find?_eq_none, List.mem_reverse] at hl
        exact hl _ hw (by simp)
    · rintro ⟨b, a, h1, h2⟩
      cases b with
      | nil =>
        simp only [List.nil_append, List.cons.injEq] at h1
        obtain ⟨rfl, rfl⟩ := h1
        have : lastValue ps k = none := by
          simp only [lastValue, Option.map_eq_none_iff, List.find?_eq_none, List.mem_reverse]
          rintro ⟨k', w⟩ hw hk
          simp at hk; subst hk; exact h2 w hw
        simp [this]
      | cons q b =>
        simp only [List.cons_append, List.cons.injEq] at h1
        have := ih.2 ⟨b, a, h1.2, h2⟩
        simp [this]

example := C35_spec_meaning [(Ordering.gt, 1), (.lt, 2), (.gt, 3)] .gt 3

/-! ## `OrdinalArrayMap` -/

/-- C36: `OrdinalArrayMap` with the right `S` behaves like a partial function under every history;
`contains_key(k)` is `get(k).is_some()`. -/
theorem C36_ordinal_array_map (L : Lawful c I n) :
    ∃ s, OrdinalArrayMap.new V I n = .ok s ∧
      RunsLike (OrdinalArrayMap.step c I) (MapSpec.step I n) s (fun _ => none) (fun m s =>
        (∀ k, OrdinalArrayMap.get I s k = .ok (m k)) ∧
        ∀ k, OrdinalArrayMap.containsKey I s k = .ok (m k).isSome) := by
  refine ⟨_, OrdinalArrayMap.new_eq L, (OrdinalArrayMap.runs L _).mono ?_⟩
  rintro m s rfl
  refine ⟨OrdinalArrayMap.get_eq L m, fun k => ?_⟩
  simp only [OrdinalArrayMap.containsKey, OrdinalArrayMap.get_eq L, ok_bind]

example := C36_ordinal_array_map (V := Nat) (ordering_lawful debug64).1

omit [DecidableEq K] in
/-- C36: with any other `S` neither `new` nor `from_iter` compiles, so no such map exists. -/
theorem C36_wrong_size (L : Lawful c I n) {S : Nat} (hS : S ≠ n) (ps : List (K × V)) :
    OrdinalArrayMap.new V I S = .error .compileError ∧
    OrdinalArrayMap.fromIter I S ps = .error .compileError := by
  have : OrdinalArrayMap.new V I S = .error .compileError := by
    simp only [OrdinalArrayMap.new, OrdinalTotalArrayMap.new, OrdinalTotalArrayMap.assertS_wrong L hS,
      error_bind]
  refine ⟨this, ?_⟩
  simp only [OrdinalArrayMap.fromIter, this, error_bind]

example := C36_wrong_size (ordering_lawful debug64).1 (S := 2) (by decide) [(.gt, "x")]

/-- C37: `retain` on every reachable `OrdinalArrayMap`, for every stateful closure: it calls `f` on the
present keys in ordinal order as `retainSpec` does; if a call panics, so does `retain`; otherwise the
map is as `retainSpec` says, under every further history. -/
theorem C37_retain (L : Lawful c I n) (f : K → V → ρ → R (Bool × V × ρ)) (r : ρ) :
    ∃ s, OrdinalArrayMap.new V I n = .ok s ∧
      RunsLike (OrdinalArrayMap.step c I) (MapSpec.step I n) s (fun _ => none) (fun m s =>
        (∀ e, retainSpec f (values I n) m r = .error e → OrdinalArrayMap.retain c I s f r = .error e) ∧
        ∀ m' r', retainSpec f (values I n) m r = .ok (m', r') →
          ∃ s', OrdinalArrayMap.retain c I s f r = .ok (s', r') ∧
            (∀ k, OrdinalArrayMap.get I s' k = .ok (m' k)) ∧
            RunsLike (OrdinalArrayMap.step c I) (MapSpec.step I n) s' m') := by
  refine ⟨_, OrdinalArrayMap.new_eq L, (OrdinalArrayMap.runs L _).mono ?_⟩
  rintro m s rfl
  rw [OrdinalArrayMap.retain_eq L]
  constructor
  · intro e h; rw [h]; rfl
  · intro m' r' h
    rw [h]
    exact ⟨_, rfl, OrdinalArrayMap.get_eq L m', (OrdinalArrayMap.runs L m').mono fun _ _ _ => trivial⟩

example := C37_retain (ordering_lawful debug64).1 (fun k v (r : Nat) => .ok (k != .eq, v + r, r + 1)) 7

/-- What `retainSpec` does for a closure that decides without state or panic: a present key keeps the
changed value iff accepted, and absent keys stay absent. -/
theorem C37_spec_meaning (L : Lawful c I n) (m : K → Option V) (keep : K → V → Bool) (g : K → V → V) :
    ∃ m', retainSpec (fun k v (calls : List (K × V)) => .ok (keep k v, g k v, calls ++ [(k, v)]))
        (values I n) m [] = .ok (m', pairs I n m) ∧
      ∀ k, m' k = (m k).bind fun v => if keep k v then some (g k v) else none := by
  have key : ∀ (ks : List K) (m0 : K → Option V) (calls : List (K × V)), ks.Nodup →
      (∀ k ∈ ks, m0 k = m k) →
      ∃ m', retainSpec (fun k v (calls : List (K × V)) => .ok (keep k v, g k v, calls ++ [(k, v)]))
          ks m0 calls = .ok (m', calls ++ ks.filterMap fun k => (m k).map fun v => (k, v)) ∧
        ∀ k, m' k = if k ∈ ks then (m k).bind fun v => if keep k v then some (g k v) else none else m0 k := by
    intro ks
    induction ks with
    | nil => intro m0 calls _ _; exact ⟨m0, by simp [retainSpec], by simp⟩
    | cons a ks ih =>
      intro m0 calls hn hm
      have ha := hm a (by simp)
      obtain ⟨hna, hn⟩ := List.nodup_cons.1 hn
      cases h : m a with
      | none =>
        obtain ⟨m', h1, h2⟩ := ih m0 calls hn fun k hk => hm k (by simp [hk])
        refine ⟨m', by simp [retainSpec, ha, h, h1], fun k => ?_⟩
        rw [h2 k]
        by_cases e : k = a
        · subst e; simp [hna, ha, h]
        · simp [e]
      | some v =>
        obtain ⟨m', h1, h2⟩ := ih (upd m0 a (if keep a v then some (g a v) else none)) (calls ++ [(a, v)]) hn
          fun k hk => by
            have : k ≠ a := fun e => hna (e ▸ hk)
            simp only [upd, if_neg this]; exact hm k (by simp [hk])
        refine ⟨m', by simp [retainSpec, ha, h, h1], fun k => ?_⟩
        rw [h2 k]
        by_cases e : k = a
        · subst e; simp [hna, upd, h]
        · simp [e, upd]
  obtain ⟨m', h1, h2⟩ := key (values I n) m [] (values_nodup L) fun _ _ => rfl
  refine ⟨m', by simpa [pairs] using h1, fun k => ?_⟩
  rw [h2 k, if_pos (mem_values L k)]

example := C37_spec_meaning (ordering_lawful debug64).1 (fun k => if k = .eq then none else some 5)
  (fun k _ => k = .gt) (fun _ v => v + 1)

/-- C38: every history of common operations gives the same outputs on `OrdinalMap` and
`OrdinalArrayMap`, and so does the final `into_iter()`. -/
theorem C38_equivalent (L : Lawful c I n) {sz : Nat} (hsz : n * sz ≤ 2 ^ (c.bits - 1) - 1)
    (ops : List (MapOp K V)) (ds : List Dir) :
    ∃ a os s s' xs it it', OrdinalArrayMap.new V I n = .ok a ∧
      runOps (OMap.step c I sz) (OMap.new V) ops = .ok (os, s) ∧
      runOps (OrdinalArrayMap.step c I) a ops = .ok (os, s') ∧
      (MapIntoIter.it c I).run (OMap.intoIter s) ds = .ok (xs, it) ∧
      (MapIntoIterArray.it c I).run (OrdinalArrayMap.intoIter s') ds = .ok (xs, it') := by
  obtain ⟨s, h1, h2⟩ := OMap.runs_new L hsz ops
  obtain ⟨s', h3, rfl⟩ := OrdinalArrayMap.runs L (fun _ => (none : Option V)) ops
  have h4 : Stored I n true (runSpec (MapSpec.step I n) (fun _ => none) ops).2
      (store I n (runSpec (MapSpec.step I n) (fun _ => none) ops).2) := .inl ⟨rfl, rfl⟩
  obtain ⟨it, h5, _⟩ := MapIntoIter.behaves L (h2.sview L) ds
  obtain ⟨it', h6, _⟩ := MapIntoIterArray.behaves L (h4.sview L) ds
  exact ⟨_, _, s, _, _, it, it', OrdinalArrayMap.new_eq L, h1, h3, h5, h6⟩

example := C38_equivalent (ordering_lawful debug64).1 (sz := 8) (by decide)
  [.insert .eq 5, .insert .lt 6, .remove .eq] [.back, .front]

/-! ## Concrete cases -/

/-- C27, C29, C30, C32, C33, C34: a history on `OrdinalMap<Ordering, u32>`. -/
example : Lawful debug64 orderingImpl 3 ∧ 3 * 8 ≤ 2 ^ (debug64.bits - 1) - 1 ∧
    (runOps (OMap.step debug64 orderingImpl 8) (OMap.new Nat)
      [.insert .gt 5, .insert .lt 7, .insert .gt 6]).map (·.2) = .ok [some 7, none, some 6] ∧
    (MapIter.it debug64 orderingImpl).run (OMap.iter [some 7, none, some 6]) [.back, .front, .front] =
      .ok ([some (.gt, 6), some (.lt, 7), none], ⟨2, []⟩) ∧
    (runOps (MutClient.step debug64 orderingImpl) ⟨OMap.iterMut [some 7, none, some 6], []⟩
      [.back, .write 0 1, .front, .write 0 2, .write 1 3]).map (·.2.it.mem) = .ok [some 3, none, some 2] ∧
    ((Drain.it debug64 orderingImpl).run (OMap.drain [some 7, none, some 6]) [.back]).map (·.2.mem) =
      .ok [some 7, none, none] :=
  ⟨(ordering_lawful _).1, by decide, rfl, rfl, rfl, rfl⟩

/-- C28: `contains_key` on `OrdinalMap<bool, u32>` holding only `false`. -/
example : Lawful debug64 boolImpl 2 ∧ false ≠ true ∧
    OMap.insert debug64 boolImpl 8 (OMap.new Nat) false 5 = .ok (none, [some 5, none]) ∧
    OMap.containsKey boolImpl [some 5, none] true = .ok true ∧
    OMap.get boolImpl [some 5, none] true = .ok none :=
  ⟨(bool_lawful _).1, by decide, rfl, rfl, rfl⟩

/-- C27_limit: an array map of 1 GiB values keyed by `u8` on a 32-bit target. -/
example : Lawful debug32 (u8Impl debug32) 256 ∧ 2 ^ (debug32.bits - 1) - 1 < 256 * 1073741824 :=
  ⟨(u8_lawful _).1, by decide⟩

/-- C31, C35–C38: entries, `from_iter` and `retain` on `OrdinalArrayMap<Ordering, u32, 3>`. -/
example : OrdinalArrayMap.fromIter orderingImpl 3 [(.gt, 1), (.eq, 2), (.gt, 3)] =
      .ok [none, some 2, some 3] ∧
    OrdinalArrayMap.entry orderingImpl [none, some 2, some 3] .lt = .ok (.vacant .lt 0, [none, some 2, some 3]) ∧
    (Entry.vacant Ordering.lt 0).orInsert [none, some 2, some 3] 9 = .ok (0, [some 9, some 2, some 3]) ∧
    OrdinalArrayMap.retain debug64 orderingImpl [some 9, some 2, some 3]
      (fun _ v (seen : List Nat) => .ok (v != 2, v + seen.length, seen ++ [v])) [] =
      .ok ([some 9, none, some 5], [9, 2, 3]) ∧
    (3 : Nat) ≠ 2 ∧ OrdinalArrayMap.new Nat orderingImpl 2 = .error .compileError :=
  ⟨rfl, rfl, rfl, rfl, by decide, rfl⟩

end OrdinalMap.Props
