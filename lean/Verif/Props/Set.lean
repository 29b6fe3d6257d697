import Verif.Lemmas.Set
import Verif.Lemmas.Leaf
import Verif.Lemmas.Composite
import Verif.Lemmas.NonZero
/-!
# C18–C26: sets

`SetBehavesLike api s m obs` (Spec.lean): every history of `insert`/`contains` on `s` succeeds and
answers exactly what the mathematical set `m` answers, and `obs` holds afterwards between the
mathematical set and the state.
-/

namespace OrdinalMap.Props
open OrdinalMap

variable {τ : Type} {c : Cfg} {I : OrdinalImpl τ} {n : Nat} [DecidableEq τ]

/-- What the mathematical set of the statements below is: `x` is in it after a history iff it was
there at the start or the history inserts it. -/
theorem C18_spec_meaning (m : τ → Bool) (ops : List (SetOp τ)) (x : τ) :
    (SetSpec.run m ops).2 x = true ↔ m x = true ∨ .insert x ∈ ops := by
  induction ops generalizing m with
  | nil => simp [SetSpec.run]
  | cons op ops ih =>
    cases op with
    | insert y =>
      simp only [SetSpec.run, ih, List.mem_cons, SetOp.insert.injEq]
      by_cases e : x = y
      · simp [e]
      · simp [e]
    | contains y => simp [SetSpec.run, ih]

example := C18_spec_meaning (fun x : Bool => x) [.insert false, .contains true] false

/-- C18: `OrdinalSet` from `new()`, `default()` or `from_iter` behaves like a mathematical set under
every history, without panicking, whenever `ORDINAL_SIZE + 64` fits in `usize`. -/
theorem C18_ordinal_set (L : Lawful c I n) (hfit : n + 64 < c.M) :
    (∃ s, OrdinalSet.new I = .ok s ∧ OrdinalSet.default I = .ok s ∧
      SetBehavesLike (OrdinalSet.api c I) s (fun _ => false)) ∧
    ∀ xs, ∃ s, OrdinalSet.fromIter c I xs = .ok s ∧
      SetBehavesLike (OrdinalSet.api c I) s (fun x => decide (x ∈ xs)) := by
  constructor
  · obtain ⟨s, h1, h2⟩ := OrdinalSet.new_view L
    exact ⟨s, h1, h1, (OrdinalSet.behaves L hfit h2).mono fun _ _ _ => trivial⟩
  · intro xs
    obtain ⟨s, h1, h2⟩ := OrdinalSet.fromIter_view L hfit xs
    exact ⟨s, h1, (OrdinalSet.behaves L hfit h2).mono fun _ _ _ => trivial⟩

example := C18_ordinal_set (u8_lawful debug32).1 (by decide)

omit [DecidableEq τ] in
/-- C18, the size limit is sharp: beyond it the first `insert` panics (in the `checked_add`). -/
theorem C18_limit (L : Lawful c I n) (hbig : c.M ≤ n + 64) (x : τ) :
    ∃ s, OrdinalSet.new I = .ok s ∧ OrdinalSet.insert c I s x = .error .panic := by
  have hM : 4294967296 ≤ c.M := c.M_ge
  have hn : ¬ n ≤ 64 := by omega
  refine ⟨.large [], by simp [OrdinalSet.new, OrdinalSet.isSmall, L.size, hn], ?_⟩
  have : checkedAdd c n 64 = none := by simp [checkedAdd]; omega
  simp [OrdinalSet.insert, OrdinalSet.isSmall, L.size, hn, OrdinalSet.alloc, this, unwrap]

example := C18_limit (nzU64_lawful release64 rfl).1 (by decide) ⟨5, by decide⟩

/-- C19: `OrdinalArraySet<T, S>` with the right `S`. -/
theorem C19_ordinal_array_set (L : Lawful c I n) :
    ∃ S, ordinalArraySetS I = .ok S ∧
    (∃ s, OrdinalArraySet.new I S = .ok s ∧ OrdinalArraySet.default S = .ok s ∧
      SetBehavesLike (OrdinalArraySet.api c I S) s (fun _ => false)) ∧
    ∀ xs, ∃ s, OrdinalArraySet.fromIter c I S xs = .ok s ∧
      SetBehavesLike (OrdinalArraySet.api c I S) s (fun x => decide (x ∈ xs)) := by
  refine ⟨_, arraySetS_eq L, ?_, ?_⟩
  · obtain ⟨s, h1, h2⟩ := OrdinalArraySet.new_view L
    refine ⟨s, h1, ?_, (OrdinalArraySet.behaves L h2).mono fun _ _ _ => trivial⟩
    rw [← h1]; simp [OrdinalArraySet.new, OrdinalArraySet.assertS_ok L]
  · intro xs
    obtain ⟨s, h1, h2⟩ := OrdinalArraySet.fromIter_view L xs
    exact ⟨s, h1, (OrdinalArraySet.behaves L h2).mono fun _ _ _ => trivial⟩

example := C19_ordinal_array_set (char_lawful debug64)

omit [DecidableEq τ] in
/-- C19, any other `S`: every operation is a compile error, except `default()` and `clone()`. -/
theorem C19_wrong_S (L : Lawful c I n) (S : Nat) (hS : ordinalArraySetS I ≠ .ok S) :
    OrdinalArraySet.new I S = .error .compileError ∧
    (∀ xs, OrdinalArraySet.fromIter c I S xs = .error .compileError) ∧
    (∀ s x, OrdinalArraySet.contains c I S s x = .error .compileError) ∧
    (∀ s x, OrdinalArraySet.insert c I S s x = .error .compileError) ∧
    (∀ s, OrdinalArraySet.asRef c I S s = .error .compileError) := by
  rw [arraySetS_eq L] at hS
  have := OrdinalArraySet.assertS_err L (S := S) (fun e => hS (by rw [e]))
  simp [OrdinalArraySet.new, OrdinalArraySet.fromIter, OrdinalArraySet.contains,
    OrdinalArraySet.insert, OrdinalArraySet.asRef, OrdinalArraySet.asMut, this]

example := C19_wrong_S (u8_lawful debug64).1 5 (by decide)

/-- C20: `OrdinalSet64<T>` with at most 64 values. -/
theorem C20_ordinal_set64 (L : Lawful c I n) (h64 : n ≤ 64) :
    (∃ s, OrdinalSet64.new I = .ok s ∧
      SetBehavesLike (OrdinalSet64.api c I) s (fun _ => false)) ∧
    ∀ xs, ∃ s, OrdinalSet64.fromIter c I xs = .ok s ∧
      SetBehavesLike (OrdinalSet64.api c I) s (fun x => decide (x ∈ xs)) := by
  constructor
  · obtain ⟨s, h1, h2⟩ := OrdinalSet64.new_view L h64
    exact ⟨s, h1, (OrdinalSet64.behaves L h64 h2).mono fun _ _ _ => trivial⟩
  · intro xs
    obtain ⟨s, h1, h2⟩ := OrdinalSet64.fromIter_view L h64 xs
    exact ⟨s, h1, (OrdinalSet64.behaves L h64 h2).mono fun _ _ _ => trivial⟩

example := C20_ordinal_set64 (ordering_lawful debug64).1 (by decide)

omit [DecidableEq τ] in
/-- C20, more than 64 values: every operation is a compile error. -/
theorem C20_too_large (L : Lawful c I n) (h : 64 < n) :
    OrdinalSet64.new I = .error .compileError ∧
    OrdinalSet64.all c I = .error .compileError ∧
    (∀ xs, OrdinalSet64.fromIter c I xs = .error .compileError) ∧
    (∀ s x, OrdinalSet64.contains c I s x = .error .compileError) ∧
    (∀ s x, OrdinalSet64.insert c I s x = .error .compileError) ∧
    (∀ s, OrdinalSet64.iter I s = .error .compileError) := by
  simp [OrdinalSet64.new, OrdinalSet64.all, OrdinalSet64.fromIter, OrdinalSet64.contains,
    OrdinalSet64.insert, OrdinalSet64.iter, OrdinalSet64.assert64_err L h]

example := C20_too_large (u8_lawful debug64).1 (by decide)

/-- C21: after any history on a set collected from any items (none: `new()`), `iter()` succeeds
and behaves like a deque of the elements in increasing ordinal order, with `size_hint` bracketing
what is left after any sequence of calls.  That no call runs out of fuel is included. -/
theorem C21_iter (L : Lawful c I n) (hpos : 0 < n) (hfit : n + 64 < c.M) (xs : List τ) :
    ∃ s, OrdinalSet.fromIter c I xs = .ok s ∧
      SetBehavesLike (OrdinalSet.api c I) s (fun x => decide (x ∈ xs)) (fun m s =>
        ∃ it, OrdinalSet.iter c I s = .ok it ∧
          BehavesLike (SetIter.it c I) it (elements I n m) (fun rest it =>
            (SetIter.sizeHint it).1 ≤ rest.length ∧
            ∃ hi, (SetIter.sizeHint it).2 = some hi ∧ rest.length ≤ hi)) := by
  obtain ⟨s, h1, h2⟩ := OrdinalSet.fromIter_view L hfit xs
  refine ⟨s, h1, (OrdinalSet.behaves L hfit h2).mono fun m s h => ?_⟩
  obtain ⟨ws, it, h3, h4⟩ := OrdinalSet.iter_view L h (.inl hpos)
  exact ⟨it, h3, (SetIter.behaves L h4).mono fun _ _ h => SetIter.sizeHint_view L h⟩

example := C21_iter (u8_lawful debug64).1 (by decide) (by decide) [⟨200, by decide⟩, ⟨7, by decide⟩]

omit [DecidableEq τ] in
/-- What `elements` is: exactly the members, once each, in strictly increasing ordinal order. -/
theorem C21_elements_spec (L : Lawful c I n) (m : τ → Bool) :
    (∀ a, a ∈ elements I n m ↔ m a = true) ∧ (elements I n m).Nodup ∧
    (elements I n m).Pairwise (fun a b => ∃ i j, I.ordinal a = .ok i ∧ I.ordinal b = .ok j ∧ i < j) := by
  refine ⟨fun a => ?_, (values_nodup L).filter _, ?_⟩
  · simp [elements, mem_values L a]
  · exact ((values_sorted L).filter _).imp fun h => ⟨_, _, L.ordinal_eq _, L.ordinal_eq _, h⟩

example := C21_elements_spec (u8_lawful debug64).1 fun x => x.1 % 7 == 3

/-- The `OrdinalSet64` values reachable through the public API. -/
inductive Reach64 (c : Cfg) (I : OrdinalImpl τ) : OrdinalSet64 → Prop
  | new {s} : OrdinalSet64.new I = .ok s → Reach64 c I s
  | fromIter {s} (xs) : OrdinalSet64.fromIter c I xs = .ok s → Reach64 c I s
  | all {s} : OrdinalSet64.all c I = .ok s → Reach64 c I s
  | clone {s} : Reach64 c I s → Reach64 c I s.clone
  | insert {s s'} (x b) : Reach64 c I s → OrdinalSet64.insert c I s x = .ok (b, s') → Reach64 c I s'

omit [DecidableEq τ] in
/-- `all()` at exactly 64 values: the shift overflows. -/
theorem C23_exact_64 (L : Lawful c I 64) :
    OrdinalSet64.all c I = if c.overflowChecks then .error .panic else .ok 0 := by
  simp only [OrdinalSet64.all, OrdinalSet64.assert64_ok L (Nat.le_refl _), ok_bind, L.size, shl64]
  cases c.overflowChecks <;> rfl

theorem reach64_view (L : Lawful c I n) {s : OrdinalSet64} (h : Reach64 c I s) :
    n ≤ 64 ∧ ∃ m, OrdinalSet64.View I n m s := by
  have hn : n ≤ 64 := by
    rcases Nat.lt_or_ge 64 n with hlt | hge
    · exfalso
      obtain ⟨e1, e2, e3, e4, e5, e6⟩ := C20_too_large L hlt
      induction h with
      | new h => rw [e1] at h; cases h
      | fromIter xs h => rw [e3] at h; cases h
      | all h => rw [e2] at h; cases h
      | clone _ ih => exact ih
      | insert _ _ _ _ ih => exact ih
    · exact hge
  refine ⟨hn, ?_⟩
  induction h with
  | new h =>
    obtain ⟨s', h1, h2⟩ := OrdinalSet64.new_view L hn
    rw [h1] at h; cases h; exact ⟨_, h2⟩
  | fromIter xs h =>
    obtain ⟨s', h1, h2⟩ := OrdinalSet64.fromIter_view L hn xs
    rw [h1] at h; cases h; exact ⟨_, h2⟩
  | all h =>
    rcases Nat.lt_or_ge n 64 with hlt | hge
    · obtain ⟨s', h1, h2⟩ := OrdinalSet64.all_view L hlt
      rw [h1] at h; cases h; exact ⟨_, h2⟩
    · have : n = 64 := by omega
      subst this
      rw [C23_exact_64 L] at h
      cases hc : c.overflowChecks
      · rw [hc] at h; cases h; exact ⟨fun _ => false, by simp [OrdinalSet64.View]⟩
      · rw [hc] at h; cases h
  | clone _ ih => exact ih
  | insert x b _ h ih =>
    obtain ⟨m, hm⟩ := ih
    obtain ⟨s', h1, h2⟩ := OrdinalSet64.insert_view L hn hm x
    rw [h1] at h; cases h; exact ⟨_, h2⟩

/-- C22: `iter()` on any reachable `OrdinalSet64` behaves like a deque of exactly the values it
`contains`, in increasing ordinal order, with `len` and `size_hint` exact after every call. -/
theorem C22_iter64 (L : Lawful c I n) {s : OrdinalSet64} (h : Reach64 c I s) :
    ∃ m, (∀ x, OrdinalSet64.contains c I s x = .ok (m x)) ∧
      ∃ it, OrdinalSet64.iter I s = .ok it ∧
        BehavesLike (Iter64.it c I) it (elements I n m) (fun rest it =>
          Iter64.len it = rest.length ∧ Iter64.sizeHint it = (rest.length, some rest.length)) := by
  obtain ⟨hn, m, hm⟩ := reach64_view L h
  refine ⟨m, OrdinalSet64.contains_view L hn hm, s, by simp [OrdinalSet64.iter, OrdinalSet64.assert64_ok L hn], ?_⟩
  refine (Iter64.behaves L hn (Iter64.view_of_set hm)).mono fun rest it h => ?_
  have := Iter64.len_view L hn h
  exact ⟨this, by simp [Iter64.sizeHint, this]⟩

example := C22_iter64 (ordering_lawful debug64).1 (.fromIter [.gt, .lt] rfl : Reach64 debug64 orderingImpl 5)

omit [DecidableEq τ] in
/-- C23 for fewer than 64 values: `all()` contains everything.  Missing: exactly 64 values, where
the property is false (`C23_false`). -/
theorem C23_all_partial (L : Lawful c I n) (h : n < 64) :
    ∃ s, OrdinalSet64.all c I = .ok s ∧ ∀ x, OrdinalSet64.contains c I s x = .ok true := by
  obtain ⟨s, h1, h2⟩ := OrdinalSet64.all_view L h
  exact ⟨s, h1, fun x => OrdinalSet64.contains_view L (by omega) h2 x⟩

example := C23_all_partial (ordering_lawful debug64).1 (by decide)

theorem bool6_lawful (c : Cfg) : Lawful c (arrayImpl c 6 boolImpl) 64 := by
  have : 2 ^ 6 < c.M := by have := c.M_ge; omega
  exact array_lawful (bool_lawful c).1 this

example := C23_exact_64 (bool6_lawful release32)

/-- C23 is false: `[bool; 6]` has 64 values; with overflow checks `all()` panics, without them it is
a set that contains nothing. -/
theorem C23_false : ∃ (T : Type) (I : Cfg → OrdinalImpl T), Nonempty T ∧ (∀ c, Lawful c (I c) 64) ∧
    (∀ c : Cfg, c.overflowChecks = true → OrdinalSet64.all c (I c) = .error .panic) ∧
    (∀ c : Cfg, c.overflowChecks = false → ∃ s, OrdinalSet64.all c (I c) = .ok s ∧
      ∀ x, OrdinalSet64.contains c (I c) s x = .ok false) := by
  refine ⟨Arr Bool 6, fun c => arrayImpl c 6 boolImpl, ⟨List.replicate 6 true, rfl⟩, bool6_lawful, ?_, ?_⟩
  · intro c h; rw [C23_exact_64 (bool6_lawful c), h]; rfl
  · intro c h
    refine ⟨0, by rw [C23_exact_64 (bool6_lawful c), h]; rfl, fun x => ?_⟩
    exact OrdinalSet64.contains_view (bool6_lawful c) (Nat.le_refl _)
      (m := fun _ => false) (by simp [OrdinalSet64.View]) x

/-- C24: equality of reachable sets is extensional. -/
theorem C24_eq (L : Lawful c I n) {s t : OrdinalSet64} (hs : Reach64 c I s) (ht : Reach64 c I t) :
    OrdinalSet64.eq s t = true ↔
      ∀ x, OrdinalSet64.contains c I s x = OrdinalSet64.contains c I t x := by
  obtain ⟨hn, m, hm⟩ := reach64_view L hs
  obtain ⟨_, m', hm'⟩ := reach64_view L ht
  constructor
  · intro h x
    have : s = t := by simpa [OrdinalSet64.eq] using h
    rw [this]
  · intro h
    have : s = t := hm.ext L hm' fun a => by
      have := h a
      rw [OrdinalSet64.contains_view L hn hm, OrdinalSet64.contains_view L hn hm'] at this
      simpa using this
    simp [OrdinalSet64.eq, this]

example := C24_eq (ordering_lawful debug64).1 (.fromIter [.gt, .lt] rfl : Reach64 debug64 orderingImpl 5)
  (.new rfl : Reach64 debug64 orderingImpl 0)

omit [DecidableEq τ] in
/-- C25 is false with debug assertions: `OrdinalSet::<T>::new().iter()` panics for uninhabited `T`. -/
theorem C25_false (L : Lawful c I 0) (hd : c.debugAssertions = true) :
    ∃ s, OrdinalSet.new I = .ok s ∧ OrdinalSet.iter c I s = .error .panic := by
  refine ⟨.small 0, by simp [OrdinalSet.new, OrdinalSet.isSmall, L.size], ?_⟩
  simp [OrdinalSet.iter, OrdinalSet.asRef, OrdinalSet.isSmall, L.size, SetRef.new, arraySetS_eq L,
    debugAssert, hd, divCeil]

example := C25_false (infallible_lawful debug64).1 rfl

omit [DecidableEq τ] in
/-- C25 in builds without debug assertions.  Missing: the other builds, where it is false. -/
theorem C25_release_partial (L : Lawful c I 0) (hd : c.debugAssertions = false) :
    ∃ s it, OrdinalSet.new I = .ok s ∧ OrdinalSet.iter c I s = .ok it ∧
      BehavesLike (SetIter.it c I) it [] := by
  obtain ⟨s, h1, h2⟩ := OrdinalSet.new_view L
  obtain ⟨ws, it, h3, h4⟩ := OrdinalSet.iter_view L h2 (.inr hd)
  exact ⟨s, it, h1, h3, (SetIter.behaves L h4).mono fun _ _ _ => trivial⟩

example := C25_release_partial (infallible_lawful release64).1 rfl

/-- C26: the three sets give the same answers to every history, and `OrdinalSet` and
`OrdinalSet64` then iterate identically under every sequence of calls. -/
theorem C26_agree (L : Lawful c I n) (hpos : 0 < n) (h64 : n ≤ 64) (ops : List (SetOp τ)) :
    ∃ s a w, OrdinalSet.new I = .ok s ∧ OrdinalArraySet.new I 1 = .ok a ∧ OrdinalSet64.new I = .ok w ∧
    ∃ bs s' a' w', (OrdinalSet.api c I).run s ops = .ok (bs, s') ∧
      (OrdinalArraySet.api c I 1).run a ops = .ok (bs, a') ∧
      (OrdinalSet64.api c I).run w ops = .ok (bs, w') ∧
      ∃ it it64, OrdinalSet.iter c I s' = .ok it ∧ OrdinalSet64.iter I w' = .ok it64 ∧
        ∀ ds, ∃ os jt jt64, (SetIter.it c I).run it ds = .ok (os, jt) ∧
          (Iter64.it c I).run it64 ds = .ok (os, jt64) := by
  have hM : 4294967296 ≤ c.M := c.M_ge
  have hS : divCeil n 64 = 1 := by have := divCeil_spec n; omega
  obtain ⟨s, s1, s2⟩ := OrdinalSet.new_view L
  obtain ⟨a, a1, a2⟩ := OrdinalArraySet.new_view L
  obtain ⟨w, w1, w2⟩ := OrdinalSet64.new_view L h64
  obtain ⟨s', s3, s4⟩ := OrdinalSet.behaves (c := c) L (by omega) s2 ops
  obtain ⟨a', a3, _⟩ := OrdinalArraySet.behaves (c := c) L a2 ops
  obtain ⟨w', w3, w4⟩ := OrdinalSet64.behaves (c := c) L h64 w2 ops
  rw [hS] at a1 a3
  obtain ⟨ws, it, i1, i2⟩ := OrdinalSet.iter_view L s4 (.inl hpos)
  refine ⟨s, a, w, s1, a1, w1, _, s', a', w', s3, a3, w3, it, w', i1,
    by simp [OrdinalSet64.iter, OrdinalSet64.assert64_ok L h64], fun ds => ?_⟩
  obtain ⟨jt, j1, _⟩ := SetIter.behaves (c := c) L i2 ds
  obtain ⟨jt64, j2, _⟩ := Iter64.behaves (c := c) L h64 (Iter64.view_of_set w4) ds
  exact ⟨_, jt, jt64, j1, j2⟩

example := C26_agree (ordering_lawful debug64).1 (by decide) (by decide) [.insert .gt, .contains .lt, .insert .gt]

/-- Concrete cases.  `u8` has 256 values, so its `OrdinalSet` is of the `Large` kind and its
`OrdinalArraySet` has four words; 200 lies in the last of them. -/
example : Lawful debug64 (u8Impl debug64) 256 ∧ 256 + 64 < debug64.M ∧
    (OrdinalSet.api debug64 (u8Impl debug64)).run (.large [])
      [.insert ⟨200, by decide⟩, .insert ⟨200, by decide⟩, .contains ⟨199, by decide⟩,
        .contains ⟨200, by decide⟩] =
      .ok ([true, false, false, true], .large [0, 0, 0, 256]) ∧
    OrdinalArraySet.fromIter debug64 (u8Impl debug64) 4 [⟨63, by decide⟩, ⟨64, by decide⟩] =
      .ok [0x8000000000000000, 1, 0, 0] ∧
    OrdinalArraySet.new (u8Impl debug64) 3 = .error .compileError :=
  ⟨(u8_lawful _).1, by decide, by rfl, by rfl, by rfl⟩

/-- Iterating `{Less, Greater}` from both ends; `all()` for 3 values. -/
example : Lawful release32 orderingImpl 3 ∧
    OrdinalSet64.fromIter release32 orderingImpl [.gt, .lt, .gt] = .ok 5 ∧
    (Iter64.it release32 orderingImpl).run 5 [.back, .front, .back] =
      .ok ([some .gt, some .lt, none], 0) ∧
    (SetIter.it release32 orderingImpl).run ⟨⟨0, 3⟩, [5]⟩ [.front, .front, .front] =
      .ok ([some .lt, some .gt, none], ⟨⟨3, 3⟩, [5]⟩) ∧
    OrdinalSet64.all release32 orderingImpl = .ok 7 ∧ Reach64 release32 orderingImpl 7 :=
  ⟨(ordering_lawful _).1, by rfl, by rfl, by rfl, by rfl, .all (by rfl)⟩

/-- `Infallible` in a debug build (C25), and a lawful type beyond the limit of C18: `NonZeroUsize`. -/
example : Lawful debug64 infallibleImpl 0 ∧ debug64.debugAssertions = true ∧
    release64.debugAssertions = false ∧
    Lawful debug32 (nzUsizeImpl debug32) (debug32.M - 1) ∧ debug32.M ≤ debug32.M - 1 + 64 :=
  ⟨(infallible_lawful _).1, rfl, rfl, (nzUsize_lawful _).1, by decide⟩

end OrdinalMap.Props
