import Verif.Model.Tests
import Verif.Lemmas.Lawful
/-! # Lemmas about the test programs -/

namespace OrdinalMap.Tests
open OrdinalMap

theorem bind_ok {α β : Type} {a : R α} {f : α → R β} {y : β} :
    (a >>= f) = .ok y ↔ ∃ x, a = .ok x ∧ f x = .ok y := by
  cases a with
  | error e => constructor
               · intro h; cases h
               · rintro ⟨x, h, _⟩; cases h
  | ok x => exact ⟨fun h => ⟨x, rfl, h⟩, by rintro ⟨_, h, h'⟩; cases h; exact h'⟩

theorem unwrap_ok {α : Type} {o : Option α} {a : α} : unwrap o = .ok a ↔ o = some a := by
  cases o <;> simp [unwrap]

theorem check_ok {p : Prop} {u : Unit} : check p = .ok u ↔ p := by
  unfold check; split <;> simp_all

theorem forEach_ok {ι : Type} {f : ι → R Unit} {l : List ι} {u : Unit} :
    forEach f l = .ok u ↔ ∀ x ∈ l, f x = .ok () := by
  induction l with
  | nil => simp [forEach]
  | cons x l ih =>
    simp only [forEach, bind_ok, ih, List.mem_cons, forall_eq_or_imp]
    exact ⟨fun ⟨_, h⟩ => h, fun h => ⟨(), h⟩⟩

theorem onlyIf_ok {b : Prop} [Decidable b] {f : R Unit} {u : Unit} : onlyIf b f = .ok u ↔ (b → f = .ok ()) := by
  unfold onlyIf; split <;> simp_all

/-- Neighbours are increasing. -/
def Adjacent {α : Type} (lt : α → α → Prop) (l : List α) : Prop :=
  ∀ i a b, l[i]? = some a → l[i + 1]? = some b → lt a b

theorem adjacent_iff {α : Type} {lt : α → α → Prop} {l : List α} :
    (∀ p ∈ l.zip (l.drop 1), lt p.1 p.2) ↔ Adjacent lt l := by
  constructor
  · intro h i a b ha hb
    have : (l.zip (l.drop 1))[i]? = some (a, b) := by
      rw [List.getElem?_zip_eq_some]; simp [ha, hb]
    exact h _ (List.mem_of_getElem? this)
  · rintro h ⟨a, b⟩ hp
    obtain ⟨i, hi⟩ := List.getElem?_of_mem hp
    rw [List.getElem?_zip_eq_some] at hi
    rw [List.getElem?_drop, Nat.add_comm] at hi
    exact h i a b hi.1 hi.2

theorem adjacent_pairwise {α : Type} {lt : α → α → Prop} (tr : ∀ a b c, lt a b → lt b c → lt a c)
    {l : List α} (h : Adjacent lt l) : l.Pairwise lt := by
  induction l with
  | nil => exact .nil
  | cons a l ih =>
    have h' : Adjacent lt l := fun i x y hx hy => h (i + 1) x y (by simpa using hx) (by simpa using hy)
    refine List.pairwise_cons.2 ⟨fun b hb => ?_, ih h'⟩
    match l, hb with
    | x :: l, hb =>
      have hx : lt a x := h 0 a x rfl rfl
      rcases List.mem_cons.1 hb with rfl | hb
      · exact hx
      · exact tr _ _ _ hx ((List.pairwise_cons.1 (ih h')).1 b hb)

theorem pairwise_adjacent {α : Type} {lt : α → α → Prop} {l : List α} (h : l.Pairwise lt) : Adjacent lt l := by
  intro i a b ha hb
  obtain ⟨h1, rfl⟩ := List.getElem?_eq_some_iff.1 ha
  obtain ⟨h2, rfl⟩ := List.getElem?_eq_some_iff.1 hb
  exact List.pairwise_iff_getElem.1 h _ _ h1 h2 (by omega)

section
variable {α : Type} {c : Cfg} {I : OrdinalImpl α}

/-- `from_ordinal` and `ordinal` follow the list. -/
def Follows (I : OrdinalImpl α) (l : List α) : Prop :=
  ∀ i a, l[i]? = some a → I.fromOrdinal i = .ok (some a) ∧ I.ordinal a = .ok i

theorem testOrdinalValue_ok {a : α} {u : Unit} :
    testOrdinalValue I a = .ok u ↔ ∃ i, I.ordinal a = .ok i ∧ I.fromOrdinal i = .ok (some a) := by
  unfold testOrdinalValue
  simp only [bind_ok, unwrap_ok, check_ok]
  constructor
  · rintro ⟨i, h1, o, h2, b, rfl, rfl⟩; exact ⟨i, h1, h2⟩
  · rintro ⟨i, h1, h2⟩; exact ⟨i, h1, _, h2, a, rfl, rfl⟩

/-- What `test_ordinal_some` checks. -/
def SomeGood (c : Cfg) (I : OrdinalImpl α) (n : Nat) : Prop :=
  (0 < n → ∀ i, i = 0 ∨ i = n - 1 → ∃ a, I.fromOrdinal i = .ok (some a) ∧
    ∃ j, I.ordinal a = .ok j ∧ I.fromOrdinal j = .ok (some a)) ∧
  I.fromOrdinal n = .ok none ∧ (n < usizeMax c → I.fromOrdinal (usizeMax c) = .ok none)

theorem testOrdinalSome_ok {u : Unit} :
    testOrdinalSome c I = .ok u ↔ ∃ n, I.size = .ok n ∧ SomeGood c I n := by
  unfold testOrdinalSome SomeGood
  simp only [bind_ok, onlyIf_ok, unwrap_ok, check_ok, testOrdinalValue_ok]
  refine exists_congr fun n => and_congr_right fun _ => ?_
  constructor
  · rintro ⟨-, h1, o, h2, -, rfl, h3⟩
    refine ⟨fun hn i hi => ?_, h2, fun hm => ?_⟩
    · obtain ⟨o, e1, a, rfl, -, e2, o', e3, a', rfl, e4⟩ := h1 hn
      rcases hi with rfl | rfl
      · exact ⟨a, e1, e2⟩
      · exact ⟨a', e3, e4⟩
    · obtain ⟨o, e1, rfl⟩ := h3 hm
      exact e1
  · rintro ⟨h1, h2, h3⟩
    refine ⟨(), fun hn => ?_, _, h2, (), rfl, fun hm => ⟨_, h3 hm, rfl⟩⟩
    obtain ⟨a, e1, e2⟩ := h1 hn 0 (.inl rfl)
    obtain ⟨a', e3, e4⟩ := h1 hn _ (.inr rfl)
    exact ⟨_, e1, a, rfl, (), e2, _, e3, a', rfl, e4⟩

theorem collect_follows {l : List α} (h : Follows I l) (k : Nat) (acc : List α) :
    ∀ fuel, l.length - k < fuel →
    ∃ s, (OrdinalValues.iter I).tryFold (γ := Empty) (fun l x => .ok (l ++ [x])) fuel ⟨k, l.length⟩ acc =
      .ok (.ok (acc ++ l.drop k), s) := by
  intro fuel
  induction fuel generalizing k acc with
  | zero => intro h; omega
  | succ fuel ih =>
    intro hf
    simp only [DEIter.tryFold, OrdinalValues.iter, OrdinalValues.next, Range.next]
    by_cases hk : k < l.length
    · have hg : l[k]? = some l[k] := List.getElem?_eq_getElem hk
      have hf' := (h k _ hg).1
      simp only [hk, if_true]
      obtain ⟨s, hs⟩ := ih (k + 1) (acc ++ [l[k]]) (by omega)
      refine ⟨s, ?_⟩
      rw [hf']
      simp only [unwrap]
      show (DEIter.tryFold _ _ fuel _ _ : R _) = _
      rw [List.drop_eq_getElem_cons hk]
      simpa [OrdinalValues.iter] using hs
    · simp only [hk, if_false]
      refine ⟨⟨k, l.length⟩, ?_⟩
      rw [List.drop_eq_nil_of_le (by omega), List.append_nil]
      rfl

theorem testOrdinal_ok {lt : α → α → Prop} {l : List α} {u : Unit} :
    testOrdinal c I lt l = .ok u ↔ Adjacent lt l ∧ I.size = .ok l.length ∧ Follows I l ∧
      I.fromOrdinal l.length = .ok none ∧ (l.length < usizeMax c → I.fromOrdinal (usizeMax c) = .ok none) := by
  unfold testOrdinal
  simp only [bind_ok, unwrap_ok, check_ok, forEach_ok, testOrdinalSome_ok, adjacent_iff]
  constructor
  · rintro ⟨-, h1, n, h2, -, rfl, s, h3, vs, h4, -, rfl, -, h5, o, h6, -, rfl, n, h7, h8⟩
    rw [h2] at h7; cases h7
    refine ⟨h1, h2, fun i a ha => ?_, h8.2⟩
    have hi : i < l.length := (List.getElem?_eq_some_iff.1 ha).1
    obtain ⟨o, e1, t, rfl, b, e2, -, rfl, j, e3, rfl⟩ := h5 i (List.mem_range.2 hi)
    rw [ha] at e2; cases e2
    exact ⟨e1, e3⟩
  · rintro ⟨h1, h2, h3, h4, h5⟩
    have hs : OrdinalValues.new I = .ok ⟨0, l.length⟩ := by simp [OrdinalValues.new, h2]
    obtain ⟨s, hc⟩ := collect_follows h3 0 [] (l.length + 1) (by omega)
    have hf : ∀ i, i < l.length → ∃ a, l[i]? = some a ∧ I.fromOrdinal i = .ok (some a) ∧ I.ordinal a = .ok i := by
      intro i hi
      have := List.getElem?_eq_getElem hi
      exact ⟨_, this, h3 _ _ this⟩
    refine ⟨(), h1, _, h2, (), rfl, _, hs, l, ?_, (), rfl, (), ?_, _, h4, (), rfl, _, h2, ?_, h4, h5⟩
    · simp only [DEIter.collect, hc]; rfl
    · intro i hi
      obtain ⟨a, e1, e2, e3⟩ := hf i (List.mem_range.1 hi)
      exact ⟨_, e2, a, rfl, a, e1, (), rfl, i, e3, rfl⟩
    · intro hn i hi
      obtain ⟨a, e1, e2, e3⟩ := hf i (by omega)
      exact ⟨a, e2, i, e3, e2⟩

/-- An increasing list with as many elements as the type has values is the list of all values. -/
theorem follows_of_sorted {n : Nat} (L : Lawful c I n) {lt : α → α → Prop} (O : OrdCompat lt I) {l : List α}
    (h : Adjacent lt l) (hl : l.length = n) : Follows I l := by
  have O := (ordCompat_iff L lt).1 O
  -- the `i`-th ordinal is at least `i`, and at most `i` counting from the end
  have lo : ∀ i a, l[i]? = some a → i ≤ ordOf I a := by
    intro i
    induction i with
    | zero => intro a _; exact Nat.zero_le _
    | succ i ih =>
      intro a ha
      have hi := (List.getElem?_eq_some_iff.1 ha).1
      have e := List.getElem?_eq_getElem (show i < l.length by omega)
      have h1 := ih _ e
      have h2 := (O _ _).1 (h i _ _ e ha)
      omega
  have hi : ∀ d i a, l[i]? = some a → i + d + 1 = n → ordOf I a + d + 1 ≤ n := by
    intro d
    induction d with
    | zero => intro i a _ _; have := L.ord_lt a; omega
    | succ d ih =>
      intro i a ha e
      have e' := List.getElem?_eq_getElem (show i + 1 < l.length by omega)
      have h1 := ih _ _ e' (by omega)
      have h2 := (O _ _).1 (h i _ _ ha e')
      omega
  intro i a ha
  have hil := (List.getElem?_eq_some_iff.1 ha).1
  have h1 := lo i a ha
  have h2 := hi (n - 1 - i) i a ha (by omega)
  have e : ordOf I a = i := by omega
  exact ⟨by rw [← e]; exact L.from_ord a, by rw [← e]; exact L.ordinal_eq a⟩

theorem exactSize_ok {σ ι : Type} {E : ESIter σ ι} {s : σ} {l : List ι}
    (h : BehavesLike E.toDEIter s l E.LenExact) : testExactSizeIterator E s = .ok () := by
  have next : ∀ {s l}, BehavesLike E.toDEIter s l E.LenExact →
      E.len s = l.length ∧ ∃ s', E.next s = .ok (l.head?, s') ∧ BehavesLike E.toDEIter s' l.tail E.LenExact := by
    intro s l h
    obtain ⟨s0, h0, h1⟩ := h []
    simp [DEIter.run] at h0
    obtain ⟨-, rfl⟩ := h0
    refine ⟨h1, ?_⟩
    obtain ⟨s1, h2, -⟩ := h [.front]
    simp only [DEIter.run, DEIter.step, bind_ok] at h2
    obtain ⟨⟨o, s'⟩, h3, h4⟩ := h2
    obtain ⟨_, h4, h5⟩ := h4
    cases h4
    simp only [Deque.run, Deque.step, Except.ok.injEq, Prod.mk.injEq, List.cons.injEq, and_true] at h5
    obtain ⟨rfl, rfl⟩ := h5
    refine ⟨s', h3, fun ds => ?_⟩
    obtain ⟨s2, h6, h7⟩ := h (.front :: ds)
    simp only [DEIter.run, DEIter.step, h3, bind_ok] at h6
    obtain ⟨_, e1, ⟨os, s3⟩, e2, e3⟩ := h6
    cases e1
    simp only [Deque.run, Deque.step, Except.ok.injEq, Prod.mk.injEq, List.cons.injEq, true_and] at e3
    obtain ⟨rfl, rfl⟩ := e3
    exact ⟨s3, e2, h7⟩
  have loop : ∀ k {s l}, l.length = k → BehavesLike E.toDEIter s l E.LenExact →
      ∃ s', exactSizeLoop E k s = .ok s' ∧ BehavesLike E.toDEIter s' [] E.LenExact := by
    intro k
    induction k with
    | zero =>
      intro s l hl h
      cases l with
      | nil => exact ⟨s, rfl, h⟩
      | cons => simp at hl
    | succ k ih =>
      intro s l hl h
      obtain ⟨h1, s', h2, h3⟩ := next h
      match l, hl with
      | a :: l, hl =>
        obtain ⟨s'', h4, h5⟩ := ih (by simpa using hl) h3
        refine ⟨s'', ?_, h5⟩
        simp only [exactSizeLoop, bind_ok, check_ok]
        exact ⟨(), by omega, _, h2, (), rfl, h4⟩
  obtain ⟨h1, -⟩ := next h
  obtain ⟨s', h2, h3⟩ := loop _ h1.symm h
  obtain ⟨h4, s'', h5, -⟩ := next h3
  simp only [testExactSizeIterator, bind_ok, check_ok]
  exact ⟨s', h2, (), h4.symm, _, h5, rfl⟩

end

/-! ## The controls -/

section
variable {K V : Type} [DecidableEq K]

theorem hget_hinsert (m : List (K × V)) (k : K) (v : V) (k' : K) :
    hget (hinsert m k v).2 k' = if k' = k then some v else hget m k' := by
  unfold hget hinsert
  by_cases h : k' = k
  · subst h; simp
  · rw [if_neg h, List.find?_cons_of_neg (by simpa using Ne.symm h)]
    congr 1
    induction m with
    | nil => rfl
    | cons p m ih =>
      by_cases hp : p.1 = k
      · rw [List.filter_cons_of_neg (by simpa using hp), ih, List.find?_cons_of_neg (by simpa [hp] using Ne.symm h)]
      · rw [List.filter_cons_of_pos (by simpa using hp), List.find?_cons, List.find?_cons, ih]

/-- Each key at most once. -/
def HNodup (m : List (K × V)) : Prop := (m.map (·.1)).Nodup

theorem hnodup_hinsert {m : List (K × V)} (h : HNodup m) (k : K) (v : V) : HNodup (hinsert m k v).2 := by
  unfold HNodup hinsert
  simp only [List.map_cons, List.nodup_cons]
  refine ⟨by simp, ?_⟩
  exact (List.Sublist.map _ List.filter_sublist).nodup h

theorem mem_iff_hget {m : List (K × V)} (h : HNodup m) (k : K) (v : V) : (k, v) ∈ m ↔ hget m k = some v := by
  induction m with
  | nil => simp [hget]
  | cons p m ih =>
    obtain ⟨k', v'⟩ := p
    simp only [HNodup, List.map_cons, List.nodup_cons] at h
    have ih := ih h.2
    by_cases e : k' = k
    · subst e
      simp only [hget, List.find?_cons, decide_true, Option.map_some, List.mem_cons, Prod.mk.injEq, true_and,
        Option.some.injEq]
      constructor
      · rintro (rfl | hm)
        · rfl
        · exact absurd (List.mem_map_of_mem (f := (·.1)) hm) h.1
      · rintro rfl; exact .inl rfl
    · have : hget ((k', v') :: m) k = hget m k := by simp [hget, e]
      rw [this, ← ih]
      simp [Ne.symm e]

end
end OrdinalMap.Tests
