import Verif.Lemmas.Bits
import Verif.Lemmas.Values
/-! # The sets refine mathematical sets -/

namespace OrdinalMap

variable {τ : Type} {c : Cfg} {I : OrdinalImpl τ} {n : Nat}

/-- A simulation between set states and mathematical sets gives `SetBehavesLike`. -/
theorem setBehavesLike_of {σ : Type} [DecidableEq τ] {api : SetApi σ τ} (view : (τ → Bool) → σ → Prop)
    (hc : ∀ s m x, view m s → api.contains s x = .ok (m x))
    (hi : ∀ s m x, view m s → ∃ s', api.insert s x = .ok (!m x, s') ∧
      view (fun y => if y = x then true else m y) s')
    {s : σ} {m : τ → Bool} (h : view m s) : SetBehavesLike api s m view := by
  intro ops
  induction ops generalizing s m with
  | nil => exact ⟨s, rfl, h⟩
  | cons op ops ih =>
    cases op with
    | insert x =>
      obtain ⟨s', h1, h2⟩ := hi s m x h
      obtain ⟨s'', h3, h4⟩ := ih h2
      exact ⟨s'', by simp only [SetApi.run, h1, ok_bind, h3, SetSpec.run], h4⟩
    | contains x =>
      obtain ⟨s'', h3, h4⟩ := ih h
      exact ⟨s'', by simp only [SetApi.run, hc s m x h, ok_bind, h3, SetSpec.run], h4⟩

theorem SetBehavesLike.mono {σ : Type} [DecidableEq τ] {api : SetApi σ τ} {s : σ} {m : τ → Bool}
    {P Q : (τ → Bool) → σ → Prop} (h : SetBehavesLike api s m P) (hPQ : ∀ m s, P m s → Q m s) :
    SetBehavesLike api s m Q := by
  intro ops
  obtain ⟨s', h1, h2⟩ := h ops
  exact ⟨s', h1, hPQ _ _ h2⟩

/-! ## Words -/

theorem arraySetS_eq (L : Lawful c I n) : ordinalArraySetS I = .ok (divCeil n 64) := by
  simp [ordinalArraySetS, L.size]

theorem SetRef.new_eq (L : Lawful c I n) (ws : List (BitVec 64))
    (h : ws.length = 0 ∨ ws.length = divCeil n 64) : SetRef.new c I ws = .ok ws := by
  simp only [SetRef.new, arraySetS_eq L, ok_bind]
  have : (ws.length == 0 || ws.length == divCeil n 64) = true := by
    simpa using h
  simp [this, debugAssert]

theorem SetMut.new_eq (L : Lawful c I n) (ws : List (BitVec 64))
    (h : ws.length = divCeil n 64) : SetMut.new c I ws = .ok ws := by
  simp [SetMut.new, arraySetS_eq L, h, debugAssert]

theorem SetRef.contains_eq (L : Lawful c I n) (ws : SetRef) (x : τ) :
    SetRef.contains c I ws x = .ok (wbit ws (ordOf I x)) := by
  unfold SetRef.contains wbit
  simp only [L.ordinal_eq x, ok_bind, shl64_ok c _ (mod64_lt _), and_mask _ _ (mod64_lt _)]
  cases ws[ordOf I x / 64]? <;> rfl

theorem SetMut.insert_eq (L : Lawful c I n) (ws : List (BitVec 64)) (x : τ)
    (h : ws.length = divCeil n 64) :
    ∃ ws', SetMut.insert c I ws x = .ok (!wbit ws (ordOf I x), ws') ∧ ws'.length = ws.length ∧
      ∀ j, wbit ws' j = (wbit ws j || decide (j = ordOf I x)) := by
  have hlt : ordOf I x / 64 < ws.length := by rw [h]; exact lt_divCeil (L.ord_lt x)
  have hw : ws[ordOf I x / 64]? = some ws[ordOf I x / 64] := List.getElem?_eq_getElem hlt
  refine ⟨ws.set (ordOf I x / 64) (ws[ordOf I x / 64] ||| ((1 : BitVec 64) <<< (ordOf I x % 64))), ?_,
    by simp, fun j => wbit_set _ _ _ _ hw⟩
  simp only [SetMut.insert, SetRef.new_eq L ws (.inr h), ok_bind, SetRef.contains_eq L,
    L.ordinal_eq x, shl64_ok c _ (mod64_lt _), getIdx, hw, setIdx, hlt, if_true]

/-- The bits of `ws` are the mathematical set `m`. -/
def Bits (I : OrdinalImpl τ) (m : τ → Bool) (ws : List (BitVec 64)) : Prop :=
  ∀ a, wbit ws (ordOf I a) = m a

theorem Bits.insert [DecidableEq τ] (L : Lawful c I n) {m : τ → Bool} {ws ws' : List (BitVec 64)} {x : τ}
    (h : Bits I m ws) (h' : ∀ j, wbit ws' j = (wbit ws j || decide (j = ordOf I x))) :
    Bits I (fun y => if y = x then true else m y) ws' := by
  intro a
  rw [h', h a]
  by_cases e : a = x
  · simp [e]
  · simp [e, L.ord_inj_iff]

/-! ## `Iter` -/

namespace SetIter

/-- What is left to yield. -/
def View (I : OrdinalImpl τ) (n : Nat) (ws : SetRef) (l : List τ) (s : SetIter) : Prop :=
  s.set = ws ∧ ∃ l0, OrdinalValues.View I n l0 s.iter ∧ l = l0.filter fun a => wbit ws (ordOf I a)

theorem nextLoop_view (L : Lawful c I n) (ws : SetRef) (l0 : List τ) (s : SetIter)
    (hs : s.set = ws) (h : OrdinalValues.View I n l0 s.iter) (fuel : Nat) (hf : l0.length < fuel) :
    ∃ s', nextLoop c I fuel s = .ok ((l0.filter fun a => wbit ws (ordOf I a)).head?, s') ∧
      View I n ws (l0.filter fun a => wbit ws (ordOf I a)).tail s' := by
  induction fuel generalizing l0 s with
  | zero => omega
  | succ fuel ih =>
    obtain ⟨it', h1, h2, _⟩ := OrdinalValues.next_view L s.iter l0 h
    cases l0 with
    | nil =>
      refine ⟨⟨it', s.set⟩, ?_, hs, [], h2, rfl⟩
      simp only [nextLoop, h1, ok_bind, List.head?_nil, List.filter_nil]
    | cons a l0 =>
      simp only [nextLoop, h1, ok_bind, List.head?_cons, hs, SetRef.contains_eq L]
      cases hb : wbit ws (ordOf I a) with
      | true =>
        refine ⟨⟨it', ws⟩, ?_, rfl, l0, h2, ?_⟩
        · simp [hb]
        · simp [hb]
      | false =>
        obtain ⟨s', h3, h4⟩ := ih l0 ⟨it', ws⟩ rfl h2 (by simpa using hf)
        refine ⟨s', ?_, ?_⟩
        · simp [hb, h3]
        · simpa [hb] using h4

theorem filter_append_single (p : τ → Bool) (l : List τ) (a : τ) :
    (l ++ [a]).filter p = l.filter p ++ (if p a then [a] else []) := by
  rw [List.filter_append]
  by_cases h : p a <;> simp [h]

theorem nextBackLoop_view (L : Lawful c I n) (ws : SetRef) (l0 : List τ) (s : SetIter)
    (hs : s.set = ws) (h : OrdinalValues.View I n l0 s.iter) (fuel : Nat) (hf : l0.length < fuel) :
    ∃ s', nextBackLoop c I fuel s = .ok ((l0.filter fun a => wbit ws (ordOf I a)).getLast?, s') ∧
      View I n ws (l0.filter fun a => wbit ws (ordOf I a)).dropLast s' := by
  induction fuel generalizing l0 s with
  | zero => omega
  | succ fuel ih =>
    obtain ⟨it', h1, h2⟩ := OrdinalValues.nextBack_view L s.iter l0 h
    rcases List.eq_nil_or_concat l0 with rfl | ⟨l1, a, rfl⟩
    · refine ⟨⟨it', s.set⟩, ?_, hs, [], h2, rfl⟩
      simp only [nextBackLoop, h1, ok_bind, List.getLast?_nil, List.filter_nil]
    · simp only [List.concat_eq_append] at *
      rw [List.dropLast_concat] at h2
      simp only [nextBackLoop, h1, ok_bind, List.getLast?_concat, hs, SetRef.contains_eq L,
        filter_append_single]
      cases hb : wbit ws (ordOf I a) with
      | true =>
        refine ⟨⟨it', ws⟩, ?_, rfl, l1, h2, ?_⟩
        · simp
        · simp
      | false =>
        obtain ⟨s', h3, h4⟩ := ih l1 ⟨it', ws⟩ rfl h2 (by simp at hf; omega)
        refine ⟨s', ?_, ?_⟩
        · simp [h3]
        · simpa using h4

theorem behaves (L : Lawful c I n) {ws : SetRef} {l : List τ} {s : SetIter} (h : View I n ws l s) :
    BehavesLike (it c I) s l (View I n ws) := by
  refine behavesLike_of (View I n ws) ?_ ?_ h
  · rintro s l ⟨hs, l0, h1, rfl⟩
    exact nextLoop_view L ws l0 s hs h1 _ (by rw [OrdinalValues.view_len L h1]; omega)
  · rintro s l ⟨hs, l0, h1, rfl⟩
    exact nextBackLoop_view L ws l0 s hs h1 _ (by rw [OrdinalValues.view_len L h1]; omega)

theorem sizeHint_view (L : Lawful c I n) {ws : SetRef} {l : List τ} {s : SetIter} (h : View I n ws l s) :
    (sizeHint s).1 ≤ l.length ∧ ∃ hi, (sizeHint s).2 = some hi ∧ l.length ≤ hi := by
  obtain ⟨_, l0, h1, rfl⟩ := h
  refine ⟨Nat.zero_le _, _, rfl, ?_⟩
  rw [OrdinalValues.view_len L h1]
  exact List.length_filter_le _ _

theorem new_view (L : Lawful c I n) {ws : SetRef} {m : τ → Bool} (h : Bits I m ws) :
    ∃ s, new I ws = .ok s ∧ View I n ws (elements I n m) s := by
  obtain ⟨s, h1, h2⟩ := OrdinalValues.new_view L
  refine ⟨⟨s, ws⟩, by simp [new, h1], rfl, _, h2, ?_⟩
  unfold elements
  exact List.filter_congr (fun a _ => (h a).symm)

end SetIter

/-! ## `OrdinalSet` -/

namespace OrdinalSet

/-- Representation of `m`. -/
def View (I : OrdinalImpl τ) (n : Nat) (m : τ → Bool) : OrdinalSet → Prop
  | .small w => n ≤ 64 ∧ ∀ a, w.getLsbD (ordOf I a) = m a
  | .large ws => 64 < n ∧ (ws = [] ∨ ws.length = divCeil n 64) ∧ Bits I m ws

theorem new_view (L : Lawful c I n) : ∃ s, new I = .ok s ∧ View I n (fun _ => false) s := by
  by_cases h : n ≤ 64
  · exact ⟨.small 0, by simp [new, isSmall, L.size, h], h, by simp⟩
  · exact ⟨.large [], by simp [new, isSmall, L.size, h], by omega, .inl rfl, fun a => wbit_nil _⟩

/-- `as_ref` succeeds unless the type is empty and debug assertions are on. -/
theorem asRef_view (L : Lawful c I n) {m : τ → Bool} {s : OrdinalSet} (h : View I n m s)
    (hp : 0 < n ∨ c.debugAssertions = false) :
    ∃ ws, asRef c I s = .ok ws ∧ Bits I m ws := by
  cases s with
  | small w =>
    refine ⟨[w], ?_, ?_⟩
    · simp only [asRef, isSmall, L.size, ok_bind, h.1, decide_true]
      rcases hp with hp | hp
      · refine SetRef.new_eq L _ (.inr ?_)
        have := divCeil_spec n
        have := h.1
        simp; omega
      · simp [SetRef.new, arraySetS_eq L, debugAssert, hp]
    · intro a
      have := L.ord_lt a
      have := h.1
      rw [wbit_single w (by omega)]; exact h.2 a
  | large ws =>
    obtain ⟨h1, h2, h3⟩ := h
    refine ⟨ws, ?_, h3⟩
    have : ¬ n ≤ 64 := by omega
    simp only [asRef, isSmall, L.size, ok_bind, this, decide_false]
    refine SetRef.new_eq L _ ?_
    rcases h2 with rfl | h2
    · exact .inl rfl
    · exact .inr h2

theorem contains_view (L : Lawful c I n) {m : τ → Bool} {s : OrdinalSet} (h : View I n m s) (x : τ) :
    contains c I s x = .ok (m x) := by
  obtain ⟨ws, h1, h2⟩ := asRef_view L h (.inl (L.pos x))
  simp [contains, h1, SetRef.contains_eq L, h2 x]

theorem insert_view [DecidableEq τ] (L : Lawful c I n) (hfit : n + 64 < c.M) {m : τ → Bool} {s : OrdinalSet}
    (h : View I n m s) (x : τ) : ∃ s', insert c I s x = .ok (!m x, s') ∧
      View I n (fun y => if y = x then true else m y) s' := by
  have hx := L.ord_lt x
  cases s with
  | small w =>
    obtain ⟨h1, h2⟩ := h
    have hd := divCeil_spec n
    have hlen : [w].length = divCeil n 64 := by simp; omega
    obtain ⟨ws', e1, e2, e3⟩ := SetMut.insert_eq (c := c) L [w] x hlen
    match ws', e2 with
    | [w'], _ =>
      refine ⟨.small w', ?_, h1, ?_⟩
      · simp only [insert, isSmall, L.size, ok_bind, h1, decide_true, SetMut.new_eq L _ hlen, e1,
          getIdx, List.getElem?_cons_zero, wbit_single w (show ordOf I x < 64 by omega), h2]
      · have : Bits I m [w] := fun a => by
          have := L.ord_lt a
          rw [wbit_single w (by omega)]; exact h2 a
        intro a
        have := this.insert L e3 a
        have ha := L.ord_lt a
        rwa [wbit_single w' (by omega)] at this
  | large ws =>
    obtain ⟨h1, h2, h3⟩ := h
    have hn : ¬ n ≤ 64 := by omega
    -- the words after the possible allocation
    have alloc : ∃ ws1, alloc c I ws = .ok ws1 ∧ ws1.length = divCeil n 64 ∧ Bits I m ws1 := by
      by_cases he : ws = []
      · subst he
        refine ⟨List.replicate ((n + 64 - 1) / 64) 0, ?_, ?_, ?_⟩
        · have e1 : checkedAdd c n 64 = some (n + 64) := by simp [checkedAdd]; omega
          simp [OrdinalSet.alloc, L.size, e1, subU, divU]
        · have := divCeil_spec n
          simp; omega
        · intro a; rw [wbit_replicate, ← h3 a]; rfl
      · refine ⟨ws, by simp [OrdinalSet.alloc, he], ?_, h3⟩
        rcases h2 with h2 | h2
        · exact absurd h2 he
        · exact h2
    obtain ⟨ws1, a1, a2, a3⟩ := alloc
    obtain ⟨ws', e1, e2, e3⟩ := SetMut.insert_eq (c := c) L ws1 x a2
    refine ⟨.large ws', ?_, h1, .inr (e2.trans a2), a3.insert L e3⟩
    simp only [insert, isSmall, L.size, ok_bind, hn, decide_false, a1, SetMut.new_eq L _ a2, e1, a3 x]

theorem behaves [DecidableEq τ] (L : Lawful c I n) (hfit : n + 64 < c.M) {m : τ → Bool} {s : OrdinalSet}
    (h : View I n m s) : SetBehavesLike (api c I) s m (View I n) :=
  setBehavesLike_of (View I n) (fun _ _ x h => contains_view L h x)
    (fun _ _ x h => insert_view L hfit h x) h

theorem extendLoop_view [DecidableEq τ] (L : Lawful c I n) (hfit : n + 64 < c.M) (xs : List τ) {m : τ → Bool}
    {s : OrdinalSet} (h : View I n m s) : ∃ s', extendLoop c I s xs = .ok s' ∧
      View I n (fun y => decide (y ∈ xs) || m y) s' := by
  induction xs generalizing s m with
  | nil => exact ⟨s, rfl, by simpa using h⟩
  | cons x xs ih =>
    obtain ⟨s', h1, h2⟩ := insert_view L hfit h x
    obtain ⟨s'', h3, h4⟩ := ih h2
    refine ⟨s'', by simp only [extendLoop, h1, ok_bind, h3], ?_⟩
    have : (fun y => decide (y ∈ xs) || if y = x then true else m y) =
        fun y => decide (y ∈ x :: xs) || m y := by
      funext y
      by_cases e : y = x <;> simp [e]
    rwa [this] at h4

theorem fromIter_view [DecidableEq τ] (L : Lawful c I n) (hfit : n + 64 < c.M) (xs : List τ) :
    ∃ s, fromIter c I xs = .ok s ∧ View I n (fun y => decide (y ∈ xs)) s := by
  obtain ⟨s, h1, h2⟩ := new_view (c := c) L
  obtain ⟨s', h3, h4⟩ := extendLoop_view L hfit xs h2
  exact ⟨s', by simp only [fromIter, h1, ok_bind, h3], by simpa using h4⟩

theorem iter_view (L : Lawful c I n) {m : τ → Bool} {s : OrdinalSet} (h : View I n m s)
    (hp : 0 < n ∨ c.debugAssertions = false) :
    ∃ ws it, iter c I s = .ok it ∧ SetIter.View I n ws (elements I n m) it := by
  obtain ⟨ws, h1, h2⟩ := asRef_view L h hp
  obtain ⟨it, h3, h4⟩ := SetIter.new_view L h2
  exact ⟨ws, it, by simp [iter, h1, SetRef.iter, h3], h4⟩

end OrdinalSet

/-! ## `OrdinalArraySet` -/

namespace OrdinalArraySet

/-- Representation of `m`. -/
def View (I : OrdinalImpl τ) (n : Nat) (m : τ → Bool) (ws : OrdinalArraySet) : Prop :=
  ws.length = divCeil n 64 ∧ Bits I m ws

theorem assertS_ok (L : Lawful c I n) : assertS I (divCeil n 64) = .ok () := by
  simp [assertS, arraySetS_eq L, constAssert]

theorem assertS_err (L : Lawful c I n) {S : Nat} (h : S ≠ divCeil n 64) :
    assertS I S = .error .compileError := by
  simp [assertS, arraySetS_eq L, constAssert, h]

theorem new_view (L : Lawful c I n) :
    ∃ s, new I (divCeil n 64) = .ok s ∧ View I n (fun _ => false) s :=
  ⟨List.replicate (divCeil n 64) 0, by simp [new, assertS_ok L, default], by simp,
    fun _ => wbit_replicate _ _⟩

theorem contains_view (L : Lawful c I n) {m : τ → Bool} {s : OrdinalArraySet} (h : View I n m s) (x : τ) :
    contains c I (divCeil n 64) s x = .ok (m x) := by
  simp [contains, asRef, assertS_ok L, SetRef.new_eq L s (.inr h.1), SetRef.contains_eq L, h.2 x]

theorem insert_view [DecidableEq τ] (L : Lawful c I n) {m : τ → Bool} {s : OrdinalArraySet}
    (h : View I n m s) (x : τ) : ∃ s', insert c I (divCeil n 64) s x = .ok (!m x, s') ∧
      View I n (fun y => if y = x then true else m y) s' := by
  obtain ⟨ws', e1, e2, e3⟩ := SetMut.insert_eq (c := c) L s x h.1
  refine ⟨ws', ?_, e2.trans h.1, h.2.insert L e3⟩
  simp [insert, asMut, assertS_ok L, SetMut.new_eq L _ h.1, e1, h.2 x]

theorem behaves [DecidableEq τ] (L : Lawful c I n) {m : τ → Bool} {s : OrdinalArraySet}
    (h : View I n m s) : SetBehavesLike (api c I (divCeil n 64)) s m (View I n) :=
  setBehavesLike_of (View I n) (fun _ _ x h => contains_view L h x)
    (fun _ _ x h => insert_view L h x) h

theorem extendLoop_view [DecidableEq τ] (L : Lawful c I n) (xs : List τ) {m : τ → Bool}
    {s : OrdinalArraySet} (h : View I n m s) : ∃ s', extendLoop c I (divCeil n 64) s xs = .ok s' ∧
      View I n (fun y => decide (y ∈ xs) || m y) s' := by
  induction xs generalizing s m with
  | nil => exact ⟨s, rfl, by simpa using h⟩
  | cons x xs ih =>
    obtain ⟨s', h1, h2⟩ := insert_view L h x
    obtain ⟨s'', h3, h4⟩ := ih h2
    refine ⟨s'', by simp only [extendLoop, h1, ok_bind, h3], ?_⟩
    have : (fun y => decide (y ∈ xs) || if y = x then true else m y) =
        fun y => decide (y ∈ x :: xs) || m y := by
      funext y
      by_cases e : y = x <;> simp [e]
    rwa [this] at h4

theorem fromIter_view [DecidableEq τ] (L : Lawful c I n) (xs : List τ) :
    ∃ s, fromIter c I (divCeil n 64) xs = .ok s ∧ View I n (fun y => decide (y ∈ xs)) s := by
  obtain ⟨s, h1, h2⟩ := new_view (c := c) L
  obtain ⟨s', h3, h4⟩ := extendLoop_view L xs h2
  exact ⟨s', by simp only [fromIter, h1, ok_bind, h3], by simpa using h4⟩

theorem asRef_view (L : Lawful c I n) {m : τ → Bool} {s : OrdinalArraySet} (h : View I n m s) :
    ∃ ws, asRef c I (divCeil n 64) s = .ok ws ∧ Bits I m ws :=
  ⟨s, by simp [asRef, assertS_ok L, SetRef.new_eq L s (.inr h.1)], h.2⟩

end OrdinalArraySet

/-! ## `OrdinalSet64` -/

namespace OrdinalSet64

/-- Representation of `m`: the bits below `n` are `m`, those above are clear. -/
def View (I : OrdinalImpl τ) (n : Nat) (m : τ → Bool) (w : OrdinalSet64) : Prop :=
  (∀ a, w.getLsbD (ordOf I a) = m a) ∧ ∀ i, w.getLsbD i = true → i < n

theorem assert64_ok (L : Lawful c I n) (h : n ≤ 64) : assert64 I = .ok () := by
  simp [assert64, L.size, constAssert, h]

theorem assert64_err (L : Lawful c I n) (h : 64 < n) : assert64 I = .error .compileError := by
  simp [assert64, L.size, constAssert, h]

theorem new_view (L : Lawful c I n) (h64 : n ≤ 64) :
    ∃ s, new I = .ok s ∧ View I n (fun _ => false) s :=
  ⟨0, by simp [new, assert64_ok L h64], by simp [View]⟩

theorem contains_view (L : Lawful c I n) (h64 : n ≤ 64) {m : τ → Bool} {s : OrdinalSet64}
    (h : View I n m s) (x : τ) : contains c I s x = .ok (m x) := by
  have : ordOf I x < 64 := by have := L.ord_lt x; omega
  simp only [contains, assert64_ok L h64, ok_bind, L.ordinal_eq x, shl64_ok c _ this, and_mask s _ this,
    h.1 x]

theorem View.or [DecidableEq τ] (L : Lawful c I n) (h64 : n ≤ 64) {m : τ → Bool} {s : OrdinalSet64}
    (h : View I n m s) (x : τ) :
    View I n (fun y => if y = x then true else m y) (s ||| ((1 : BitVec 64) <<< ordOf I x)) := by
  have hx := L.ord_lt x
  constructor
  · intro a
    rw [or_mask _ _ _ (by omega), h.1 a]
    by_cases e : a = x
    · simp [e]
    · simp [e, L.ord_inj_iff]
  · intro i hi
    rw [or_mask _ _ _ (by omega)] at hi
    rcases (Bool.or_eq_true _ _).mp hi with hi | hi
    · exact h.2 i hi
    · have : i = ordOf I x := by simpa using hi
      omega

theorem insert_view [DecidableEq τ] (L : Lawful c I n) (h64 : n ≤ 64) {m : τ → Bool} {s : OrdinalSet64}
    (h : View I n m s) (x : τ) : ∃ s', insert c I s x = .ok (!m x, s') ∧
      View I n (fun y => if y = x then true else m y) s' := by
  have : ordOf I x < 64 := by have := L.ord_lt x; omega
  refine ⟨_, ?_, h.or L h64 x⟩
  simp only [insert, assert64_ok L h64, ok_bind, contains_view L h64 h x, L.ordinal_eq x,
    shl64_ok c _ this]

theorem behaves [DecidableEq τ] (L : Lawful c I n) (h64 : n ≤ 64) {m : τ → Bool} {s : OrdinalSet64}
    (h : View I n m s) : SetBehavesLike (api c I) s m (View I n) :=
  setBehavesLike_of (View I n) (fun _ _ x h => contains_view L h64 h x)
    (fun _ _ x h => insert_view L h64 h x) h

theorem extendLoop_view [DecidableEq τ] (L : Lawful c I n) (h64 : n ≤ 64) (xs : List τ) {m : τ → Bool}
    {s : OrdinalSet64} (h : View I n m s) : ∃ s', extendLoop c I s xs = .ok s' ∧
      View I n (fun y => decide (y ∈ xs) || m y) s' := by
  induction xs generalizing s m with
  | nil => exact ⟨s, rfl, by simpa using h⟩
  | cons x xs ih =>
    have hx : ordOf I x < 64 := by have := L.ord_lt x; omega
    obtain ⟨s'', h3, h4⟩ := ih (h.or L h64 x)
    refine ⟨s'', by simp only [extendLoop, L.ordinal_eq x, ok_bind, shl64_ok c _ hx, h3], ?_⟩
    have : (fun y => decide (y ∈ xs) || if y = x then true else m y) =
        fun y => decide (y ∈ x :: xs) || m y := by
      funext y
      by_cases e : y = x <;> simp [e]
    rwa [this] at h4

theorem fromIter_view [DecidableEq τ] (L : Lawful c I n) (h64 : n ≤ 64) (xs : List τ) :
    ∃ s, fromIter c I xs = .ok s ∧ View I n (fun y => decide (y ∈ xs)) s := by
  obtain ⟨s, h1, h2⟩ := new_view (c := c) L h64
  obtain ⟨s', h3, h4⟩ := extendLoop_view L h64 xs h2
  exact ⟨s', by simp only [fromIter, h1, ok_bind, h3], by simpa using h4⟩

theorem View.ext (L : Lawful c I n) {m m' : τ → Bool} {s t : OrdinalSet64}
    (hs : View I n m s) (ht : View I n m' t) (h : ∀ a, m a = m' a) : s = t := by
  apply BitVec.eq_of_getLsbD_eq
  intro i _
  by_cases hi : i < n
  · obtain ⟨a, _, ha⟩ := L.exists_ord hi
    rw [← ha, hs.1 a, ht.1 a, h a]
  · have h1 : s.getLsbD i = false := by
      cases hb : s.getLsbD i with
      | false => rfl
      | true => exact absurd (hs.2 i hb) hi
    have h2 : t.getLsbD i = false := by
      cases hb : t.getLsbD i with
      | false => rfl
      | true => exact absurd (ht.2 i hb) hi
    rw [h1, h2]

theorem all_view (L : Lawful c I n) (h : n < 64) : ∃ s, all c I = .ok s ∧ View I n (fun _ => true) s := by
  have hval : ((1 : BitVec 64) <<< n).toNat = 2 ^ n := by
    have : 2 ^ n < 2 ^ 64 := Nat.pow_lt_pow_right (by decide) h
    simp [BitVec.toNat_shiftLeft, Nat.shiftLeft_eq, Nat.mod_eq_of_lt this]
  have hpos : 1 ≤ 2 ^ n := Nat.one_le_two_pow
  have hle : (1 : BitVec 64).toNat ≤ ((1 : BitVec 64) <<< n).toNat := by rw [hval]; exact hpos
  have hbit : ∀ i, (((1 : BitVec 64) <<< n) - 1).getLsbD i = decide (i < n) := by
    intro i
    rw [BitVec.getLsbD, BitVec.toNat_sub_of_le (BitVec.le_def.2 hle), hval]
    have : (1 : BitVec 64).toNat = 1 := rfl
    rw [this, Nat.testBit_two_pow_sub_one]
  refine ⟨((1 : BitVec 64) <<< n) - 1, ?_, ?_, ?_⟩
  · simp only [all, assert64_ok L (Nat.le_of_lt h), ok_bind, L.size, shl64_ok c _ h, sub64, hle, if_true]
  · intro a; rw [hbit]; simp [L.ord_lt a]
  · intro i hi; rw [hbit] at hi; simpa using hi

end OrdinalSet64

/-! ## `Iter64` -/

namespace Iter64

/-- What is left to yield. -/
def View (I : OrdinalImpl τ) (n : Nat) (l : List τ) (w : Iter64) : Prop :=
  (∀ i, w.getLsbD i = true → i < n) ∧ l = (values I n).filter fun a => w.getLsbD (ordOf I a)

theorem view_of_set {m : τ → Bool} {w : OrdinalSet64} (h : OrdinalSet64.View I n m w) :
    View I n (elements I n m) w :=
  ⟨h.2, List.filter_congr (fun a _ => (h.1 a).symm)⟩

theorem bitsOf_view (L : Lawful c I n) (h64 : n ≤ 64) {l : List τ} {w : Iter64} (h : View I n l w) :
    bitsOf w = l.map (ordOf I) := by
  obtain ⟨h1, rfl⟩ := h
  have hr : List.range 64 = List.range n ++ (List.range (64 - n)).map (n + ·) := by
    rw [← List.range_add]; congr 1; omega
  rw [bitsOf, hr, List.filter_append]
  have : ((List.range (64 - n)).map (n + ·)).filter (fun i => w.getLsbD i) = [] := by
    rw [List.filter_eq_nil_iff]
    intro a ha hb
    have := h1 a hb
    rw [List.mem_map] at ha
    obtain ⟨k, _, rfl⟩ := ha
    omega
  rw [this, List.append_nil, ← values_ords L, List.filter_map]
  rfl

theorem view_clear (L : Lawful c I n) (h64 : n ≤ 64) {l : List τ} {w : Iter64} (h : View I n l w)
    (x : τ) : View I n (l.filter fun a => !decide (ordOf I a = ordOf I x))
      (w &&& ~~~((1 : BitVec 64) <<< ordOf I x)) := by
  have hx := L.ord_lt x
  obtain ⟨h1, rfl⟩ := h
  constructor
  · intro i hi
    rw [andNot_mask _ _ _ (by omega)] at hi
    exact h1 i (by simp at hi; exact hi.1)
  · rw [List.filter_filter]
    apply List.filter_congr
    intro a _
    rw [andNot_mask _ _ _ (by omega), Bool.and_comm]

theorem view_sorted (L : Lawful c I n) {l : List τ} {w : Iter64} (h : View I n l w) :
    l.Pairwise fun a b => ordOf I a < ordOf I b := by
  rw [h.2]; exact (values_sorted L).filter _

theorem next_view (L : Lawful c I n) (h64 : n ≤ 64) (w : Iter64) (l : List τ) (h : View I n l w) :
    ∃ w', next c I w = .ok (l.head?, w') ∧ View I n l.tail w' := by
  have hb := bitsOf_view L h64 h
  have hs := view_sorted L h
  cases l with
  | nil =>
    refine ⟨w, ?_, h⟩
    have : trailingZeros w = 64 := by rw [trailingZeros_eq, hb]; rfl
    simp [next, this]
  | cons a l =>
    have ha : ordOf I a < 64 := by have := L.ord_lt a; omega
    have ht : trailingZeros w = ordOf I a := by rw [trailingZeros_eq, hb]; rfl
    refine ⟨w &&& ~~~((1 : BitVec 64) <<< ordOf I a), ?_, ?_⟩
    · have : ordOf I a ≠ 64 := by omega
      simp only [next, ht, this, if_false, shl64_ok c _ ha, ok_bind, L.from_ord, unwrap_some,
        List.head?_cons]
    · have := view_clear L h64 h a
      rw [List.filter_cons_of_neg (by simp)] at this
      have e : l.filter (fun b => !decide (ordOf I b = ordOf I a)) = l := by
        rw [List.filter_eq_self]
        intro b hb
        have := (List.pairwise_cons.1 hs).1 b hb
        simp; omega
      rwa [e] at this

theorem nextBack_view (L : Lawful c I n) (h64 : n ≤ 64) (w : Iter64) (l : List τ) (h : View I n l w) :
    ∃ w', nextBack c I w = .ok (l.getLast?, w') ∧ View I n l.dropLast w' := by
  have hb := bitsOf_view L h64 h
  have hs := view_sorted L h
  rcases List.eq_nil_or_concat l with rfl | ⟨l, a, rfl⟩
  · refine ⟨w, ?_, h⟩
    have : leadingZeros w = 64 := by rw [leadingZeros_eq, hb]; rfl
    simp [nextBack, this, checkedSub]
  · simp only [List.concat_eq_append] at *
    have ha : ordOf I a < 64 := by have := L.ord_lt a; omega
    have ht : leadingZeros w = 63 - ordOf I a := by
      rw [leadingZeros_eq, hb]
      simp
    refine ⟨w &&& ~~~((1 : BitVec 64) <<< ordOf I a), ?_, ?_⟩
    · have : checkedSub 63 (63 - ordOf I a) = some (ordOf I a) := by
        simp [checkedSub]; omega
      simp only [nextBack, ht, this, shl64_ok c _ ha, ok_bind, L.from_ord, unwrap_some,
        List.getLast?_concat]
    · have := view_clear L h64 h a
      rw [List.dropLast_concat]
      rw [List.filter_append, List.filter_cons_of_neg (by simp), List.filter_nil, List.append_nil] at this
      have e : l.filter (fun b => !decide (ordOf I b = ordOf I a)) = l := by
        rw [List.filter_eq_self]
        intro b hb
        have := (List.pairwise_append.1 hs).2.2 b hb a (by simp)
        simp; omega
      rwa [e] at this

theorem behaves (L : Lawful c I n) (h64 : n ≤ 64) {l : List τ} {w : Iter64} (h : View I n l w) :
    BehavesLike (it c I) w l (View I n) :=
  behavesLike_of (View I n) (next_view L h64) (nextBack_view L h64) h

theorem len_view (L : Lawful c I n) (h64 : n ≤ 64) {l : List τ} {w : Iter64} (h : View I n l w) :
    len w = l.length := by
  rw [len, countOnes_eq, bitsOf_view L h64 h, List.length_map]

end Iter64
end OrdinalMap
