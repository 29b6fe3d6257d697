import Verif.Model.Values
import Verif.Lemmas.Iter
import Verif.Lemmas.Lawful
/-! # `OrdinalValues` is a deque -/

namespace OrdinalMap.OrdinalValues
variable {α : Type} {c : Cfg} {I : OrdinalImpl α} {n : Nat}

/-- Representation: the range is a slice of the values. -/
def View (I : OrdinalImpl α) (n : Nat) (l : List α) (s : OrdinalValues) : Prop :=
  s.start ≤ s.stop ∧ s.stop ≤ n ∧ l = slice (values I n) s.start s.stop

theorem view_len (L : Lawful c I n) {l : List α} {s : OrdinalValues} (h : View I n l s) :
    len s = l.length := by
  obtain ⟨h1, h2, rfl⟩ := h
  rw [slice_length _ _ _ (by rw [values_length L]; exact h2), len, Range.len]
  split <;> omega

theorem next_view (L : Lawful c I n) (s : OrdinalValues) (l : List α) (h : View I n l s) :
    ∃ s', next I s = .ok (l.head?, s') ∧ View I n l.tail s' ∧ s'.stop = s.stop := by
  obtain ⟨h1, h2, rfl⟩ := h
  unfold next Range.next
  rcases Nat.lt_or_ge s.start s.stop with hlt | hge
  · obtain ⟨a, e1, e2, _⟩ := values_getElem L s.start (by omega)
    refine ⟨⟨s.start + 1, s.stop⟩, ?_, ⟨?_, h2, slice_tail _ _ _⟩, rfl⟩
    · simp only [hlt, if_true, e2, ok_bind, unwrap_some, slice_head _ hlt, e1]
    · dsimp only; omega
  · refine ⟨s, ?_, ⟨h1, h2, ?_⟩, rfl⟩
    · simp [show ¬ s.start < s.stop by omega, slice_empty _ hge]
    · rw [slice_empty _ hge]; rfl

theorem nextBack_view (L : Lawful c I n) (s : OrdinalValues) (l : List α) (h : View I n l s) :
    ∃ s', nextBack I s = .ok (l.getLast?, s') ∧ View I n l.dropLast s' := by
  obtain ⟨h1, h2, rfl⟩ := h
  have hl := values_length L
  unfold nextBack Range.nextBack
  rcases Nat.lt_or_ge s.start s.stop with hlt | hge
  · obtain ⟨a, e1, e2, _⟩ := values_getElem L (s.stop - 1) (by omega)
    refine ⟨⟨s.start, s.stop - 1⟩, ?_, ⟨?_, ?_, slice_dropLast _ hlt (by omega)⟩⟩
    · simp only [hlt, if_true, e2, ok_bind, unwrap_some, slice_getLast (values I n) hlt (by omega), e1]
    · dsimp only; omega
    · dsimp only; omega
  · refine ⟨s, ?_, ⟨h1, h2, ?_⟩⟩
    · simp [show ¬ s.start < s.stop by omega, slice_empty _ hge]
    · rw [slice_empty _ hge]; rfl

theorem new_view (L : Lawful c I n) : ∃ s, new I = .ok s ∧ View I n (values I n) s := by
  refine ⟨⟨0, n⟩, by simp [new, L.size], by simp, by simp, ?_⟩
  have := slice_full (values I n)
  rw [values_length L] at this
  exact this.symm

theorem behaves (L : Lawful c I n) {s : OrdinalValues} {l : List α} (h : View I n l s) :
    BehavesLike (iter I) s l (View I n) := by
  refine behavesLike_of (View I n) ?_ ?_ h
  · intro s l h
    obtain ⟨s', h1, h2, _⟩ := next_view L s l h
    exact ⟨s', h1, h2⟩
  · exact nextBack_view L

theorem last_view (L : Lawful c I n) {s : OrdinalValues} {l : List α} (h : View I n l s) :
    last I s = .ok l.getLast? := by
  obtain ⟨s', h1, _⟩ := nextBack_view L s l h
  simp [last, h1]

/-- `Debug` in terms of what is left and whether the back end was touched. -/
theorem debug_view (L : Lawful c I n) (show_ : α → String) {s : OrdinalValues} {l : List α}
    (h : View I n l s) : debug I show_ s = .ok (
      match l with
      | [] => "[]"
      | first :: rest =>
        if s.stop = n then "[" ++ show_ first ++ "..]"
        else match rest.getLast? with
          | none => "[" ++ show_ first ++ "]"
          | some last => "[" ++ show_ first ++ "..=" ++ show_ last ++ "]") := by
  obtain ⟨s', h1, h2, h3⟩ := next_view L s l h
  cases l with
  | nil => simp only [debug, clone, h1, ok_bind, List.head?_nil]
  | cons a l =>
    obtain ⟨s'', h4, _⟩ := nextBack_view L s' l h2
    simp only [debug, clone, h1, ok_bind, List.head?_cons, L.size, h4]
    split
    · rfl
    · cases l.getLast? <;> rfl

theorem stop_iff (L : Lawful c I n) {s : OrdinalValues} {l : List α} (h : View I n l s) (hl : l ≠ []) :
    s.stop = n ↔ l.getLast? = (values I n).getLast? := by
  obtain ⟨h1, h2, rfl⟩ := h
  have hv := values_length L
  have hlt : s.start < s.stop := by
    rcases Nat.lt_or_ge s.start s.stop with h | h
    · exact h
    · exact absurd (slice_empty _ h) hl
  rw [slice_getLast (values I n) hlt (by omega), List.getLast?_eq_getElem?, hv]
  obtain ⟨a, e1, _, o1⟩ := values_getElem L (s.stop - 1) (by omega)
  obtain ⟨b, e2, _, o2⟩ := values_getElem L (n - 1) (by omega)
  rw [e1, e2]
  constructor
  · intro h; rw [h] at o1; rw [L.ord_inj (o1.trans o2.symm)]
  · intro h
    have : a = b := by simpa using h
    rw [this] at o1; omega

end OrdinalMap.OrdinalValues
