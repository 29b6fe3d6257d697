import Verif.Spec
/-! # Consequences of `Lawful` -/

namespace OrdinalMap
variable {α : Type} {c : Cfg} {I : OrdinalImpl α} {n : Nat}

/-- The ordinal as a plain number (0 if `ordinal` faults, which lawful impls never do). -/
def ordOf (I : OrdinalImpl α) (a : α) : Nat :=
  match I.ordinal a with
  | .ok i => i
  | .error _ => 0

theorem ordOf_eq {a : α} {i : Nat} (h : I.ordinal a = .ok i) : ordOf I a = i := by
  simp [ordOf, h]

namespace Lawful

theorem ordinal_eq (L : Lawful c I n) (a : α) : I.ordinal a = .ok (ordOf I a) := by
  obtain ⟨i, _, h, _⟩ := L.ordinal a
  simp [ordOf, h]

theorem ord_lt (L : Lawful c I n) (a : α) : ordOf I a < n := by
  obtain ⟨i, h1, h, _⟩ := L.ordinal a
  simpa [ordOf, h] using h1

theorem from_ord (L : Lawful c I n) (a : α) : I.fromOrdinal (ordOf I a) = .ok (some a) := by
  obtain ⟨i, _, h, h2⟩ := L.ordinal a
  simpa [ordOf, h] using h2

theorem ord_inj (L : Lawful c I n) {a b : α} (h : ordOf I a = ordOf I b) : a = b := by
  have h1 := L.from_ord a
  have h2 := L.from_ord b
  rw [h, h2] at h1
  simpa using h1.symm

theorem ord_inj_iff (L : Lawful c I n) {a b : α} : ordOf I a = ordOf I b ↔ a = b :=
  ⟨L.ord_inj, fun h => by rw [h]⟩

theorem exists_ord (L : Lawful c I n) {i : Nat} (h : i < n) :
    ∃ a, I.fromOrdinal i = .ok (some a) ∧ ordOf I a = i := by
  obtain ⟨a, h1, h2⟩ := L.fromOrdinal i h
  exact ⟨a, h1, by simp [ordOf, h2]⟩

theorem pos (L : Lawful c I n) (a : α) : 0 < n := by have := L.ord_lt a; omega

/-- Two lawful descriptions have the same size. -/
theorem size_unique {m : Nat} (L : Lawful c I n) (L' : Lawful c I m) : n = m := by
  have := L.size.symm.trans L'.size
  simpa using this

end Lawful

theorem ordCompat_iff (L : Lawful c I n) (lt : α → α → Prop) :
    OrdCompat lt I ↔ ∀ a b, lt a b ↔ ordOf I a < ordOf I b := by
  constructor
  · intro h a b
    obtain ⟨i, j, h1, h2, h3⟩ := h a b
    simpa [ordOf, h1, h2] using h3
  · intro h a b
    exact ⟨_, _, L.ordinal_eq a, L.ordinal_eq b, h a b⟩

/-! ## `values` -/

theorem values_succ_aux (L : Lawful c I n) (m : Nat) (h : m ≤ n) :
    ∃ l : List α, (values I m = l ∧ l.length = m) ∧ l.map (ordOf I) = List.range m := by
  induction m with
  | zero => exact ⟨[], ⟨rfl, rfl⟩, rfl⟩
  | succ m ih =>
    obtain ⟨l, ⟨h1, h2⟩, h3⟩ := ih (by omega)
    obtain ⟨a, e1, e2⟩ := L.exists_ord (show m < n by omega)
    refine ⟨l ++ [a], ⟨?_, by simp [h2]⟩, ?_⟩
    · rw [values, List.range_succ, List.filterMap_append]
      rw [values] at h1
      rw [h1]; simp [e1]
    · rw [List.map_append, h3, List.range_succ]; simp [e2]

theorem values_ords (L : Lawful c I n) : (values I n).map (ordOf I) = List.range n := by
  obtain ⟨l, ⟨h1, _⟩, h3⟩ := values_succ_aux L n (Nat.le_refl n)
  rw [h1, h3]

@[simp] theorem values_length (L : Lawful c I n) : (values I n).length = n := by
  have := congrArg List.length (values_ords L)
  simpa using this

theorem values_getElem (L : Lawful c I n) (i : Nat) (h : i < n) :
    ∃ a, (values I n)[i]? = some a ∧ I.fromOrdinal i = .ok (some a) ∧ ordOf I a = i := by
  have hl := values_length L
  have h2 : ((values I n).map (ordOf I))[i]? = some i := by
    rw [values_ords L]; simp [h]
  rw [List.getElem?_map, Option.map_eq_some_iff] at h2
  obtain ⟨a, h3, h4⟩ := h2
  refine ⟨a, h3, ?_, h4⟩
  rw [← h4]; exact L.from_ord a

theorem values_ord (L : Lawful c I n) (a : α) : (values I n)[ordOf I a]? = some a := by
  obtain ⟨b, h1, _, h3⟩ := values_getElem L _ (L.ord_lt a)
  rw [h1, L.ord_inj h3]

theorem mem_values (L : Lawful c I n) (a : α) : a ∈ values I n :=
  List.mem_of_getElem? (values_ord L a)

theorem values_nodup (L : Lawful c I n) : (values I n).Nodup := by
  have h : ((values I n).map (ordOf I)).Nodup := by
    rw [values_ords L]; exact List.nodup_range
  exact List.Pairwise.of_map (ordOf I) (fun a b hab e => hab (by rw [e])) h

theorem values_sorted (L : Lawful c I n) :
    (values I n).Pairwise fun a b => ordOf I a < ordOf I b := by
  have h : ((values I n).map (ordOf I)).Pairwise (· < ·) := by
    rw [values_ords L]; exact List.pairwise_lt_range
  exact List.pairwise_map.1 h

end OrdinalMap
