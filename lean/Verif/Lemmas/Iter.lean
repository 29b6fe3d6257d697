import Verif.Spec
/-! # Reasoning about double-ended iterators -/

namespace OrdinalMap
variable {σ ι κ : Type}

/-- A simulation between iterator states and lists gives `BehavesLike`. -/
theorem behavesLike_of {it : DEIter σ ι} (view : List ι → σ → Prop)
    (hf : ∀ s l, view l s → ∃ s', it.next s = .ok (l.head?, s') ∧ view l.tail s')
    (hb : ∀ s l, view l s → ∃ s', it.nextBack s = .ok (l.getLast?, s') ∧ view l.dropLast s')
    {s : σ} {l : List ι} (h : view l s) : BehavesLike it s l view := by
  intro ds
  induction ds generalizing s l with
  | nil => exact ⟨s, rfl, h⟩
  | cons d ds ih =>
    have key : ∃ s', it.step s d = .ok ((Deque.step l d).1, s') ∧ view (Deque.step l d).2 s' := by
      cases d
      · exact hf s l h
      · exact hb s l h
    obtain ⟨s', h1, h2⟩ := key
    obtain ⟨s'', h3, h4⟩ := ih h2
    refine ⟨s'', ?_, h4⟩
    simp only [DEIter.run, h1, ok_bind, h3, Deque.run]

theorem BehavesLike.mono {it : DEIter σ ι} {s : σ} {l : List ι} {P Q : List ι → σ → Prop}
    (h : BehavesLike it s l P) (hPQ : ∀ l s, P l s → Q l s) : BehavesLike it s l Q := by
  intro ds
  obtain ⟨s', h1, h2⟩ := h ds
  exact ⟨s', h1, hPQ _ _ h2⟩

/-- `l[a..b]`. -/
def slice (l : List ι) (a b : Nat) : List ι := (l.take b).drop a

theorem slice_length (l : List ι) (a b : Nat) (hb : b ≤ l.length) : (slice l a b).length = b - a := by
  simp [slice]; omega

theorem slice_full (l : List ι) : slice l 0 l.length = l := by simp [slice]

theorem slice_empty (l : List ι) {a b : Nat} (h : b ≤ a) : slice l a b = [] := by
  simp [slice]; omega

theorem slice_head (l : List ι) {a b : Nat} (h : a < b) : (slice l a b).head? = l[a]? := by
  simp [slice, h]

theorem slice_tail (l : List ι) (a b : Nat) : (slice l a b).tail = slice l (a + 1) b := by
  simp [slice]

theorem slice_getLast (l : List ι) {a b : Nat} (h : a < b) (hb : b ≤ l.length) :
    (slice l a b).getLast? = l[b - 1]? := by
  rw [List.getLast?_eq_getElem?, slice_length l a b hb]
  simp only [slice, List.getElem?_drop]
  rw [List.getElem?_take_of_lt (by omega)]
  congr 1; omega

theorem slice_dropLast (l : List ι) {a b : Nat} (h : a < b) (hb : b ≤ l.length) :
    (slice l a b).dropLast = slice l a (b - 1) := by
  rw [List.dropLast_eq_take, slice_length l a b hb]
  simp only [slice, List.take_drop, List.take_take]
  congr 2; omega

theorem slice_dropLast_all (l : List ι) (a b : Nat) (hb : b ≤ l.length) :
    (slice l a b).dropLast = slice l a (b - 1) := by
  rcases Nat.lt_or_ge a b with h | h
  · exact slice_dropLast l h hb
  · rw [slice_empty l h, slice_empty l (by omega)]; rfl

end OrdinalMap
