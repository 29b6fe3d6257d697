import Verif.Lemmas.Values
import Verif.Lemmas.NonZero
import Verif.Lemmas.Leaf
/-!
# C16, C17, C53: `Ordinal::all_values` / `OrdinalValues`
-/

namespace OrdinalMap.Props
open OrdinalMap

variable {α : Type} {c : Cfg} {I : OrdinalImpl α} {n : Nat}

/-- What "every value exactly once in increasing ordinal order" means for the list `values I n`
used in the statements below: it is complete, duplicate-free, strictly increasing, and has
`ORDINAL_SIZE` elements. -/
theorem C16_values_spec (L : Lawful c I n) :
    (∀ a, a ∈ values I n) ∧ (values I n).Nodup ∧ (values I n).length = n ∧
    (values I n).Pairwise (fun a b => ∃ i j, I.ordinal a = .ok i ∧ I.ordinal b = .ok j ∧ i < j) :=
  ⟨mem_values L, values_nodup L, values_length L,
    (values_sorted L).imp fun h => ⟨_, _, L.ordinal_eq _, L.ordinal_eq _, h⟩⟩

example := C16_values_spec (i8_lawful release32).1

/-- C16: `all_values()` never panics and, under any interleaving of `next`/`next_back`, behaves
like a deque of all values in ordinal order. -/
theorem C16_all_values (L : Lawful c I n) :
    ∃ s, OrdinalValues.new I = .ok s ∧ BehavesLike (OrdinalValues.iter I) s (values I n) := by
  obtain ⟨s, h1, h2⟩ := OrdinalValues.new_view L
  exact ⟨s, h1, (OrdinalValues.behaves L h2).mono fun _ _ _ => trivial⟩

example := C16_all_values (char_lawful debug64)

/-- C17: after any sequence of calls, `len`, both bounds of `size_hint`, and `count` are the number
of values left, and `last` is the last value left. -/
theorem C17_len_hint_count_last (L : Lawful c I n) :
    ∃ s, OrdinalValues.new I = .ok s ∧ BehavesLike (OrdinalValues.iter I) s (values I n)
      (fun rest s => OrdinalValues.len s = rest.length ∧
        OrdinalValues.sizeHint s = (rest.length, some rest.length) ∧
        OrdinalValues.count s = rest.length ∧ OrdinalValues.last I s = .ok rest.getLast?) := by
  obtain ⟨s, h1, h2⟩ := OrdinalValues.new_view L
  refine ⟨s, h1, (OrdinalValues.behaves L h2).mono fun rest s h => ?_⟩
  have hl := OrdinalValues.view_len L h
  refine ⟨hl, ?_, hl, OrdinalValues.last_view L h⟩
  unfold OrdinalValues.sizeHint
  exact Prod.ext hl (congrArg some hl)

example := C17_len_hint_count_last (char_lawful debug32)

/-- C53: `Debug` after any sequence of calls.  The back end is untouched iff the last value left is
the last value of the type. -/
theorem C53_debug (L : Lawful c I n) (show_ : α → String) :
    ∃ s, OrdinalValues.new I = .ok s ∧ BehavesLike (OrdinalValues.iter I) s (values I n)
      (fun rest s =>
        (rest = [] → OrdinalValues.debug I show_ s = .ok "[]") ∧
        (∀ first more, rest = first :: more → rest.getLast? = (values I n).getLast? →
          OrdinalValues.debug I show_ s = .ok ("[" ++ show_ first ++ "..]")) ∧
        (∀ x, rest = [x] → rest.getLast? ≠ (values I n).getLast? →
          OrdinalValues.debug I show_ s = .ok ("[" ++ show_ x ++ "]")) ∧
        (∀ first mid last, rest = first :: (mid ++ [last]) →
          rest.getLast? ≠ (values I n).getLast? →
          OrdinalValues.debug I show_ s = .ok ("[" ++ show_ first ++ "..=" ++ show_ last ++ "]"))) := by
  obtain ⟨s, h1, h2⟩ := OrdinalValues.new_view L
  refine ⟨s, h1, (OrdinalValues.behaves L h2).mono fun rest s h => ?_⟩
  rw [OrdinalValues.debug_view L show_ h]
  have hs := OrdinalValues.stop_iff L h
  refine ⟨?_, ?_, ?_, ?_⟩
  · rintro rfl; rfl
  · rintro first more rfl hl
    simp [(hs (by simp)).2 hl]
  · rintro x rfl hl
    have : s.stop ≠ n := fun e => hl ((hs (by simp)).1 e)
    simp [this]
  · rintro first mid last rfl hl
    have : s.stop ≠ n := fun e => hl ((hs (by simp)).1 e)
    simp [this]

example := C53_debug (ordering_lawful debug64).1 fun | .lt => "lt" | .eq => "eq" | .gt => "gt"

/-- The hypothesis is met by `i8`; for `Ordering`, one `next_back` then one `next`. -/
example : Lawful debug64 (i8Impl debug64) 256 ∧ values orderingImpl 3 = [.lt, .eq, .gt] ∧
    (OrdinalValues.iter orderingImpl).run ⟨0, 3⟩ [.back, .front, .front, .back] =
      .ok ([some .gt, some .lt, some .eq, none], ⟨2, 2⟩) ∧
    OrdinalValues.debug orderingImpl (fun _ => "x") ⟨0, 2⟩ = .ok "[x..=x]" :=
  ⟨(i8_lawful _).1, by decide, by decide, by decide⟩

end OrdinalMap.Props
