import Verif.Lemmas.ArrayOwn
import Verif.Lemmas.Leaf
/-!
# C46–C48: `ArrayBuilder`, `array_from_iter`, `array_as_mut`

`Outcome.returned = none` means the function unwound with a panic; `Outcome.dropped` lists the values
whose destructor ran.  A fault `ub` (reading or dropping an uninitialised cell) would make the result
an `.error`, so `= .ok _` below includes memory safety.
-/

namespace OrdinalMap.Props
open OrdinalMap

/-- C46, `array_from_iter`: whatever the iterator yields and however it ends, each item taken from
it is either in the returned array or dropped exactly once, and no uninitialised cell is touched.
An item is taken unless `S + 1` items came before it. -/
theorem C46_array_from_iter {T : Type} (S : Nat) (items : List T) (e : IterEnd) :
    ∃ o, arrayFromIterOutcome S items e = .ok o ∧
      ((o.returned.getD []) ++ o.dropped).Perm (items.take (S + 1)) := by
  rw [arrayFromIterOutcome_spec]
  by_cases h : items.length ≤ S
  · rw [if_pos h, List.take_of_length_le (by omega)]
    cases e with
    | panics => exact ⟨_, rfl, by simp⟩
    | exhausted =>
      by_cases h2 : items.length = S
      · exact ⟨_, by simp [h2]; rfl, by simp⟩
      · exact ⟨_, by simp [h2]; rfl, by simp⟩
  · rw [if_neg h]
    refine ⟨_, rfl, ?_⟩
    have : items.take (S + 1) = items.take S ++ (items.drop S).take 1 := by
      rw [List.take_add]
    rw [this]
    simpa using List.perm_append_comm

example := C46_array_from_iter 2 [10, 20, 30, 40] .panics

/-- C46, `<[T; N]>::from_ordinal`, for *any* element impl whose `from_ordinal` may return `None` or
panic at any point: every element created is returned in the array or dropped exactly once. -/
theorem C46_array_from_ordinal {α : Type} (A : OrdinalImpl α) (s N i : Nat) (hs : A.size = .ok s)
    (hA : ∀ i, A.fromOrdinal i = .error .panic ∨ ∃ o, A.fromOrdinal i = .ok o) :
    ∃ log o, arrayFromOrdinalOutcome N A i = .ok (log, o) ∧
      (((o.returned.bind id).getD []) ++ o.dropped).Perm log := by
  have := arrayFromLoopO_spec A s hs hA N N i [] (by simp)
  rwa [← ArrayBuilder.new_eq] at this

example := C46_array_from_ordinal orderingImpl 3 4 50 rfl fun i => by
  unfold orderingImpl; dsimp only; split <;> exact .inr ⟨_, rfl⟩

/-- C46, any other client of the builder (`try_new` among them): after any number of successful
pushes, dropping the builder drops exactly what was pushed, in order; `try_finish` hands out or drops
exactly that; one push too many panics before touching memory. -/
theorem C46_builder {T : Type} (S : Nat) (items : List T) :
    (items.length ≤ S → ∃ b, items.foldlM ArrayBuilder.push (ArrayBuilder.new T S) = .ok b ∧
      b.drop = .ok items ∧
      b.tryFinish = .ok (if items.length = S then ⟨some items, []⟩ else ⟨none, items⟩)) ∧
    (S < items.length → items.foldlM ArrayBuilder.push (ArrayBuilder.new T S) = .error .panic) := by
  have key : ∀ (items vs : List T), vs.length ≤ S → (vs.length + items.length ≤ S →
      items.foldlM ArrayBuilder.push (ArrayBuilder.holding S vs) =
        .ok (ArrayBuilder.holding S (vs ++ items))) ∧
      (S < vs.length + items.length →
        items.foldlM ArrayBuilder.push (ArrayBuilder.holding S vs) = .error .panic) := by
    intro items
    induction items with
    | nil => intro vs h; simp; omega
    | cons v items ih =>
      intro vs h
      simp only [List.foldlM_cons, List.length_cons]
      rcases Nat.lt_or_ge vs.length S with hlt | hge
      · rw [ArrayBuilder.push_holding v hlt, ok_bind]
        have := ih (vs ++ [v]) (by simp; omega)
        simp only [List.length_append, List.length_singleton, List.append_assoc, List.singleton_append] at this
        exact ⟨fun h => this.1 (by omega), fun h => this.2 (by omega)⟩
      · rw [ArrayBuilder.push_full v (by omega)]
        exact ⟨fun _ => by omega, fun _ => rfl⟩
  rw [ArrayBuilder.new_eq]
  have := key items [] (by simp)
  simp only [List.length_nil, Nat.zero_add, List.nil_append] at this
  refine ⟨fun h => ⟨_, this.1 h, ArrayBuilder.drop_holding S items, ?_⟩, this.2⟩
  split
  · rename_i h2; exact ArrayBuilder.tryFinish_full h2
  · exact ArrayBuilder.tryFinish_partial (by omega)

example := C46_builder 3 ["a", "b"]

/-- Concrete runs: three items into an array of two (`push` panics on the third), one item into an
array of two, an iterator that panics. -/
example : arrayFromIterOutcome 2 [10, 20, 30, 40] .exhausted = .ok ⟨none, [30, 10, 20]⟩ ∧
    arrayFromIterOutcome 2 [10] .exhausted = .ok ⟨none, [10]⟩ ∧
    arrayFromIterOutcome 2 [10] .panics = .ok ⟨none, [10]⟩ ∧
    arrayFromIterOutcome 2 [10, 20] .exhausted = .ok ⟨some [10, 20], []⟩ ∧
    arrayFromOrdinalOutcome 2 boolImpl 6 = .ok ([false, true], ⟨some none, [false, true]⟩) ∧
    arrayFromOrdinalOutcome 2 boolImpl 2 = .ok ([false, true], ⟨some (some [true, false]), []⟩) := by
  decide

/-- C47: `array_from_iter` returns the items in order iff there are exactly `S`; otherwise it
panics. -/
theorem C47_array_from_iter {T : Type} (S : Nat) (items : List T) :
    (items.length = S → arrayFromIter S items = .ok items) ∧
    (items.length ≠ S → arrayFromIter S items = .error .panic) :=
  ⟨arrayFromIter_ok, arrayFromIter_panic⟩

example := C47_array_from_iter 2 [7, 8]

example : arrayFromIter 2 [7, 8] = .ok [7, 8] ∧ arrayFromIter 2 [7] = .error .panic ∧
    arrayFromIter 2 [7, 8, 9] = .error .panic := by decide

/-- C48: `array_as_mut` returns one reference per element, in order, no two to the same element. -/
theorem C48_array_as_mut (S : Nat) : ∃ refs, arrayAsMut S = .ok refs ∧ refs.length = S ∧
    (∀ i, i < S → refs[i]? = some i) ∧ refs.Nodup :=
  ⟨_, arrayAsMut_eq S, by simp, fun i h => by simp [h], List.nodup_range⟩

example : arrayAsMut 3 = .ok [0, 1, 2] := by decide

/-! ## C70: destructors that panic -/

/-- The values whose destructor runs if values are dropped in order until a destructor panics, and
whether one did. -/
def droppedUntil {T : Type} (bad : Nat → T → Bool) (items : List T) : List T × Bool :=
  match items.zipIdx.findIdx? (fun p => bad p.2 p.1) with
  | none => (items, false)
  | some i => (items.take (i + 1), true)

theorem dropLoopP_holding {T : Type} (bad : Nat → T → Bool) (S : Nat) (vs ws : List T) :
    (ArrayBuilder.holding S (vs ++ ws)).dropLoopP bad ((List.range ws.length).map (vs.length + ·)) =
      .ok (match (ws.zipIdx vs.length).findIdx? (fun p => bad p.2 p.1) with
        | none => (some (), ws)
        | some i => (none, ws.take (i + 1))) := by
  induction ws generalizing vs with
  | nil => simp [ArrayBuilder.dropLoopP]
  | cons w ws ih =>
    have hc : (ArrayBuilder.holding S (vs ++ w :: ws)).dropCell vs.length = .ok w := by
      rw [ArrayBuilder.dropCell_holding (by simp)]; simp
    have := ih (vs ++ [w])
    simp only [List.append_assoc, List.singleton_append, List.length_append, List.length_singleton] at this
    rw [List.length_cons, List.range_succ_eq_map, List.map_cons, List.map_map]
    simp only [Nat.add_zero, ArrayBuilder.dropLoopP, hc, ok_bind, List.zipIdx_cons, List.findIdx?_cons]
    have he : (fun x => vs.length + x) ∘ Nat.succ = (fun x => vs.length + 1 + x) := by
      funext x; simp; omega
    rw [he, this]
    cases hb : bad vs.length w with
    | true => simp
    | false =>
      simp only [if_false, Bool.false_eq_true, ok_bind]
      cases (ws.zipIdx (vs.length + 1)).findIdx? (fun p => bad p.2 p.1) <;> simp

/-- C70: whatever was pushed and whichever destructors panic, dropping the builder starts the destructor
of a prefix of the values pushed, once each, up to the first that panics, and touches no other cell. -/
theorem C70_drop {T : Type} (S : Nat) (items : List T) (h : items.length ≤ S) (bad : Nat → T → Bool) :
    ∃ b, items.foldlM ArrayBuilder.push (ArrayBuilder.new T S) = .ok b ∧
      b.dropP bad = .ok (if (droppedUntil bad items).2 then none else some (), (droppedUntil bad items).1) := by
  have key : ∀ (items vs : List T), vs.length + items.length ≤ S →
      items.foldlM ArrayBuilder.push (ArrayBuilder.holding S vs) = .ok (ArrayBuilder.holding S (vs ++ items)) := by
    intro items
    induction items with
    | nil => intro vs h; simp
    | cons v items ih =>
      intro vs h
      simp only [List.length_cons] at h
      rw [List.foldlM_cons, ArrayBuilder.push_holding v (by omega), ok_bind, ih _ (by simp; omega)]
      simp
  refine ⟨_, by rw [ArrayBuilder.new_eq]; exact key items [] (by simpa using h), ?_⟩
  have := dropLoopP_holding bad S [] items
  simp only [List.nil_append, List.length_nil, Nat.zero_add, List.map_id'] at this
  have hf : (ArrayBuilder.holding S ([] ++ items)).filled = items.length := rfl
  unfold ArrayBuilder.dropP droppedUntil
  rw [hf, List.nil_append, this]
  cases (items.zipIdx).findIdx? (fun p => bad p.2 p.1) <;> rfl

example := C70_drop 4 [7, 8, 9] (by decide) fun _ v => v == 8

/-- C70: `drop` of the other theorems is the case in which no destructor panics. -/
theorem C70_agrees {T : Type} (b : ArrayBuilder T) :
    b.dropP (fun _ _ => false) = (b.drop >>= fun d => .ok (some (), d)) := by
  unfold ArrayBuilder.dropP ArrayBuilder.drop
  induction List.range b.filled with
  | nil => simp [ArrayBuilder.dropLoopP]
  | cons i is ih =>
    simp only [ArrayBuilder.dropLoopP, List.mapM_cons, ih]
    cases b.dropCell i with
    | error e => rfl
    | ok v =>
      simp only [ok_bind, Bool.false_eq_true, if_false]
      cases is.mapM b.dropCell <;> rfl

/-- C70: the second of three destructors panics; the third value leaks. -/
example : droppedUntil (fun _ v => v == 8) [7, 8, 9] = ([7, 8], true) ∧
    (ArrayBuilder.mk [some 7, some 8, some 9, none] 3).dropP (fun _ v => v == 8) = .ok (none, [7, 8]) := by decide

end OrdinalMap.Props
