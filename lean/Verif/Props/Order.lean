import Verif.Props.Nested
import Verif.Props.Set
import Verif.Props.Map
import Verif.Props.TotalMap
/-!
# C71, C72: consequences of the order

C71: collections of a type whose `ordinal()` agrees with `Ord` iterate in `Ord` order, as `BTreeMap` and
`BTreeSet` do.

C72: `ordinal()` is determined by the order: it counts the smaller values.  So it does not depend on the
target, the build profile, or how the impl is written.
-/

namespace OrdinalMap.Props
open OrdinalMap

variable {α K V τ : Type}

/-- `l` lists the values satisfying `p`, in strictly increasing order. -/
def SortedListing (lt : α → α → Prop) (p : α → Prop) (l : List α) : Prop := l.Pairwise lt ∧ ∀ a, a ∈ l ↔ p a

/-- `l` lists the pairs of a partial function, keys in strictly increasing order. -/
def SortedPairs (lt : K → K → Prop) (m : K → Option V) (l : List (K × V)) : Prop :=
  (l.map (·.1)).Pairwise lt ∧ ∀ k v, (k, v) ∈ l ↔ m k = some v

theorem ordCompat_iff {I : OrdinalImpl K} {lt : K → K → Prop} (O : OrdCompat lt I) (a b : K) :
    lt a b ↔ ordOf I a < ordOf I b := by
  obtain ⟨i, j, h1, h2, h3⟩ := O a b
  simp only [ordOf, h1, h2]
  exact h3

theorem values_sortedListing {c : Cfg} {I : OrdinalImpl K} {n : Nat} {lt : K → K → Prop} (L : Lawful c I n)
    (O : OrdCompat lt I) : SortedListing lt (fun _ => True) (values I n) :=
  ⟨(values_sorted L).imp fun h => (ordCompat_iff O _ _).2 h, fun a => by simp [mem_values L a]⟩

theorem elements_sortedListing {c : Cfg} {I : OrdinalImpl K} {n : Nat} {lt : K → K → Prop} (L : Lawful c I n)
    (O : OrdCompat lt I) (m : K → Bool) : SortedListing lt (fun a => m a = true) (elements I n m) :=
  ⟨((values_sorted L).filter _).imp fun h => (ordCompat_iff O _ _).2 h, fun a => by
    simp [elements, mem_values L a]⟩

theorem pairs_sorted {c : Cfg} {I : OrdinalImpl K} {n : Nat} {lt : K → K → Prop} (L : Lawful c I n)
    (O : OrdCompat lt I) (m : K → Option V) : SortedPairs lt m (pairs I n m) := by
  obtain ⟨h1, h2⟩ := C32_spec_meaning L m
  exact ⟨h2.imp fun h => (ordCompat_iff O _ _).2 h, h1⟩

theorem pairsT_sorted {c : Cfg} {I : OrdinalImpl K} {n : Nat} {lt : K → K → Prop} (L : Lawful c I n)
    (O : OrdCompat lt I) (m : K → V) : SortedPairs lt (fun k => some (m k)) (pairsT I n m) := by
  refine ⟨?_, fun k v => ?_⟩
  · simp only [pairsT, List.map_map]
    have : ((fun x : K × V => x.1) ∘ fun k => (k, m k)) = id := rfl
    rw [this, List.map_id]
    exact (values_sortedListing L O).1
  · simp only [pairsT, List.mem_map, Option.some.injEq]
    constructor
    · rintro ⟨a, _, h⟩; cases h; rfl
    · intro h; exact ⟨k, mem_values L k, by rw [h]⟩

/-! ## C71 -/

section
variable [DecidableEq K] [DecidableEq τ]

omit [DecidableEq K] in
/-- C71 for `all_values()`. -/
theorem C71_values {c : Cfg} {I : OrdinalImpl K} {n : Nat} {lt : K → K → Prop} (L : Lawful c I n)
    (O : OrdCompat lt I) :
    ∃ s l, OrdinalValues.new I = .ok s ∧ SortedListing lt (fun _ => True) l ∧ BehavesLike (OrdinalValues.iter I) s l := by
  obtain ⟨s, h1, h2⟩ := C16_all_values L
  exact ⟨s, _, h1, values_sortedListing L O, h2⟩

example := C71_values (char_lawful debug32) (C11_leaf_order debug32).2.2.2.2.2.2.2.2.2.2.2.2.2.2.2.2.2.2

/-- C71 for the sets, after any history. -/
theorem C71_sets {c : Cfg} {I : OrdinalImpl τ} {n : Nat} {lt : τ → τ → Prop} (L : Lawful c I n)
    (O : OrdCompat lt I) (hpos : 0 < n) (xs : List τ) :
    (n + 64 < c.M → ∃ s, OrdinalSet.fromIter c I xs = .ok s ∧
      SetBehavesLike (OrdinalSet.api c I) s (fun x => decide (x ∈ xs)) (fun m s =>
        ∃ it l, OrdinalSet.iter c I s = .ok it ∧ SortedListing lt (fun a => m a = true) l ∧
          BehavesLike (SetIter.it c I) it l)) ∧
    (n ≤ 64 → ∃ s, OrdinalSet64.fromIter c I xs = .ok s ∧
      SetBehavesLike (OrdinalSet64.api c I) s (fun x => decide (x ∈ xs)) (fun m s =>
        ∃ it l, OrdinalSet64.iter I s = .ok it ∧ SortedListing lt (fun a => m a = true) l ∧
          BehavesLike (Iter64.it c I) it l)) := by
  constructor
  · intro hfit
    obtain ⟨s, h1, h2⟩ := C21_iter L hpos hfit xs
    refine ⟨s, h1, h2.mono fun m s h => ?_⟩
    obtain ⟨it, h3, h4⟩ := h
    exact ⟨it, _, h3, elements_sortedListing L O m, h4.mono fun _ _ _ => trivial⟩
  · intro h64
    obtain ⟨s, h1, h2⟩ := OrdinalSet64.fromIter_view L h64 xs
    refine ⟨s, h1, (OrdinalSet64.behaves L h64 h2).mono fun m s h => ?_⟩
    exact ⟨s, _, by simp [OrdinalSet64.iter, OrdinalSet64.assert64_ok L h64], elements_sortedListing L O m,
      (Iter64.behaves (c := c) L h64 (Iter64.view_of_set h)).mono fun _ _ _ => trivial⟩

example := C71_sets (i8_lawful debug64).1 (C11_leaf_order debug64).2.2.2.1 (by decide)
  [⟨-3, by decide⟩, ⟨5, by decide⟩]

/-- C71 for the sparse maps, after any history: `iter()` and `into_iter()`. -/
theorem C71_maps {c : Cfg} {I : OrdinalImpl K} {n : Nat} {lt : K → K → Prop} (L : Lawful c I n)
    (O : OrdCompat lt I) :
    (∀ sz, n * sz ≤ 2 ^ (c.bits - 1) - 1 →
      RunsLike (OMap.step c I sz) (MapSpec.step I n) (OMap.new V) (fun _ => none) (fun m s =>
        ∃ l, SortedPairs lt m l ∧ BehavesLike (MapIter.it c I) (OMap.iter s) l ∧
          BehavesLike (MapIntoIter.it c I) (OMap.intoIter s) l)) ∧
    ∃ s, OrdinalArrayMap.new V I n = .ok s ∧
      RunsLike (OrdinalArrayMap.step c I) (MapSpec.step I n) s (fun _ => none) (fun m s =>
        ∃ l, SortedPairs lt m l ∧ BehavesLike (MapIter.it c I) (OrdinalArrayMap.iter s) l ∧
          BehavesLike (MapIntoIterArray.it c I) (OrdinalArrayMap.intoIter s) l) := by
  obtain ⟨h1, s, h2, h3⟩ := C32_iteration (V := V) L
  refine ⟨fun sz hsz => (h1 sz hsz).mono fun m s h => ?_, s, h2, h3.mono fun m s h => ?_⟩
  · exact ⟨_, pairs_sorted L O m, h.1.1.mono fun _ _ _ => trivial, h.2.mono fun _ _ _ => trivial⟩
  · exact ⟨_, pairs_sorted L O m, h.1.1.mono fun _ _ _ => trivial, h.2.mono fun _ _ _ => trivial⟩

example := C71_maps (V := Nat) (ordering_lawful debug64).1 (C11_leaf_order debug64).2.1

/-- C71 for the total maps, after any history: `iter()` and `into_iter()`. -/
theorem C71_total {c : Cfg} {I : OrdinalImpl K} {n : Nat} {lt : K → K → Prop} (L : Lawful c I n)
    (O : OrdCompat lt I) :
    (∀ sz (s : OrdinalTotalMap V), MadeTotal c I sz s →
      ∃ m, RunsLike (OrdinalTotalMap.step c I) (TotalSpec.step I n) s m (fun m s =>
        ∃ l, SortedPairs lt (fun k => some (m k)) l ∧ BehavesLike (TotalIter.it c I) (OrdinalTotalMap.iter s) l ∧
          BehavesLike (TotalIntoIter.it c I) (OrdinalTotalMap.intoIter s) l)) ∧
    ∀ S (s : OrdinalTotalArrayMap V), MadeArray I S s →
      ∃ m, RunsLike (OrdinalTotalArrayMap.step c I S) (TotalSpec.step I n) s m (fun m s =>
        ∃ l, SortedPairs lt (fun k => some (m k)) l ∧
          BehavesLike (TotalIter.it c I) (OrdinalTotalArrayMap.iter s) l ∧
          BehavesLike (TotalIntoIterArray.it c I) (OrdinalTotalArrayMap.intoIter s) l) := by
  constructor
  · intro sz s h
    obtain ⟨m, h1⟩ := C41_total_map L h
    exact ⟨m, h1.mono fun m s h => ⟨_, pairsT_sorted L O m, h.1.1.mono fun _ _ _ => trivial,
      h.2.mono fun _ _ _ => trivial⟩⟩
  · intro sz s h
    obtain ⟨m, h1⟩ := C41_total_array_map L h
    exact ⟨m, h1.mono fun m s h => ⟨_, pairsT_sorted L O m, h.1.1.mono fun _ _ _ => trivial,
      h.2.mono fun _ _ _ => trivial⟩⟩

example := C71_total (V := Nat) (ordering_lawful debug64).1 (C11_leaf_order debug64).2.1

end

/-- C71: a sorted listing is unique, so these are the lists `BTreeSet` and `BTreeMap` would give. -/
theorem C71_unique {I : OrdinalImpl K} {lt : K → K → Prop} (O : OrdCompat lt I) :
    (∀ p (l l' : List K), SortedListing lt p l → SortedListing lt p l' → l = l') ∧
    ∀ m (l l' : List (K × V)), SortedPairs lt m l → SortedPairs lt m l' → l = l' := by
  have irr : ∀ a, ¬ lt a a := fun a h => Nat.lt_irrefl _ ((ordCompat_iff O a a).1 h)
  have asym : ∀ a b, lt a b → lt b a → False := fun a b h1 h2 => by
    rw [ordCompat_iff O] at h1 h2; omega
  have key : ∀ {ι : Type} (f : ι → K) (l l' : List ι), (l.map f).Pairwise lt → (l'.map f).Pairwise lt →
      (∀ a, a ∈ l ↔ a ∈ l') → l = l' := by
    intro ι f l
    induction l with
    | nil =>
      intro l' _ _ h
      cases l' with
      | nil => rfl
      | cons a l' => exact absurd ((h a).2 (by simp)) (by simp)
    | cons a l ih =>
      intro l' h1 h2 h
      cases l' with
      | nil => exact absurd ((h a).1 (by simp)) (by simp)
      | cons b l' =>
        rw [List.map_cons, List.pairwise_cons] at h1 h2
        have hab : a = b := by
          have h3 := (h a).1 (by simp)
          have h4 := (h b).2 (by simp)
          rcases List.mem_cons.1 h3 with h3 | h3
          · exact h3
          rcases List.mem_cons.1 h4 with h4 | h4
          · exact h4.symm
          exact (asym _ _ (h1.1 _ (List.mem_map_of_mem h4)) (h2.1 _ (List.mem_map_of_mem h3))).elim
        subst hab
        rw [ih l' h1.2 h2.2]
        intro x
        constructor
        · intro hx
          rcases List.mem_cons.1 ((h x).1 (List.mem_cons_of_mem _ hx)) with rfl | h5
          · exact absurd (h1.1 _ (List.mem_map_of_mem hx)) (irr _)
          · exact h5
        · intro hx
          rcases List.mem_cons.1 ((h x).2 (List.mem_cons_of_mem _ hx)) with rfl | h5
          · exact absurd (h2.1 _ (List.mem_map_of_mem hx)) (irr _)
          · exact h5
  refine ⟨fun p l l' h h' => ?_, fun m l l' h h' => ?_⟩
  · exact key id l l' (by simpa using h.1) (by simpa using h'.1) fun a => (h.2 a).trans (h'.2 a).symm
  · exact key _ l l' h.1 h'.1 fun ⟨k, v⟩ => (h.2 k v).trans (h'.2 k v).symm

example := C71_unique (V := Nat) (C11_leaf_order debug64).2.1

/-! ## C72 -/

/-- C72: a lawful `ordinal()` compatible with an order answers the number of smaller values. -/
theorem C72_rank {c : Cfg} {I : OrdinalImpl α} {n : Nat} {lt : α → α → Prop} (L : Lawful c I n)
    (O : OrdCompat lt I) (a : α) :
    ∃ smaller : List α, smaller.Nodup ∧ (∀ b, b ∈ smaller ↔ lt b a) ∧ I.ordinal a = .ok smaller.length := by
  refine ⟨(values I n).take (ordOf I a), (values_nodup L).sublist (List.take_sublist _ _), fun b => ?_, ?_⟩
  · rw [ordCompat_iff O, List.mem_take_iff_getElem]
    have hl := values_length L
    constructor
    · rintro ⟨i, hi, rfl⟩
      obtain ⟨x, h1, _, h3⟩ := values_getElem L i (by omega)
      have hx := List.getElem?_eq_getElem (l := values I n) (i := i) (by omega)
      rw [h1] at hx
      rw [← Option.some.inj hx]
      omega
    · intro h
      have hb := L.ord_lt b
      refine ⟨ordOf I b, by omega, ?_⟩
      obtain ⟨x, h1, _, h3⟩ := values_getElem L _ hb
      have hx := List.getElem?_eq_getElem (l := values I n) (i := ordOf I b) (by omega)
      rw [h1] at hx
      rw [← Option.some.inj hx]
      exact L.ord_inj h3
  · rw [L.ordinal_eq, List.length_take, values_length L, Nat.min_eq_left (Nat.le_of_lt (L.ord_lt a))]

example := C72_rank (i8_lawful debug64).1 (C11_leaf_order debug64).2.2.2.1 ⟨-3, by decide⟩

/-- C72: two lawful impls for the same type and order agree, whatever the build they are for. -/
theorem C72_canonical {c c' : Cfg} {I I' : OrdinalImpl α} {n n' : Nat} {lt : α → α → Prop} (L : Lawful c I n)
    (O : OrdCompat lt I) (L' : Lawful c' I' n') (O' : OrdCompat lt I') :
    n = n' ∧ (∀ a, I.ordinal a = I'.ordinal a) ∧ ∀ i, i < n → I.fromOrdinal i = I'.fromOrdinal i := by
  have hv : values I n = values I' n' :=
    (C71_unique (V := Unit) O).1 _ _ _ (values_sortedListing L O)
      (values_sortedListing L' O')
  have hn : n = n' := by rw [← values_length L, hv, values_length L']
  subst hn
  have hf : ∀ i, i < n → I.fromOrdinal i = I'.fromOrdinal i := by
    intro i hi
    obtain ⟨a, h1, h2, _⟩ := values_getElem L i hi
    obtain ⟨b, h3, h4, _⟩ := values_getElem L' i hi
    rw [hv, h3] at h1; cases h1
    rw [h2, h4]
  refine ⟨rfl, fun a => ?_, hf⟩
  have h2 := values_ord L' a
  rw [← hv] at h2
  obtain ⟨x, h3, _, h5⟩ := values_getElem L _ (L'.ord_lt a)
  rw [h2] at h3; cases h3
  rw [L.ordinal_eq, L'.ordinal_eq, h5]

example := C72_canonical (i8_lawful debug64).1 (C11_leaf_order debug64).2.2.2.1 (i8_lawful release32).1
  (C11_leaf_order release32).2.2.2.1

/-- C72: so for every type built from the crate's impls, compiled for two targets or profiles that both
accept it, `ORDINAL_SIZE`, `ordinal` and (in range) `from_ordinal` are the same. -/
theorem C72_portable {c c' : Cfg} {I I' : OrdinalImpl α} {lt : α → α → Prop} {s s' : Prop} {n n' : Nat}
    (h : Built c α I lt s) (h' : Built c' α I' lt s') (hn : I.size = .ok n) (hn' : I'.size = .ok n') :
    n = n' ∧ (∀ a, I.ordinal a = I'.ordinal a) ∧ ∀ i, i < n → I.fromOrdinal i = I'.fromOrdinal i :=
  C72_canonical ((C60_nested h).lawful n hn) ((C60_nested h).order n hn) ((C60_nested h').lawful n' hn')
    ((C60_nested h').order n' hn')

example := C72_portable (Built.option (.array 2 (.i8 (c := debug32)))) (.option (.array 2 (.i8 (c := release64))))
  (n := 65537) (n' := 65537) (by rfl) (by rfl)

/-- C71 on `bool` keys. -/
example : OrdCompat (fun a b => a = false ∧ b = true) boolImpl ∧
    SortedPairs (fun a b : Bool => a = false ∧ b = true) (fun k => if k then some 1 else some 0) [(false, 0), (true, 1)] :=
  ⟨(C60_nested (c := debug64) .bool).order 2 rfl, by decide, fun k v => by cases k <;> simp [eq_comm]⟩

/-- C72: a type for a 32-bit debug build and for a 64-bit release build. -/
example : ∃ lt, Built debug32 _ (optionImpl debug32 (arrayImpl debug32 2 (charImpl debug32))) lt True ∧
    Built release64 _ (optionImpl release64 (arrayImpl release64 2 (charImpl release64))) lt True :=
  ⟨_, .option (.array 2 .char), .option (.array 2 .char)⟩

end OrdinalMap.Props
