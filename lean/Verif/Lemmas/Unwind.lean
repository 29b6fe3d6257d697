import Verif.Lemmas.Own
/-! # Destructors that panic -/

namespace OrdinalMap
variable {K V ρ : Type} {c : Cfg} {I : OrdinalImpl K} {n : Nat} [DecidableEq K]

theorem Drain.dropLoopD_dview {b : Bool} (L : Lawful c I n) (dtor : K × V → ρ → Bool × ρ) (m : K → Option V) :
    ∀ (fuel : Nat) (s : Drain V) (l : List (K × V)) (r : ρ), DView I n b m l s → l.length < fuel →
    ∃ mem, Drain.dropLoopD c I dtor fuel s r =
        .ok ((dropSpec dtor l r).1, (dropSpec dtor l r).2.1, mem, (dropSpec dtor l r).2.2.2) ∧
      Stored I n b (leftOver (dropSpec dtor l r).2.2.1) mem := by
  intro fuel
  induction fuel with
  | zero => intro s l _ _ h; omega
  | succ fuel ih =>
    intro s l r hv hf
    obtain ⟨s', e1, e2⟩ := Drain.next_dview L m s l hv
    cases l with
    | nil => exact ⟨s'.mem, by simp [Drain.dropLoopD, e1, dropSpec], e2.stored⟩
    | cons p l =>
      rcases hd : dtor p r with ⟨_ | _, r'⟩
      · obtain ⟨mem, h1, h2⟩ := ih s' l r' e2 (by simp at hf; omega)
        refine ⟨mem, by simp [Drain.dropLoopD, e1, hd, h1, dropSpec], ?_⟩
        simpa [dropSpec, hd] using h2
      · refine ⟨s'.mem, by simp [Drain.dropLoopD, e1, hd, dropSpec], ?_⟩
        simpa [dropSpec, hd] using e2.stored

theorem Drain.dropD_dview {b : Bool} (L : Lawful c I n) (dtor : K × V → ρ → Bool × ρ) {m : K → Option V}
    {s : Drain V} {l : List (K × V)} (r : ρ) (h : DView I n b m l s) :
    ∃ mem, Drain.dropD c I dtor s r =
        .ok ((dropSpec dtor l r).1, (dropSpec dtor l r).2.1, mem, (dropSpec dtor l r).2.2.2) ∧
      Stored I n b (leftOver (dropSpec dtor l r).2.2.1) mem := by
  have := h.len_le
  exact Drain.dropLoopD_dview L dtor m _ s l r h (by omega)

theorem OrdinalArrayMap.retainLoopD_view (L : Lawful c I n) (f : K → V → ρ → RetainCall V ρ)
    (dtor : V → ρ → Bool × ρ) :
    ∀ (ps : List (K × Nat)) (fuel : Nat) (m : K → Option V) (it : Enumerate Range) (r : ρ),
      MV I n ps it → ps.length < fuel →
      OrdinalArrayMap.retainLoopD c I f dtor fuel ⟨store I n m, it⟩ r =
        .ok ((retainDSpec f dtor (ps.map (·.1)) m r).1, store I n (retainDSpec f dtor (ps.map (·.1)) m r).2.1,
          (retainDSpec f dtor (ps.map (·.1)) m r).2.2) := by
  intro ps
  induction ps with
  | nil =>
    intro fuel m it r hv hf
    obtain ⟨fuel, rfl⟩ : ∃ k, fuel = k + 1 := ⟨fuel - 1, by omega⟩
    obtain ⟨it', h1, _⟩ := MV.next L it [] hv
    simp [OrdinalArrayMap.retainLoopD, TotalIterMut.next, h1, retainDSpec]
  | cons p ps ih =>
    intro fuel m it r hv hf
    obtain ⟨k, slot⟩ := p
    obtain rfl : slot = ordOf I k := hv.2 (k, slot) (by simp)
    obtain ⟨fuel, rfl⟩ : ∃ k, fuel = k + 1 := ⟨fuel - 1, by omega⟩
    obtain ⟨it', h1, h2⟩ := MV.next L it _ hv
    simp only [List.length_cons] at hf
    simp only [OrdinalArrayMap.retainLoopD, TotalIterMut.next, h1, ok_bind, List.head?_cons, readSlot_store L,
      List.map_cons, retainDSpec]
    cases hm : m k with
    | none => exact ih fuel m it' r h2 (by omega)
    | some v =>
      simp only
      have hs : (m k).isSome := by rw [hm]; rfl
      rcases f k v r with ⟨_ | _ | _, v', r'⟩
      · simp only [writeSome_store L m v' hs, ok_bind]
      · simp only [ok_bind, writeSome_store L m v' hs, writeSlot_store L, updT_eq_upd, upd_upd]
        rcases dtor v' r' with ⟨_ | _, r''⟩
        · simp only [Bool.false_eq_true, if_false]
          exact ih fuel _ it' r'' h2 (by omega)
        · simp only [if_true]
      · simp only [ok_bind, writeSome_store L m v' hs]
        exact ih fuel _ it' r' h2 (by omega)

theorem OrdinalArrayMap.retainD_eq (L : Lawful c I n) (m : K → Option V) (f : K → V → ρ → RetainCall V ρ)
    (dtor : V → ρ → Bool × ρ) (r : ρ) :
    OrdinalArrayMap.retainD c I (store I n m) f dtor r =
      .ok ((retainDSpec f dtor (OrdinalMap.values I n) m r).1, store I n (retainDSpec f dtor (OrdinalMap.values I n) m r).2.1,
        (retainDSpec f dtor (OrdinalMap.values I n) m r).2.2) := by
  have hv := fresh_mv L
  have e : (slots I n).map (·.1) = OrdinalMap.values I n := by simp [slots, Function.comp_def]
  have hl : (slots I n).length = n := by simp [slots, values_length L]
  simp only [OrdinalArrayMap.retainD, OrdinalArrayMap.iterMut, OrdinalTotalArrayMap.iterMut, TotalIterMut.new,
    store_length L]
  rw [OrdinalArrayMap.retainLoopD_view L f dtor (slots I n) _ m _ r hv (by
    rw [TotalIterMut.len, MV.len hv]; omega), e]

end OrdinalMap
