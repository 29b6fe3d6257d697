import Verif.Model.ArrayBuilder
/-! # Helper lemmas about the array builder -/

namespace OrdinalMap
namespace ArrayBuilder
variable {T : Type}

/-- The state of a builder for `S` cells into which exactly `vs` have been pushed. -/
def holding (S : Nat) (vs : List T) : ArrayBuilder T :=
  ⟨vs.map some ++ List.replicate (S - vs.length) none, vs.length⟩

theorem holding_length {S : Nat} {vs : List T} (h : vs.length ≤ S) :
    (holding S vs).cells.length = S := by
  simp [holding]; omega

theorem new_eq (S : Nat) : new T S = holding S [] := by simp [new, holding]

theorem push_holding {S : Nat} {vs : List T} (v : T) (h : vs.length < S) :
    (holding S vs).push v = .ok (holding S (vs ++ [v])) := by
  have hl := holding_length (S := S) (vs := vs) (by omega)
  simp only [push, hl, assert]
  have : (holding S vs).filled < S := h
  simp only [this, decide_true, if_true, ok_bind]
  obtain ⟨k, hk⟩ : ∃ k, S - vs.length = k + 1 := ⟨S - vs.length - 1, by omega⟩
  have hk' : S - (vs.length + 1) = k := by omega
  simp [holding, hk, hk', List.replicate_succ]

theorem push_full {S : Nat} {vs : List T} (v : T) (h : vs.length = S) :
    (holding S vs).push v = .error .panic := by
  have hl := holding_length (S := S) (vs := vs) (by omega)
  simp only [push, hl, assert]
  have : ¬ (holding S vs).filled < S := by simp [holding, h]
  simp [this]

theorem dropCell_holding {S : Nat} {vs : List T} {i : Nat} (h : i < vs.length) :
    (holding S vs).dropCell i = .ok vs[i] := by
  simp [dropCell, holding, List.getElem?_append, h]

theorem mapM_ok {α β : Type} (f : α → R β) (g : α → β) :
    ∀ l : List α, (∀ x ∈ l, f x = .ok (g x)) → l.mapM f = .ok (l.map g) := by
  intro l
  induction l with
  | nil => intro _; simp
  | cons x xs ih =>
    intro h
    rw [List.mapM_cons, h x (by simp), ih (fun y hy => h y (by simp [hy]))]
    simp

theorem drop_holding (S : Nat) (vs : List T) : (holding S vs).drop = .ok vs := by
  cases vs with
  | nil => simp [drop, holding]
  | cons v₀ vs' =>
    have := mapM_ok (fun i => (holding S (v₀ :: vs')).dropCell i)
      (fun i => (v₀ :: vs').getD i v₀) (List.range (v₀ :: vs').length) (by
        intro i hi
        have hi' : i < (v₀ :: vs').length := by simpa using hi
        rw [dropCell_holding hi']
        simp [List.getD_eq_getElem?_getD, List.getElem?_eq_getElem hi'])
    have e : (holding S (v₀ :: vs')).filled = (v₀ :: vs').length := rfl
    unfold drop
    rw [e, this]
    congr 1
    apply List.ext_getElem (by simp)
    intro i h1 h2
    simp only [List.getElem_map, List.getElem_range, List.getD_eq_getElem?_getD,
      List.getElem?_eq_getElem h2, Option.getD_some]

theorem transmute_map_some (vs : List T) : transmute (vs.map some) = .ok vs := by
  induction vs with
  | nil => rfl
  | cons v vs ih => simp [transmute, ih]

theorem tryFinish_full {S : Nat} {vs : List T} (h : vs.length = S) :
    (holding S vs).tryFinish = .ok ⟨some vs, []⟩ := by
  have hl := holding_length (S := S) (vs := vs) (by omega)
  have hf : (holding S vs).filled = (holding S vs).cells.length := by rw [hl]; exact h
  have hc : (holding S vs).cells = vs.map some := by simp [holding, h]
  simp [tryFinish, hf, hc, transmute_map_some]

theorem tryFinish_partial {S : Nat} {vs : List T} (h : vs.length < S) :
    (holding S vs).tryFinish = .ok ⟨none, vs⟩ := by
  have hl := holding_length (S := S) (vs := vs) (by omega)
  have hf : (holding S vs).filled = vs.length := rfl
  simp only [tryFinish, hl, hf, drop_holding, assert]
  rw [if_pos (by omega)]
  simp [show vs.length ≤ S by omega]

theorem finish_full {S : Nat} {vs : List T} (h : vs.length = S) :
    (holding S vs).finish = .ok vs := by
  simp [finish, tryFinish_full h]

end ArrayBuilder

open ArrayBuilder

/-- Full characterisation of the `array_from_iter` loop from a builder holding `vs`. -/
theorem fromIterLoop_spec {T : Type} (S : Nat) : ∀ (items vs : List T) (e : IterEnd),
    vs.length ≤ S →
    fromIterLoop (holding S vs) items e =
      if vs.length + items.length ≤ S then
        match e with
        | .panics => .ok ⟨none, vs ++ items⟩
        | .exhausted =>
          if vs.length + items.length = S then .ok ⟨some (vs ++ items), []⟩
          else .ok ⟨none, vs ++ items⟩
      else
        .ok ⟨none, (items.drop (S - vs.length)).take 1 ++ (vs ++ items.take (S - vs.length))⟩ := by
  intro items
  induction items with
  | nil =>
    intro vs e h
    cases e
    · by_cases hS : vs.length = S
      · simp [fromIterLoop, tryFinish_full hS, hS]
      · simp [fromIterLoop, tryFinish_partial (show vs.length < S by omega), h, hS]
    · simp [fromIterLoop, unwindBuilder, drop_holding, h]
  | cons v items ih =>
    intro vs e h
    by_cases hS : vs.length = S
    · have : ¬ (vs.length + (v :: items).length ≤ S) := by simp; omega
      rw [if_neg this]
      simp [fromIterLoop, push_full v hS, unwindBuilder, drop_holding, hS]
    · have hlt : vs.length < S := by omega
      simp only [fromIterLoop, push_holding v hlt]
      rw [ih (vs ++ [v]) e (by simp; omega)]
      have e1 : (vs ++ [v]).length + items.length = vs.length + (v :: items).length := by
        simp; omega
      rw [e1]
      split
      · simp
      · obtain ⟨k, hk⟩ : ∃ k, S - vs.length = k + 1 := ⟨S - vs.length - 1, by omega⟩
        have hk' : S - (vs ++ [v]).length = k := by simp; omega
        rw [hk, hk']; simp

theorem arrayFromIterOutcome_spec {T : Type} (S : Nat) (items : List T) (e : IterEnd) :
    arrayFromIterOutcome S items e =
      if items.length ≤ S then
        match e with
        | .panics => .ok ⟨none, items⟩
        | .exhausted => if items.length = S then .ok ⟨some items, []⟩ else .ok ⟨none, items⟩
      else .ok ⟨none, (items.drop S).take 1 ++ items.take S⟩ := by
  unfold arrayFromIterOutcome
  rw [new_eq, fromIterLoop_spec S items [] e (by simp)]
  simp

theorem arrayFromIter_ok {T : Type} {S : Nat} {items : List T} (h : items.length = S) :
    arrayFromIter S items = .ok items := by
  simp [arrayFromIter, arrayFromIterOutcome_spec, h]

theorem arrayFromIter_panic {T : Type} {S : Nat} {items : List T} (h : items.length ≠ S) :
    arrayFromIter S items = .error .panic := by
  simp only [arrayFromIter, arrayFromIterOutcome_spec]
  split <;> simp

theorem arrayAsMutLoop_spec (S : Nat) : ∀ (fuel lo : Nat), lo ≤ S → S - lo < fuel →
    arrayAsMutLoop fuel lo S (holding S (List.range lo)) = .ok (holding S (List.range S)) := by
  intro fuel
  induction fuel with
  | zero => intro lo _ h; omega
  | succ fuel ih =>
    intro lo hlo hf
    unfold arrayAsMutLoop
    by_cases h : lo < S
    · rw [if_pos h, push_holding lo (by simpa using h)]
      simp only [ok_bind]
      rw [← List.range_succ, ih (lo + 1) (by omega) (by omega)]
    · have : lo = S := by omega
      subst this
      simp

theorem arrayAsMut_eq (S : Nat) : arrayAsMut S = .ok (List.range S) := by
  unfold arrayAsMut
  rw [new_eq, show ([] : List Nat) = List.range 0 from rfl, arrayAsMutLoop_spec S (S + 1) 0 (by omega) (by omega)]
  simp [finish_full]

end OrdinalMap
