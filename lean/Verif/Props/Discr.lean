import Verif.Props.Derive
import Verif.Props.Leaf
/-!
# C58: `#[derive(Ordinal)]` and explicit discriminants

`#[derive(PartialOrd)]` compares enum values by discriminant first.  The discriminant of a variant is
the explicit one, else one more than that of the variant before, else 0.  The derive macro ignores
discriminants (ordinal.rs does not look at `Variant::discriminant`).
-/

namespace OrdinalMap.Props
open OrdinalMap OrdinalMap.Derive

/-- Discriminants of the variants, from the explicit ones (`none`: not written). -/
def discriminants : Int → List (Option Int) → List Int
  | _, [] => []
  | next, o :: os => o.getD next :: discriminants (o.getD next + 1) os

/-- `#[derive(PartialOrd)]` on an enum with discriminants `d`. -/
def DiscrLt {ι : Type} {Ty : Types ι} (lt : ∀ t, Ty.T t → Ty.T t → Prop) (d : List Int)
    (x y : Nat × List Ty.Val) : Prop :=
  d.getD x.1 0 < d.getD y.1 0 ∨ x.1 = y.1 ∧ FieldsLt lt x.2 y.2

variable {ι : Type} [DecidableEq ι] {c : Cfg} {Ty : Types ι} {sz : ι → Nat}

/-- C58: `ordinal()` agrees with the derived order iff the discriminants increase along the variants
that have values. -/
theorem C58_exact (L : ∀ t, Lawful c (Ty.impl t) (sz t)) (lt : ∀ t, Ty.T t → Ty.T t → Prop)
    (O : ∀ t, OrdCompat (lt t) (Ty.impl t)) (vs : List (Fields ι)) (hw : ∀ v ∈ vs, v.WF)
    (hr : ∀ v ∈ vs, ¬ HasReserved v) (n : Nat) (hsz : (enumImpl c Ty vs).size = .ok n) (d : List Int) :
    OrdCompat (fun x y : EnumVal Ty vs => DiscrLt lt d x.1 y.1) (enumImpl c Ty vs) ↔
      ∀ x y : EnumVal Ty vs, x.1.1 < y.1.1 → d.getD x.1.1 0 < d.getD y.1.1 0 := by
  have H := C13_enum c Ty sz L lt O vs hw hr n hsz
  constructor
  · intro hd x y hxy
    obtain ⟨i, j, h1, h2, h3⟩ := H x y
    obtain ⟨i', j', h4, h5, h6⟩ := hd x y
    rw [h1] at h4; rw [h2] at h5; cases h4; cases h5
    rcases h6.2 (h3.1 (.inl hxy)) with h | h
    · exact h
    · omega
  · intro hd x y
    obtain ⟨i, j, h1, h2, h3⟩ := H x y
    refine ⟨i, j, h1, h2, ?_⟩
    rw [← h3]
    simp only [DiscrLt, EnumLt]
    constructor
    · rintro (h | h)
      · rcases Nat.lt_trichotomy x.1.1 y.1.1 with h' | h' | h'
        · exact .inl h'
        · rw [h'] at h; omega
        · have := hd y x h'; omega
      · exact .inr h
    · rintro (h | h)
      · exact .inl (hd x y h)
      · exact .inr h

example := C58_exact exTypes_lawful exLt exLt_compat
  [.unit, .named [("x", .bool), ("ordinal", .ordering)], .unnamed [.never, .bool], .unnamed [.bool]] (by simp [Fields.WF])
  (by simp [HasReserved, reservedNames, HasField]) 9 (by rfl) [0, 4, 2, 7]

omit [DecidableEq ι] in
/-- Without explicit discriminants they are 0, 1, 2, …; more generally they increase from one variant
to a later one if no explicit discriminant is below the one that would be implicit. -/
theorem C58_increasing : ∀ (os : List (Option Int)) (next : Int),
    (∀ i, ∀ e, os[i]? = some (some e) → ∀ p, (p = next ∧ i = 0 ∨
      ∃ j, i = j + 1 ∧ p = (discriminants next os).getD j 0 + 1) → p ≤ e) →
    ∀ i j, i < j → j < os.length →
      (discriminants next os).getD i 0 < (discriminants next os).getD j 0 := by
  have ge : ∀ (os : List (Option Int)) (next : Int),
      (∀ i, ∀ e, os[i]? = some (some e) → ∀ p, (p = next ∧ i = 0 ∨
        ∃ j, i = j + 1 ∧ p = (discriminants next os).getD j 0 + 1) → p ≤ e) →
      ∀ j, j < os.length → next ≤ (discriminants next os).getD j 0 ∧
        ∀ i, i < j → (discriminants next os).getD i 0 < (discriminants next os).getD j 0 := by
    intro os
    induction os with
    | nil => intro next _ j h; simp at h
    | cons o os ih =>
      intro next h j hj
      have h0 : next ≤ o.getD next := by
        cases o with
        | none => exact Int.le_refl _
        | some e => exact h 0 e (by simp) next (.inl ⟨rfl, rfl⟩)
      have hrest := ih (o.getD next + 1) (by
        intro i e he p hp
        refine h (i + 1) e (by simpa using he) p (.inr ⟨i, rfl, ?_⟩)
        rcases hp with ⟨rfl, rfl⟩ | ⟨k, rfl, rfl⟩
        · simp [discriminants]
        · simp [discriminants])
      cases j with
      | zero => exact ⟨by simpa [discriminants] using h0, fun i hi => by omega⟩
      | succ j =>
        obtain ⟨h1, h2⟩ := hrest j (by simpa using hj)
        simp only [discriminants, List.getD_cons_succ]
        refine ⟨by omega, fun i hi => ?_⟩
        cases i with
        | zero => simp only [List.getD_cons_zero]; omega
        | succ i => simpa using h2 i (by omega)
  exact fun os next h i j hij hj => (ge os next h j hj).2 i hij

example := C58_increasing [none, some 4, none] 0 (by
  intro i e h p hp
  match i with
  | 0 => cases h
  | 1 =>
    obtain rfl : 4 = e := by simpa using h
    rcases hp with ⟨-, h⟩ | ⟨j, hj, rfl⟩
    · cases h
    · obtain rfl : j = 0 := by omega
      decide
  | 2 => cases h
  | _ + 3 => cases h)

/-- `enum E { A, B(!) = 7, C(bool) = 3 }`: compatible although the discriminants 0, 7, 3 do not
increase, because `B` has no values.  `enum F { A = 5, B = 2 }` is not compatible. -/
example :
    discriminants 0 [none, some 7, some 3] = [0, 7, 3] ∧ discriminants 0 [none, some 4, none] = [0, 4, 5] ∧
    (enumImpl debug64 exTypes [.unit, .unnamed [.never], .unnamed [.bool]]).size = .ok 3 ∧
    (∀ x y : EnumVal exTypes [.unit, .unnamed [.never], .unnamed [.bool]], x.1.1 < y.1.1 →
      ([0, 7, 3] : List Int).getD x.1.1 0 < ([0, 7, 3] : List Int).getD y.1.1 0) ∧
    ¬ OrdCompat (fun x y : EnumVal exTypes [.unit, .unit] => DiscrLt exLt [5, 2] x.1 y.1)
      (enumImpl debug64 exTypes [.unit, .unit]) := by
  refine ⟨by decide, by decide, by rfl, ?_, ?_⟩
  · rintro ⟨⟨i, l⟩, v, hv, hl⟩ ⟨⟨j, k⟩, w, hw, hk⟩ hij
    simp only at hij hv hl hw hk
    match i, j, hij with
    | 0, 1, _ =>
      obtain rfl : w = .unnamed [.never] := by simpa using hw.symm
      obtain ⟨e, k, rfl⟩ : ∃ e k', k = e :: k' := by cases k <;> simp_all [fieldTypes]
      obtain ⟨t, a⟩ := e
      obtain rfl : t = .never := by simp [fieldTypes] at hk; exact hk.1
      exact nomatch a
    | 0, 2, _ => show (0 : Int) < 3; decide
    | 1, 2, _ =>
      obtain rfl : v = .unnamed [.never] := by simpa using hv.symm
      obtain ⟨e, k, rfl⟩ : ∃ e k', l = e :: k' := by cases l <;> simp_all [fieldTypes]
      obtain ⟨t, a⟩ := e
      obtain rfl : t = .never := by simp [fieldTypes] at hl; exact hl.1
      exact nomatch a
    | 0, j + 3, _ => simp at hw
    | 1, j + 3, _ => simp at hw
    | i + 2, j + 3, _ => simp at hw
  · rw [C58_exact exTypes_lawful exLt exLt_compat _ (by simp [Fields.WF]) (by simp [HasReserved, reservedNames, HasField]) 2 (by rfl)]
    intro h
    exact absurd (h ⟨(0, []), _, rfl, rfl⟩ ⟨(1, []), _, rfl, rfl⟩ (by decide)) (by decide)

end OrdinalMap.Props
