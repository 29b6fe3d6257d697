import Verif.Lemmas.Lawful
import Verif.Lemmas.Leaf
import Verif.Lemmas.ArrayBuilder
/-! # Lawfulness and order of Option, Result, Either, Box and arrays -/

namespace OrdinalMap
variable {α β : Type} {c : Cfg} {A : OrdinalImpl α} {B : OrdinalImpl β} {n m : Nat}

/-! ## Option -/

theorem option_lawful (L : Lawful c A n) (h : n + 1 < c.M) : Lawful c (optionImpl c A) (n + 1) := by
  refine lawful_of ?_ h (fun o => match o with | none => 0 | some a => ordOf A a + 1) ?_ ?_
  · simp [optionImpl, L.size, addC_ok h]
  · rintro (_ | a)
    · exact ⟨by simp, rfl, rfl⟩
    · have := L.ord_lt a
      refine ⟨by simp; omega, ?_, ?_⟩
      · simp only [optionImpl, L.ordinal_eq a, ok_bind]; rw [addU_ok (by omega)]
      · simp [optionImpl, subU_ok (c := c) (show 1 ≤ ordOf A a + 1 by omega), L.from_ord]
  · intro i hi
    match i with
    | 0 => exact ⟨none, rfl, rfl⟩
    | i + 1 =>
      obtain ⟨a, h1, h2⟩ := L.exists_ord (show i < n by omega)
      exact ⟨some a, by simp [optionImpl, subU_ok (c := c) (show 1 ≤ i + 1 by omega), h1], by simp [h2]⟩

theorem option_strict (St : Strict c A n) : Strict c (optionImpl c A) (n + 1) := by
  intro i hi hM
  simp only [optionImpl]
  rw [if_neg (by omega), subU_ok (by omega), ok_bind, St (i - 1) (by omega) (by omega)]
  rfl

theorem option_ordOf (L : Lawful c A n) (h : n + 1 < c.M) (o : Option α) :
    ordOf (optionImpl c A) o = match o with | none => 0 | some a => ordOf A a + 1 := by
  cases o with
  | none => rfl
  | some a =>
    have := L.ord_lt a
    exact ordOf_eq (by simp [optionImpl, L.ordinal_eq a, addU_ok (show ordOf A a + 1 < c.M by omega)])

theorem option_ord (L : Lawful c A n) (h : n + 1 < c.M) {lt : α → α → Prop}
    (O : OrdCompat lt A) : OrdCompat (optionLt lt) (optionImpl c A) := by
  rw [ordCompat_iff L] at O
  rw [ordCompat_iff (option_lawful L h)]
  intro a b
  rw [option_ordOf L h, option_ordOf L h]
  cases a <;> cases b <;> simp [optionLt, O]

/-! ## Result / Either -/

theorem result_lawful (LA : Lawful c A n) (LB : Lawful c B m) (h : n + m < c.M) :
    Lawful c (resultImpl c A B) (n + m) := by
  refine lawful_of ?_ h (fun o => match o with | .inl a => ordOf A a | .inr b => n + ordOf B b) ?_ ?_
  · simp [resultImpl, LA.size, LB.size, addC_ok h]
  · rintro (a | b)
    · have := LA.ord_lt a
      exact ⟨by simp; omega, by simp [resultImpl, LA.ordinal_eq],
        by simp [resultImpl, LA.size, LA.from_ord, LA.ord_lt]⟩
    · have := LB.ord_lt b
      refine ⟨by simp; omega, ?_, ?_⟩
      · simp only [resultImpl, LA.size, LB.ordinal_eq, ok_bind]; rw [addU_ok (by omega)]
      · simp only [resultImpl, LA.size, ok_bind]
        rw [if_neg (by omega), subU_ok (by omega), ok_bind, Nat.add_sub_cancel_left, LB.from_ord]; rfl
  · intro i hi
    rcases Nat.lt_or_ge i n with h | h
    · obtain ⟨a, h1, h2⟩ := LA.exists_ord h
      exact ⟨.inl a, by simp [resultImpl, LA.size, h, h1], h2⟩
    · obtain ⟨b, h1, h2⟩ := LB.exists_ord (show i - n < m by omega)
      refine ⟨.inr b, ?_, by simp [h2]; omega⟩
      simp only [resultImpl, LA.size, ok_bind]
      rw [if_neg (by omega), subU_ok h, ok_bind, h1]; rfl

theorem result_strict (LA : Lawful c A n) (St : Strict c B m) : Strict c (resultImpl c A B) (n + m) := by
  intro i hi hM
  simp only [resultImpl, LA.size, ok_bind]
  rw [if_neg (by omega), subU_ok (by omega), ok_bind, St (i - n) (by omega) (by omega)]
  rfl

theorem result_ordOf (LA : Lawful c A n) (LB : Lawful c B m) (h : n + m < c.M) (o : α ⊕ β) :
    ordOf (resultImpl c A B) o = match o with | .inl a => ordOf A a | .inr b => n + ordOf B b := by
  cases o with
  | inl a => simp [ordOf, resultImpl]
  | inr b =>
    have := LB.ord_lt b
    exact ordOf_eq (by simp [resultImpl, LA.size, LB.ordinal_eq b, addU_ok (show n + ordOf B b < c.M by omega)])

theorem result_ord (LA : Lawful c A n) (LB : Lawful c B m) (h : n + m < c.M) {ltA : α → α → Prop}
    {ltB : β → β → Prop} (OA : OrdCompat ltA A) (OB : OrdCompat ltB B) :
    OrdCompat (sumLt ltA ltB) (resultImpl c A B) := by
  rw [ordCompat_iff LA] at OA
  rw [ordCompat_iff LB] at OB
  rw [ordCompat_iff (result_lawful LA LB h)]
  intro a b
  rw [result_ordOf LA LB h, result_ordOf LA LB h]
  cases a with
  | inl a =>
    cases b with
    | inl b => simp [sumLt, OA]
    | inr b => have := LA.ord_lt a; simp [sumLt]; omega
  | inr a =>
    cases b with
    | inl b => have := LA.ord_lt b; simp [sumLt]; omega
    | inr b => simp [sumLt, OB]

theorem either_eq_result : eitherImpl c A B = resultImpl c A B := rfl

/-! ## Box -/

theorem box_lawful (L : Lawful c A n) : Lawful c (boxImpl A) n := by
  refine ⟨L.size, L.fits, ?_, ?_⟩
  · rintro ⟨a⟩
    obtain ⟨i, h1, h2, h3⟩ := L.ordinal a
    exact ⟨i, h1, h2, by simp [boxImpl, h3]⟩
  · intro i hi
    obtain ⟨a, h1, h2⟩ := L.fromOrdinal i hi
    exact ⟨⟨a⟩, by simp [boxImpl, h1], h2⟩

theorem box_strict (St : Strict c A n) : Strict c (boxImpl A) n := by
  intro i hi hM; simp [boxImpl, St i hi hM]

theorem box_ord {lt : α → α → Prop} (O : OrdCompat lt A) :
    OrdCompat (fun a b : Boxed α => lt a.unbox b.unbox) (boxImpl A) :=
  fun a b => O a.unbox b.unbox

/-! ## Arrays -/

/-- Big-endian positional value. -/
def encBE (n : Nat) : List Nat → Nat
  | [] => 0
  | o :: os => o * n ^ os.length + encBE n os

/-- Little-endian positional value. -/
def encLE (n : Nat) : List Nat → Nat
  | [] => 0
  | o :: os => o + n * encLE n os

theorem encBE_snoc (n : Nat) (os : List Nat) (o : Nat) : encBE n (os ++ [o]) = encBE n os * n + o := by
  induction os with
  | nil => simp [encBE]
  | cons x xs ih =>
    simp only [List.cons_append, encBE, ih, List.length_append, List.length_singleton, Nat.pow_succ,
      Nat.add_mul, Nat.mul_assoc, Nat.add_assoc]

theorem encBE_reverse (n : Nat) (os : List Nat) : encBE n os.reverse = encLE n os := by
  induction os with
  | nil => rfl
  | cons x xs ih => rw [List.reverse_cons, encBE_snoc, ih, encLE, Nat.mul_comm]; omega

theorem encBE_lt (n : Nat) (os : List Nat) (h : ∀ o ∈ os, o < n) : encBE n os < n ^ os.length := by
  induction os with
  | nil => simp [encBE]
  | cons x xs ih =>
    have h1 := ih (fun o ho => h o (by simp [ho]))
    have h2 : x + 1 ≤ n := h x (by simp)
    have h3 := Nat.mul_le_mul_right (n ^ xs.length) h2
    rw [Nat.add_mul, Nat.one_mul] at h3
    simp only [encBE, List.length_cons, Nat.pow_succ, Nat.mul_comm (n ^ xs.length) n]
    omega

theorem encBE_lex (n : Nat) (xs ys : List Nat) (hl : xs.length = ys.length) (hx : ∀ o ∈ xs, o < n)
    (hy : ∀ o ∈ ys, o < n) : List.Lex (· < ·) xs ys ↔ encBE n xs < encBE n ys := by
  induction xs generalizing ys with
  | nil =>
    cases ys with
    | nil => simp [encBE]
    | cons => simp at hl
  | cons x xs ih =>
    cases ys with
    | nil => simp at hl
    | cons y ys =>
      have hl' : xs.length = ys.length := by simpa using hl
      have hxs : ∀ o ∈ xs, o < n := fun o ho => hx o (by simp [ho])
      have hys : ∀ o ∈ ys, o < n := fun o ho => hy o (by simp [ho])
      have ih := ih ys hl' hxs hys
      have b1 := encBE_lt n xs hxs
      have b2 := encBE_lt n ys hys
      simp only [encBE, hl'] at b1 b2 ⊢
      rcases Nat.lt_trichotomy x y with h | h | h
      · have h3 := Nat.mul_le_mul_right (n ^ ys.length) (show x + 1 ≤ y from h)
        rw [Nat.add_mul, Nat.one_mul] at h3
        exact ⟨fun _ => by omega, fun _ => .rel h⟩
      · subst h
        constructor
        · intro hlex
          cases hlex with
          | rel h => omega
          | cons h => have := ih.1 h; omega
        · intro h; exact .cons (ih.2 (by omega))
      · have h3 := Nat.mul_le_mul_right (n ^ ys.length) (show y + 1 ≤ x from h)
        rw [Nat.add_mul, Nat.one_mul] at h3
        constructor
        · intro hlex
          cases hlex with
          | rel h => omega
          | cons h => omega
        · intro; omega

theorem encBE_inj (n : Nat) (xs ys : List Nat) (hl : xs.length = ys.length) (hx : ∀ o ∈ xs, o < n)
    (hy : ∀ o ∈ ys, o < n) (h : encBE n xs = encBE n ys) : xs = ys := by
  induction xs generalizing ys with
  | nil => cases ys with
    | nil => rfl
    | cons => simp at hl
  | cons x xs ih =>
    cases ys with
    | nil => simp at hl
    | cons y ys =>
      have hl' : xs.length = ys.length := by simpa using hl
      have hxs : ∀ o ∈ xs, o < n := fun o ho => hx o (by simp [ho])
      have hys : ∀ o ∈ ys, o < n := fun o ho => hy o (by simp [ho])
      have b1 := encBE_lt n xs hxs
      have b2 := encBE_lt n ys hys
      simp only [encBE, hl'] at b1 b2 h
      rcases Nat.lt_trichotomy x y with h' | h' | h'
      · have h3 := Nat.mul_le_mul_right (n ^ ys.length) (show x + 1 ≤ y from h')
        rw [Nat.add_mul, Nat.one_mul] at h3; omega
      · subst h'
        rw [ih ys hl' hxs hys (by omega)]
      · have h3 := Nat.mul_le_mul_right (n ^ ys.length) (show y + 1 ≤ x from h')
        rw [Nat.add_mul, Nat.one_mul] at h3; omega

theorem arraySizeLoop_ok (L : Lawful c A n) (k s : Nat) (h : ∀ j, j ≤ k → s * n ^ j < c.M) :
    arraySizeLoop c A k s = .ok (s * n ^ k) := by
  induction k generalizing s with
  | zero => simp [arraySizeLoop]
  | succ k ih =>
    have h1 := h 1 (by omega)
    rw [Nat.pow_one] at h1
    simp only [arraySizeLoop, L.size, ok_bind, checkedMul, h1, if_true]
    rw [ih]
    · rw [Nat.pow_succ, Nat.mul_comm (n ^ k) n, Nat.mul_assoc]
    · intro j hj
      have := h (j + 1) (by omega)
      rwa [Nat.pow_succ, Nat.mul_comm (n ^ j) n, ← Nat.mul_assoc] at this

theorem pow_bounds (n N : Nat) (h : n ^ N < c.M) : ∀ j, j ≤ N → n ^ j < c.M := by
  intro j hj
  rcases Nat.eq_zero_or_pos n with h0 | h0
  · subst h0
    have := c.M_ge
    cases j <;> simp <;> omega
  · have := Nat.pow_le_pow_right h0 hj; omega

theorem arrayOrdinalLoop_ok (L : Lawful c A n) (vs : List α) (r : Nat)
    (h : (r + 1) * n ^ vs.length < c.M) :
    arrayOrdinalLoop c A vs r = .ok (r * n ^ vs.length + encBE n (vs.map (ordOf A))) := by
  induction vs generalizing r with
  | nil => simp [arrayOrdinalLoop, encBE]
  | cons v vs ih =>
    have hv := L.ord_lt v
    have hp : 1 ≤ n ^ vs.length := Nat.pow_pos (by omega)
    have key : (r * n + ordOf A v + 1) * n ^ vs.length ≤ (r + 1) * n ^ (vs.length + 1) := by
      rw [Nat.pow_succ, Nat.mul_comm (n ^ vs.length) n, ← Nat.mul_assoc, Nat.add_mul r 1 n, Nat.one_mul]
      exact Nat.mul_le_mul_right _ (by omega)
    have hlow : r * n + ordOf A v + 1 ≤ (r * n + ordOf A v + 1) * n ^ vs.length :=
      Nat.le_mul_of_pos_right _ hp
    simp only [List.length_cons] at h
    simp only [arrayOrdinalLoop, L.size, L.ordinal_eq, ok_bind, checkedMul]
    rw [if_pos (by omega), unwrap_some, ok_bind, addU_ok (by omega), ok_bind, ih _ (by omega)]
    simp only [encBE, List.map_cons, List.length_map, List.length_cons, Nat.pow_succ, Nat.add_mul]
    rw [Nat.mul_comm (n ^ vs.length) n, ← Nat.mul_assoc]
    congr 1; omega

theorem arrayFromLoop_ok (L : Lawful c A n) (hn : 0 < n) (S k i : Nat) (vs : List α)
    (hk : vs.length + k = S) :
    ∃ l : List α, l.length = k ∧
      arrayFromLoop A k i (ArrayBuilder.holding S vs) =
        .ok (some (i / n ^ k, ArrayBuilder.holding S (vs ++ l))) ∧
      encLE n (l.map (ordOf A)) + n ^ k * (i / n ^ k) = i := by
  induction k generalizing i vs with
  | zero => exact ⟨[], rfl, by simp [arrayFromLoop], by simp [encLE]⟩
  | succ k ih =>
    obtain ⟨a, h1, h2⟩ := L.exists_ord (Nat.mod_lt i hn)
    obtain ⟨l, e1, e2, e3⟩ := ih (i / n) (vs ++ [a]) (by simp; omega)
    refine ⟨a :: l, by simp [e1], ?_, ?_⟩
    · simp only [arrayFromLoop, L.size, ok_bind, checkedRem]
      rw [if_neg (by omega)]
      simp only [h1, ok_bind, unwrap_some]
      rw [ArrayBuilder.push_holding _ (by omega), ok_bind, divU_ok (by omega), ok_bind, e2,
        Nat.div_div_eq_div_mul, Nat.pow_succ, Nat.mul_comm (n ^ k) n]
      simp
    · simp only [List.map_cons, encLE, h2]
      rw [Nat.pow_succ, Nat.mul_comm (n ^ k) n, ← Nat.div_div_eq_div_mul, Nat.mul_assoc, Nat.add_assoc,
        ← Nat.mul_add, e3]
      exact Nat.mod_add_div i n

theorem array_ordOf {N : Nat} (L : Lawful c A n) (h : n ^ N < c.M) (a : Arr α N) :
    (arrayImpl c N A).ordinal a = .ok (encBE n (a.1.map (ordOf A))) := by
  have := arrayOrdinalLoop_ok (c := c) L a.1 0 (by rw [a.2]; omega)
  simpa [arrayImpl] using this

theorem array_from (L : Lawful c A n) (N i : Nat) : ∃ r, (arrayImpl c N A).fromOrdinal i = .ok r ∧
    match r with
    | none => n ^ N ≤ i
    | some a => encBE n (a.1.map (ordOf A)) = i := by
  rcases Nat.eq_zero_or_pos n with h0 | h0
  · subst h0
    cases N with
    | zero =>
      simp only [arrayImpl, arrayFromLoop, ok_bind]
      by_cases hi : i = 0
      · subst hi
        exact ⟨some ⟨[], rfl⟩, by simp [ArrayBuilder.new, ArrayBuilder.finish, ArrayBuilder.tryFinish, ArrayBuilder.transmute], rfl⟩
      · exact ⟨none, by simp [hi], by simp; omega⟩
    | succ N =>
      exact ⟨none, by simp [arrayImpl, arrayFromLoop, L.size, checkedRem], by simp⟩
  · obtain ⟨l, h1, h2, h3⟩ := arrayFromLoop_ok L h0 N N i [] (by simp)
    have hp : 0 < n ^ N := Nat.pow_pos h0
    rw [← ArrayBuilder.new_eq] at h2
    simp only [arrayImpl, h2, ok_bind]
    by_cases hi : i / n ^ N = 0
    · refine ⟨some ⟨l.reverse, by simp [h1]⟩, ?_, ?_⟩
      · simp only [hi, List.nil_append]
        rw [ArrayBuilder.finish_full h1]
        simp [h1]
      · simp only [List.map_reverse, encBE_reverse]
        rw [hi] at h3; simpa using h3
    · refine ⟨none, by simp [hi], ?_⟩
      simp only
      rcases Nat.lt_or_ge i (n ^ N) with h | h
      · exact absurd (Nat.div_eq_of_lt h) hi
      · exact h

theorem map_ordOf_inj (L : Lawful c A n) {xs ys : List α} (h : xs.map (ordOf A) = ys.map (ordOf A)) :
    xs = ys := by
  induction xs generalizing ys with
  | nil => cases ys with
    | nil => rfl
    | cons => simp at h
  | cons x xs ih => cases ys with
    | nil => simp at h
    | cons y ys =>
      simp only [List.map_cons, List.cons.injEq] at h
      rw [L.ord_inj h.1, ih h.2]

theorem ords_lt (L : Lawful c A n) (xs : List α) : ∀ o ∈ xs.map (ordOf A), o < n := by
  intro o ho
  obtain ⟨a, _, rfl⟩ := List.mem_map.1 ho
  exact L.ord_lt a

theorem array_lawful {N : Nat} (L : Lawful c A n) (h : n ^ N < c.M) :
    Lawful c (arrayImpl c N A) (n ^ N) := by
  refine lawful_of ?_ h (fun a => encBE n (a.1.map (ordOf A))) ?_ ?_
  · have := arraySizeLoop_ok (c := c) L N 1 (by simpa using pow_bounds n N h)
    simpa [arrayImpl] using this
  · intro a
    have hb := encBE_lt n (a.1.map (ordOf A)) (ords_lt L a.1)
    simp only [List.length_map, a.2] at hb
    refine ⟨hb, array_ordOf L h a, ?_⟩
    obtain ⟨r, h1, h2⟩ := array_from L N (encBE n (a.1.map (ordOf A)))
    rw [h1]
    cases r with
    | none => simp only at h2; omega
    | some b =>
      have := encBE_inj n _ _ (by simp [a.2, b.2]) (ords_lt L b.1) (ords_lt L a.1) h2
      rw [Subtype.ext (map_ordOf_inj L this)]
  · intro i hi
    obtain ⟨r, h1, h2⟩ := array_from L N i
    cases r with
    | none => simp only at h2; omega
    | some b => exact ⟨b, h1, h2⟩

theorem array_strict {N : Nat} (L : Lawful c A n) : Strict c (arrayImpl c N A) (n ^ N) := by
  intro i hi _
  obtain ⟨r, h1, h2⟩ := array_from L N i
  rw [h1]
  cases r with
  | none => rfl
  | some b =>
    simp only at h2
    have hb := encBE_lt n (b.1.map (ordOf A)) (ords_lt L b.1)
    simp only [List.length_map, b.2] at hb
    omega

theorem lex_cons_iff {γ : Type} {lt : γ → γ → Prop} {x y : γ} {xs ys : List γ} :
    List.Lex lt (x :: xs) (y :: ys) ↔ lt x y ∨ (x = y ∧ List.Lex lt xs ys) := by
  constructor
  · intro h
    cases h with
    | rel h => exact .inl h
    | cons h => exact .inr ⟨rfl, h⟩
  · rintro (h | ⟨rfl, h⟩)
    · exact .rel h
    · exact .cons h

theorem lex_map (L : Lawful c A n) {lt : α → α → Prop}
    (O : ∀ a b, lt a b ↔ ordOf A a < ordOf A b) (xs ys : List α) :
    List.Lex lt xs ys ↔ List.Lex (· < ·) (xs.map (ordOf A)) (ys.map (ordOf A)) := by
  induction xs generalizing ys with
  | nil => cases ys with
    | nil => constructor <;> intro h <;> cases h
    | cons => exact ⟨fun _ => .nil, fun _ => .nil⟩
  | cons x xs ih => cases ys with
    | nil => constructor <;> intro h <;> cases h
    | cons y ys =>
      simp only [List.map_cons]
      rw [lex_cons_iff, lex_cons_iff, O, L.ord_inj_iff, ih]

theorem array_ord {N : Nat} (L : Lawful c A n) (h : n ^ N < c.M) {lt : α → α → Prop}
    (O : OrdCompat lt A) : OrdCompat (arrayLt lt) (arrayImpl c N A) := by
  rw [ordCompat_iff L] at O
  intro a b
  refine ⟨_, _, array_ordOf L h a, array_ordOf L h b, ?_⟩
  rw [arrayLt, lex_map L O]
  exact encBE_lex n _ _ (by simp [a.2, b.2]) (ords_lt L a.1) (ords_lt L b.1)

end OrdinalMap
