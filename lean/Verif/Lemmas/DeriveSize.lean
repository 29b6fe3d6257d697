import Verif.Model.Derive
import Verif.Lemmas.Lawful
/-!
# What the generated size and ordinal expressions are, and what they evaluate to
-/

namespace OrdinalMap.Derive
open OrdinalMap

variable {ι : Type}

/-- Product of sizes. -/
def prodSz (sz : ι → Nat) (ts : List ι) : Nat := (ts.map sz).foldr (· * ·) 1

@[simp] theorem prodSz_nil (sz : ι → Nat) : prodSz sz [] = 1 := rfl
@[simp] theorem prodSz_cons (sz : ι → Nat) (t : ι) (ts : List ι) :
    prodSz sz (t :: ts) = sz t * prodSz sz ts := rfl

theorem prodSz_append (sz : ι → Nat) (a b : List ι) :
    prodSz sz (a ++ b) = prodSz sz a * prodSz sz b := by
  induction a with
  | nil => simp
  | cons t a ih => simp [ih, Nat.mul_assoc]

theorem prodSz_pos {sz : ι → Nat} {ts : List ι} : 0 < prodSz sz ts ↔ ∀ t ∈ ts, 0 < sz t := by
  induction ts with
  | nil => simp
  | cons t ts ih =>
    rw [List.forall_mem_cons, ← ih, prodSz_cons]
    simp [Nat.pos_iff_ne_zero, Nat.mul_eq_zero, not_or]

namespace SizeExpr

/-! ## Shape of products of sizes -/

theorem productLoop_sizes (ts : List ι) (p : Nat) (items : List (SizeExpr ι)) :
    productLoop (ts.map ordinalSize) p items = .ok (p, items ++ ts.map ordinalSize) := by
  induction ts generalizing items with
  | nil => simp [productLoop]
  | cons t ts ih => simp [ordinalSize, productLoop] at *; simp [ih]

theorem mkProduct_sizes (ts : List ι) :
    mkProduct (ts.map ordinalSize) = .ok (productIgnoreConst (ts.map ordinalSize)) := by
  simp [mkProduct, productLoop_sizes]

theorem mkProduct_ord (r : Ref) (t : ι) (ts : List ι) :
    mkProduct [ordinalExpr r, productIgnoreConst ((t :: ts).map ordinalSize)] =
      .ok (.product (ordinalExpr r :: (t :: ts).map ordinalSize)) := by
  cases ts with
  | nil => simp [mkProduct, productLoop, ordinalExpr, productIgnoreConst, ordinalSize]
  | cons t2 ts => simp [mkProduct, productLoop, ordinalExpr, productIgnoreConst, ordinalSize]

end SizeExpr
open SizeExpr

/-- The terms of the generated `ordinal()` sum. -/
def terms : List Ref → List ι → List (SizeExpr ι)
  | r :: rs, _ :: ts =>
    (if ts.isEmpty then ordinalExpr r else .product (ordinalExpr r :: ts.map ordinalSize)) ::
      terms rs ts
  | _, _ => []

theorem structOrdinal_eq (rs : List Ref) (ts : List ι) (h : rs.length = ts.length) :
    structOrdinal rs ts = .ok (sumIgnoreConst (terms rs ts)) := by
  induction ts generalizing rs with
  | nil => cases rs <;> simp_all [structOrdinal, terms, sumIgnoreConst]
  | cons t ts ih =>
    match rs, h with
    | [r], h =>
      obtain rfl : ts = [] := by simpa using h.symm
      simp [structOrdinal, terms, sumIgnoreConst]
    | r :: r2 :: rs, h =>
      match ts, h with
      | t2 :: ts, h =>
        rw [structOrdinal, mkProduct_sizes, ih (r2 :: rs) (by simpa using h)]
        simp only [ok_bind, tuple2Ordinal, mkProduct_ord]
        rw [show terms (r :: r2 :: rs) (t :: t2 :: ts) =
          .product (ordinalExpr r :: (t2 :: ts).map ordinalSize) :: terms (r2 :: rs) (t2 :: ts)
          from rfl]
        cases ts with
        | nil =>
          obtain rfl : rs = [] := by simpa using h
          simp [terms, sumIgnoreConst, mkSum, sumLoop, ordinalExpr]
        | cons t3 ts =>
          match rs, h with
          | r3 :: rs, h =>
            simp [terms, sumIgnoreConst, mkSum, sumLoop]

theorem structOrdinalSize_eq (ts : List ι) :
    structOrdinalSize ts = .ok (productIgnoreConst (ts.map ordinalSize)) :=
  mkProduct_sizes ts

/-! ## Sums, for any predicate closed under literals and addition -/

/-- `P e v`: expression `e` has value `v` (or, for static checks, just type-checks). -/
structure Closed (P : Expr ι → Nat → Prop) (B : Nat) : Prop where
  le64 : B ≤ 2 ^ 64
  pos : 0 < B
  lit : ∀ n, n < B → P (.lit n) n
  add : ∀ a b x y, P a x → P b y → x + y < B → P (.add a b) (x + y)

section
variable {P : Expr ι → Nat → Prop} {B : Nat}

/-- `P` of the emitted expression. -/
def Ev (P : Expr ι → Nat → Prop) (e : SizeExpr ι) (v : Nat) : Prop := ∃ x, e.expr = .ok x ∧ P x v

/-- A non-sum. -/
structure Flat (P : Expr ι → Nat → Prop) (e : SizeExpr ι) (v : Nat) : Prop where
  ev : Ev P e v
  notSum : ∀ xs, e ≠ .sum xs
  const : ∀ k, e = .const k → k = v

/-- An expression whose summands, if it is a sum, have values adding up to its value. -/
structure Good (P : Expr ι → Nat → Prop) (e : SizeExpr ι) (v : Nat) : Prop where
  ev : Ev P e v
  const : ∀ k, e = .const k → k = v
  sum : ∀ xs, e = .sum xs → ∃ qs : List (SizeExpr ι × Nat), xs = qs.map (·.1) ∧
    (∀ q ∈ qs, Flat P q.1 q.2) ∧ (qs.map (·.2)).sum = v

theorem Flat.good {e : SizeExpr ι} {v : Nat} (h : Flat P e v) : Good P e v :=
  ⟨h.ev, h.const, fun xs hx => absurd hx (h.notSum xs)⟩

theorem exprs_ev (qs : List (SizeExpr ι × Nat)) (h : ∀ q ∈ qs, Ev P q.1 q.2) :
    ∃ xs : List (Expr ι × Nat), exprs (qs.map (·.1)) = .ok (xs.map (·.1)) ∧
      xs.map (·.2) = qs.map (·.2) ∧ ∀ x ∈ xs, P x.1 x.2 := by
  induction qs with
  | nil => exact ⟨[], by simp [exprs]⟩
  | cons q qs ih =>
    obtain ⟨xs, h1, h2, h3⟩ := ih (fun q hq => h q (by simp [hq]))
    obtain ⟨x, hx1, hx2⟩ := h q (by simp)
    refine ⟨(x, q.2) :: xs, ?_, by simp [h2], ?_⟩
    · simp [exprs, hx1, h1]
    · intro y hy
      rcases List.mem_cons.1 hy with rfl | hy
      · exact hx2
      · exact h3 y hy

theorem foldl_add (C : Closed P B) (xs : List (Expr ι × Nat)) (x : Expr ι) (v : Nat) (hx : P x v)
    (h : ∀ x ∈ xs, P x.1 x.2) (hb : v + (xs.map (·.2)).sum < B) :
    P ((xs.map (·.1)).foldl .add x) (v + (xs.map (·.2)).sum) := by
  induction xs generalizing x v with
  | nil => simpa using hx
  | cons y ys ih =>
    simp only [List.map_cons, List.foldl_cons, List.sum_cons, ← Nat.add_assoc] at hb ⊢
    exact ih _ _ (C.add _ _ _ _ hx (h y (by simp)) (by omega)) (fun z hz => h z (by simp [hz])) hb

theorem ev_sum (C : Closed P B) (qs : List (SizeExpr ι × Nat)) (h : ∀ q ∈ qs, Ev P q.1 q.2)
    (hl : 2 ≤ qs.length) (hb : (qs.map (·.2)).sum < B) :
    Ev P (.sum (qs.map (·.1))) (qs.map (·.2)).sum := by
  obtain ⟨xs, h1, h2, h3⟩ := exprs_ev qs h
  have hne : xs.length = qs.length := by simpa using congrArg List.length h2
  match xs, hne with
  | [], hne => simp at hne; omega
  | x :: xs, hne =>
    refine ⟨(xs.map (·.1)).foldl .add x.1, ?_, ?_⟩
    · simp [expr, constAssert, hl, h1, foldExprs]
    · rw [← h2] at hb ⊢
      simp only [List.map_cons, List.sum_cons] at hb ⊢
      exact foldl_add C xs x.1 x.2 (h3 _ (by simp)) (fun z hz => h3 z (by simp [hz])) hb

theorem good_ignore (C : Closed P B) (qs : List (SizeExpr ι × Nat)) (h : ∀ q ∈ qs, Flat P q.1 q.2)
    (hb : (qs.map (·.2)).sum < B) :
    Good P (sumIgnoreConst (qs.map (·.1))) (qs.map (·.2)).sum := by
  match qs, h, hb with
  | [], _, hb =>
    exact ⟨⟨_, rfl, C.lit 0 C.pos⟩, fun k hk => by simpa [sumIgnoreConst] using hk.symm,
      fun xs hx => by simp [sumIgnoreConst] at hx⟩
  | [q], h, hb => simpa [sumIgnoreConst] using (h q (by simp)).good
  | q :: q2 :: qs, h, hb =>
    refine ⟨ev_sum C (q :: q2 :: qs) (fun q hq => (h q hq).ev) (by simp) hb,
      fun k hk => by simp [sumIgnoreConst] at hk, fun xs hx => ⟨q :: q2 :: qs, ?_, h, rfl⟩⟩
    simpa [sumIgnoreConst] using hx.symm

theorem good_sumLoop (C : Closed P B) (ps : List (SizeExpr ι × Nat)) (s : Nat)
    (items : List (SizeExpr ι × Nat)) (h : ∀ p ∈ ps, Good P p.1 p.2)
    (hi : ∀ q ∈ items, Flat P q.1 q.2)
    (hb : s + (items.map (·.2)).sum + (ps.map (·.2)).sum < B) :
    ∃ (s' : Nat) (qs : List (SizeExpr ι × Nat)),
      sumLoop (ps.map (·.1)) s (items.map (·.1)) = .ok (s', qs.map (·.1)) ∧
      (∀ q ∈ qs, Flat P q.1 q.2) ∧
      s' + (qs.map (·.2)).sum = s + (items.map (·.2)).sum + (ps.map (·.2)).sum := by
  induction ps generalizing s items with
  | nil => exact ⟨s, items, by simp [sumLoop], hi, by simp⟩
  | cons p ps ih =>
    obtain ⟨e, v⟩ := p
    have hg : Good P e v := h (e, v) (by simp)
    have ih' := fun s items => ih s items (fun p hp => h p (by simp [hp]))
    simp only [List.map_cons, List.sum_cons] at hb ⊢
    cases e with
    | const k =>
      obtain rfl := hg.const k rfl
      obtain ⟨s', qs, h1, h2, h3⟩ := ih' (s + k) items hi (by omega)
      refine ⟨s', qs, ?_, h2, by omega⟩
      have hlt : s + k < 2 ^ 64 := Nat.lt_of_lt_of_le (by omega) C.le64
      simp [sumLoop, checkedAdd64, hlt, h1]
    | sum xs =>
      obtain ⟨rs, rfl, hr, hs⟩ := hg.sum xs rfl
      obtain ⟨s', qs, h1, h2, h3⟩ := ih' s (items ++ rs)
        (by intro q hq; rcases List.mem_append.1 hq with hq | hq; exact hi q hq; exact hr q hq)
        (by simp; omega)
      refine ⟨s', qs, ?_, h2, by simp at h3; omega⟩
      simpa [sumLoop] using h1
    | syn x =>
      obtain ⟨s', qs, h1, h2, h3⟩ := ih' s (items ++ [(.syn x, v)])
        (by intro q hq
            rcases List.mem_append.1 hq with hq | hq
            · exact hi q hq
            · obtain rfl := List.mem_singleton.1 hq
              exact ⟨hg.ev, by simp, by simp⟩)
        (by simp; omega)
      refine ⟨s', qs, ?_, h2, by simp at h3; omega⟩
      simpa [sumLoop] using h1
    | product xs =>
      obtain ⟨s', qs, h1, h2, h3⟩ := ih' s (items ++ [(.product xs, v)])
        (by intro q hq
            rcases List.mem_append.1 hq with hq | hq
            · exact hi q hq
            · obtain rfl := List.mem_singleton.1 hq
              exact ⟨hg.ev, by simp, by simp⟩)
        (by simp; omega)
      refine ⟨s', qs, ?_, h2, by simp at h3; omega⟩
      simpa [sumLoop] using h1

theorem good_mkSum (C : Closed P B) (ps : List (SizeExpr ι × Nat)) (h : ∀ p ∈ ps, Good P p.1 p.2)
    (hb : (ps.map (·.2)).sum < B) :
    ∃ e, mkSum (ps.map (·.1)) = .ok e ∧ Good P e (ps.map (·.2)).sum := by
  obtain ⟨s, qs, h1, h2, h3⟩ := good_sumLoop C ps 0 [] h (by simp) (by simpa using hb)
  simp only [List.map_nil, List.sum_nil, Nat.zero_add, Nat.add_zero] at h1 h3
  simp only [mkSum, h1, ok_bind]
  refine ⟨_, rfl, ?_⟩
  rw [← h3] at hb ⊢
  match s with
  | 0 => simpa using good_ignore C qs h2 (by omega)
  | s + 1 =>
    have := good_ignore C ((.const (s + 1), s + 1) :: qs) (by
      intro q hq
      rcases List.mem_cons.1 hq with rfl | hq
      · exact ⟨⟨_, rfl, C.lit _ (by omega)⟩, by simp, fun k hk => by injection hk with hk; exact hk.symm⟩
      · exact h2 q hq) (by simpa using hb)
    simpa using this

end
end OrdinalMap.Derive
