import Verif.Lemmas.DeriveSize
/-!
# Evaluating the generated expressions
-/

namespace OrdinalMap.Derive
open OrdinalMap SizeExpr

variable {ι : Type} {c : Cfg} {Ty : Types ι} {sz : ι → Nat}

theorem M_le64 (c : Cfg) : c.M ≤ 2 ^ 64 := by
  rcases c.M_cases with ⟨_, h⟩ | ⟨_, h⟩ <;> omega

/-! ## Values -/

/-- Ordinal of a field value. -/
def vord (v : Ty.Val) : Nat := ordOf (Ty.impl v.1) v.2

/-- Mixed-radix value, first field most significant. -/
def enc (sz : ι → Nat) : List Ty.Val → Nat
  | [] => 0
  | v :: vs => vord v * prodSz sz (vs.map Sigma.fst) + enc sz vs

theorem vord_lt (L : ∀ t, Lawful c (Ty.impl t) (sz t)) (v : Ty.Val) : vord v < sz v.1 :=
  (L v.1).ord_lt v.2

theorem enc_lt (L : ∀ t, Lawful c (Ty.impl t) (sz t)) (l : List Ty.Val) :
    enc sz l < prodSz sz (l.map Sigma.fst) := by
  induction l with
  | nil => simp [enc]
  | cons v vs ih =>
    have h := vord_lt L v
    simp only [enc, List.map_cons, prodSz_cons]
    calc vord v * prodSz sz (vs.map Sigma.fst) + enc sz vs
        < vord v * prodSz sz (vs.map Sigma.fst) + prodSz sz (vs.map Sigma.fst) := by omega
      _ = (vord v + 1) * prodSz sz (vs.map Sigma.fst) := by rw [Nat.add_mul, Nat.one_mul]
      _ ≤ sz v.1 * prodSz sz (vs.map Sigma.fst) := Nat.mul_le_mul_right _ h

/-- Two-digit comparison. -/
theorem digit_lt {a b x y p : Nat} (hx : x < p) (hy : y < p) :
    a * p + x < b * p + y ↔ a < b ∨ a = b ∧ x < y := by
  rcases Nat.lt_trichotomy a b with h | h | h
  · have : (a + 1) * p ≤ b * p := Nat.mul_le_mul_right _ h
    rw [Nat.add_mul] at this
    exact ⟨fun _ => .inl h, fun _ => by omega⟩
  · subst h; simp
  · have : (b + 1) * p ≤ a * p := Nat.mul_le_mul_right _ h
    rw [Nat.add_mul] at this
    constructor
    · intro h'; omega
    · rintro (h' | ⟨h', _⟩) <;> omega

theorem digit_inj {a b x y p : Nat} (hx : x < p) (hy : y < p) (h : a * p + x = b * p + y) :
    a = b ∧ x = y := by
  have h1 := digit_lt (a := a) (b := b) hx hy
  have h2 := digit_lt (a := b) (b := a) hy hx
  have h3 : ¬ a < b := fun h' => by have := h1.2 (.inl h'); omega
  have h4 : ¬ b < a := fun h' => by have := h2.2 (.inl h'); omega
  have h5 : a = b := by omega
  subst h5
  exact ⟨rfl, by omega⟩

theorem enc_inj (L : ∀ t, Lawful c (Ty.impl t) (sz t)) (l l' : List Ty.Val)
    (ht : l.map Sigma.fst = l'.map Sigma.fst) (h : enc sz l = enc sz l') : l = l' := by
  induction l generalizing l' with
  | nil => cases l' <;> simp_all
  | cons v vs ih =>
    match l', ht with
    | w :: ws, ht =>
      simp only [List.map_cons, List.cons.injEq] at ht
      obtain ⟨h1, h2⟩ := ht
      simp only [enc, h2] at h
      obtain ⟨h3, h4⟩ := digit_inj (by rw [← h2]; exact enc_lt L vs) (enc_lt L ws) h
      obtain rfl := ih ws h2 h4
      obtain ⟨t, a⟩ := v
      obtain ⟨t', b⟩ := w
      simp only at h1
      subst h1
      have := (L t).ord_inj (a := a) (b := b) h3
      rw [this]

/-! ## `Expr.eval` -/

theorem eval_add {refs : RefEnv Ty} {env : Env Ty} {m : Mode} {a b : Expr ι} {x y : Nat}
    (ha : a.eval c Ty refs env m = .ok x) (hb : b.eval c Ty refs env m = .ok y) (h : x + y < c.M) :
    (Expr.add a b).eval c Ty refs env m = .ok (x + y) := by
  cases m <;> simp [Expr.eval, ha, hb, addC_ok h, addU_ok h]

theorem eval_mul {refs : RefEnv Ty} {env : Env Ty} {m : Mode} {a b : Expr ι} {x y : Nat}
    (ha : a.eval c Ty refs env m = .ok x) (hb : b.eval c Ty refs env m = .ok y) (h : x * y < c.M) :
    (Expr.mul a b).eval c Ty refs env m = .ok (x * y) := by
  cases m <;> simp [Expr.eval, ha, hb, mulC_ok h, mulU_ok h]

@[simp] theorem eval_sizeOf (L : ∀ t, Lawful c (Ty.impl t) (sz t)) (refs : RefEnv Ty) (env : Env Ty)
    (m : Mode) (t : ι) : (Expr.sizeOf t).eval c Ty refs env m = .ok (sz t) := by
  cases m <;> simp [Expr.eval, (L t).size]

@[simp] theorem eval_lit (refs : RefEnv Ty) (env : Env Ty)
    (m : Mode) {n : Nat} (h : n < c.M) : (Expr.lit n : Expr ι).eval c Ty refs env m = .ok n := by
  cases m <;> simp [Expr.eval, h]

theorem closed_eval (c : Cfg) (Ty : Types ι) (refs : RefEnv Ty) (env : Env Ty) (m : Mode) :
    Closed (fun x v => Expr.eval c Ty refs env m x = .ok v) c.M where
  le64 := M_le64 c
  pos := c.M_pos
  lit _ h := eval_lit refs env m h
  add _ _ _ _ ha hb h := eval_add ha hb h

theorem closed_check (refs : List Ref) (ctx : Ctx ι) :
    Closed (fun (x : Expr ι) (_ : Nat) => x.check refs ctx = true) (2 ^ 64) where
  le64 := Nat.le_refl _
  pos := by decide
  lit _ h := by simp [Expr.check]
  add _ _ _ _ ha hb h := by simp [Expr.check, ha, hb]

/-- A constant expression that evaluates also evaluates at run time, to the same value. -/
theorem eval_const_any {e : Expr ι} {v : Nat} {refs : RefEnv Ty} {env : Env Ty}
    (refs' : RefEnv Ty) (env' : Env Ty) (m : Mode)
    (hlt : ∀ t n, (Ty.impl t).size = .ok n → n < c.M)
    (h : e.eval c Ty refs env .const = .ok v) :
    e.eval c Ty refs' env' m = .ok v ∧ v < c.M := by
  induction e generalizing v refs env refs' env' m with
  | lit n =>
    by_cases hn : n < c.M
    · simp [Expr.eval, hn] at h ⊢; cases m <;> simp [h] <;> omega
    · simp [Expr.eval, hn] at h
  | sizeOf t =>
    have h' : (Ty.impl t).size = .ok v := by simpa [Expr.eval] using h
    refine ⟨?_, hlt t v h'⟩
    cases m <;> simpa [Expr.eval] using h'
  | ordinalOf r => simp [Expr.eval] at h
  | add a b iha ihb =>
    simp only [Expr.eval] at h
    rcases ha : a.eval c Ty refs env .const with e | x
    · simp [ha] at h
    rcases hb : b.eval c Ty refs env .const with e | y
    · simp [ha, hb] at h
    simp only [ha, hb, ok_bind, addC] at h
    split at h
    · rename_i hlt
      cases h
      exact ⟨eval_add (iha refs' env' m ha).1 (ihb refs' env' m hb).1 hlt, hlt⟩
    · cases h
  | mul a b iha ihb =>
    simp only [Expr.eval] at h
    rcases ha : a.eval c Ty refs env .const with e | x
    · simp [ha] at h
    rcases hb : b.eval c Ty refs env .const with e | y
    · simp [ha, hb] at h
    simp only [ha, hb, ok_bind, mulC] at h
    split at h
    · rename_i hlt
      cases h
      exact ⟨eval_mul (iha refs' env' m ha).1 (ihb refs' env' m hb).1 hlt, hlt⟩
    · cases h
  | var x => simp [Expr.eval] at h
  | sub a b iha ihb =>
    simp only [Expr.eval] at h
    rcases ha : a.eval c Ty refs env .const with e | x
    · simp [ha] at h
    rcases hb : b.eval c Ty refs env .const with e | y
    · simp [ha, hb] at h
    simp only [ha, hb, ok_bind, subC] at h
    split at h
    · rename_i hle
      cases h
      have h1 := iha refs' env' m ha
      have h2 := ihb refs' env' m hb
      refine ⟨?_, by omega⟩
      cases m <;> simp [Expr.eval, h1.1, h2.1, subC, subU, hle]
    · cases h
  | rem a b iha ihb =>
    simp only [Expr.eval] at h
    rcases ha : a.eval c Ty refs env .const with e | x
    · simp [ha] at h
    rcases hb : b.eval c Ty refs env .const with e | y
    · simp [ha, hb] at h
    simp only [ha, hb, ok_bind, remC] at h
    split at h
    · cases h
    · rename_i hne
      cases h
      have h1 := iha refs' env' m ha
      have h2 := ihb refs' env' m hb
      refine ⟨?_, Nat.lt_of_le_of_lt (Nat.mod_le _ _) h1.2⟩
      cases m <;> simp [Expr.eval, h1.1, h2.1, remC, remU, hne]
  | constBlock e ih =>
    have h' : e.eval c Ty [] [] .const = .ok v := by simpa [Expr.eval] using h
    have := ih [] [] .const h'
    refine ⟨?_, this.2⟩
    cases m <;> simpa [Expr.eval] using h'

/-! ## Products of sizes -/

@[simp] theorem exprs_sizes (ts : List ι) :
    exprs (ts.map ordinalSize) = .ok (ts.map Expr.sizeOf) := by
  induction ts with
  | nil => simp [exprs]
  | cons t ts ih => simp [exprs, ordinalSize, expr] at *; simp [ih]

theorem eval_foldl_mul (L : ∀ t, Lawful c (Ty.impl t) (sz t)) {refs : RefEnv Ty} {env : Env Ty}
    {m : Mode} (ts : List ι) (x : Expr ι) (a : Nat) (hx : x.eval c Ty refs env m = .ok a)
    (hpos : ∀ t ∈ ts, 0 < sz t) (hb : a * prodSz sz ts < c.M) :
    ((ts.map Expr.sizeOf).foldl .mul x).eval c Ty refs env m = .ok (a * prodSz sz ts) := by
  induction ts generalizing x a with
  | nil => simpa using hx
  | cons t ts ih =>
    simp only [List.map_cons, List.foldl_cons, prodSz_cons, ← Nat.mul_assoc] at hb ⊢
    have hp : 0 < prodSz sz ts := prodSz_pos.2 fun t ht => hpos t (by simp [ht])
    refine ih _ _ (eval_mul hx (eval_sizeOf L _ _ _ _) ?_) (fun t ht => hpos t (by simp [ht])) hb
    exact Nat.lt_of_le_of_lt (Nat.le_mul_of_pos_right _ hp) hb

/-- Either the value, or a compile error. -/
def Approx (x : R Nat) (v : Nat) : Prop := x = .ok v ∨ x = .error .compileError

theorem Approx.mul {refs : RefEnv Ty} {env : Env Ty} {a b : Expr ι} {x y : Nat}
    (ha : Approx (a.eval c Ty refs env .const) x) (hb : Approx (b.eval c Ty refs env .const) y) :
    Approx ((Expr.mul a b).eval c Ty refs env .const) (x * y) := by
  unfold Approx at *
  rcases ha with ha | ha
  · rcases hb with hb | hb
    · simp only [Expr.eval, ha, hb, ok_bind, mulC]
      split <;> simp
    · simp [Expr.eval, ha, hb]
  · simp [Expr.eval, ha]

theorem Approx.add {refs : RefEnv Ty} {env : Env Ty} {a b : Expr ι} {x y : Nat}
    (ha : Approx (a.eval c Ty refs env .const) x) (hb : Approx (b.eval c Ty refs env .const) y) :
    Approx ((Expr.add a b).eval c Ty refs env .const) (x + y) := by
  unfold Approx at *
  rcases ha with ha | ha
  · rcases hb with hb | hb
    · simp only [Expr.eval, ha, hb, ok_bind, addC]
      split <;> simp
    · simp [Expr.eval, ha, hb]
  · simp [Expr.eval, ha]

theorem approx_foldl_mul (L : ∀ t, Lawful c (Ty.impl t) (sz t)) {refs : RefEnv Ty} {env : Env Ty}
    (ts : List ι) (x : Expr ι) (a : Nat) (hx : Approx (x.eval c Ty refs env .const) a) :
    Approx (((ts.map Expr.sizeOf).foldl .mul x).eval c Ty refs env .const) (a * prodSz sz ts) := by
  induction ts generalizing x a with
  | nil => simpa using hx
  | cons t ts ih =>
    simp only [List.map_cons, List.foldl_cons, prodSz_cons, ← Nat.mul_assoc]
    exact ih _ _ (hx.mul (.inl (eval_sizeOf L _ _ _ _)))

theorem check_foldl_mul (refs : List Ref) (ctx : Ctx ι) (ts : List ι) (x : Expr ι)
    (hx : x.check refs ctx = true) : ((ts.map Expr.sizeOf).foldl .mul x).check refs ctx = true := by
  induction ts generalizing x with
  | nil => simpa using hx
  | cons t ts ih =>
    simp only [List.map_cons, List.foldl_cons]
    exact ih _ (by simp [Expr.check, hx])

/-- The expression emitted for the number of values of a field list. -/
def prodExpr : List ι → Expr ι
  | [] => .lit 1
  | t :: ts => (ts.map Expr.sizeOf).foldl .mul (.sizeOf t)

theorem expr_prod (ts : List ι) :
    (productIgnoreConst (ts.map ordinalSize)).expr = .ok (prodExpr ts) := by
  match ts with
  | [] => rfl
  | [t] => rfl
  | t :: t2 :: ts =>
    have := exprs_sizes (t :: t2 :: ts)
    simp only [List.map_cons] at this
    simp [productIgnoreConst, expr, constAssert, this, foldExprs, prodExpr]

theorem approx_prodExpr (L : ∀ t, Lawful c (Ty.impl t) (sz t)) (refs : RefEnv Ty) (env : Env Ty)
    (ts : List ι) : Approx ((prodExpr ts).eval c Ty refs env .const) (prodSz sz ts) := by
  cases ts with
  | nil => exact .inl (eval_lit _ _ _ (by have := c.M_ge; omega))
  | cons t ts =>
    rw [prodSz_cons]
    exact approx_foldl_mul L ts _ _ (.inl (eval_sizeOf L _ _ _ _))

theorem eval_prodExpr (L : ∀ t, Lawful c (Ty.impl t) (sz t)) (refs : RefEnv Ty) (env : Env Ty)
    (m : Mode) (ts : List ι) (hpos : ∀ t ∈ ts, 0 < sz t) (hb : prodSz sz ts < c.M) :
    (prodExpr ts).eval c Ty refs env m = .ok (prodSz sz ts) := by
  cases ts with
  | nil => exact eval_lit _ _ _ hb
  | cons t ts =>
    rw [prodSz_cons] at hb ⊢
    exact eval_foldl_mul L ts _ _ (eval_sizeOf L _ _ _ _) (fun t ht => hpos t (by simp [ht])) hb

theorem check_prodExpr (refs : List Ref) (ctx : Ctx ι) (ts : List ι) :
    (prodExpr ts).check refs ctx = true := by
  cases ts with
  | nil => rfl
  | cons t ts => exact check_foldl_mul _ _ _ _ rfl

/-! ## The generated `ordinal()` of a field list -/

theorem expr_term (r : Ref) (t : ι) (ts : List ι) :
    (SizeExpr.product (ordinalExpr r :: (t :: ts).map ordinalSize)).expr =
      .ok (((t :: ts).map Expr.sizeOf).foldl .mul (.ordinalOf r)) := by
  have h : exprs (ordinalExpr r :: (t :: ts).map ordinalSize) =
      .ok (.ordinalOf r :: (t :: ts).map Expr.sizeOf) := by
    rw [exprs, exprs_sizes]; rfl
  rw [expr, h]
  simp [constAssert, foldExprs]

theorem eval_ordinalOf (L : ∀ t, Lawful c (Ty.impl t) (sz t)) {refs : RefEnv Ty} {env : Env Ty}
    {r : Ref} {v : Ty.Val} (h : refs.lookup r = some v) :
    (Expr.ordinalOf r : Expr ι).eval c Ty refs env .runtime = .ok (vord v) := by
  simp [Expr.eval, h, (L v.1).ordinal_eq, vord]

theorem flat_terms (L : ∀ t, Lawful c (Ty.impl t) (sz t)) (refs : RefEnv Ty) (env : Env Ty)
    (rs : List Ref) (l : List Ty.Val) (hl : rs.length = l.length)
    (hlk : ∀ p ∈ rs.zip l, refs.lookup p.1 = some p.2)
    (hb : prodSz sz (l.map Sigma.fst) < c.M) :
    ∃ qs : List (SizeExpr ι × Nat), terms rs (l.map Sigma.fst) = qs.map (·.1) ∧
      (∀ q ∈ qs, Flat (fun x v => Expr.eval c Ty refs env .runtime x = .ok v) q.1 q.2) ∧
      (qs.map (·.2)).sum = enc sz l := by
  induction l generalizing rs with
  | nil => exact ⟨[], by cases rs <;> simp [terms, enc]⟩
  | cons v vs ih =>
    match rs, hl with
    | r :: rs, hl =>
      have hpos : ∀ w ∈ v :: vs, 0 < sz w.1 := fun w _ => (L w.1).pos w.2
      have hv := hlk (r, v) (by simp)
      simp only [List.map_cons, prodSz_cons] at hb
      have hle : prodSz sz (vs.map Sigma.fst) ≤ sz v.1 * prodSz sz (vs.map Sigma.fst) :=
        Nat.le_mul_of_pos_left _ (hpos v (by simp))
      obtain ⟨qs, h1, h2, h3⟩ := ih rs (by simpa using hl)
        (fun p hp => hlk p (by simp [hp])) (by omega)
      have hlt : vord v * prodSz sz (vs.map Sigma.fst) < c.M :=
        Nat.lt_of_le_of_lt (Nat.mul_le_mul_right _ (Nat.le_of_lt (vord_lt L v))) hb
      have hev := eval_ordinalOf L (env := env) hv
      cases vs with
      | nil =>
        obtain rfl : rs = [] := by simpa using hl
        refine ⟨[(ordinalExpr r, vord v)], by simp [terms], ?_, by simp [enc]⟩
        intro q hq
        obtain rfl := List.mem_singleton.1 hq
        exact ⟨⟨_, rfl, hev⟩, by simp [ordinalExpr], by simp [ordinalExpr]⟩
      | cons w ws =>
        refine ⟨(.product (ordinalExpr r :: (w :: ws).map (ordinalSize ∘ Sigma.fst)),
          vord v * prodSz sz ((w :: ws).map Sigma.fst)) :: qs, ?_, ?_, ?_⟩
        · simp only [List.map_cons, terms, List.isEmpty_cons] at h1 ⊢
          simp [h1]
        · intro q hq
          rcases List.mem_cons.1 hq with rfl | hq
          · refine ⟨⟨(((w :: ws).map Sigma.fst).map Expr.sizeOf).foldl .mul (.ordinalOf r), ?_, ?_⟩,
              by simp, by simp⟩
            · rw [← List.map_map]
              simpa using expr_term r w.1 (ws.map Sigma.fst)
            · refine eval_foldl_mul L _ _ _ hev ?_ hlt
              intro t ht
              obtain ⟨u, hu, rfl⟩ := List.mem_map.1 ht
              exact hpos u (by simp at hu ⊢; simp [hu])
          · exact h2 q hq
        · simp [enc, h3]

theorem check_terms (refs : List Ref) (ctx : Ctx ι) (rs : List Ref) (ts : List ι)
    (hlk : ∀ r ∈ rs, r ∈ refs) :
    ∃ qs : List (SizeExpr ι × Nat), terms rs ts = qs.map (·.1) ∧
      (∀ q ∈ qs, Flat (fun (x : Expr ι) (_ : Nat) => x.check refs ctx = true) q.1 q.2) ∧
      (qs.map (·.2)).sum = 0 := by
  induction ts generalizing rs with
  | nil => exact ⟨[], by cases rs <;> simp [terms]⟩
  | cons t ts ih =>
    cases rs with
    | nil => exact ⟨[], by simp [terms]⟩
    | cons r rs =>
      obtain ⟨qs, h1, h2, h3⟩ := ih rs (fun r hr => hlk r (by simp [hr]))
      have hr : (Expr.ordinalOf r : Expr ι).check refs ctx = true := by
        simpa [Expr.check] using hlk r (by simp)
      cases ts with
      | nil =>
        refine ⟨(ordinalExpr r, 0) :: qs, by simp [terms, h1], ?_, by simp [h3]⟩
        intro q hq
        rcases List.mem_cons.1 hq with rfl | hq
        · exact ⟨⟨_, rfl, hr⟩, by simp [ordinalExpr], by simp [ordinalExpr]⟩
        · exact h2 q hq
      | cons t2 ts =>
        refine ⟨(.product (ordinalExpr r :: (t2 :: ts).map ordinalSize), 0) :: qs,
          by simp only [terms, h1]; simp, ?_, by simp [h3]⟩
        intro q hq
        rcases List.mem_cons.1 hq with rfl | hq
        · exact ⟨⟨_, expr_term r t2 ts, check_foldl_mul _ _ _ _ hr⟩, by simp, by simp⟩
        · exact h2 q hq

/-- The struct `ordinal()` expression evaluates to the mixed-radix number. -/
theorem good_structOrdinal (L : ∀ t, Lawful c (Ty.impl t) (sz t)) (refs : RefEnv Ty) (env : Env Ty)
    (rs : List Ref) (l : List Ty.Val) (hl : rs.length = l.length)
    (hlk : ∀ p ∈ rs.zip l, refs.lookup p.1 = some p.2)
    (hb : prodSz sz (l.map Sigma.fst) < c.M) :
    ∃ e, structOrdinal rs (l.map Sigma.fst) = .ok e ∧
      Good (fun x v => Expr.eval c Ty refs env .runtime x = .ok v) e (enc sz l) := by
  obtain ⟨qs, h1, h2, h3⟩ := flat_terms L refs env rs l hl hlk hb
  refine ⟨_, structOrdinal_eq _ _ (by simpa using hl), ?_⟩
  rw [h1, ← h3]
  exact good_ignore (closed_eval c Ty refs env .runtime) qs h2
    (by rw [h3]; exact Nat.lt_trans (enc_lt L l) hb)

theorem good_structOrdinal_check (refs : List Ref) (ctx : Ctx ι) (rs : List Ref) (ts : List ι)
    (hl : rs.length = ts.length) (hlk : ∀ r ∈ rs, r ∈ refs) :
    ∃ e, structOrdinal rs ts = .ok e ∧
      Good (fun (x : Expr ι) (_ : Nat) => x.check refs ctx = true) e 0 := by
  obtain ⟨qs, h1, h2, h3⟩ := check_terms refs ctx rs ts hlk
  refine ⟨_, structOrdinal_eq _ _ hl, ?_⟩
  have := good_ignore (closed_check refs ctx) qs h2 (by rw [h3]; decide)
  rwa [h1, ← h3]

end OrdinalMap.Derive
