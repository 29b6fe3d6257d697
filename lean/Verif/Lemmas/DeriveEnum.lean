import Verif.Lemmas.DeriveStruct
/-!
# Derived enums
-/

set_option linter.unusedSectionVars false

namespace OrdinalMap.Derive
open OrdinalMap SizeExpr

variable {ι : Type} [DecidableEq ι] {c : Cfg} {Ty : Types ι} {sz : ι → Nat}

/-- Number of values of a list of variants. -/
def vsum (sz : ι → Nat) (vs : List (Fields ι)) : Nat :=
  (vs.map fun v => prodSz sz (fieldTypes v)).sum

@[simp] theorem vsum_nil (sz : ι → Nat) : vsum sz [] = 0 := rfl
@[simp] theorem vsum_cons (sz : ι → Nat) (v : Fields ι) (vs : List (Fields ι)) :
    vsum sz (v :: vs) = prodSz sz (fieldTypes v) + vsum sz vs := rfl

theorem vsum_append (sz : ι → Nat) (a b : List (Fields ι)) :
    vsum sz (a ++ b) = vsum sz a + vsum sz b := by simp [vsum]

theorem vsum_take_succ (sz : ι → Nat) (vs : List (Fields ι)) (k : Nat) (v : Fields ι)
    (h : vs[k]? = some v) :
    vsum sz (vs.take (k + 1)) = vsum sz (vs.take k) + prodSz sz (fieldTypes v) := by
  rw [List.take_add_one, h, vsum_append]; simp

theorem vsum_take_le (sz : ι → Nat) (vs : List (Fields ι)) (k : Nat) :
    vsum sz (vs.take k) ≤ vsum sz vs := by
  conv => rhs; rw [← List.take_append_drop k vs, vsum_append]
  omega

theorem vsum_take_mono (sz : ι → Nat) (vs : List (Fields ι)) (i k : Nat) (h : i ≤ k) :
    vsum sz (vs.take i) ≤ vsum sz (vs.take k) := by
  have := vsum_take_le sz (vs.take k) i
  rwa [List.take_take, Nat.min_eq_left h] at this

theorem le_vsum (sz : ι → Nat) (vs : List (Fields ι)) (v : Fields ι) (h : v ∈ vs) :
    prodSz sz (fieldTypes v) ≤ vsum sz vs := by
  induction vs with
  | nil => simp at h
  | cons w vs ih =>
    rw [vsum_cons]
    rcases List.mem_cons.1 h with rfl | h
    · omega
    · have := ih h; omega

/-- The size expression of one variant. -/
def sizeS (v : Fields ι) : SizeExpr ι := productIgnoreConst ((fieldTypes v).map ordinalSize)

theorem variantSizes_eq (vs : List (Fields ι)) : variantSizes vs = .ok (vs.map sizeS) := by
  induction vs with
  | nil => rfl
  | cons v vs ih => simp [variantSizes, ih, structOrdinalSize_eq, sizeS]

theorem flat_sizeS {P : Expr ι → Nat → Prop} (v : Fields ι) (n : Nat)
    (h : P (prodExpr (fieldTypes v)) n) (h1 : fieldTypes v = [] → n = 1) : Flat P (sizeS v) n := by
  refine ⟨⟨_, expr_prod _, h⟩, ?_, ?_⟩
  · intro xs
    match ht : fieldTypes v with
    | [] => simp [sizeS, ht, productIgnoreConst]
    | [t] => simp [sizeS, ht, productIgnoreConst, ordinalSize]
    | t :: t2 :: ts => simp [sizeS, ht, productIgnoreConst]
  · intro k
    match ht : fieldTypes v with
    | [] => simpa [sizeS, ht, productIgnoreConst, h1 ht] using fun h : 1 = k => h.symm
    | [t] => simp [sizeS, ht, productIgnoreConst, ordinalSize]
    | t :: t2 :: ts => simp [sizeS, ht, productIgnoreConst]

/-- `size_of_first_variants` for any closed predicate. -/
theorem good_first {P : Expr ι → Nat → Prop} {B : Nat} (C : Closed P B) (vs : List (Fields ι))
    (f : Fields ι → Nat) (h : ∀ v ∈ vs, P (prodExpr (fieldTypes v)) (f v))
    (h1 : ∀ v, fieldTypes v = [] → f v = 1) (i : Nat) (hb : ((vs.take i).map f).sum < B) :
    ∃ e, sizeOfFirstVariants vs i = .ok e ∧ Good P e ((vs.take i).map f).sum := by
  have := good_mkSum C ((vs.take i).map fun v => (sizeS v, f v)) (by
    intro p hp
    obtain ⟨v, hv, rfl⟩ := List.mem_map.1 hp
    exact (flat_sizeS v (f v) (h v (List.mem_of_mem_take hv)) (h1 v)).good) (by simpa [Function.comp_def] using hb)
  simp only [List.map_map, Function.comp_def] at this
  simpa [sizeOfFirstVariants, variantSizes_eq] using this

/-! ## The explicit form of the total size -/

/-- Variants without fields. -/
def noFields (v : Fields ι) : Bool := (fieldTypes v).isEmpty

theorem sizeS_noFields {v : Fields ι} (h : noFields v = true) : sizeS v = .const 1 := by
  have : fieldTypes v = [] := by simpa [noFields] using h
  simp [sizeS, this, productIgnoreConst]

theorem sumLoop_sizes (vs : List (Fields ι)) (s : Nat) (items : List (SizeExpr ι)) (hs : s < 2 ^ 64) :
    sumLoop (vs.map sizeS) s items =
      if s + vs.countP noFields < 2 ^ 64 then
        .ok (s + vs.countP noFields, items ++ (vs.filter (!noFields ·)).map sizeS)
      else .error .compileError := by
  induction vs generalizing s items with
  | nil => simp [sumLoop, hs]
  | cons v vs ih =>
    by_cases hv : noFields v = true
    · simp only [List.map_cons, sizeS_noFields hv, sumLoop, checkedAdd64]
      rw [List.countP_cons_of_pos hv]
      by_cases h1 : s + 1 < 2 ^ 64
      · simp only [h1, if_true]
        rw [ih (s + 1) items h1, List.filter_cons_of_neg (by simp [hv])]
        simp only [show s + 1 + vs.countP noFields = s + (vs.countP noFields + 1) by omega]
      · simp only [h1, if_false]
        rw [if_neg (by omega)]
    · have hv' : noFields v = false := by simpa using hv
      rw [List.countP_cons_of_neg hv, List.filter_cons_of_pos (by simp [hv'])]
      have : sumLoop (sizeS v :: vs.map sizeS) s items =
          sumLoop (vs.map sizeS) s (items ++ [sizeS v]) := by
        match ht : fieldTypes v with
        | [] => simp [noFields, ht] at hv'
        | [t] => simp [sizeS, ht, productIgnoreConst, ordinalSize, sumLoop]
        | t :: t2 :: ts => simp [sizeS, ht, productIgnoreConst, sumLoop]
      rw [List.map_cons, this, ih s _ hs]
      simp

/-- The summands of the emitted total. -/
def sumItems (vs : List (Fields ι)) : List (Expr ι) :=
  (if vs.countP noFields = 0 then [] else [.lit (vs.countP noFields)]) ++
    (vs.filter (!noFields ·)).map fun v => prodExpr (fieldTypes v)

/-- `(a + b + …)`, `0` if empty. -/
def sumExpr : List (Expr ι) → Expr ι
  | [] => .lit 0
  | x :: xs => xs.foldl .add x

theorem expr_sumIgnore (es : List (SizeExpr ι)) (xs : List (Expr ι)) (h : exprs es = .ok xs) :
    (sumIgnoreConst es).expr = .ok (sumExpr xs) := by
  match es, h with
  | [], h => simp [exprs] at h; subst h; rfl
  | [e], h =>
    simp only [exprs] at h
    rcases he : e.expr with f | x
    · simp [he] at h
    · simp [he] at h; subst h; simp [sumIgnoreConst, he, sumExpr]
  | e :: e2 :: es, h =>
    have hl : xs ≠ [] := by
      rintro rfl
      simp only [exprs] at h
      rcases he : e.expr with f | x
      · simp [he] at h
      · rcases he2 : e2.expr with f | x2
        · simp [he, he2] at h
        · rcases he3 : exprs es with f | x3
          · simp [he, he2, he3] at h
          · simp [he, he2, he3] at h
    match xs, hl with
    | x :: xs, _ => simp [sumIgnoreConst, expr, constAssert, h, foldExprs, sumExpr]

theorem exprs_append (a b : List (SizeExpr ι)) (xa xb : List (Expr ι)) (ha : exprs a = .ok xa)
    (hb : exprs b = .ok xb) : exprs (a ++ b) = .ok (xa ++ xb) := by
  induction a generalizing xa with
  | nil => simp [exprs] at ha; subst ha; simpa using hb
  | cons e a ih =>
    simp only [exprs, List.cons_append] at ha ⊢
    rcases he : e.expr with f | x
    · simp [he] at ha
    · rcases hea : exprs a with f | y
      · simp [he, hea] at ha
      · simp [he, hea] at ha
        subst ha
        simp [ih y hea]

theorem exprs_sizeS (vs : List (Fields ι)) :
    exprs (vs.map sizeS) = .ok (vs.map fun v => prodExpr (fieldTypes v)) := by
  induction vs with
  | nil => rfl
  | cons v vs ih => simp [exprs, ih, sizeS, expr_prod]

theorem total_form (vs : List (Fields ι)) :
    (sizeOfFirstVariants vs vs.length >>= fun e => e.expr) =
      if vs.countP noFields < 2 ^ 64 then .ok (sumExpr (sumItems vs)) else .error .compileError := by
  simp only [sizeOfFirstVariants, List.take_length, variantSizes_eq, ok_bind, mkSum,
    sumLoop_sizes vs 0 [] (by decide), Nat.zero_add, List.nil_append]
  by_cases h : vs.countP noFields < 2 ^ 64
  · simp only [h, if_true, ok_bind]
    have h1 := exprs_sizeS (vs.filter (!noFields ·))
    by_cases hk : vs.countP noFields = 0
    · rw [hk]
      simp only [sumItems, hk, if_true, List.nil_append]
      exact expr_sumIgnore _ _ h1
    · simp only [sumItems, hk, if_false]
      obtain ⟨k, hk'⟩ := Nat.exists_eq_succ_of_ne_zero hk
      rw [hk']
      exact expr_sumIgnore _ _ (exprs_append [.const (k + 1)] _ [.lit (k + 1)] _ rfl h1)
  · simp [h]

theorem foldl_add_inv (refs : RefEnv Ty) (env : Env Ty) (xs : List (Expr ι)) (x : Expr ι) (n : Nat)
    (h : (xs.foldl .add x).eval c Ty refs env .const = .ok n) :
    (∃ v, x.eval c Ty refs env .const = .ok v) ∧
      ∀ y ∈ xs, ∃ v, y.eval c Ty refs env .const = .ok v := by
  induction xs generalizing x with
  | nil => exact ⟨⟨n, h⟩, by simp⟩
  | cons y ys ih =>
    obtain ⟨⟨v, hv⟩, h2⟩ := ih _ h
    simp only [Expr.eval] at hv
    rcases hx : x.eval c Ty refs env .const with f | a
    · simp [hx] at hv
    · rcases hy : y.eval c Ty refs env .const with f | b
      · simp [hx, hy] at hv
      · refine ⟨⟨a, rfl⟩, ?_⟩
        intro z hz
        rcases List.mem_cons.1 hz with rfl | hz
        · exact ⟨b, hy⟩
        · exact h2 z hz

theorem approx_foldl_add (refs : RefEnv Ty) (env : Env Ty) (xs : List (Expr ι × Nat)) (x : Expr ι)
    (a : Nat) (hx : Approx (x.eval c Ty refs env .const) a)
    (h : ∀ y ∈ xs, Approx (y.1.eval c Ty refs env .const) y.2) :
    Approx (((xs.map (·.1)).foldl .add x).eval c Ty refs env .const) (a + (xs.map (·.2)).sum) := by
  induction xs generalizing x a with
  | nil => simpa using hx
  | cons y ys ih =>
    simp only [List.map_cons, List.foldl_cons, List.sum_cons, ← Nat.add_assoc]
    exact ih _ _ (hx.add (h y (by simp))) (fun z hz => h z (by simp [hz]))

theorem vsum_split (sz : ι → Nat) (vs : List (Fields ι)) :
    vsum sz vs = vs.countP noFields + vsum sz (vs.filter (!noFields ·)) := by
  induction vs with
  | nil => rfl
  | cons v vs ih =>
    by_cases hv : noFields v = true
    · have : fieldTypes v = [] := by simpa [noFields] using hv
      rw [List.countP_cons_of_pos hv, List.filter_cons_of_neg (by simp [hv]), vsum_cons, ih, this]
      simp; omega
    · have hv' : noFields v = false := by simpa using hv
      rw [List.countP_cons_of_neg hv, List.filter_cons_of_pos (by simp [hv']), vsum_cons, vsum_cons, ih]
      omega

theorem approx_lit (refs : RefEnv Ty) (env : Env Ty) (n : Nat) :
    Approx ((Expr.lit n : Expr ι).eval c Ty refs env .const) n := by
  by_cases h : n < c.M
  · exact .inl (eval_lit _ _ _ h)
  · exact .inr (by simp [Expr.eval, h])

theorem total_approx (L : ∀ t, Lawful c (Ty.impl t) (sz t)) (vs : List (Fields ι)) :
    Approx ((sumExpr (sumItems vs)).eval c Ty [] [] .const) (vsum sz vs) := by
  let items : List (Expr ι × Nat) :=
    (if vs.countP noFields = 0 then [] else [(.lit (vs.countP noFields), vs.countP noFields)]) ++
      (vs.filter (!noFields ·)).map fun v => (prodExpr (fieldTypes v), prodSz sz (fieldTypes v))
  have h1 : sumItems vs = items.map (·.1) := by
    simp only [sumItems, items]
    by_cases hk : vs.countP noFields = 0 <;> simp [hk]
  have h2 : (items.map (·.2)).sum = vsum sz vs := by
    rw [vsum_split]
    simp only [items]
    by_cases hk : vs.countP noFields = 0 <;>
      simp only [hk, if_true, if_false, List.nil_append, List.map_map, List.map_append,
        List.sum_append] <;> simp [vsum, Function.comp_def]
  have h3 : ∀ y ∈ items, Approx (y.1.eval c Ty [] [] .const) y.2 := by
    intro y hy
    rcases List.mem_append.1 hy with hy | hy
    · split at hy
      · simp at hy
      · obtain rfl := List.mem_singleton.1 hy
        exact approx_lit _ _ _
    · obtain ⟨v, _, rfl⟩ := List.mem_map.1 hy
      exact approx_prodExpr L _ _ _
  rw [h1, ← h2]
  match items, h3 with
  | [], _ => exact approx_lit _ _ 0
  | y :: ys, h3 =>
    simp only [List.map_cons, sumExpr, List.sum_cons]
    exact approx_foldl_add [] [] ys y.1 y.2 (h3 y (by simp)) (fun z hz => h3 z (by simp [hz]))

theorem total_inv (L : ∀ t, Lawful c (Ty.impl t) (sz t)) (vs : List (Fields ι)) (n : Nat)
    (h : (sumExpr (sumItems vs)).eval c Ty [] [] .const = .ok n) :
    n = vsum sz vs ∧ n < c.M ∧ ∀ v ∈ vs,
      (prodExpr (fieldTypes v)).eval c Ty [] [] .const = .ok (prodSz sz (fieldTypes v)) := by
  refine ⟨?_, ?_, ?_⟩
  · rcases total_approx L vs with h' | h'
    · rw [h'] at h; injection h with h; exact h.symm
    · rw [h'] at h; cases h
  · exact (eval_const_any [] [] .const
      (fun t m h => by
        have := (L t).size; rw [h] at this; injection this with e; rw [e]; exact (L t).fits) h).2
  · intro v hv
    by_cases hnf : noFields v = true
    · have : fieldTypes v = [] := by simpa [noFields] using hnf
      rw [this]
      exact eval_lit _ _ _ (by have := c.M_ge; omega)
    · have hmem : prodExpr (fieldTypes v) ∈ sumItems vs := by
        refine List.mem_append_right _ (List.mem_map.2 ⟨v, List.mem_filter.2 ⟨hv, ?_⟩, rfl⟩)
        simpa using hnf
      have : ∃ w, (prodExpr (fieldTypes v)).eval c Ty [] [] .const = .ok w := by
        match hs : sumItems vs, hmem with
        | x :: xs, hmem =>
          rw [hs] at h
          have := foldl_add_inv [] [] xs x n h
          rcases List.mem_cons.1 hmem with he | hmem
          · rw [he]; exact this.1
          · exact this.2 _ hmem
      obtain ⟨w, hw⟩ := this
      rcases approx_prodExpr L ([] : RefEnv Ty) [] (fieldTypes v) with h' | h'
      · exact h'
      · rw [h'] at hw; cases hw

/-! ## Arms and statements -/

theorem constExpr_eval {e : SizeExpr ι} {v : Nat}
    (h : Good (fun x v => Expr.eval c Ty [] [] .const x = .ok v) e v) (hv : v < c.M) :
    ∃ x, e.constExpr = .ok x ∧ ∀ refs env m, x.eval c Ty refs env m = .ok v := by
  obtain ⟨x, hx, hev⟩ := h.ev
  cases e with
  | const k =>
    obtain rfl := h.const k rfl
    exact ⟨_, rfl, fun refs env m => eval_lit refs env m hv⟩
  | syn y => exact ⟨.constBlock x, by simp [constExpr, hx], fun refs env m => by cases m <;> simpa [Expr.eval] using hev⟩
  | sum y => exact ⟨.constBlock x, by simp [constExpr, hx], fun refs env m => by cases m <;> simpa [Expr.eval] using hev⟩
  | product y => exact ⟨.constBlock x, by simp [constExpr, hx], fun refs env m => by cases m <;> simpa [Expr.eval] using hev⟩

theorem constExpr_check {e : SizeExpr ι} {v : Nat}
    (h : Good (fun (x : Expr ι) (_ : Nat) => x.check [] [] = true) e v) :
    ∃ x, e.constExpr = .ok x ∧ ∀ refs ctx, x.check refs ctx = true := by
  obtain ⟨x, hx, hev⟩ := h.ev
  cases e with
  | const k => exact ⟨_, rfl, fun refs ctx => rfl⟩
  | syn y => exact ⟨.constBlock x, by simp [constExpr, hx], fun refs ctx => by simpa [Expr.check] using hev⟩
  | sum y => exact ⟨.constBlock x, by simp [constExpr, hx], fun refs ctx => by simpa [Expr.check] using hev⟩
  | product y => exact ⟨.constBlock x, by simp [constExpr, hx], fun refs ctx => by simpa [Expr.check] using hev⟩

/-- Value used for the static-check instance of `good_first`. -/
def unitCount (v : Fields ι) : Nat := if noFields v then 1 else 0

theorem sum_unitCount (vs : List (Fields ι)) : (vs.map unitCount).sum = vs.countP noFields := by
  induction vs with
  | nil => rfl
  | cons v vs ih => by_cases h : noFields v = true <;> simp [unitCount, h, ih] <;> omega

theorem first_check (vs : List (Fields ι)) (h64 : vs.countP noFields < 2 ^ 64) (refs : List Ref)
    (ctx : Ctx ι) (i : Nat) :
    ∃ e v, sizeOfFirstVariants vs i = .ok e ∧ v < 2 ^ 64 ∧
      Good (fun (x : Expr ι) (_ : Nat) => x.check refs ctx = true) e v := by
  have hlt : ((vs.take i).map unitCount).sum < 2 ^ 64 := by
    rw [sum_unitCount]
    refine Nat.lt_of_le_of_lt ?_ h64
    exact (List.take_sublist i vs).countP_le
  obtain ⟨e, h1, h2⟩ := good_first (closed_check refs ctx) vs unitCount
    (fun v _ => check_prodExpr _ _ _)
    (fun v hv => by simp [unitCount, noFields, hv]) i hlt
  exact ⟨e, _, h1, hlt, h2⟩

theorem pat_check (v : Fields ι) (hw : v.WF) (hr : NoClash v) :
    (variantPat v).check v = some ((fieldVars v).map Ref.var) := by
  match v with
  | .unit => rfl
  | .unnamed tys =>
    have := fieldVars_nodup (.unnamed tys) trivial
    have hb : (fieldVars (.unnamed tys)).all Ident.bindable = true := List.all_eq_true.2 hr.bindable
    simp only [variantPat, Pat.check, this, hb, and_true]
    simp [fieldVars]
  | .named ns =>
    have := fieldVars_nodup (.named ns) hw
    have hb : (fieldVars (.named ns)).all Ident.bindable = true := List.all_eq_true.2 hr.bindable
    simp only [variantPat, Pat.check, this, hb, true_and]
    rw [if_pos]
    refine ⟨by simp [fieldVars], ?_⟩
    intro f hf
    exact List.mem_map.2 ⟨f, hf, rfl⟩

/-- Every arm exists and type-checks if no field name clashes. -/
theorem arm_ok (vs : List (Fields ι)) (h64 : vs.countP noFields < 2 ^ 64) (i : Nat) (v : Fields ι)
    (hw : v.WF) : ∃ e1 e2 e3 x, sizeOfFirstVariants vs i = .ok e1 ∧
      structOrdinal ((fieldVars v).map .var) (fieldTypes v) = .ok e2 ∧
      mkSum [e1, e2] = .ok e3 ∧ e3.expr = .ok x ∧
      enumArm vs i v = .ok (variantPat v, x) ∧
      (NoClash v → checkArm v (variantPat v, x) = true) := by
  obtain ⟨e1, n1, h1, hn1, hg1⟩ := first_check vs h64 ((fieldVars v).map .var) [] i
  obtain ⟨e2, h2, hg2⟩ := good_structOrdinal_check ((fieldVars v).map .var) [] ((fieldVars v).map .var)
    (fieldTypes v) (by simpa using fieldVars_length v) (fun _ h => h)
  obtain ⟨e3, h3, hg3⟩ := good_mkSum (closed_check ((fieldVars v).map .var) []) [(e1, n1), (e2, 0)]
    (by simp [hg1, hg2]) (by simpa using hn1)
  simp only [List.map_cons, List.map_nil] at h3
  obtain ⟨x, h4, hc⟩ := hg3.ev
  exact ⟨e1, e2, e3, x, h1, h2, h3, h4, by simp [enumArm, h1, h2, h3, h4],
    fun hr => by simp [checkArm, pat_check v hw hr, hc]⟩

theorem bind_lookup (v : Fields ι) (hw : v.WF) (l : List Ty.Val) (hl : l.map Sigma.fst = fieldTypes v) :
    ∀ p ∈ ((fieldVars v).map Ref.var).zip l, ((variantPat v).bind Ty v l).lookup p.1 = some p.2 := by
  have hn : ((fieldVars v).map Ref.var).Nodup :=
    nodup_map_inj (fun a b h => by injection h) (fieldVars_nodup v hw)
  match v with
  | .unit => simp [fieldVars]
  | .unnamed tys =>
    simp only [variantPat, Pat.bind]
    exact lookup_zip _ _ hn
  | .named ns =>
    simp only [variantPat, Pat.bind]
    have hk : (fieldVars (.named ns)).Nodup := fieldVars_nodup (.named ns) hw
    have hlen : ns.length = l.length := by
      have := congrArg List.length hl
      simpa [fieldTypes] using this.symm
    have : (fieldVars (.named ns)).filterMap (fun x =>
        (((ns.map fun n => Ident.user n.1).zip l).lookup x).map fun v => (Ref.var x, v)) =
        ((fieldVars (.named ns)).map Ref.var).zip l := by
      have hz := lookup_zip (fieldVars (.named ns)) l hk
      simp only [fieldVars] at hz ⊢
      generalize hE : (ns.map fun n => Ident.user n.1) = xs at hz ⊢
      have hlen' : xs.length = l.length := by rw [← hE]; simpa using hlen
      have key : ∀ (ys : List Ident) (k : List Ty.Val), ys.length = k.length →
          (∀ p ∈ ys.zip k, (xs.zip l).lookup p.1 = some p.2) →
          ys.filterMap (fun x => ((xs.zip l).lookup x).map fun v => (Ref.var x, v)) =
            (ys.map Ref.var).zip k := by
        intro ys
        induction ys with
        | nil => simp
        | cons y ys ih =>
          intro k hk' hlk
          match k, hk' with
          | v :: k, hk' =>
            have := hlk (y, v) (by simp)
            simp only at this
            rw [List.filterMap_cons, this]
            simp only [Option.map_some, List.map_cons, List.zip_cons_cons]
            rw [ih k (by simpa using hk') (fun p hp => hlk p (by simp [hp]))]
      exact key xs l hlen' hz
    rw [this]
    exact lookup_zip _ _ hn

/-- What an arm computes. -/
theorem arm_eval (L : ∀ t, Lawful c (Ty.impl t) (sz t)) (vs : List (Fields ι))
    (hev : ∀ v ∈ vs, (prodExpr (fieldTypes v)).eval c Ty [] [] .const = .ok (prodSz sz (fieldTypes v)))
    (hM : vsum sz vs < c.M) (i : Nat) (v : Fields ι) (hv : vs[i]? = some v) (hw : v.WF)
    (arm : Pat × Expr ι) (ha : enumArm vs i v = .ok arm) (l : List Ty.Val)
    (hl : l.map Sigma.fst = fieldTypes v) :
    arm.2.eval c Ty (arm.1.bind Ty v l) [] .runtime = .ok (vsum sz (vs.take i) + enc sz l) := by
  let refs := (variantPat v).bind Ty v l
  have hconv : ∀ v ∈ vs, (prodExpr (fieldTypes v)).eval c Ty refs [] .runtime =
      .ok (prodSz sz (fieldTypes v)) := fun v hv =>
    (eval_const_any refs [] .runtime (fun t m h => by
      have := (L t).size; rw [h] at this; injection this with e; rw [e]; exact (L t).fits) (hev v hv)).1
  have hle := vsum_take_le sz vs (i + 1)
  rw [vsum_take_succ sz vs i v hv] at hle
  obtain ⟨e1, h1, hg1⟩ := good_first (closed_eval c Ty refs [] .runtime) vs
    (fun v => prodSz sz (fieldTypes v)) hconv (fun v hv => by simp [hv]) i
    (by have : vsum sz (vs.take i) < c.M := by omega
        exact this)
  obtain ⟨e2, h2, hg2⟩ := good_structOrdinal L refs [] ((fieldVars v).map Ref.var) l
    (by have := congrArg List.length hl
        simp only [List.length_map] at this ⊢
        rw [this]; exact fieldVars_length v)
    (bind_lookup v hw l hl) (by rw [hl]; omega)
  have henc := enc_lt L l
  rw [hl] at henc h2
  obtain ⟨e3, h3, hg3⟩ := good_mkSum (closed_eval c Ty refs [] .runtime)
    [(e1, vsum sz (vs.take i)), (e2, enc sz l)]
    (by intro p hp
        simp only [List.mem_cons, List.not_mem_nil, or_false] at hp
        rcases hp with rfl | rfl
        · exact hg1
        · exact hg2) (by simp; omega)
  simp only [List.map_cons, List.map_nil] at h3
  obtain ⟨x, h4, hx⟩ := hg3.ev
  have : arm = (variantPat v, x) := by
    simp [enumArm, h1, h2, h3, h4] at ha
    exact ha.symm
  subst this
  simpa using hx

theorem variantBuild_eq (v : Fields ι) : variantBuild v = structBuild v := by cases v <;> rfl

/-- Every `from_ordinal` statement exists. -/
theorem stmt_ok (vs : List (Fields ι)) (h64 : vs.countP noFields < 2 ^ 64) (i : Nat) (v : Fields ι) :
    ∃ b inc, (sizeOfFirstVariants vs i >>= fun e => e.constExpr) = .ok b ∧
      (sizeOfFirstVariants vs (i + 1) >>= fun e => e.constExpr) = .ok inc ∧
      (∀ refs ctx, b.check refs ctx = true) ∧ (∀ refs ctx, inc.check refs ctx = true) ∧
      enumFromStmt vs i v = .ok (inc,
        fromBlock (.sub (.var ordinalVar) b) (fieldVars v) (fieldTypes v) (structBuild v)) := by
  obtain ⟨e1, n1, h1, -, hg1⟩ := first_check vs h64 [] [] i
  obtain ⟨e2, n2, h2, -, hg2⟩ := first_check vs h64 [] [] (i + 1)
  obtain ⟨b, hb, hb'⟩ := constExpr_check hg1
  obtain ⟨inc, hi, hi'⟩ := constExpr_check hg2
  exact ⟨b, inc, by simp [h1, hb], by simp [h2, hi], hb', hi',
    by simp [enumFromStmt, h1, h2, hb, hi, structFromOrdinal_eq, variantBuild_eq]⟩

theorem first_eval (L : ∀ t, Lawful c (Ty.impl t) (sz t)) (vs : List (Fields ι))
    (hev : ∀ v ∈ vs, (prodExpr (fieldTypes v)).eval c Ty [] [] .const = .ok (prodSz sz (fieldTypes v)))
    (hM : vsum sz vs < c.M) (i : Nat) (x : Expr ι)
    (hx : (sizeOfFirstVariants vs i >>= fun e => e.constExpr) = .ok x) :
    ∀ refs env m, x.eval c Ty refs env m = .ok (vsum sz (vs.take i)) := by
  have hlt : vsum sz (vs.take i) < c.M := Nat.lt_of_le_of_lt (vsum_take_le sz vs i) hM
  obtain ⟨e1, h1, hg1⟩ := good_first (closed_eval c Ty [] [] .const) vs
    (fun v => prodSz sz (fieldTypes v)) hev (fun v hv => by simp [hv]) i hlt
  obtain ⟨y, hy, hy'⟩ := constExpr_eval hg1 hlt
  simp only [h1, ok_bind, hy] at hx
  cases hx
  exact hy'

/-! ## Lists of arms and statements -/

theorem arms_ok (vs : List (Fields ι)) (h64 : vs.countP noFields < 2 ^ 64) (rest : List (Fields ι))
    (hw : ∀ v ∈ rest, v.WF) (i : Nat) :
    ∃ arms, enumArms vs i rest = .ok arms ∧ arms.length = rest.length ∧
      (∀ j v, rest[j]? = some v → ∃ a, arms[j]? = some a ∧ enumArm vs (i + j) v = .ok a) ∧
      ((∀ v ∈ rest, NoClash v) → (rest.zip arms).all (fun p => checkArm p.1 p.2) = true) := by
  induction rest generalizing i with
  | nil => exact ⟨[], rfl, rfl, by simp, by simp⟩
  | cons v rest ih =>
    obtain ⟨arms, h1, h2, h3, h4⟩ := ih (fun v hv => hw v (by simp [hv])) (i + 1)
    obtain ⟨_, _, _, x, _, _, _, _, ha, hc⟩ := arm_ok vs h64 i v (hw v (by simp))
    refine ⟨(variantPat v, x) :: arms, by simp [enumArms, ha, h1], by simp [h2], ?_, ?_⟩
    · intro j w hj
      cases j with
      | zero => simp at hj; subst hj; exact ⟨_, rfl, ha⟩
      | succ j =>
        obtain ⟨a, h5, h6⟩ := h3 j w (by simpa using hj)
        exact ⟨a, by simpa using h5, by rw [← h6]; congr 1; omega⟩
    · intro hr
      have h4 := h4 fun v hv => hr v (by simp [hv])
      simpa [hc (hr v (by simp))] using h4

theorem stmts_ok (vs : List (Fields ι)) (h64 : vs.countP noFields < 2 ^ 64) (rest : List (Fields ι))
    (i : Nat) :
    ∃ ss, enumFromStmts vs i rest = .ok ss ∧ ss.length = rest.length ∧
      (∀ j v, rest[j]? = some v → ∃ s, ss[j]? = some s ∧ enumFromStmt vs (i + j) v = .ok s) ∧
      ((∀ v ∈ rest, v.WF) → ((rest.zip ss).all (fun p => p.2.1.check [] paramCtx &&
          p.2.2.check paramCtx p.1) = true ↔ ∀ v ∈ rest, NoClash v)) := by
  induction rest generalizing i with
  | nil => exact ⟨[], rfl, rfl, by simp, by simp⟩
  | cons v rest ih =>
    obtain ⟨ss, h1, h2, h3, h4⟩ := ih (i + 1)
    obtain ⟨b, inc, hb, hinc, hcb, hci, hs⟩ := stmt_ok vs h64 i v
    refine ⟨(inc, fromBlock (.sub (.var ordinalVar) b) (fieldVars v) (fieldTypes v) (structBuild v)) ::
      ss, by simp [enumFromStmts, hs, h1], by simp [h2], ?_, ?_⟩
    · intro j w hj
      cases j with
      | zero => simp at hj; subst hj; exact ⟨_, rfl, hs⟩
      | succ j =>
        obtain ⟨a, h5, h6⟩ := h3 j w (by simpa using hj)
        exact ⟨a, by simpa using h5, by rw [← h6]; congr 1; omega⟩
    · intro hw
      have hwv := hw v (by simp)
      have hchk : (fromBlock (.sub (.var ordinalVar) b) (fieldVars v) (fieldTypes v)
          (structBuild v)).check paramCtx v = true ↔ NoClash v := by
        constructor
        · intro hc
          apply Classical.byContradiction
          intro hr
          have := block_check_clash v (.sub (.var ordinalVar) b) (structBuild v) (fieldVars v) paramCtx
            (fieldVars_length v) (not_noClash hr)
          rw [this] at hc; cases hc
        · intro hr
          exact block_check v _ (structBuild v) (fieldVars v) paramCtx
            (by simp [Expr.check, paramCtx, hcb]) (fieldVars_length v)
            hr.rem hr.bindable (fieldVars_nodup v hwv)
            (fun ctx' h => structBuild_check v hwv ctx' h)
      have ih' := h4 (fun v hv => hw v (by simp [hv]))
      simp only [List.zip_cons_cons, List.all_cons, Bool.and_eq_true, hci, true_and, hchk, ih',
        List.forall_mem_cons]

theorem genEnum_ok (vs : List (Fields ι)) (h64 : vs.countP noFields < 2 ^ 64)
    (hw : ∀ v ∈ vs, v.WF) :
    ∃ g arms, genEnum vs = .ok g ∧ g.size = sumExpr (sumItems vs) ∧
      g.ordinal = (if vs.isEmpty then none else some arms) ∧
      arms.length = vs.length ∧
      (∀ j v, vs[j]? = some v → ∃ a, arms[j]? = some a ∧ enumArm vs j v = .ok a) ∧
      g.fromOrdinal.length = vs.length ∧
      (∀ j v, vs[j]? = some v → ∃ s, g.fromOrdinal[j]? = some s ∧ enumFromStmt vs j v = .ok s) ∧
      (g.check vs = true ↔ ∀ v ∈ vs, NoClash v) := by
  obtain ⟨arms, ha1, ha2, ha3, ha4⟩ := arms_ok vs h64 vs hw 0
  obtain ⟨ss, hs1, hs2, hs3, hs4⟩ := stmts_ok vs h64 vs 0
  have ht := total_form vs
  rw [if_pos h64] at ht
  obtain ⟨e, n, he, -, hge⟩ := first_check vs h64 [] [] vs.length
  simp only [he, ok_bind] at ht
  obtain ⟨x, hx, hxc⟩ := hge.ev
  rw [hx] at ht
  injection ht with ht
  refine ⟨⟨x, if vs.isEmpty then none else some arms, ss⟩, arms, ?_, ht, rfl, ha2,
    by simpa using ha3, hs2, by simpa using hs3, ?_⟩
  · simp only [genEnum, he, ok_bind, hx, hs1, ha1]
    cases vs.isEmpty <;> simp
  · simp only [GenEnum.check, Bool.and_eq_true, hxc, true_and, hs2, beq_self_eq_true, and_true]
    rw [hs4 hw]
    constructor
    · exact fun h => h.2
    · intro h
      refine ⟨?_, h⟩
      cases vs.isEmpty
      · simp only [Bool.false_eq_true, if_false, ha2, beq_self_eq_true, Bool.true_and, ha4 h]
      · simp

/-! ## Running `from_ordinal` -/

theorem execEnum_spec (L : ∀ t, Lawful c (Ty.impl t) (sz t)) (vs : List (Fields ι))
    (hw : ∀ v ∈ vs, v.WF) (hr : ∀ v ∈ vs, remVar ∉ fieldVars v)
    (h64 : vs.countP noFields < 2 ^ 64)
    (hev : ∀ v ∈ vs, (prodExpr (fieldTypes v)).eval c Ty [] [] .const = .ok (prodSz sz (fieldTypes v)))
    (hM : vsum sz vs < c.M) (i : Nat) (ss : List (Expr ι × Block ι)) :
    ∀ (rest : List (Fields ι)) (rs : List (Expr ι × Block ι)) (k : Nat),
      rest = vs.drop k → k + rest.length = vs.length → rs.length = rest.length →
      (∀ j v, rest[j]? = some v → ∃ s, rs[j]? = some s ∧ enumFromStmt vs (k + j) v = .ok s) →
      vsum sz (vs.take k) ≤ i →
      (vsum sz vs ≤ i → execEnumStmts c Ty i k rest rs = .ok none) ∧
      (i < vsum sz vs → ∃ j v l, vs[j]? = some v ∧ l.map Sigma.fst = fieldTypes v ∧
        vsum sz (vs.take j) + enc sz l = i ∧
        execEnumStmts c Ty i k rest rs = .ok (some (j, l))) := by
  intro rest
  induction rest with
  | nil =>
    intro rs k hd hk _ _ hle
    have : vs.take k = vs := by rw [List.take_of_length_le]; simp at hk; omega
    rw [this] at hle
    exact ⟨fun _ => rfl, fun h => by omega⟩
  | cons v rest ih =>
    intro rs k hd hk hlen hst hle
    match rs, hlen with
    | (inc, blk) :: rs, hlen =>
      have hkv : vs[k]? = some v := by
        have := congrArg List.head? hd
        simpa using this.symm
      have hvm : v ∈ vs := List.mem_of_getElem? hkv
      obtain ⟨s, hs1, hs2⟩ := hst 0 v rfl
      simp only [List.getElem?_cons_zero, Option.some.injEq] at hs1
      subst hs1
      obtain ⟨b, inc', hb, hinc, -, -, hs⟩ := stmt_ok vs h64 k v
      rw [Nat.add_zero, hs] at hs2
      injection hs2 with hs2
      injection hs2 with h1 h2
      subst h1 h2
      have heb := first_eval L vs hev hM k b hb
      have hei := first_eval L vs hev hM (k + 1) inc' hinc
      have hstep := vsum_take_succ sz vs k v hkv
      have hle' := vsum_take_le sz vs (k + 1)
      by_cases hlt : i < vsum sz (vs.take (k + 1))
      · have hp : i - vsum sz (vs.take k) < prodSz sz (fieldTypes v) := by omega
        obtain ⟨-, hblk⟩ := block_exec L v (.sub (.var ordinalVar) b) (structBuild v) (fieldVars v)
          [(ordinalVar, .num i)] (i - vsum sz (vs.take k))
          (by simp [Expr.eval, heb, subU_ok hle]) (fieldVars_length v)
          (hr v hvm) (fieldVars_nodup v (hw v hvm)) (by omega)
          (fun env' l ht h => structBuild_eval env' v (hw v hvm) l ht h)
        obtain ⟨l, hl1, hl2, hl3⟩ := hblk hp
        clear hblk
        have hsum : vsum sz (vs.take k) + enc sz l = i := by rw [hl2]; omega
        refine ⟨fun h => by omega, fun _ => ⟨k, v, l, hkv, hl1, hsum, ?_⟩⟩
        simp [execEnumStmts, hei, hlt, hl3]
      · have hgo : execEnumStmts c Ty i k (v :: rest) ((inc', fromBlock (.sub (.var ordinalVar) b)
            (fieldVars v) (fieldTypes v) (structBuild v)) :: rs) =
            execEnumStmts c Ty i (k + 1) rest rs := by
          simp [execEnumStmts, hei, hlt]
        rw [hgo]
        refine ih rs (k + 1) ?_ (by simp at hk; omega) (by simpa using hlen) ?_ (by omega)
        · have := congrArg List.tail hd
          simpa [← List.drop_one, List.drop_drop] using this
        · intro j w hj
          obtain ⟨s, hs1, hs2⟩ := hst (j + 1) w (by simpa using hj)
          exact ⟨s, by simpa using hs1, by rw [← hs2]; congr 1; omega⟩

/-! ## The whole impl -/

theorem enum_impl_eq (vs : List (Fields ι)) (h64 : vs.countP noFields < 2 ^ 64)
    (hw : ∀ v ∈ vs, v.WF) (hr : ∀ v ∈ vs, NoClash v) :
    ∃ g, genEnum vs = .ok g ∧ g.size = sumExpr (sumItems vs) ∧
      enumImpl c Ty vs = g.toImpl c Ty vs := by
  obtain ⟨g, arms, hg, hs, -, -, -, -, -, hc⟩ := genEnum_ok vs h64 hw
  exact ⟨g, hg, hs, by simp only [enumImpl, hg, hc.2 hr, if_true]⟩

theorem enum_overflow64 (vs : List (Fields ι)) (h64 : ¬ vs.countP noFields < 2 ^ 64) :
    enumImpl c Ty vs = rejected _ := by
  have ht := total_form vs
  rw [if_neg h64] at ht
  have : ∃ e, genEnum vs = .error e := by
    simp only [genEnum]
    rcases he : sizeOfFirstVariants vs vs.length with f | e
    · exact ⟨f, rfl⟩
    · simp only [he, ok_bind] at ht
      exact ⟨.compileError, by simp [ht]⟩
  obtain ⟨e, he⟩ := this
  simp only [enumImpl, he]

/-- What the generated code does, if no field is called `rem`. -/
theorem toImpl_enum_spec (L : ∀ t, Lawful c (Ty.impl t) (sz t)) (vs : List (Fields ι))
    (hw : ∀ v ∈ vs, v.WF) (hr : ∀ v ∈ vs, remVar ∉ fieldVars v) (h64 : vs.countP noFields < 2 ^ 64)
    (g : GenEnum ι) (hg' : genEnum vs = .ok g) (n : Nat) (hsz : (g.toImpl c Ty vs).size = .ok n) :
    n = vsum sz vs ∧ Lawful c (g.toImpl c Ty vs) n ∧ Strict c (g.toImpl c Ty vs) n ∧
      ∀ x, (g.toImpl c Ty vs).ordinal x = .ok (vsum sz (vs.take x.1.1) + enc sz x.1.2) := by
  obtain ⟨g, arms, hg, hs, ho, hal, ha, hfl, hf, hc⟩ := genEnum_ok vs h64 hw
  rw [hg] at hg'
  cases hg'
  have hsz' : g.size.eval c Ty [] [] .const = .ok n := hsz
  have hsz'' := hsz'
  rw [hs] at hsz'
  obtain ⟨hn, hM, hev⟩ := total_inv L vs n hsz'
  subst hn
  have hord : ∀ x, (g.toImpl c Ty vs).ordinal x =
      .ok (vsum sz (vs.take x.1.1) + enc sz x.1.2) := by
    rintro ⟨⟨i, l⟩, v, hv, hl⟩
    have hne : vs.isEmpty = false := by
      cases vs with
      | nil => simp at hv
      | cons => rfl
    obtain ⟨a, ha1, ha2⟩ := ha i v hv
    simp only [GenEnum.toImpl, hsz'', ok_bind, ho, hne, Bool.false_eq_true, if_false, ha1, hv]
    exact arm_eval L vs hev hM i v hv (hw v (List.mem_of_getElem? hv)) a ha2 l hl
  have hfrom : ∀ i, 0 < vsum sz vs →
      (vsum sz vs ≤ i → (g.toImpl c Ty vs).fromOrdinal i = .ok none) ∧
      (i < vsum sz vs → ∃ x, vsum sz (vs.take x.1.1) + enc sz x.1.2 = i ∧
        (g.toImpl c Ty vs).fromOrdinal i = .ok (some x)) := by
    intro i hp
    have hne : vsum sz vs ≠ 0 := by omega
    obtain ⟨h1, h2⟩ := execEnum_spec L vs hw hr h64 hev hM i g.fromOrdinal vs g.fromOrdinal 0 (by simp)
      (by simp) hfl (by simpa using hf) (by simp)
    constructor
    · intro hge
      simp [GenEnum.toImpl, hsz'', hne, h1 hge]
    · intro hlt
      obtain ⟨j, v, l, hj1, hj2, hj3, hj4⟩ := h2 hlt
      refine ⟨⟨(j, l), v, hj1, hj2⟩, hj3, ?_⟩
      have : ∃ v, vs[(j, l).1]? = some v ∧ (j, l).2.map Sigma.fst = fieldTypes v := ⟨v, hj1, hj2⟩
      simp only [GenEnum.toImpl, hsz'', ok_bind, hne, if_false, hj4]
      rw [dif_pos this]
  have hbound : ∀ x : EnumVal Ty vs, ∃ v, vs[x.1.1]? = some v ∧
      x.1.2.map Sigma.fst = fieldTypes v ∧ enc sz x.1.2 < prodSz sz (fieldTypes v) ∧
      vsum sz (vs.take (x.1.1 + 1)) = vsum sz (vs.take x.1.1) + prodSz sz (fieldTypes v) := by
    rintro ⟨⟨i, l⟩, v, hv, hl⟩
    refine ⟨v, hv, hl, ?_, vsum_take_succ sz vs i v hv⟩
    have := enc_lt L l
    simp only at hl ⊢
    rwa [hl] at this
  have hlt : ∀ x : EnumVal Ty vs, vsum sz (vs.take x.1.1) + enc sz x.1.2 < vsum sz vs := by
    intro x
    obtain ⟨v, _, _, h3, h4⟩ := hbound x
    have := vsum_take_le sz vs (x.1.1 + 1)
    omega
  have hinj : ∀ x y : EnumVal Ty vs, vsum sz (vs.take x.1.1) + enc sz x.1.2 =
      vsum sz (vs.take y.1.1) + enc sz y.1.2 → x = y := by
    intro x y h
    obtain ⟨v, hv1, hv2, hv3, hv4⟩ := hbound x
    obtain ⟨w, hw1, hw2, hw3, hw4⟩ := hbound y
    have h1 : ¬ x.1.1 < y.1.1 := fun hlt' => by
      have := vsum_take_mono sz vs (x.1.1 + 1) y.1.1 hlt'
      omega
    have h2 : ¬ y.1.1 < x.1.1 := fun hlt' => by
      have := vsum_take_mono sz vs (y.1.1 + 1) x.1.1 hlt'
      omega
    have h3 : x.1.1 = y.1.1 := by omega
    rw [h3] at hv1 h
    rw [hv1] at hw1
    cases hw1
    have := enc_inj L x.1.2 y.1.2 (by rw [hv2, hw2]) (by omega)
    exact Subtype.ext (Prod.ext h3 this)
  refine ⟨rfl, ⟨hsz, hM, ?_, ?_⟩, ?_, hord⟩
  · intro x
    refine ⟨_, hlt x, hord x, ?_⟩
    obtain ⟨y, hy1, hy2⟩ := (hfrom _ (by have := hlt x; omega)).2 (hlt x)
    rw [hy2, hinj y x hy1]
  · intro i hi'
    obtain ⟨y, hy1, hy2⟩ := (hfrom i (by omega)).2 hi'
    exact ⟨y, hy2, by rw [hord, hy1]⟩
  · intro i hi' _
    by_cases hp : 0 < vsum sz vs
    · exact (hfrom i hp).1 hi'
    · have h0 : vsum sz vs = 0 := by omega
      simp [GenEnum.toImpl, hsz'', h0]

theorem enum_spec (L : ∀ t, Lawful c (Ty.impl t) (sz t)) (vs : List (Fields ι))
    (hw : ∀ v ∈ vs, v.WF) (hr : ∀ v ∈ vs, NoClash v) (n : Nat)
    (hsz : (enumImpl c Ty vs).size = .ok n) :
    n = vsum sz vs ∧ Lawful c (enumImpl c Ty vs) n ∧ Strict c (enumImpl c Ty vs) n ∧
      ∀ x, (enumImpl c Ty vs).ordinal x = .ok (vsum sz (vs.take x.1.1) + enc sz x.1.2) := by
  rcases Decidable.em (¬ vs.countP noFields < 2 ^ 64) with h64 | h64'
  · rw [enum_overflow64 vs h64] at hsz; cases hsz
  have h64 : vs.countP noFields < 2 ^ 64 := Decidable.not_not.1 h64'
  obtain ⟨g, hg, -, hi⟩ := enum_impl_eq (c := c) (Ty := Ty) vs h64 hw hr
  rw [hi] at hsz ⊢
  exact toImpl_enum_spec L vs hw (fun v hv => (hr v hv).rem) h64 g hg n hsz

/-- Size of a derived enum: the sum of products, or a compile error. -/
theorem enum_size (L : ∀ t, Lawful c (Ty.impl t) (sz t)) (vs : List (Fields ι))
    (hw : ∀ v ∈ vs, v.WF) (hr : ∀ v ∈ vs, NoClash v) :
    Approx (enumImpl c Ty vs).size (vsum sz vs) ∧
    ((∀ v ∈ vs, ∀ t ∈ fieldTypes v, 0 < sz t) → vsum sz vs < c.M →
      (enumImpl c Ty vs).size = .ok (vsum sz vs)) ∧
    (∀ e, (enumImpl c Ty vs).size = .error e →
      (∀ x, (enumImpl c Ty vs).ordinal x = .error e) ∧
      (∀ i, (enumImpl c Ty vs).fromOrdinal i = .error e)) := by
  rcases Decidable.em (¬ vs.countP noFields < 2 ^ 64) with h64 | h64'
  · rw [enum_overflow64 vs h64]
    refine ⟨.inr rfl, ?_, ?_⟩
    · intro _ h
      have := vsum_split sz vs
      have := M_le64 c
      omega
    · intro e he
      cases he
      exact ⟨fun _ => rfl, fun _ => rfl⟩
  have h64 : vs.countP noFields < 2 ^ 64 := Decidable.not_not.1 h64'
  obtain ⟨g, hg, hs, hi⟩ := enum_impl_eq (c := c) (Ty := Ty) vs h64 hw hr
  rw [hi]
  have hsize : (g.toImpl c Ty vs).size = (sumExpr (sumItems vs)).eval c Ty [] [] .const := by
    simp only [GenEnum.toImpl, hs]
  refine ⟨by rw [hsize]; exact total_approx L vs, ?_, ?_⟩
  · intro hpos hM
    obtain ⟨e, h1, h2⟩ := good_first (closed_eval c Ty [] [] .const) vs
      (fun v => prodSz sz (fieldTypes v))
      (fun v hv => eval_prodExpr L _ _ _ _ (hpos v hv)
        (Nat.lt_of_le_of_lt (le_vsum sz vs v hv) hM))
      (fun v hv => by simp [hv]) vs.length (by rw [List.take_length]; exact hM)
    obtain ⟨x, hx, hx'⟩ := h2.ev
    have ht := total_form vs
    rw [if_pos h64] at ht
    simp only [h1, ok_bind, hx] at ht
    injection ht with ht
    rw [hsize, ← ht]
    rw [List.take_length] at hx'
    exact hx'
  · intro e he
    simp only [GenEnum.toImpl] at he ⊢
    simp [he]

end OrdinalMap.Derive
