import Verif.Model.Tokens
/-! # Lemmas about reading the emitted tokens -/

namespace OrdinalMap.Derive
open OrdinalMap

variable {ι : Type}

namespace SizeExpr

mutual
/-- The `Syn` leaves are paths and calls. -/
def plain : SizeExpr ι → Bool
  | .const _ => true
  | .syn (.sizeOf _) => true
  | .syn (.ordinalOf _) => true
  | .syn _ => false
  | .sum es => plains es
  | .product es => plains es
/-- All of them. -/
def plains : List (SizeExpr ι) → Bool
  | [] => true
  | e :: es => plain e && plains es
end

theorem plains_iff (es : List (SizeExpr ι)) : plains es = true ↔ ∀ e ∈ es, plain e = true := by
  induction es with
  | nil => simp [plains]
  | cons e es ih => simp [plains, ih]

end SizeExpr

open SizeExpr

/-- `ts` is read as a primary expression, whatever follows. -/
def Prim (ts : List (Tok ι)) (e : Expr ι) : Prop :=
  ∃ k, ∀ fuel, k ≤ fuel → ∀ rest, parsePrimary fuel (ts ++ rest) = some (e, rest)

/-- Neither `*` nor `%` follows. -/
def StopsProduct (ts : List (Tok ι)) : Prop := ∀ t ts', ts = t :: ts' → t ≠ .star ∧ t ≠ .percent

/-- Nor `+` or `-`. -/
def StopsSum (ts : List (Tok ι)) : Prop :=
  StopsProduct ts ∧ ∀ t ts', ts = t :: ts' → t ≠ .plus ∧ t ≠ .minus

theorem productTail_stop {ts : List (Tok ι)} (h : StopsProduct ts) (fuel : Nat) (e : Expr ι) :
    parseProductTail (fuel + 1) e ts = some (e, ts) := by
  cases ts with
  | nil => simp [parseProductTail]
  | cons t ts =>
    obtain ⟨h1, h2⟩ := h t ts rfl
    cases t <;> simp_all [parseProductTail]

theorem sumTail_stop {ts : List (Tok ι)} (h : StopsSum ts) (fuel : Nat) (e : Expr ι) :
    parseSumTail (fuel + 1) e ts = some (e, ts) := by
  cases ts with
  | nil => simp [parseSumTail]
  | cons t ts =>
    obtain ⟨h1, h2⟩ := h.2 t ts rfl
    cases t <;> simp_all [parseSumTail]

theorem stops_rparen (r : List (Tok ι)) : StopsSum (.rparen :: r) := by
  constructor <;> (intro t ts h; cases h; simp)
theorem stops_rbrace (r : List (Tok ι)) : StopsSum (.rbrace :: r) := by
  constructor <;> (intro t ts h; cases h; simp)
theorem stops_lbrace (r : List (Tok ι)) : StopsSum (.lbrace :: r) := by
  constructor <;> (intro t ts h; cases h; simp)
theorem stops_lt (r : List (Tok ι)) : StopsSum (.lt :: r) := by
  constructor <;> (intro t ts h; cases h; simp)
theorem stops_nil : StopsSum ([] : List (Tok ι)) := by
  constructor <;> (intro t ts h; cases h)
theorem stops_plus (r : List (Tok ι)) : StopsProduct (.plus :: r) := by
  intro t ts h; cases h; simp
theorem stops_minus (r : List (Tok ι)) : StopsProduct (.minus :: r) := by
  intro t ts h; cases h; simp

/-- A primary expression alone is a product. -/
theorem Prim.product {ts : List (Tok ι)} {e : Expr ι} (h : Prim ts e) :
    ∃ k, ∀ fuel, k ≤ fuel → ∀ rest, StopsProduct rest → parseProduct fuel (ts ++ rest) = some (e, rest) := by
  obtain ⟨k, h⟩ := h
  refine ⟨k + 2, fun fuel hf rest hr => ?_⟩
  obtain ⟨f, rfl⟩ : ∃ f, fuel = f + 2 := ⟨fuel - 2, by omega⟩
  simp only [parseProduct, h (f + 1) (by omega) rest, productTail_stop hr f e]

/-- A primary expression alone is a sum. -/
theorem Prim.sum {ts : List (Tok ι)} {e : Expr ι} (h : Prim ts e) :
    ∃ k, ∀ fuel, k ≤ fuel → ∀ rest, StopsSum rest → parseSum fuel (ts ++ rest) = some (e, rest) := by
  obtain ⟨k, h⟩ := h.product
  refine ⟨k + 2, fun fuel hf rest hr => ?_⟩
  obtain ⟨f, rfl⟩ : ∃ f, fuel = f + 2 := ⟨fuel - 2, by omega⟩
  simp only [parseSum, h (f + 1) (by omega) rest hr.1, sumTail_stop hr f e]

theorem tail_stops_product (es : List (SizeExpr ι)) (r : List (Tok ι)) :
    StopsProduct (tailToks .plus es ++ .rparen :: r) := by
  cases es with
  | nil => exact (stops_rparen r).1
  | cons e es => simp only [tailToks, List.cons_append]; exact stops_plus _

mutual
/-- Every emitted expression is a primary expression. -/
theorem toks_prim : ∀ (e : SizeExpr ι) (x : Expr ι), plain e = true → e.expr = .ok x → Prim e.toks x
  | .const c, x, _, hx => by
    simp only [SizeExpr.expr] at hx; cases hx
    exact ⟨1, fun fuel hf rest => by
      obtain ⟨f, rfl⟩ : ∃ f, fuel = f + 1 := ⟨fuel - 1, by omega⟩
      simp [toks, parsePrimary]⟩
  | .syn e, x, hp, hx => by
    simp only [SizeExpr.expr] at hx; cases hx
    refine ⟨1, fun fuel hf rest => ?_⟩
    obtain ⟨f, rfl⟩ : ∃ f, fuel = f + 1 := ⟨fuel - 1, by omega⟩
    cases e <;> simp_all [plain, toks, Expr.synToks, parsePrimary]
  | .sum [], x, _, hx => by simp [SizeExpr.expr, constAssert] at hx
  | .product [], x, _, hx => by simp [SizeExpr.expr, constAssert] at hx
  | .sum (e :: es), x, hp, hx => by
    simp only [plain, plains, Bool.and_eq_true] at hp
    simp only [SizeExpr.expr, constAssert] at hx
    split at hx
    · rw [ok_bind, SizeExpr.exprs] at hx
      cases he : e.expr with
      | error _ => rw [he] at hx; cases hx
      | ok y =>
        cases hes : SizeExpr.exprs es with
        | error _ => rw [he, hes] at hx; cases hx
        | ok ys =>
          rw [he, hes] at hx
          simp only [ok_bind, SizeExpr.foldExprs] at hx
          cases hx
          obtain ⟨k1, h1⟩ := (toks_prim e y hp.1 he).product
          obtain ⟨k2, h2⟩ := sumTail_toks es ys hp.2 hes
          refine ⟨k1 + k2 + 2, fun fuel hf rest => ?_⟩
          obtain ⟨f, rfl⟩ : ∃ f, fuel = f + 2 := ⟨fuel - 2, by omega⟩
          have e1 : toks (.sum (e :: es)) ++ rest =
              .lparen :: (toks e ++ (tailToks .plus es ++ .rparen :: rest)) := by simp [toks]
          rw [e1]
          simp only [parsePrimary, parseSum, h1 f (by omega) _ (tail_stops_product es rest),
            h2 f (by omega) y rest]
    · cases hx
  | .product (e :: es), x, hp, hx => by
    simp only [plain, plains, Bool.and_eq_true] at hp
    simp only [SizeExpr.expr, constAssert] at hx
    split at hx
    · rw [ok_bind, SizeExpr.exprs] at hx
      cases he : e.expr with
      | error _ => rw [he] at hx; cases hx
      | ok y =>
        cases hes : SizeExpr.exprs es with
        | error _ => rw [he, hes] at hx; cases hx
        | ok ys =>
          rw [he, hes] at hx
          simp only [ok_bind, SizeExpr.foldExprs] at hx
          cases hx
          obtain ⟨k1, h1⟩ := toks_prim e y hp.1 he
          obtain ⟨k2, h2⟩ := productTail_toks es ys hp.2 hes
          refine ⟨k1 + k2 + 4, fun fuel hf rest => ?_⟩
          obtain ⟨f, rfl⟩ : ∃ f, fuel = f + 4 := ⟨fuel - 4, by omega⟩
          have e1 : toks (.product (e :: es)) ++ rest =
              .lparen :: (toks e ++ (tailToks .star es ++ .rparen :: rest)) := by simp [toks]
          rw [e1, parsePrimary]
          simp only [parseSum, parseProduct, h1 (f + 1) (by omega), h2 (f + 1) (by omega) y rest,
            sumTail_stop (stops_rparen rest)]
    · cases hx
/-- The rest of a sum. -/
theorem sumTail_toks : ∀ (es : List (SizeExpr ι)) (xs : List (Expr ι)), plains es = true →
    SizeExpr.exprs es = .ok xs → ∃ k, ∀ fuel, k ≤ fuel → ∀ e0 rest,
      parseSumTail fuel e0 (tailToks .plus es ++ .rparen :: rest) = some (xs.foldl .add e0, .rparen :: rest)
  | [], xs, _, hx => by
    simp only [SizeExpr.exprs] at hx; cases hx
    refine ⟨1, fun fuel hf e0 rest => ?_⟩
    obtain ⟨f, rfl⟩ : ∃ f, fuel = f + 1 := ⟨fuel - 1, by omega⟩
    simp only [tailToks, List.nil_append, List.foldl_nil, sumTail_stop (stops_rparen rest)]
  | e :: es, xs, hp, hx => by
    simp only [plains, Bool.and_eq_true] at hp
    rw [SizeExpr.exprs] at hx
    cases he : e.expr with
    | error _ => rw [he] at hx; cases hx
    | ok y =>
      cases hes : SizeExpr.exprs es with
      | error _ => rw [he, hes] at hx; cases hx
      | ok ys =>
        rw [he, hes] at hx
        simp only [ok_bind] at hx
        cases hx
        obtain ⟨k1, h1⟩ := (toks_prim e y hp.1 he).product
        obtain ⟨k2, h2⟩ := sumTail_toks es ys hp.2 hes
        refine ⟨k1 + k2 + 1, fun fuel hf e0 rest => ?_⟩
        obtain ⟨f, rfl⟩ : ∃ f, fuel = f + 1 := ⟨fuel - 1, by omega⟩
        have e1 : tailToks .plus (e :: es) ++ .rparen :: rest =
            .plus :: (toks e ++ (tailToks .plus es ++ .rparen :: rest)) := by simp [tailToks]
        rw [e1]
        simp only [parseSumTail, h1 f (by omega) _ (tail_stops_product es rest), h2 f (by omega), List.foldl_cons]
/-- The rest of a product. -/
theorem productTail_toks : ∀ (es : List (SizeExpr ι)) (xs : List (Expr ι)), plains es = true →
    SizeExpr.exprs es = .ok xs → ∃ k, ∀ fuel, k ≤ fuel → ∀ e0 rest,
      parseProductTail fuel e0 (tailToks .star es ++ .rparen :: rest) =
        some (xs.foldl .mul e0, .rparen :: rest)
  | [], xs, _, hx => by
    simp only [SizeExpr.exprs] at hx; cases hx
    refine ⟨1, fun fuel hf e0 rest => ?_⟩
    obtain ⟨f, rfl⟩ : ∃ f, fuel = f + 1 := ⟨fuel - 1, by omega⟩
    simp only [tailToks, List.nil_append, List.foldl_nil, productTail_stop (stops_rparen rest).1]
  | e :: es, xs, hp, hx => by
    simp only [plains, Bool.and_eq_true] at hp
    rw [SizeExpr.exprs] at hx
    cases he : e.expr with
    | error _ => rw [he] at hx; cases hx
    | ok y =>
      cases hes : SizeExpr.exprs es with
      | error _ => rw [he, hes] at hx; cases hx
      | ok ys =>
        rw [he, hes] at hx
        simp only [ok_bind] at hx
        cases hx
        obtain ⟨k1, h1⟩ := toks_prim e y hp.1 he
        obtain ⟨k2, h2⟩ := productTail_toks es ys hp.2 hes
        refine ⟨k1 + k2 + 1, fun fuel hf e0 rest => ?_⟩
        obtain ⟨f, rfl⟩ : ∃ f, fuel = f + 1 := ⟨fuel - 1, by omega⟩
        have e1 : tailToks .star (e :: es) ++ .rparen :: rest =
            .star :: (toks e ++ (tailToks .star es ++ .rparen :: rest)) := by simp [tailToks]
        rw [e1]
        simp only [parseProductTail, h1 f (by omega), h2 f (by omega), List.foldl_cons]
end

/-- So is every emitted constant. -/
theorem constToks_prim (e : SizeExpr ι) (x : Expr ι) (hp : plain e = true) (hx : e.constExpr = .ok x) :
    Prim e.constToks x := by
  have block : ∀ y, e.expr = .ok y →
      Prim ([.const, .lbrace] ++ e.toks ++ [.rbrace]) (.constBlock y) := by
    intro y hy
    obtain ⟨k, h⟩ := (toks_prim e y hp hy).sum
    refine ⟨k + 1, fun fuel hf rest => ?_⟩
    obtain ⟨f, rfl⟩ : ∃ f, fuel = f + 1 := ⟨fuel - 1, by omega⟩
    have e1 : [.const, .lbrace] ++ e.toks ++ [.rbrace] ++ rest =
        .const :: .lbrace :: (e.toks ++ .rbrace :: rest) := by simp
    rw [e1]
    simp only [parsePrimary, h f (by omega) _ (stops_rbrace rest)]
  cases e with
  | const c =>
    have := toks_prim (.const c : SizeExpr ι) x rfl hx
    simpa [constToks, toks] using this
  | syn e =>
    simp only [constExpr] at hx
    cases hy : SizeExpr.expr (.syn e) with
    | error _ => rw [hy] at hx; cases hx
    | ok y => rw [hy] at hx; cases hx; exact block y hy
  | sum es =>
    simp only [constExpr] at hx
    cases hy : SizeExpr.expr (.sum es) with
    | error _ => rw [hy] at hx; cases hx
    | ok y => rw [hy] at hx; cases hx; exact block y hy
  | product es =>
    simp only [constExpr] at hx
    cases hy : SizeExpr.expr (.product es) with
    | error _ => rw [hy] at hx; cases hx
    | ok y => rw [hy] at hx; cases hx; exact block y hy

theorem Prim.readsAs {ts : List (Tok ι)} {e : Expr ι} (h : Prim ts e) : ReadsAs ts e := by
  obtain ⟨k, h⟩ := h.sum
  refine ⟨k, fun fuel hf => ?_⟩
  have := h fuel hf [] stops_nil
  rw [List.append_nil] at this
  simp [parseExpr, this]

theorem var_prim (x : Ident) : Prim (ι := ι) [.ident x] (.var x) :=
  ⟨1, fun fuel hf rest => by
    obtain ⟨f, rfl⟩ : ∃ f, fuel = f + 1 := ⟨fuel - 1, by omega⟩
    simp [parsePrimary]⟩

/-- `x % c` -/
theorem Prim.rem {x : Ident} {ts : List (Tok ι)} {e : Expr ι} (h : Prim ts e) :
    ReadsAs ([.ident x, .percent] ++ ts) (.rem (.var x) e) := by
  obtain ⟨k, h⟩ := h
  refine ⟨k + 4, fun fuel hf => ?_⟩
  obtain ⟨f, rfl⟩ : ∃ f, fuel = f + 4 := ⟨fuel - 4, by omega⟩
  have := h (f + 1) (by omega) []
  rw [List.append_nil] at this
  have h0 : parsePrimary (f + 2) (Tok.ident x :: .percent :: ts) = some (.var x, .percent :: ts) := by
    rw [parsePrimary]
  simp only [parseExpr, parseSum, parseProduct, List.cons_append, List.nil_append, h0]
  rw [parseProductTail]
  simp only [this, productTail_stop stops_nil.1, sumTail_stop stops_nil]

/-- `x - c` -/
theorem Prim.sub {x : Ident} {ts : List (Tok ι)} {e : Expr ι} (h : Prim ts e) :
    ReadsAs ([.ident x, .minus] ++ ts) (.sub (.var x) e) := by
  obtain ⟨k, h⟩ := h.product
  refine ⟨k + 4, fun fuel hf => ?_⟩
  obtain ⟨f, rfl⟩ : ∃ f, fuel = f + 4 := ⟨fuel - 4, by omega⟩
  have := h (f + 2) (by omega) [] stops_nil.1
  rw [List.append_nil] at this
  simp only [parseExpr, parseSum, List.cons_append, List.nil_append]
  rw [parseProduct]
  simp only [parsePrimary, productTail_stop (stops_minus ts), parseSumTail, this]

/-- `x < c {` -/
theorem Prim.cond {x : Ident} {ts : List (Tok ι)} {e : Expr ι} (h : Prim ts e) :
    ReadsAsCond ([.ident x, .lt] ++ ts ++ [.lbrace]) (.var x) e := by
  obtain ⟨k1, h1⟩ := (var_prim (ι := ι) x).sum
  obtain ⟨k2, h2⟩ := h.sum
  refine ⟨k1 + k2, fun fuel hf => ?_⟩
  have e1 := h1 fuel (by omega) (.lt :: (ts ++ [.lbrace])) (stops_lt _)
  have e2 := h2 fuel (by omega) [.lbrace] (stops_lbrace _)
  simp only [List.singleton_append] at e1
  simp [parseCond, e1, e2]

/-! ## The macro only builds plain expressions -/

theorem productLoop_plain : ∀ (es : List (SizeExpr ι)) (p : Nat) (items : List (SizeExpr ι)) (r),
    plains es = true → plains items = true → productLoop es p items = .ok r → plains r.2 = true
  | [], p, items, r, _, hi, h => by simp only [productLoop] at h; cases h; exact hi
  | e :: es, p, items, r, he, hi, h => by
    simp only [plains, Bool.and_eq_true] at he
    have app : ∀ l, plains l = true → plains (items ++ l) = true := by
      intro l hl
      rw [plains_iff] at *
      intro e he
      rcases List.mem_append.1 he with h | h
      · exact hi e h
      · exact hl e h
    cases e with
    | const c =>
      simp only [productLoop] at h
      split at h
      · cases h
      · exact productLoop_plain es _ _ r he.2 hi h
    | product xs =>
      simp only [productLoop] at h
      exact productLoop_plain es _ _ r he.2 (app xs he.1) h
    | syn e =>
      simp only [productLoop] at h
      exact productLoop_plain es _ _ r he.2 (app [.syn e] (by simp [plains, he.1])) h
    | sum xs =>
      simp only [productLoop] at h
      exact productLoop_plain es _ _ r he.2 (app [.sum xs] (by simp [plains, he.1])) h

theorem sumLoop_plain : ∀ (es : List (SizeExpr ι)) (p : Nat) (items : List (SizeExpr ι)) (r),
    plains es = true → plains items = true → sumLoop es p items = .ok r → plains r.2 = true
  | [], p, items, r, _, hi, h => by simp only [sumLoop] at h; cases h; exact hi
  | e :: es, p, items, r, he, hi, h => by
    simp only [plains, Bool.and_eq_true] at he
    have app : ∀ l, plains l = true → plains (items ++ l) = true := by
      intro l hl
      rw [plains_iff] at *
      intro e he
      rcases List.mem_append.1 he with h | h
      · exact hi e h
      · exact hl e h
    cases e with
    | const c =>
      simp only [sumLoop] at h
      split at h
      · cases h
      · exact sumLoop_plain es _ _ r he.2 hi h
    | sum xs =>
      simp only [sumLoop] at h
      exact sumLoop_plain es _ _ r he.2 (app xs he.1) h
    | syn e =>
      simp only [sumLoop] at h
      exact sumLoop_plain es _ _ r he.2 (app [.syn e] (by simp [plains, he.1])) h
    | product xs =>
      simp only [sumLoop] at h
      exact sumLoop_plain es _ _ r he.2 (app [.product xs] (by simp [plains, he.1])) h

theorem productIgnoreConst_plain {es : List (SizeExpr ι)} (h : plains es = true) :
    plain (productIgnoreConst es) = true := by
  rcases es with _ | ⟨a, _ | ⟨b, es⟩⟩ <;> simp_all [productIgnoreConst, plain, plains]

theorem sumIgnoreConst_plain {es : List (SizeExpr ι)} (h : plains es = true) :
    plain (sumIgnoreConst es) = true := by
  rcases es with _ | ⟨a, _ | ⟨b, es⟩⟩ <;> simp_all [sumIgnoreConst, plain, plains]

theorem mkProduct_plain {es : List (SizeExpr ι)} {e} (h : plains es = true) (he : mkProduct es = .ok e) :
    plain e = true := by
  simp only [mkProduct] at he
  cases hl : productLoop es 1 [] with
  | error _ => rw [hl] at he; cases he
  | ok r =>
    obtain ⟨p, items⟩ := r
    have hi := productLoop_plain es 1 [] _ h rfl hl
    rw [hl] at he
    simp only [ok_bind] at he
    cases he
    split
    · rfl
    · exact productIgnoreConst_plain hi
    · exact productIgnoreConst_plain (by simpa [plains, plain] using hi)

theorem mkSum_plain {es : List (SizeExpr ι)} {e} (h : plains es = true) (he : mkSum es = .ok e) :
    plain e = true := by
  simp only [mkSum] at he
  cases hl : sumLoop es 0 [] with
  | error _ => rw [hl] at he; cases he
  | ok r =>
    obtain ⟨p, items⟩ := r
    have hi := sumLoop_plain es 0 [] _ h rfl hl
    rw [hl] at he
    simp only [ok_bind] at he
    cases he
    split
    · exact sumIgnoreConst_plain hi
    · exact sumIgnoreConst_plain (by simpa [plains, plain] using hi)

theorem sizes_plain (tys : List ι) : plains (tys.map ordinalSize) = true := by
  rw [plains_iff]
  intro e he
  obtain ⟨t, _, rfl⟩ := List.mem_map.1 he
  rfl

theorem structOrdinalSize_plain {tys : List ι} {e} (h : structOrdinalSize tys = .ok e) : plain e = true :=
  mkProduct_plain (sizes_plain tys) h

theorem structOrdinal_plain : ∀ (rs : List Ref) (ts : List ι) (e), structOrdinal rs ts = .ok e → plain e = true := by
  intro rs ts
  fun_induction structOrdinal rs ts with
  | case1 => intro e h; cases h; rfl
  | case2 => intro e h; cases h; rfl
  | case3 r r2 rs _ ts ih =>
    intro e h
    cases h1 : mkProduct (ts.map ordinalSize) with
    | error _ => rw [h1] at h; cases h
    | ok a =>
      cases h2 : structOrdinal (r2 :: rs) ts with
      | error _ => rw [h1, h2] at h; cases h
      | ok b =>
        rw [h1, h2] at h
        simp only [ok_bind, tuple2Ordinal] at h
        cases h3 : mkProduct [ordinalExpr r, a] with
        | error _ => rw [h3] at h; cases h
        | ok p =>
          rw [h3] at h
          refine mkSum_plain ?_ h
          have ha := mkProduct_plain (sizes_plain ts) h1
          have := mkProduct_plain (by simp [plains, ha, ordinalExpr, plain]) h3
          simp [plains, this, ih b h2]
  | case4 r _ t2 ts ih =>
    intro e h
    cases h2 : structOrdinal [] (t2 :: ts) with
    | error _ =>
      cases h1 : mkProduct ((t2 :: ts).map ordinalSize) with
      | error _ => rw [h1] at h; cases h
      | ok a => rw [h1, h2] at h; cases h
    | ok b => simp [structOrdinal] at h2
  | case5 => intro e h; cases h

theorem variantSizes_plain : ∀ (vs : List (Fields ι)) (es), variantSizes vs = .ok es → plains es = true
  | [], es, h => by simp only [variantSizes] at h; cases h; rfl
  | v :: vs, es, h => by
    rw [variantSizes] at h
    cases h1 : structOrdinalSize (fieldTypes v) with
    | error _ => rw [h1] at h; cases h
    | ok a =>
      cases h2 : variantSizes vs with
      | error _ => rw [h1, h2] at h; cases h
      | ok b =>
        rw [h1, h2] at h
        cases h
        simp [plains, structOrdinalSize_plain h1, variantSizes_plain vs b h2]

theorem sizeOfFirstVariants_plain {vs : List (Fields ι)} {i : Nat} {e} (h : sizeOfFirstVariants vs i = .ok e) :
    plain e = true := by
  rw [sizeOfFirstVariants] at h
  cases h1 : variantSizes (vs.take i) with
  | error _ => rw [h1] at h; cases h
  | ok es => rw [h1] at h; exact mkSum_plain (variantSizes_plain _ _ h1) h

end OrdinalMap.Derive
