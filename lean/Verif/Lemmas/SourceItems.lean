import Verif.Lemmas.Source
/-! # Lemmas about reading the emitted items -/

namespace OrdinalMap.Derive.Src
open OrdinalMap OrdinalMap.Derive

variable {ι : Type}

/-- No emitted size starts with a block. -/
theorem toks_notBlock (e : SizeExpr ι) (hp : SizeExpr.plain e = true) (r : List (T ι)) :
    startsBlockLike (src e.toks ++ r) = false := by
  cases e with
  | const c => rfl
  | syn e => cases e <;> first | rfl | simp [SizeExpr.plain] at hp
  | sum es => cases es <;> rfl
  | product es => cases es <;> rfl

/-- Every emitted constant is an operand. -/
theorem rd_constToks (e : SizeExpr ι) (x : Expr ι) (hp : SizeExpr.plain e = true) (hx : e.constExpr = .ok x)
    (s : Bool) : Rd pUnary 5 s (src e.constToks) (exprTree x) := by
  have block : ∀ y, e.expr = .ok y →
      Rd pUnary 5 s (src ([.const, .lbrace] ++ e.toks ++ [.rbrace])) (exprTree (.constBlock y)) := by
    intro y hy
    have := ((rd_constBlock (RdB.tail (rd_toks e y hp hy true).all (toks_notBlock e hp))).rd 5 s).unary
    simpa [src, tokSrc, exprTree] using this
  cases e with
  | const c => exact rd_toks (.const c : SizeExpr ι) x rfl hx s
  | syn e =>
    simp only [SizeExpr.constExpr] at hx
    cases hy : SizeExpr.expr (.syn e) with
    | error _ => rw [hy] at hx; cases hx
    | ok y => rw [hy] at hx; cases hx; exact block y hy
  | sum es =>
    simp only [SizeExpr.constExpr] at hx
    cases hy : SizeExpr.expr (.sum es) with
    | error _ => rw [hy] at hx; cases hx
    | ok y => rw [hy] at hx; cases hx; exact block y hy
  | product es =>
    simp only [SizeExpr.constExpr] at hx
    cases hy : SizeExpr.expr (.product es) with
    | error _ => rw [hy] at hx; cases hx
    | ok y => rw [hy] at hx; cases hx; exact block y hy

/-- `a % b` -/
theorem rd_rem {s : Bool} {ta tb : List (T ι)} {a b : E ι} (ha : Rd pUnary 5 s ta a) (hb : Rd pUnary 5 s tb b) :
    Rd pExpr 1 s (ta ++ .pn .percent :: tb) (.bin .rem a b) := by
  obtain ⟨k, ha⟩ := ha
  obtain ⟨k', hb⟩ := hb
  refine Rd.expr (Rd.cmp (Rd.sum ⟨k + k' + 3, fun n hn rest hr => ?_⟩))
  obtain ⟨n, rfl⟩ : ∃ m, n = m + 3 := ⟨n - 3, by omega⟩
  rw [List.append_assoc, List.cons_append, pProd,
    ha (n + 2) (by omega) _ (fol_cons (by simp [rank]) (by simp))]
  simp only [pProdTail, hb (n + 1) (by omega) rest (hr.mono (by omega)), prodTail_stop hr]

/-- `a - b` -/
theorem rd_sub {s : Bool} {ta tb : List (T ι)} {a b : E ι} (ha : Rd pUnary 5 s ta a) (hb : Rd pUnary 5 s tb b) :
    Rd pExpr 1 s (ta ++ .pn .minus :: tb) (.bin .sub a b) := by
  obtain ⟨k, ha⟩ := ha.prod
  obtain ⟨k', hb⟩ := hb.prod
  refine Rd.expr (Rd.cmp ⟨k + k' + 3, fun n hn rest hr => ?_⟩)
  obtain ⟨n, rfl⟩ : ∃ m, n = m + 3 := ⟨n - 3, by omega⟩
  rw [List.append_assoc, List.cons_append, pSum,
    ha (n + 2) (by omega) _ (fol_cons (by simp [rank]) (by simp))]
  simp only [pSumTail, hb (n + 1) (by omega) rest (hr.mono (by omega)), sumTail_stop hr]

/-- `a /= b` -/
theorem rd_divAssign {s : Bool} {ta tb : List (T ι)} {a b : E ι} (ha : Rd pUnary 5 s ta a) (hb : Rd pExpr 1 s tb b) :
    Rd pExpr 1 s (ta ++ .pn .slashEq :: tb) (.divAssign a b) := by
  obtain ⟨k, ha⟩ := ha.prod.sum.cmp
  obtain ⟨k', hb⟩ := hb
  refine ⟨k + k' + 1, fun n hn rest hr => ?_⟩
  obtain ⟨n, rfl⟩ : ∃ m, n = m + 1 := ⟨n - 1, by omega⟩
  rw [List.append_assoc, List.cons_append, pExpr,
    ha n (by omega) _ (fol_cons (by simp [rank]) (by simp))]
  simp only [hb n (by omega) rest hr]

/-- `<T as ordinal_map::Ordinal>::from_ordinal(e).unwrap()` -/
theorem rd_fromOrdinal (s : Bool) (t : ι) {ts : List (T ι)} {e : E ι} (h : Rd pExpr 1 true ts e) :
    Rd pUnary 5 s (([.pn .lt, .ty t, .kw .as] ++ traitSrc ++ [.pn .gt, .pn .colon2, .nm "from_ordinal"]) ++
        .pn .lparen :: (ts ++ [.pn .rparen, .pn .dot, .nm "unwrap", .pn .lparen, .pn .rparen]))
      (.method (.call (.qpath t (names ["ordinal_map", "Ordinal"]) (.user "from_ordinal")) (one e))
        (.user "unwrap") .nil) := by
  obtain ⟨k, ha⟩ := RdArgs.one h
  obtain ⟨k', hq⟩ := rd_qpath t (.user "from_ordinal")
  refine ⟨k + k' + 5, fun n hn rest hr => ?_⟩
  obtain ⟨n, rfl⟩ : ∃ m, n = m + 5 := ⟨n - 5, by omega⟩
  rw [List.append_assoc, unary_of_prim (hq (n + 4) (by omega) s _), List.cons_append, List.append_assoc]
  have := ha (n + 3) (by omega) (.pn .dot :: .nm "unwrap" :: .pn .lparen :: .pn .rparen :: rest)
  simp only [List.cons_append, List.nil_append]
  rw [pPost, this]
  simp only [pPost, pArgs, post_stop hr]

/-! ## The statements of `struct_from_ordinal` -/

theorem remToks_src (t : ι) : src (remToks t) = [.id remVar] ++ .pn .percent :: src (SizeExpr.ordinalSize t).constToks := by
  simp [remToks, src, tokSrc]

theorem rd_fields {tail : List (T ι)} {b : B ι} (hb : RdB tail b) : ∀ (fs : List (Ident × ι)) (ss : List (Stmt ι)),
    fieldsStmts fs = .ok ss → RdB (fs.flatMap (fun p => fieldSrc p.1 p.2) ++ tail) (stmtsTree ss b)
  | [], ss, h => by simp only [fieldsStmts] at h; cases h; exact hb
  | (x, t) :: fs, ss, h => by
    rw [fieldsStmts] at h
    cases h1 : fieldStmts x t with
    | error _ => rw [h1] at h; cases h
    | ok a =>
      cases h2 : fieldsStmts fs with
      | error _ => rw [h1, h2] at h; cases h
      | ok as =>
        rw [h1, h2] at h
        cases h
        rw [fieldStmts] at h1
        cases h3 : (SizeExpr.ordinalSize t).constExpr with
        | error _ => rw [h3] at h1; cases h1
        | ok e =>
          rw [h3] at h1
          cases h1
          have hc := rd_constToks (SizeExpr.ordinalSize t) e rfl h3 true
          have hr := rd_rem (rd_var (ι := ι) true remVar).unary hc
          have ih := rd_fields hb fs as h2
          have hd := RdB.semi (rd_divAssign (rd_var (ι := ι) true remVar).unary hc.all) (fun _ => rfl) ih
          have hl := RdB.let x (rd_fromOrdinal true t hr).all hd
          simpa [List.flatMap_cons, fieldSrc, remToks_src, src_nil, stmtsTree, stmtTree, exprTree, List.append_assoc] using hl

/-- `return e` -/
theorem rd_return {s : Bool} {ts : List (T ι)} {e : E ι} (h : Rd pExpr 1 s ts e) :
    Rd pExpr 1 s (.kw .return :: ts) (.ret e) := by
  obtain ⟨k, h⟩ := h
  refine ⟨k + 7, fun n hn rest hr => ?_⟩
  obtain ⟨n, rfl⟩ : ∃ m, n = m + 7 := ⟨n - 7, by omega⟩
  have h1 := h (n + 1) (by omega) rest hr
  refine expr_stop (cmp_stop ?_ (hr.mono (by omega))) hr
  have hp : pPrim (n + 2) s (.kw .return :: (ts ++ rest)) = some (.ret e, rest) := by
    rw [pPrim, expr_starts h1]
    simp only [if_true, h1]
  rw [List.cons_append, pSum, pProd, unary_of_prim hp, post_stop (hr.mono (by omega))]
  simp only [prodTail_stop (hr.mono (by omega : 1 ≤ 4)), sumTail_stop (hr.mono (by omega : 1 ≤ 3))]

/-- `struct_from_ordinal`. -/
theorem rd_structFrom {to tb : List (T ι)} {o : Expr ι} {k : Ctor} {bd : Build} (ho : Rd pExpr 1 true to (exprTree o))
    (hbd : Rd pExpr 1 true tb (buildTree k bd)) {vars : List Ident} {tys : List ι} {b : Block ι}
    (h : structFromOrdinal o vars tys bd = .ok b) :
    RdC pPrim (structFromSrc to vars tys tb) (.block (blockTree k b)) := by
  rw [structFromOrdinal] at h
  cases h1 : fieldsStmts (vars.zip tys).reverse with
  | error _ => rw [h1] at h; cases h
  | ok ss =>
    rw [h1] at h
    cases h
    have hsome : Rd pExpr 1 true (optionSrc ++ [.pn .colon2, .nm "Some", .pn .lparen] ++ tb ++ [.pn .rparen])
        (someTree (buildTree k bd)) := by
      have := rd_call (rd_fnPath (ι := ι) true (.user "std") [.user "option", .user "Option", .user "Some"])
        (RdArgs.one hbd)
      have := this.all
      simpa [optionSrc, segsSrc, someTree, names] using this
    have h2 := RdB.tail hsome (fun _ => rfl)
    have hret : Rd (ι := ι) pExpr 1 true [.kw .return, .nm "None"] returnNone := rd_return (rd_var (ι := ι) true (.user "None")).unary.all
    have hif := rd_if (rd_compare (p := .ne) rfl (rd_var (ι := ι) false remVar).unary ((rd_int 0).rd 5 false).unary)
      (RdB.tail hret (fun _ => rfl))
    have h3 := RdB.stmt hif (fun _ => rfl) (fun _ => rfl) h2
    have h4 := rd_fields h3 _ ss h1
    have h5 := rd_block (RdB.letMut remVar ho h4)
    have e2 : stmtsTree ([Stmt.letMut remVar o] ++ ss ++ [.returnNoneIfNonzero remVar])
        (.tail (someTree (buildTree k bd))) = .letS true remVar (exprTree o)
          (stmtsTree ss (.stmt (.ifE (.bin .ne (var remVar) (.int 0)) (.tail returnNone))
            (.tail (someTree (buildTree k bd))))) := by
      have : ∀ (l : List (Stmt ι)) (b : B ι), stmtsTree (l ++ [.returnNoneIfNonzero remVar]) b =
          stmtsTree l (stmtTree (.returnNoneIfNonzero remVar) b) := by
        intro l b
        induction l with
        | nil => rfl
        | cons s l ih => simp only [List.cons_append, stmtsTree, ih]
      rw [this]
      rfl
    rw [blockTree, e2]
    simpa [structFromSrc, List.append_assoc] using h5

/-! ## Constructors -/

theorem rd_varsAfter : ∀ (xs : List Ident), RdArgs (ι := ι) (commaAfter (xs.map fun x => [.id x])) (varsTree xs)
  | [] => RdArgs.nil
  | x :: xs => by
    have := RdArgs.cons (rd_var (ι := ι) true x).unary.all (rd_varsAfter xs)
    simpa [commaAfter, varsTree] using this

theorem rd_varsSep : ∀ (xs : List Ident), RdArgs (ι := ι) (commaSep (xs.map fun x => [.id x])) (varsTree xs)
  | [] => RdArgs.nil
  | [x] => RdArgs.one (rd_var (ι := ι) true x).unary.all
  | x :: y :: xs => by
    have := RdArgs.cons (rd_var (ι := ι) true x).unary.all (rd_varsSep (y :: xs))
    simpa [commaSep, varsTree] using this

/-- `ts` is read as the fields of a struct literal, up to and with the brace. -/
def RdFs (ts : List (T ι)) (fs : Fs ι) : Prop :=
  ∃ k, ∀ n, k ≤ n → ∀ rest, pFields n (ts ++ .pn .rbrace :: rest) = some (fs, rest)

theorem RdFs.nil : RdFs (ι := ι) [] .nil :=
  ⟨1, fun n hn rest => by
    obtain ⟨n, rfl⟩ : ∃ m, n = m + 1 := ⟨n - 1, by omega⟩
    simp [pFields]⟩

/-- `#( #field_vars: #exprs, )*` -/
theorem rd_fieldsAfter : ∀ (l : List String),
    RdFs (ι := ι) (commaAfter (l.map fun s => [.nm s, .pn .colon, .nm s])) (fieldsTree (l.zip (l.map .user)))
  | [] => RdFs.nil
  | s :: l => by
    obtain ⟨k, h⟩ := (rd_var (ι := ι) true (.user s)).unary.all
    obtain ⟨k', h'⟩ := rd_fieldsAfter l
    refine ⟨k + k' + 1, fun n hn rest => ?_⟩
    obtain ⟨n, rfl⟩ : ∃ m, n = m + 1 := ⟨n - 1, by omega⟩
    have h1 := h n (by omega) _ (fol_comma (by omega) true
      (commaAfter (l.map fun s => [.nm s, .pn .colon, .nm s]) ++ .pn .rbrace :: rest))
    have h2 := h' n (by omega) rest
    have e1 : commaAfter ((s :: l).map fun s => [.nm s, .pn .colon, .nm s]) ++ .pn .rbrace :: rest =
        .nm s :: .pn .colon :: ([.id (.user s)] ++ .pn .comma ::
          (commaAfter (l.map fun s => [.nm s, .pn .colon, .nm s]) ++ .pn .rbrace :: rest) : List (T ι)) := by
      simp [commaAfter]
    rw [e1, pFields, h1]
    simp only [h2]
    rfl

/-- `#( #exprs ),*` -/
theorem rd_fieldsSep : ∀ (l : List String),
    RdFs (ι := ι) (commaSep (l.map fun s => [.nm s])) (fieldsTree (l.zip (l.map .user)))
  | [] => RdFs.nil
  | [s] => by
    refine ⟨1, fun n hn rest => ?_⟩
    obtain ⟨n, rfl⟩ : ∃ m, n = m + 1 := ⟨n - 1, by omega⟩
    simp [commaSep, pFields, fieldsTree, var]
  | s :: s' :: l => by
    obtain ⟨k', h'⟩ := rd_fieldsSep (s' :: l)
    refine ⟨k' + 1, fun n hn rest => ?_⟩
    obtain ⟨n, rfl⟩ : ∃ m, n = m + 1 := ⟨n - 1, by omega⟩
    have h2 := h' n (by omega) rest
    have e1 : commaSep ((s :: s' :: l).map fun s => [.nm s]) ++ .pn .rbrace :: rest =
        .nm s :: .pn .comma ::
          (commaSep ((s' :: l).map fun s => [.nm s]) ++ .pn .rbrace :: rest : List (T ι)) := by
      simp [commaSep]
    rw [e1, pFields, h2]
    rfl

/-- A struct literal with a path starting with `Self`. -/
theorem rd_record (l : List Ident) {ts : List (T ι)} {fs : Fs ι} (h : RdFs ts fs) :
    Rd pPrim 5 true (.kw .Self :: segsSrc l ++ .pn .lbrace :: (ts ++ [.pn .rbrace]))
      (.record (.Self :: l.map .id) fs) := by
  obtain ⟨k, h⟩ := h
  refine ⟨k + 2, fun n hn rest hr => ?_⟩
  obtain ⟨n, rfl⟩ : ∃ m, n = m + 2 := ⟨n - 2, by omega⟩
  have h1 := h n (by omega) rest
  have e1 : .kw .Self :: segsSrc l ++ .pn .lbrace :: (ts ++ [.pn .rbrace]) ++ rest =
      .kw .Self :: (segsSrc l ++ .pn .lbrace :: (ts ++ .pn .rbrace :: rest)) := by simp
  rw [e1, pPrim, pSegs_segsSrc]
  simp only [pSegs, List.append_nil, pAfterPath, h1]

/-- The struct constructor. -/
theorem rd_structBuild (fs : Fields ι) :
    Rd pExpr 1 true (structBuildSrc fs) (buildTree (.path [.Self]) (structBuild fs)) := by
  cases fs with
  | unit => exact (rd_selfPath true []).unary.all
  | unnamed tys =>
    have := (rd_call (rd_fnSelf (ι := ι) true []) (rd_varsAfter (fieldVars (.unnamed tys)))).all
    simpa [structBuildSrc, segsSrc, buildTree, structBuild] using this
  | named l =>
    have := (rd_record (ι := ι) [] (rd_fieldsAfter (l.map (·.1)))).unary.all
    simpa [structBuildSrc, segsSrc, buildTree, structBuild, fieldVars, List.map_map, Function.comp_def] using this

/-- The variant constructor. -/
theorem rd_variantBuild (name : String) (v : Fields ι) :
    Rd pExpr 1 true (variantSrc name v) (buildTree (.path (variantSegs name)) (variantBuild v)) := by
  cases v with
  | unit => exact (rd_selfPath true [.user name]).unary.all
  | unnamed tys =>
    have := (rd_call (rd_fnSelf (ι := ι) true [.user name]) (rd_varsSep (fieldVars (.unnamed tys)))).all
    simpa [variantSrc, variantPath, segsSrc, buildTree, variantBuild, variantSegs] using this
  | named l =>
    have := (rd_record (ι := ι) [.user name] (rd_fieldsSep (l.map (·.1)))).unary.all
    simpa [variantSrc, variantPath, segsSrc, buildTree, variantBuild, variantSegs, fieldVars, List.map_map,
      Function.comp_def] using this

/-- The tuple constructor. -/
theorem rd_tupleBuild (xs : List Ident) :
    Rd (ι := ι) pExpr 1 true ([.pn .lparen] ++ commaAfter (xs.map fun x => [.id x]) ++ [.pn .rparen])
      (buildTree .tuple (.positional xs)) := by
  refine Rd.all (Rd.unary (RdC.rd ?_ 5 true))
  cases xs with
  | nil =>
    refine ⟨1, fun n hn s rest => ?_⟩
    obtain ⟨n, rfl⟩ : ∃ m, n = m + 1 := ⟨n - 1, by omega⟩
    simp [commaAfter, pPrim, buildTree, varsTree]
  | cons x xs =>
    obtain ⟨k, h⟩ := (rd_var (ι := ι) true x).unary.all
    obtain ⟨k', h'⟩ := rd_varsAfter (ι := ι) xs
    refine ⟨k + k' + 1, fun n hn s rest => ?_⟩
    obtain ⟨n, rfl⟩ : ∃ m, n = m + 1 := ⟨n - 1, by omega⟩
    have h1 := h n (by omega) _ (fol_comma (by omega) true
      (commaAfter (xs.map fun x => [.id x]) ++ .pn .rparen :: rest))
    have h2 := h' n (by omega) rest
    have e1 : [.pn .lparen] ++ commaAfter ((x :: xs).map fun x => [.id x]) ++ [.pn .rparen] ++ rest =
        .pn .lparen :: ([.id x] ++ .pn .comma ::
          (commaAfter (xs.map fun x => [.id x]) ++ .pn .rparen :: rest) : List (T ι)) := by
      simp [commaAfter]
    rw [e1, pPrim]
    · rw [h1]
      simp only [h2]
      rfl
    · intro ts' e; simp at e

/-! ## Match arms -/

theorem pIdents_sep {close : Pn} (hc : close ≠ .comma) : ∀ (xs : List Ident) (rest : List (T ι)),
    pIdents close (commaSep (xs.map fun x => [.id x]) ++ .pn close :: rest) = some (xs, rest)
  | [], rest => by simp [commaSep, pIdents]
  | [x], rest => by simp [commaSep, pIdents]
  | x :: y :: xs, rest => by
    have ih := pIdents_sep hc (y :: xs) rest
    have e1 : commaSep ((x :: y :: xs).map fun x => [.id x]) ++ .pn close :: rest =
        .id x :: .pn .comma :: (commaSep ((y :: xs).map fun x => [.id x]) ++ .pn close :: rest : List (T ι)) := by
      simp [commaSep]
    rw [e1, pIdents, ih]
    simp [hc.symm]

theorem pPat_variant (name : String) (v : Fields ι) (r : List (T ι)) :
    pPat (variantSrc name v ++ .pn .fatArrow :: r) = some (patTree name (variantPat v), .pn .fatArrow :: r) := by
  cases v with
  | unit => simp [variantSrc, variantPath, pPat, pSegs, patTree, variantPat, variantSegs]
  | unnamed tys =>
    have := pIdents_sep (ι := ι) (close := .rparen) (by decide) (fieldVars (.unnamed tys)) (.pn .fatArrow :: r)
    simp [variantSrc, variantPath, pPat, pSegs, this, patTree, variantPat, variantSegs]
  | named l =>
    have := pIdents_sep (ι := ι) (close := .rbrace) (by decide) (fieldVars (.named l)) (.pn .fatArrow :: r)
    simp [variantSrc, variantPath, pPat, pSegs, this, patTree, variantPat, variantSegs]

/-- `ts` is read as match arms, up to and with the brace. -/
def RdArms (ts : List (T ι)) (arms : Arms ι) : Prop :=
  ∃ k, ∀ n, k ≤ n → ∀ rest, pArms n (ts ++ .pn .rbrace :: rest) = some (arms, rest)

theorem RdArms.cons (name : String) (v : Fields ι) {tb ts : List (T ι)} {b : B ι} {arms : Arms ι} (hb : RdB tb b)
    (h : RdArms ts arms) :
    RdArms (variantSrc name v ++ [.pn .fatArrow, .pn .lbrace] ++ tb ++ [.pn .rbrace] ++ .pn .comma :: ts)
      (.cons (patTree name (variantPat v)) (.block b) arms) := by
  obtain ⟨k, h⟩ := h
  obtain ⟨k', hb⟩ := hb
  refine ⟨k + k' + 1, fun n hn rest => ?_⟩
  obtain ⟨n, rfl⟩ : ∃ m, n = m + 1 := ⟨n - 1, by omega⟩
  have e1 : variantSrc name v ++ [.pn .fatArrow, .pn .lbrace] ++ tb ++ [.pn .rbrace] ++ .pn .comma :: ts ++
      .pn .rbrace :: rest = variantSrc name v ++ .pn .fatArrow :: (.pn .lbrace ::
        (tb ++ .pn .rbrace :: (.pn .comma :: (ts ++ .pn .rbrace :: rest)))) := by simp
  have h1 := hb n (by omega) (.pn .comma :: (ts ++ .pn .rbrace :: rest))
  rw [e1, pArms, pPat_variant]
  · simp only [h1, h n (by omega) rest]
  · intro ts' e
    cases v <;> simp [variantSrc, variantPath] at e

theorem rd_arms (vs : List (Fields ι)) : ∀ (rest : List (String × Fields ι)) (i : Nat) (arms : List (Pat × Expr ι)),
    enumArms vs i (rest.map (·.2)) = .ok arms → ∃ ts, armsSrc vs i rest = .ok ts ∧
      RdArms (commaAfter ts) (armsTree ((rest.map (·.1)).zip arms))
  | [], i, arms, h => by
    simp only [List.map_nil, enumArms] at h; cases h
    exact ⟨[], rfl, 1, fun n hn rest => by
      obtain ⟨n, rfl⟩ : ∃ m, n = m + 1 := ⟨n - 1, by omega⟩
      simp [commaAfter, pArms, armsTree]⟩
  | (name, v) :: rest, i, arms, h => by
    rw [List.map_cons, enumArms] at h
    cases h1 : enumArm vs i v with
    | error _ => rw [h1] at h; cases h
    | ok a =>
      rw [h1, ok_bind] at h
      cases h2 : enumArms vs (i + 1) (rest.map (·.2)) with
      | error _ => rw [h2] at h; cases h
      | ok as =>
        rw [h2, ok_bind] at h
        cases h
        obtain ⟨ts, e1, e2⟩ := rd_arms vs rest (i + 1) as h2
        rw [enumArm] at h1
        cases g1 : sizeOfFirstVariants vs i with
        | error _ => rw [g1] at h1; cases h1
        | ok first =>
          rw [g1, ok_bind] at h1
          cases g2 : structOrdinal ((fieldVars v).map .var) (fieldTypes v) with
          | error _ => rw [g2] at h1; cases h1
          | ok so =>
            rw [g2, ok_bind] at h1
            cases g3 : SizeExpr.mkSum [first, so] with
            | error _ => rw [g3] at h1; cases h1
            | ok sm =>
              rw [g3, ok_bind] at h1
              cases g4 : sm.expr with
              | error _ => rw [g4] at h1; cases h1
              | ok x =>
                rw [g4, ok_bind] at h1
                cases h1
                have hp : sm.plain = true := mkSum_plain (by
                  simp [SizeExpr.plains, sizeOfFirstVariants_plain g1, structOrdinal_plain _ _ _ g2]) g3
                have hb := RdB.tail (rd_toks sm x hp g4 true).all (toks_notBlock sm hp)
                refine ⟨_, by simp only [armsSrc, armSrc, armToks, g1, g2, g3, e1, ok_bind]; rfl, ?_⟩
                have := RdArms.cons name v hb e2
                simpa [commaAfter, armsTree] using this

theorem rd_match {ts : List (T ι)} {arms : Arms ι} (h : RdArms ts arms) :
    RdC pPrim (.kw .match :: .kw .self :: .pn .lbrace :: (ts ++ [.pn .rbrace])) (.matchE .self arms) := by
  have hs : RdC (ι := ι) pPrim [.kw .self] .self := ⟨1, fun n hn s rest => by
    obtain ⟨n, rfl⟩ : ∃ m, n = m + 1 := ⟨n - 1, by omega⟩
    simp [pPrim]⟩
  obtain ⟨k, hs⟩ := (hs.rd 5 false).unary.all
  obtain ⟨k', h⟩ := h
  refine ⟨k + k' + 1, fun n hn s rest => ?_⟩
  obtain ⟨n, rfl⟩ : ∃ m, n = m + 1 := ⟨n - 1, by omega⟩
  have h1 := hs n (by omega) (.pn .lbrace :: (ts ++ .pn .rbrace :: rest)) (fol_lbrace (by omega) _)
  have h2 := h n (by omega) rest
  rw [List.singleton_append] at h1
  simp [pPrim, h1, h2]

/-! ## The statements of an enum's `from_ordinal` -/

theorem rd_enumStmts (vs : List (Fields ι)) {tail : List (T ι)} {b : B ι} (hb : RdB tail b)
    (hs : ∀ r, startsStmt (tail ++ r) = true) :
    ∀ (rest : List (String × Fields ι)) (i : Nat) (ss : List (Expr ι × Block ι)),
      enumFromStmts vs i (rest.map (·.2)) = .ok ss → ∃ ts, enumStmtsSrc vs i rest = .ok ts ∧
        RdB (ts.flatten ++ tail) (enumStmtsTree ((rest.map (·.1)).zip ss) b) ∧
        ∀ r, startsStmt (ts.flatten ++ tail ++ r) = true
  | [], i, ss, h => by
    simp only [List.map_nil, enumFromStmts] at h; cases h
    exact ⟨[], rfl, hb, hs⟩
  | (name, v) :: rest, i, ss, h => by
    rw [List.map_cons, enumFromStmts] at h
    cases h1 : enumFromStmt vs i v with
    | error _ => rw [h1] at h; cases h
    | ok a =>
      rw [h1, ok_bind] at h
      cases h2 : enumFromStmts vs (i + 1) (rest.map (·.2)) with
      | error _ => rw [h2] at h; cases h
      | ok as =>
        rw [h2, ok_bind] at h
        cases h
        obtain ⟨ts, e1, e2, e3⟩ := rd_enumStmts vs hb hs rest (i + 1) as h2
        rw [enumFromStmt] at h1
        cases g1 : sizeOfFirstVariants vs i with
        | error _ => rw [g1] at h1; cases h1
        | ok before =>
          rw [g1, ok_bind] at h1
          cases g2 : before.constExpr with
          | error _ => rw [g2] at h1; cases h1
          | ok b' =>
            rw [g2, ok_bind] at h1
            cases g3 : sizeOfFirstVariants vs (i + 1) with
            | error _ => rw [g3] at h1; cases h1
            | ok including =>
              rw [g3, ok_bind] at h1
              cases g4 : including.constExpr with
              | error _ => rw [g4] at h1; cases h1
              | ok i' =>
                rw [g4, ok_bind] at h1
                cases g5 : structFromOrdinal (.sub (.var ordinalVar) b') (fieldVars v) (fieldTypes v)
                    (variantBuild v) with
                | error _ => rw [g5] at h1; cases h1
                | ok blk =>
                  rw [g5, ok_bind] at h1
                  cases h1
                  have hsub := rd_sub (rd_var (ι := ι) true ordinalVar).unary
                    (rd_constToks _ _ (sizeOfFirstVariants_plain g1) g2 true)
                  have es : src (subToks before) = [.id ordinalVar] ++ .pn .minus :: src before.constToks := by
                    simp [subToks, src, tokSrc]
                  rw [← es] at hsub
                  have hblk := rd_structFrom (o := .sub (.var ordinalVar) b') hsub (rd_variantBuild name v) g5
                  have hret := rd_return ((hblk.rd 5 true).unary.all)
                  have hcond := rd_compare (p := .lt) rfl (rd_var (ι := ι) false ordinalVar).unary
                    (rd_constToks _ _ (sizeOfFirstVariants_plain g3) g4 false)
                  have hif := rd_if hcond (RdB.semi hret (fun _ => rfl) RdB.nil)
                  have hst := RdB.stmt hif (fun _ => rfl) e3 e2
                  refine ⟨_, by simp only [enumStmtsSrc, enumStmtSrc, g1, g3, e1, ok_bind]; rfl, ?_, ?_⟩
                  · simpa [enumStmtsTree, condToks, src, tokSrc, List.append_assoc] using hst
                  · intro r; simp [startsStmt, startsExpr]

/-! ## The `impl` -/

theorem pExact_append [DecidableEq ι] (p ts : List (T ι)) : pExact p (p ++ ts) = some ts := by
  induction p with
  | nil => rfl
  | cons t p ih => simp [pExact, ih]

/-- The whole `impl`, given its parts. -/
theorem reads_impl [DecidableEq ι] (d : Bool) {tz to tf : List (T ι)} {z : E ι} {o f : B ι}
    (hz : Rd pExpr 1 true tz z) (ho : RdB (checkOverflowSrc ++ to) o) (hf : RdB (checkZeroSizeSrc ++ tf) f) :
    ReadsImpl (implSrc d tz to tf) ⟨z, o, ordinalVar, f⟩ := by
  obtain ⟨k1, hz⟩ := hz
  obtain ⟨k2, ho⟩ := ho
  obtain ⟨k3, hf⟩ := hf
  refine ⟨k1 + k2 + k3, fun n hn => ?_⟩
  have hz := fun r => hz n (by omega) (.pn .semi :: r) (fol_semi (by omega) true r)
  have ho := fun r => ho n (by omega) r
  have hf := hf n (by omega) [.pn .rbrace]
  have a1 : ∀ r : List (T ι), pAttr ((if d then allowClippy else []) ++ .kw .impl :: r) = some (.kw .impl :: r) := by
    intro r; cases d <;> simp [allowClippy, pAttr, pAttrBody]
  have a2 : ∀ r : List (T ι), pAttr (.kw .fn :: r) = some (.kw .fn :: r) := fun r => rfl
  have a3 : ∀ r : List (T ι), pAttr ((if d then allowUnused else []) ++ .kw .fn :: r) = some (.kw .fn :: r) := by
    intro r; cases d <;> simp [allowUnused, pAttr, pAttrBody]
  simp only [List.append_assoc] at ho hf
  simp only [pImpl, implSrc, List.append_assoc, List.cons_append, List.nil_append, a1, Option.bind_eq_bind,
    Option.bind_some]
  simp only [pExact, traitSrc, optionSrc, List.cons_append, List.nil_append, if_true, Option.bind_some, hz, a2, ho,
    a3, hf]

end OrdinalMap.Derive.Src
