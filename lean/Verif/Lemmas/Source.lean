import Verif.SpecSource
import Verif.Lemmas.Tokens
/-! # Lemmas about reading the emitted text -/

namespace OrdinalMap.Derive.Src
open OrdinalMap OrdinalMap.Derive

variable {ι : Type}

/-- How strongly a token continues an expression. -/
def rank : T ι → Nat
  | .pn .dot => 5
  | .pn .lparen => 5
  | .pn .colon2 => 5
  | .pn .star => 4
  | .pn .percent => 4
  | .pn .plus => 3
  | .pn .minus => 3
  | .pn .eqEq => 2
  | .pn .ne => 2
  | .pn .lt => 2
  | .pn .gt => 2
  | .pn .slashEq => 1
  | _ => 0

/-- What follows does not continue an expression of level `L`. -/
structure Fol (L : Nat) (s : Bool) (rest : List (T ι)) : Prop where
  low : ∀ t ts, rest = t :: ts → rank t < L
  brace : s = true → ∀ ts, rest ≠ .pn .lbrace :: ts

theorem Fol.mono {L L' : Nat} {s : Bool} {rest : List (T ι)} (h : Fol L s rest) (hl : L ≤ L') : Fol L' s rest :=
  ⟨fun t ts e => Nat.lt_of_lt_of_le (h.low t ts e) hl, h.brace⟩

theorem fol_cons {L : Nat} {s : Bool} {t : T ι} {ts : List (T ι)} (h : rank t < L)
    (hb : s = true → t ≠ .pn .lbrace) : Fol L s (t :: ts) :=
  ⟨fun _ _ e => by cases e; exact h, fun hs _ e => by cases e; exact hb hs rfl⟩

/-- `ts` is read by `p` as `e`, with the given restriction on struct literals, if what follows does not
continue it. -/
def Rd (p : Nat → Bool → List (T ι) → Option (E ι × List (T ι))) (L : Nat) (s : Bool) (ts : List (T ι))
    (e : E ι) : Prop :=
  ∃ k, ∀ n, k ≤ n → ∀ rest, Fol L s rest → p n s (ts ++ rest) = some (e, rest)

/-- The same whatever follows. -/
def RdC (p : Nat → Bool → List (T ι) → Option (E ι × List (T ι))) (ts : List (T ι)) (e : E ι) : Prop :=
  ∃ k, ∀ n, k ≤ n → ∀ s rest, p n s (ts ++ rest) = some (e, rest)

theorem RdC.rd {p : Nat → Bool → List (T ι) → Option (E ι × List (T ι))} {ts : List (T ι)} {e : E ι}
    (h : RdC p ts e) (L : Nat) (s : Bool) : Rd p L s ts e := by
  obtain ⟨k, h⟩ := h
  exact ⟨k, fun n hn rest _ => h n hn s rest⟩

theorem segs_stop {s : Bool} {rest : List (T ι)} (h : Fol 5 s rest) : pSegs rest = ([], rest) := by
  rcases rest with _ | ⟨t, ts⟩
  · simp [pSegs]
  · have := h.low t ts rfl
    cases t with
    | pn p => cases p <;> simp_all [pSegs, rank]
    | _ => simp [pSegs]

theorem post_stop {s : Bool} {rest : List (T ι)} (h : Fol 5 s rest) (n : Nat) (e : E ι) :
    pPost (n + 1) e rest = some (e, rest) := by
  rcases rest with _ | ⟨t, ts⟩
  · simp [pPost]
  · have := h.low t ts rfl
    cases t with
    | pn p => cases p <;> simp_all [pPost, rank]
    | _ => simp [pPost]

theorem prodTail_stop {s : Bool} {rest : List (T ι)} (h : Fol 4 s rest) (n : Nat) (e : E ι) :
    pProdTail (n + 1) s e rest = some (e, rest) := by
  rcases rest with _ | ⟨t, ts⟩
  · simp [pProdTail]
  · have := h.low t ts rfl
    cases t with
    | pn p => cases p <;> simp_all [pProdTail, rank]
    | _ => simp [pProdTail]

theorem sumTail_stop {s : Bool} {rest : List (T ι)} (h : Fol 3 s rest) (n : Nat) (e : E ι) :
    pSumTail (n + 1) s e rest = some (e, rest) := by
  rcases rest with _ | ⟨t, ts⟩
  · simp [pSumTail]
  · have := h.low t ts rfl
    cases t with
    | pn p => cases p <;> simp_all [pSumTail, rank]
    | _ => simp [pSumTail]

theorem afterPath_stop {s : Bool} {rest : List (T ι)} (h : Fol 5 s rest) (n : Nat) (p : List Seg) :
    pAfterPath (n + 1) s p rest = some (.path p, rest) := by
  rcases rest with _ | ⟨t, ts⟩
  · cases s <;> simp [pAfterPath]
  · have := h.brace
    cases s
    · simp [pAfterPath]
    · cases t with
      | pn q => cases q <;> simp_all [pAfterPath]
      | _ => simp [pAfterPath]

/-! ## Only what starts an expression is read as one -/

theorem prim_starts {n : Nat} {s : Bool} {ts : List (T ι)} {r} (h : pPrim n s ts = some r) :
    startsExpr ts = true ∧ ∀ ts', ts ≠ .pn .amp :: ts' := by
  cases n with
  | zero => simp [pPrim] at h
  | succ n =>
    rcases ts with _ | ⟨t, ts⟩
    · simp [pPrim] at h
    · cases t with
      | pn p => cases p <;> simp_all [pPrim, startsExpr]
      | kw k => cases k <;> simp_all [pPrim, startsExpr]
      | _ => simp_all [pPrim, startsExpr]

theorem unary_starts : ∀ (n : Nat) {s : Bool} {ts : List (T ι)} {r}, pUnary n s ts = some r → startsExpr ts = true
  | 0, s, ts, r, h => by simp [pUnary] at h
  | n + 1, s, ts, r, h => by
    by_cases ha : ∃ ts', ts = .pn .amp :: ts'
    · obtain ⟨ts', rfl⟩ := ha; rfl
    · have e : pUnary (n + 1) s ts = match pPrim n s ts with
          | some (e, ts) => pPost n e ts
          | none => none := by
        rw [pUnary]
        · rfl
        · intro ts' e; exact ha ⟨ts', e⟩
      rw [e] at h
      cases hp : pPrim n s ts with
      | none => rw [hp] at h; cases h
      | some _ => exact (prim_starts hp).1

theorem expr_starts {n : Nat} {s : Bool} {ts : List (T ι)} {r} (h : pExpr n s ts = some r) :
    startsExpr ts = true := by
  cases n with
  | zero => simp [pExpr] at h
  | succ n =>
    rw [pExpr] at h
    cases h1 : pCmp n s ts with
    | none => rw [h1] at h; cases h
    | some _ =>
      cases n with
      | zero => simp [pCmp] at h1
      | succ n =>
        rw [pCmp] at h1
        cases h2 : pSum n s ts with
        | none => rw [h2] at h1; cases h1
        | some _ =>
          cases n with
          | zero => simp [pSum] at h2
          | succ n =>
            rw [pSum] at h2
            cases h3 : pProd n s ts with
            | none => rw [h3] at h2; cases h2
            | some _ =>
              cases n with
              | zero => simp [pProd] at h3
              | succ n =>
                rw [pProd] at h3
                cases h4 : pUnary n s ts with
                | none => rw [h4] at h3; cases h3
                | some _ => exact unary_starts n h4

/-! ## From level to level -/

theorem unary_of_prim {n : Nat} {s : Bool} {ts : List (T ι)} {e : E ι} {ts' : List (T ι)}
    (h : pPrim n s ts = some (e, ts')) : pUnary (n + 1) s ts = pPost n e ts' := by
  rw [pUnary]
  · simp only [h]
  · exact (prim_starts h).2

theorem Rd.unary {s : Bool} {ts : List (T ι)} {e : E ι} (h : Rd pPrim 5 s ts e) : Rd pUnary 5 s ts e := by
  obtain ⟨k, h⟩ := h
  refine ⟨k + 2, fun n hn rest hr => ?_⟩
  obtain ⟨n, rfl⟩ : ∃ m, n = m + 2 := ⟨n - 2, by omega⟩
  rw [unary_of_prim (h (n + 1) (by omega) rest hr), post_stop hr]

theorem Rd.prod {s : Bool} {ts : List (T ι)} {e : E ι} (h : Rd pUnary 5 s ts e) : Rd pProd 4 s ts e := by
  obtain ⟨k, h⟩ := h
  refine ⟨k + 2, fun n hn rest hr => ?_⟩
  obtain ⟨n, rfl⟩ : ∃ m, n = m + 2 := ⟨n - 2, by omega⟩
  simp only [pProd, h (n + 1) (by omega) rest (hr.mono (by omega)), prodTail_stop hr]

theorem Rd.sum {s : Bool} {ts : List (T ι)} {e : E ι} (h : Rd pProd 4 s ts e) : Rd pSum 3 s ts e := by
  obtain ⟨k, h⟩ := h
  refine ⟨k + 2, fun n hn rest hr => ?_⟩
  obtain ⟨n, rfl⟩ : ∃ m, n = m + 2 := ⟨n - 2, by omega⟩
  simp only [pSum, h (n + 1) (by omega) rest (hr.mono (by omega)), sumTail_stop hr]

theorem cmp_stop {n : Nat} {s : Bool} {ts : List (T ι)} {e : E ι} {rest : List (T ι)}
    (h : pSum n s ts = some (e, rest)) (hr : Fol 2 s rest) : pCmp (n + 1) s ts = some (e, rest) := by
  rw [pCmp, h]
  rcases rest with _ | ⟨t, r⟩
  · rfl
  · have := hr.low t r rfl
    cases t with
    | pn p => cases p <;> simp_all [cmpOp, rank]
    | _ => rfl

theorem Rd.cmp {s : Bool} {ts : List (T ι)} {e : E ι} (h : Rd pSum 3 s ts e) : Rd pCmp 2 s ts e := by
  obtain ⟨k, h⟩ := h
  refine ⟨k + 1, fun n hn rest hr => ?_⟩
  obtain ⟨n, rfl⟩ : ∃ m, n = m + 1 := ⟨n - 1, by omega⟩
  exact cmp_stop (h n (by omega) rest (hr.mono (by omega))) hr

theorem expr_stop {n : Nat} {s : Bool} {ts : List (T ι)} {e : E ι} {rest : List (T ι)}
    (h : pCmp n s ts = some (e, rest)) (hr : Fol 1 s rest) : pExpr (n + 1) s ts = some (e, rest) := by
  rw [pExpr, h]
  rcases rest with _ | ⟨t, r⟩
  · rfl
  · have := hr.low t r rfl
    cases t with
    | pn p => cases p <;> simp_all [rank]
    | _ => rfl

theorem Rd.expr {s : Bool} {ts : List (T ι)} {e : E ι} (h : Rd pCmp 2 s ts e) : Rd pExpr 1 s ts e := by
  obtain ⟨k, h⟩ := h
  refine ⟨k + 1, fun n hn rest hr => ?_⟩
  obtain ⟨n, rfl⟩ : ∃ m, n = m + 1 := ⟨n - 1, by omega⟩
  exact expr_stop (h n (by omega) rest (hr.mono (by omega))) hr

/-- An operand is an expression. -/
theorem Rd.all {s : Bool} {ts : List (T ι)} {e : E ι} (h : Rd pUnary 5 s ts e) : Rd pExpr 1 s ts e :=
  h.prod.sum.cmp.expr

/-! ## Operands -/

theorem fol_rparen {L : Nat} (hL : 0 < L) (s : Bool) (r : List (T ι)) : Fol L s (.pn .rparen :: r) :=
  fol_cons hL (by simp)
theorem fol_rbrace {L : Nat} (hL : 0 < L) (s : Bool) (r : List (T ι)) : Fol L s (.pn .rbrace :: r) :=
  fol_cons hL (by simp)
theorem fol_comma {L : Nat} (hL : 0 < L) (s : Bool) (r : List (T ι)) : Fol L s (.pn .comma :: r) :=
  fol_cons hL (by simp)
theorem fol_semi {L : Nat} (hL : 0 < L) (s : Bool) (r : List (T ι)) : Fol L s (.pn .semi :: r) :=
  fol_cons hL (by simp)
theorem fol_lbrace {L : Nat} (hL : 0 < L) (r : List (T ι)) : Fol L false (.pn .lbrace :: r) :=
  fol_cons hL (by simp)

theorem rd_usize (c : Nat) : RdC (ι := ι) pPrim [.usize c] (.usize c) :=
  ⟨1, fun n hn s rest => by
    obtain ⟨n, rfl⟩ : ∃ m, n = m + 1 := ⟨n - 1, by omega⟩
    simp [pPrim]⟩

theorem rd_int (c : Nat) : RdC (ι := ι) pPrim [.int c] (.int c) :=
  ⟨1, fun n hn s rest => by
    obtain ⟨n, rfl⟩ : ∃ m, n = m + 1 := ⟨n - 1, by omega⟩
    simp [pPrim]⟩

/-- `:: x :: y` -/
def segsSrc (l : List Ident) : List (T ι) := l.flatMap fun x => [.pn .colon2, .id x]

theorem pSegs_segsSrc (l : List Ident) (rest : List (T ι)) :
    pSegs (segsSrc l ++ rest) = (l.map .id ++ (pSegs rest).1, (pSegs rest).2) := by
  induction l with
  | nil => simp [segsSrc]
  | cons x l ih =>
    have : segsSrc (x :: l) ++ rest = .pn .colon2 :: .id x :: (segsSrc l ++ rest) := by
      simp [segsSrc]
    rw [this, pSegs, ih]
    simp

theorem rd_path (s : Bool) (x : Ident) (l : List Ident) :
    Rd (ι := ι) pPrim 5 s (.id x :: segsSrc l) (.path (.id x :: l.map .id)) := by
  refine ⟨2, fun n hn rest hr => ?_⟩
  obtain ⟨n, rfl⟩ : ∃ m, n = m + 2 := ⟨n - 2, by omega⟩
  rw [List.cons_append, pPrim, pSegs_segsSrc, segs_stop hr]
  simp only [List.append_nil]
  exact afterPath_stop hr n _

theorem rd_selfPath (s : Bool) (l : List Ident) :
    Rd (ι := ι) pPrim 5 s (.kw .Self :: segsSrc l) (.path (.Self :: l.map .id)) := by
  refine ⟨2, fun n hn rest hr => ?_⟩
  obtain ⟨n, rfl⟩ : ∃ m, n = m + 2 := ⟨n - 2, by omega⟩
  rw [List.cons_append, pPrim, pSegs_segsSrc, segs_stop hr]
  simp only [List.append_nil]
  exact afterPath_stop hr n _

theorem rd_var (s : Bool) (x : Ident) : Rd (ι := ι) pPrim 5 s [.id x] (var x) := rd_path s x []

/-- `<T as ordinal_map::Ordinal>::x` -/
theorem rd_qpath (t : ι) (x : Ident) :
    RdC pPrim ([.pn .lt, .ty t, .kw .as] ++ traitSrc ++ [.pn .gt, .pn .colon2, .id x])
      (.qpath t (names ["ordinal_map", "Ordinal"]) x) :=
  ⟨1, fun n hn s rest => by
    obtain ⟨n, rfl⟩ : ∃ m, n = m + 1 := ⟨n - 1, by omega⟩
    simp [pPrim, traitSrc, pSegs, names, T.nm]⟩

/-! ### Argument lists -/

/-- `ts` is read as the arguments, up to and with the parenthesis. -/
def RdArgs (ts : List (T ι)) (es : Es ι) : Prop :=
  ∃ k, ∀ n, k ≤ n → ∀ rest, pArgs n (ts ++ .pn .rparen :: rest) = some (es, rest)

theorem args_default {n : Nat} {ts : List (T ι)} (h : startsExpr ts = true) :
    pArgs (n + 1) ts = match pExpr n true ts with
      | some (e, .pn .rparen :: ts) => some (.cons e .nil, ts)
      | some (e, .pn .comma :: ts) =>
        match pArgs n ts with
        | some (es, ts) => some (.cons e es, ts)
        | none => none
      | _ => none := by
  rw [pArgs]
  · rfl
  · rintro ts' rfl
    simp [startsExpr] at h

theorem RdArgs.nil : RdArgs (ι := ι) [] .nil :=
  ⟨1, fun n hn rest => by
    obtain ⟨n, rfl⟩ : ∃ m, n = m + 1 := ⟨n - 1, by omega⟩
    simp [pArgs]⟩

theorem RdArgs.one {ts : List (T ι)} {e : E ι} (h : Rd pExpr 1 true ts e) : RdArgs ts (one e) := by
  obtain ⟨k, h⟩ := h
  refine ⟨k + 1, fun n hn rest => ?_⟩
  obtain ⟨n, rfl⟩ : ∃ m, n = m + 1 := ⟨n - 1, by omega⟩
  have := h n (by omega) _ (fol_rparen (by omega) true rest)
  rw [args_default (expr_starts this), this]
  rfl

theorem RdArgs.cons {ts ts' : List (T ι)} {e : E ι} {es : Es ι} (h : Rd pExpr 1 true ts e) (h' : RdArgs ts' es) :
    RdArgs (ts ++ .pn .comma :: ts') (.cons e es) := by
  obtain ⟨k, h⟩ := h
  obtain ⟨k', h'⟩ := h'
  refine ⟨k + k' + 1, fun n hn rest => ?_⟩
  obtain ⟨n, rfl⟩ : ∃ m, n = m + 1 := ⟨n - 1, by omega⟩
  have := h n (by omega) _ (fol_comma (by omega) true (ts' ++ .pn .rparen :: rest))
  rw [List.append_assoc, List.cons_append, args_default (expr_starts this), this]
  simp only [h' n (by omega) rest]

/-- A call. -/
theorem rd_call {s : Bool} {ts as : List (T ι)} {f : E ι} {es : Es ι}
    (h : ∃ k, ∀ n, k ≤ n → ∀ rest, pPrim n s (ts ++ .pn .lparen :: rest) = some (f, .pn .lparen :: rest))
    (ha : RdArgs as es) : Rd pUnary 5 s (ts ++ .pn .lparen :: (as ++ [.pn .rparen])) (.call f es) := by
  obtain ⟨k, h⟩ := h
  obtain ⟨k', ha⟩ := ha
  refine ⟨k + k' + 3, fun n hn rest hr => ?_⟩
  obtain ⟨n, rfl⟩ : ∃ m, n = m + 3 := ⟨n - 3, by omega⟩
  have e1 : ts ++ .pn .lparen :: (as ++ [.pn .rparen]) ++ rest =
      ts ++ .pn .lparen :: (as ++ .pn .rparen :: rest) := by simp
  rw [e1, unary_of_prim (h (n + 2) (by omega) _), pPost]
  simp only [ha (n + 1) (by omega) rest, post_stop hr]

/-- A path as the function of a call. -/
theorem rd_fnPath (s : Bool) (x : Ident) (l : List Ident) :
    ∃ k, ∀ n, k ≤ n → ∀ rest : List (T ι), pPrim n s (.id x :: segsSrc l ++ .pn .lparen :: rest) =
      some (.path (.id x :: l.map .id), .pn .lparen :: rest) := by
  refine ⟨2, fun n hn rest => ?_⟩
  obtain ⟨n, rfl⟩ : ∃ m, n = m + 2 := ⟨n - 2, by omega⟩
  rw [List.cons_append, pPrim, pSegs_segsSrc]
  cases s <;> simp [pSegs, pAfterPath]

theorem rd_fnSelf (s : Bool) (l : List Ident) :
    ∃ k, ∀ n, k ≤ n → ∀ rest : List (T ι), pPrim n s (.kw .Self :: segsSrc l ++ .pn .lparen :: rest) =
      some (.path (.Self :: l.map .id), .pn .lparen :: rest) := by
  refine ⟨2, fun n hn rest => ?_⟩
  obtain ⟨n, rfl⟩ : ∃ m, n = m + 2 := ⟨n - 2, by omega⟩
  rw [List.cons_append, pPrim, pSegs_segsSrc]
  cases s <;> simp [pSegs, pAfterPath]

/-! ### References to fields -/

theorem rd_ref (s : Bool) (r : Ref) : Rd (ι := ι) pUnary 5 s (refSrc r) (refTree r) := by
  cases r with
  | selfNamed x =>
    refine ⟨4, fun n hn rest hr => ?_⟩
    obtain ⟨n, rfl⟩ : ∃ m, n = m + 4 := ⟨n - 4, by omega⟩
    have hp : pPost (n + 2) (.self : E ι) (.pn .dot :: .nm x :: rest) = pPost (n + 1) (.field .self (.user x)) rest := by
      rw [pPost]
      rintro ts rfl
      have := hr.low _ _ rfl
      simp [rank] at this
    have e0 : refSrc (.selfNamed x) ++ rest = .pn .amp :: .kw .self :: .pn .dot :: .nm x :: rest := rfl
    rw [e0, pUnary, unary_of_prim (e := .self) (ts' := .pn .dot :: .nm x :: rest) (by simp [pPrim]), hp, post_stop hr]
    rfl
  | selfIdx i =>
    refine ⟨4, fun n hn rest hr => ?_⟩
    obtain ⟨n, rfl⟩ : ∃ m, n = m + 4 := ⟨n - 4, by omega⟩
    have e0 : refSrc (.selfIdx i) ++ rest = .pn .amp :: .kw .self :: .pn .dot :: .int i :: rest := rfl
    rw [e0, pUnary, unary_of_prim (e := .self) (ts' := .pn .dot :: .int i :: rest) (by simp [pPrim]), pPost, post_stop hr]
    rfl
  | var x => exact (rd_var s x).unary

/-- `ordinal_map::Ordinal::ordinal(r)` -/
theorem rd_ordinalOf (s : Bool) (r : Ref) :
    Rd (ι := ι) pUnary 5 s (tokSrc (.ordinalOf r)) (exprTree (.ordinalOf r)) := by
  have := rd_call (rd_fnPath (ι := ι) s (.user "ordinal_map") [.user "Ordinal", .user "ordinal"])
    (RdArgs.one (rd_ref true r).all)
  simpa [tokSrc, traitSrc, segsSrc, exprTree, names] using this


/-- A parenthesised expression, given how the inside is read up to the parenthesis. -/
theorem rd_paren {ts : List (T ι)} {e : E ι}
    (h : ∃ k, ∀ n, k ≤ n → ∀ rest, pExpr n true (ts ++ .pn .rparen :: rest) = some (e, .pn .rparen :: rest)) :
    RdC pPrim (.pn .lparen :: (ts ++ [.pn .rparen])) e := by
  obtain ⟨k, h⟩ := h
  refine ⟨k + 1, fun n hn s rest => ?_⟩
  obtain ⟨n, rfl⟩ : ∃ m, n = m + 1 := ⟨n - 1, by omega⟩
  have h' := h n (by omega) rest
  have e1 : (.pn .lparen :: (ts ++ [.pn .rparen])) ++ rest = .pn .lparen :: (ts ++ .pn .rparen :: rest) := by simp
  rw [e1, pPrim]
  · simp only [h']
  · intro ts' e2
    have := expr_starts h'
    rw [e2] at this
    simp [startsExpr] at this

/-! ### Sizes -/

theorem src_append (a b : List (Tok ι)) : src (a ++ b) = src a ++ src b := List.flatMap_append

theorem src_cons (t : Tok ι) (ts : List (Tok ι)) : src (t :: ts) = tokSrc t ++ src ts := List.flatMap_cons

theorem src_nil : src ([] : List (Tok ι)) = [] := rfl

theorem tree_foldl_add (xs : List (Expr ι)) (e : Expr ι) :
    exprTree (xs.foldl .add e) = xs.foldl (fun a x => .bin .add a (exprTree x)) (exprTree e) := by
  induction xs generalizing e with
  | nil => rfl
  | cons x xs ih => simp only [List.foldl_cons, ih, exprTree]

theorem tree_foldl_mul (xs : List (Expr ι)) (e : Expr ι) :
    exprTree (xs.foldl .mul e) = xs.foldl (fun a x => .bin .mul a (exprTree x)) (exprTree e) := by
  induction xs generalizing e with
  | nil => rfl
  | cons x xs ih => simp only [List.foldl_cons, ih, exprTree]

theorem fol_plusTail (es : List (SizeExpr ι)) (r : List (T ι)) :
    Fol 4 true (src (SizeExpr.tailToks .plus es) ++ .pn .rparen :: r) := by
  cases es with
  | nil => exact fol_rparen (by omega) true r
  | cons e es => exact fol_cons (t := .pn .plus) (by simp [rank]) (by simp)

theorem fol_starTail (es : List (SizeExpr ι)) (r : List (T ι)) :
    Fol 5 true (src (SizeExpr.tailToks .star es) ++ .pn .rparen :: r) := by
  cases es with
  | nil => exact fol_rparen (by omega) true r
  | cons e es => exact fol_cons (t := .pn .star) (by simp [rank]) (by simp)

mutual
/-- Every emitted size or ordinal expression is an operand. -/
theorem rd_toks : ∀ (e : SizeExpr ι) (x : Expr ι), SizeExpr.plain e = true → e.expr = .ok x → ∀ s,
    Rd pUnary 5 s (src e.toks) (exprTree x)
  | .const c, x, _, hx, s => by
    simp only [SizeExpr.expr] at hx; cases hx
    exact ((rd_usize c).rd 5 s).unary
  | .syn e, x, hp, hx, s => by
    simp only [SizeExpr.expr] at hx; cases hx
    cases e with
    | sizeOf t =>
      have := ((rd_qpath t (.user "ORDINAL_SIZE")).rd 5 s).unary
      simpa [SizeExpr.toks, Expr.synToks, src, tokSrc, exprTree] using this
    | ordinalOf r =>
      have := rd_ordinalOf (ι := ι) s r
      simpa [SizeExpr.toks, Expr.synToks, src] using this
    | _ => simp [SizeExpr.plain] at hp
  | .sum [], x, _, hx, _ => by simp [SizeExpr.expr, constAssert] at hx
  | .product [], x, _, hx, _ => by simp [SizeExpr.expr, constAssert] at hx
  | .sum (e :: es), x, hp, hx, s => by
    simp only [SizeExpr.plain, SizeExpr.plains, Bool.and_eq_true] at hp
    simp only [SizeExpr.expr, constAssert] at hx
    split at hx
    · rw [ok_bind, SizeExpr.exprs] at hx
      cases he : e.expr with
      | error _ => rw [he] at hx; cases hx
      | ok y =>
        cases hes : SizeExpr.exprs es with
        | error _ => rw [he, hes] at hx; cases hx
        | ok ys =>
          rw [he, hes] at hx
          simp only [ok_bind, SizeExpr.foldExprs] at hx
          cases hx
          obtain ⟨k1, h1⟩ := (rd_toks e y hp.1 he true).prod
          obtain ⟨k2, h2⟩ := rd_sumTail es ys hp.2 hes
          have e1 : src (SizeExpr.toks (.sum (e :: es))) =
              .pn .lparen :: ((src (SizeExpr.toks e) ++ src (SizeExpr.tailToks .plus es)) ++ [.pn .rparen]) := by
            simp [SizeExpr.toks, src, tokSrc]
          rw [e1]
          refine ((rd_paren ⟨k1 + k2 + 3, fun n hn rest => ?_⟩).rd 5 s).unary
          obtain ⟨n, rfl⟩ : ∃ m, n = m + 3 := ⟨n - 3, by omega⟩
          refine expr_stop (cmp_stop ?_ (fol_rparen (by omega) true rest)) (fol_rparen (by omega) true rest)
          rw [List.append_assoc, pSum, h1 n (by omega) _ (fol_plusTail es rest)]
          simp only [h2 n (by omega), tree_foldl_add]
    · cases hx
  | .product (e :: es), x, hp, hx, s => by
    simp only [SizeExpr.plain, SizeExpr.plains, Bool.and_eq_true] at hp
    simp only [SizeExpr.expr, constAssert] at hx
    split at hx
    · rw [ok_bind, SizeExpr.exprs] at hx
      cases he : e.expr with
      | error _ => rw [he] at hx; cases hx
      | ok y =>
        cases hes : SizeExpr.exprs es with
        | error _ => rw [he, hes] at hx; cases hx
        | ok ys =>
          rw [he, hes] at hx
          simp only [ok_bind, SizeExpr.foldExprs] at hx
          cases hx
          obtain ⟨k1, h1⟩ := rd_toks e y hp.1 he true
          obtain ⟨k2, h2⟩ := rd_prodTail es ys hp.2 hes
          have e1 : src (SizeExpr.toks (.product (e :: es))) =
              .pn .lparen :: ((src (SizeExpr.toks e) ++ src (SizeExpr.tailToks .star es)) ++ [.pn .rparen]) := by
            simp [SizeExpr.toks, src, tokSrc]
          rw [e1]
          refine ((rd_paren ⟨k1 + k2 + 5, fun n hn rest => ?_⟩).rd 5 s).unary
          obtain ⟨n, rfl⟩ : ∃ m, n = m + 5 := ⟨n - 5, by omega⟩
          refine expr_stop (cmp_stop ?_ (fol_rparen (by omega) true rest)) (fol_rparen (by omega) true rest)
          rw [List.append_assoc, pSum, pProd, h1 (n + 1) (by omega) _ (fol_starTail es rest)]
          simp only [h2 (n + 1) (by omega), tree_foldl_mul, sumTail_stop (fol_rparen (by omega) true rest)]
    · cases hx
/-- The rest of a sum. -/
theorem rd_sumTail : ∀ (es : List (SizeExpr ι)) (xs : List (Expr ι)), SizeExpr.plains es = true →
    SizeExpr.exprs es = .ok xs → ∃ k, ∀ n, k ≤ n → ∀ e0 rest,
      pSumTail n true e0 (src (SizeExpr.tailToks .plus es) ++ .pn .rparen :: rest) =
        some (xs.foldl (fun a x => .bin .add a (exprTree x)) e0, .pn .rparen :: rest)
  | [], xs, _, hx => by
    simp only [SizeExpr.exprs] at hx; cases hx
    refine ⟨1, fun n hn e0 rest => ?_⟩
    obtain ⟨n, rfl⟩ : ∃ m, n = m + 1 := ⟨n - 1, by omega⟩
    exact sumTail_stop (fol_rparen (by omega) true rest) n e0
  | e :: es, xs, hp, hx => by
    simp only [SizeExpr.plains, Bool.and_eq_true] at hp
    rw [SizeExpr.exprs] at hx
    cases he : e.expr with
    | error _ => rw [he] at hx; cases hx
    | ok y =>
      cases hes : SizeExpr.exprs es with
      | error _ => rw [he, hes] at hx; cases hx
      | ok ys =>
        rw [he, hes] at hx
        simp only [ok_bind] at hx
        cases hx
        obtain ⟨k1, h1⟩ := (rd_toks e y hp.1 he true).prod
        obtain ⟨k2, h2⟩ := rd_sumTail es ys hp.2 hes
        refine ⟨k1 + k2 + 1, fun n hn e0 rest => ?_⟩
        obtain ⟨n, rfl⟩ : ∃ m, n = m + 1 := ⟨n - 1, by omega⟩
        have e1 : src (SizeExpr.tailToks .plus (e :: es)) ++ .pn .rparen :: rest =
            .pn .plus :: (src (SizeExpr.toks e) ++ (src (SizeExpr.tailToks .plus es) ++ .pn .rparen :: rest)) := by
          simp [SizeExpr.tailToks, src, tokSrc]
        rw [e1]
        simp only [pSumTail, h1 n (by omega) _ (fol_plusTail es rest), h2 n (by omega), List.foldl_cons]
/-- The rest of a product. -/
theorem rd_prodTail : ∀ (es : List (SizeExpr ι)) (xs : List (Expr ι)), SizeExpr.plains es = true →
    SizeExpr.exprs es = .ok xs → ∃ k, ∀ n, k ≤ n → ∀ e0 rest,
      pProdTail n true e0 (src (SizeExpr.tailToks .star es) ++ .pn .rparen :: rest) =
        some (xs.foldl (fun a x => .bin .mul a (exprTree x)) e0, .pn .rparen :: rest)
  | [], xs, _, hx => by
    simp only [SizeExpr.exprs] at hx; cases hx
    refine ⟨1, fun n hn e0 rest => ?_⟩
    obtain ⟨n, rfl⟩ : ∃ m, n = m + 1 := ⟨n - 1, by omega⟩
    exact prodTail_stop (fol_rparen (by omega) true rest) n e0
  | e :: es, xs, hp, hx => by
    simp only [SizeExpr.plains, Bool.and_eq_true] at hp
    rw [SizeExpr.exprs] at hx
    cases he : e.expr with
    | error _ => rw [he] at hx; cases hx
    | ok y =>
      cases hes : SizeExpr.exprs es with
      | error _ => rw [he, hes] at hx; cases hx
      | ok ys =>
        rw [he, hes] at hx
        simp only [ok_bind] at hx
        cases hx
        obtain ⟨k1, h1⟩ := rd_toks e y hp.1 he true
        obtain ⟨k2, h2⟩ := rd_prodTail es ys hp.2 hes
        refine ⟨k1 + k2 + 1, fun n hn e0 rest => ?_⟩
        obtain ⟨n, rfl⟩ : ∃ m, n = m + 1 := ⟨n - 1, by omega⟩
        have e1 : src (SizeExpr.tailToks .star (e :: es)) ++ .pn .rparen :: rest =
            .pn .star :: (src (SizeExpr.toks e) ++ (src (SizeExpr.tailToks .star es) ++ .pn .rparen :: rest)) := by
          simp [SizeExpr.tailToks, src, tokSrc]
        rw [e1]
        simp only [pProdTail, h1 n (by omega) _ (fol_starTail es rest), h2 n (by omega), List.foldl_cons]
end

/-! ## Blocks -/

/-- `ts` is read as the content of a block, up to and with the brace. -/
def RdB (ts : List (T ι)) (b : B ι) : Prop :=
  ∃ k, ∀ n, k ≤ n → ∀ rest, pBlock n (ts ++ .pn .rbrace :: rest) = some (b, rest)

theorem RdB.nil : RdB (ι := ι) [] .nil :=
  ⟨1, fun n hn rest => by
    obtain ⟨n, rfl⟩ : ∃ m, n = m + 1 := ⟨n - 1, by omega⟩
    simp [pBlock]⟩

/-- The reading of a statement that starts with an expression that is not a block. -/
theorem block_expr {n : Nat} {ts : List (T ι)} (h : startsExpr ts = true) (hb : startsBlockLike ts = false) :
    pBlock (n + 1) ts = match pExpr n true ts with
      | some (e, .pn .rbrace :: ts) => some (.tail e, ts)
      | some (e, .pn .semi :: ts) =>
        match pBlock n ts with
        | some (b, ts) => some (.semi e b, ts)
        | none => none
      | _ => none := by
  rw [pBlock]
  · rw [hb]; rfl
  all_goals (intros; subst_vars; simp [startsExpr] at h)

/-- The reading of a statement that starts with a block-like expression. -/
theorem block_blockLike {n : Nat} {ts : List (T ι)} (hb : startsBlockLike ts = true) :
    pBlock (n + 1) ts = match pPrim n true ts with
      | some (e, .pn .rbrace :: ts) => some (.tail e, ts)
      | some (e, .pn .semi :: ts) =>
        match pBlock n ts with
        | some (b, ts) => some (.semi e b, ts)
        | none => none
      | some (_, .pn .dot :: _) => none
      | some (e, ts) =>
        match pBlock n ts with
        | some (b, ts) => some (.stmt e b, ts)
        | none => none
      | none => none := by
  rw [pBlock]
  · rw [hb]; rfl
  all_goals (intros; subst_vars; simp [startsBlockLike] at hb)

theorem RdB.tail {ts : List (T ι)} {e : E ι} (h : Rd pExpr 1 true ts e)
    (hb : ∀ r, startsBlockLike (ts ++ r) = false) : RdB ts (.tail e) := by
  obtain ⟨k, h⟩ := h
  refine ⟨k + 1, fun n hn rest => ?_⟩
  obtain ⟨n, rfl⟩ : ∃ m, n = m + 1 := ⟨n - 1, by omega⟩
  have := h n (by omega) _ (fol_rbrace (by omega) true rest)
  rw [block_expr (expr_starts this) (hb _), this]

theorem RdB.tailBlock {ts : List (T ι)} {e : E ι} (h : RdC pPrim ts e)
    (hb : ∀ r, startsBlockLike (ts ++ r) = true) : RdB ts (.tail e) := by
  obtain ⟨k, h⟩ := h
  refine ⟨k + 1, fun n hn rest => ?_⟩
  obtain ⟨n, rfl⟩ : ∃ m, n = m + 1 := ⟨n - 1, by omega⟩
  rw [block_blockLike (hb _), h n (by omega)]

theorem RdB.semi {ts ts' : List (T ι)} {e : E ι} {b : B ι} (h : Rd pExpr 1 true ts e)
    (hb : ∀ r, startsBlockLike (ts ++ r) = false) (h' : RdB ts' b) : RdB (ts ++ .pn .semi :: ts') (.semi e b) := by
  obtain ⟨k, h⟩ := h
  obtain ⟨k', h'⟩ := h'
  refine ⟨k + k' + 1, fun n hn rest => ?_⟩
  obtain ⟨n, rfl⟩ : ∃ m, n = m + 1 := ⟨n - 1, by omega⟩
  have := h n (by omega) _ (fol_semi (by omega) true (ts' ++ .pn .rbrace :: rest))
  rw [List.append_assoc, List.cons_append, block_expr (expr_starts this) (hb _), this]
  simp only [h' n (by omega) rest]

/-- What can follow a statement without semicolon. -/
def startsStmt : List (T ι) → Bool
  | .kw .let :: _ => true
  | ts => startsExpr ts

theorem RdB.stmt {ts ts' : List (T ι)} {e : E ι} {b : B ι} (h : RdC pPrim ts e)
    (hb : ∀ r, startsBlockLike (ts ++ r) = true) (hs : ∀ r, startsStmt (ts' ++ r) = true) (h' : RdB ts' b) :
    RdB (ts ++ ts') (.stmt e b) := by
  obtain ⟨k, h⟩ := h
  obtain ⟨k', h'⟩ := h'
  refine ⟨k + k' + 1, fun n hn rest => ?_⟩
  obtain ⟨n, rfl⟩ : ∃ m, n = m + 1 := ⟨n - 1, by omega⟩
  have hs := hs (.pn .rbrace :: rest)
  have h'' := h' n (by omega) rest
  rw [List.append_assoc, block_blockLike (hb _), h n (by omega)]
  generalize ts' ++ .pn .rbrace :: rest = l at hs h''
  rcases l with _ | ⟨t, l⟩
  · simp [startsStmt, startsExpr] at hs
  · cases t with
    | pn p => cases p <;> simp_all [startsStmt, startsExpr]
    | _ => simp only [h'']

theorem pLet_eq {ts ts' : List (T ι)} {e : E ι} {b : B ι} (m : Bool) (x : Ident) (h : Rd pExpr 1 true ts e)
    (h' : RdB ts' b) : ∃ k, ∀ n, k ≤ n → ∀ rest,
      pLet n m x (ts ++ .pn .semi :: ts' ++ .pn .rbrace :: rest) = some (.letS m x e b, rest) := by
  obtain ⟨k, h⟩ := h
  obtain ⟨k', h'⟩ := h'
  refine ⟨k + k' + 1, fun n hn rest => ?_⟩
  obtain ⟨n, rfl⟩ : ∃ m, n = m + 1 := ⟨n - 1, by omega⟩
  have := h n (by omega) _ (fol_semi (by omega) true (ts' ++ .pn .rbrace :: rest))
  rw [List.append_assoc, List.cons_append, pLet, this]
  simp only [h' n (by omega) rest]

theorem RdB.letMut {ts ts' : List (T ι)} {e : E ι} {b : B ι} (x : Ident) (h : Rd pExpr 1 true ts e)
    (h' : RdB ts' b) :
    RdB (.kw .let :: .kw .mut :: .id x :: .pn .eq :: (ts ++ .pn .semi :: ts')) (.letS true x e b) := by
  obtain ⟨k, h⟩ := pLet_eq true x h h'
  refine ⟨k + 1, fun n hn rest => ?_⟩
  obtain ⟨n, rfl⟩ : ∃ m, n = m + 1 := ⟨n - 1, by omega⟩
  exact h n (by omega) rest

theorem RdB.let {ts ts' : List (T ι)} {e : E ι} {b : B ι} (x : Ident) (h : Rd pExpr 1 true ts e)
    (h' : RdB ts' b) : RdB (.kw .let :: .id x :: .pn .eq :: (ts ++ .pn .semi :: ts')) (.letS false x e b) := by
  obtain ⟨k, h⟩ := pLet_eq false x h h'
  refine ⟨k + 1, fun n hn rest => ?_⟩
  obtain ⟨n, rfl⟩ : ∃ m, n = m + 1 := ⟨n - 1, by omega⟩
  exact h n (by omega) rest

/-! ### Expressions with blocks -/

theorem rd_block {ts : List (T ι)} {b : B ι} (h : RdB ts b) :
    RdC pPrim (.pn .lbrace :: (ts ++ [.pn .rbrace])) (.block b) := by
  obtain ⟨k, h⟩ := h
  refine ⟨k + 1, fun n hn s rest => ?_⟩
  obtain ⟨n, rfl⟩ : ∃ m, n = m + 1 := ⟨n - 1, by omega⟩
  have := h n (by omega) rest
  simp [pPrim, this]

theorem rd_constBlock {ts : List (T ι)} {b : B ι} (h : RdB ts b) :
    RdC pPrim (.kw .const :: .pn .lbrace :: (ts ++ [.pn .rbrace])) (.constBlock b) := by
  obtain ⟨k, h⟩ := h
  refine ⟨k + 1, fun n hn s rest => ?_⟩
  obtain ⟨n, rfl⟩ : ∃ m, n = m + 1 := ⟨n - 1, by omega⟩
  have := h n (by omega) rest
  simp [pPrim, this]

theorem rd_if {tc ts : List (T ι)} {c : E ι} {b : B ι} (hc : Rd pExpr 1 false tc c) (h : RdB ts b) :
    RdC pPrim (.kw .if :: (tc ++ .pn .lbrace :: (ts ++ [.pn .rbrace]))) (.ifE c b) := by
  obtain ⟨k, h⟩ := h
  obtain ⟨k', hc⟩ := hc
  refine ⟨k + k' + 1, fun n hn s rest => ?_⟩
  obtain ⟨n, rfl⟩ : ∃ m, n = m + 1 := ⟨n - 1, by omega⟩
  have h1 := hc n (by omega) (.pn .lbrace :: (ts ++ .pn .rbrace :: rest)) (fol_lbrace (by omega) _)
  have := h n (by omega) rest
  simp [pPrim, this, h1]

/-- `a op b` for a comparison. -/
theorem rd_compare {s : Bool} {ta tb : List (T ι)} {a b : E ι} {p : Pn} {op : BinOp} (hp : cmpOp p = some op)
    (ha : Rd pUnary 5 s ta a) (hb : Rd pUnary 5 s tb b) : Rd pExpr 1 s (ta ++ .pn p :: tb) (.bin op a b) := by
  obtain ⟨k, ha⟩ := ha.prod.sum
  obtain ⟨k', hb⟩ := hb.prod.sum
  refine ⟨k + k' + 2, fun n hn rest hr => ?_⟩
  obtain ⟨n, rfl⟩ : ∃ m, n = m + 2 := ⟨n - 2, by omega⟩
  refine expr_stop ?_ hr
  have h1 := ha n (by omega) (.pn p :: (tb ++ rest)) (fol_cons (by cases p <;> simp_all [cmpOp, rank])
    (by cases p <;> simp_all [cmpOp]))
  have h2 := hb n (by omega) rest (hr.mono (by omega))
  rw [List.append_assoc, List.cons_append, pCmp, h1]
  simp only [hp, h2]
  rcases rest with _ | ⟨t, r⟩
  · rfl
  · have := hr.low t r rfl
    cases t with
    | pn q => cases q <;> simp_all [cmpOp, rank]
    | _ => rfl

end OrdinalMap.Derive.Src
