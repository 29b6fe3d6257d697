import Verif.Lemmas.Tokens
/-!
# C62: the emitted arithmetic is read as meant

The expression trees that C07–C15 evaluate are what rustc reads from the tokens the macro emits.
-/

namespace OrdinalMap.Props
open OrdinalMap OrdinalMap.Derive

variable {ι : Type}

theorem ReadAll.append {a b : List (List (Tok ι))} {x y : List (Expr ι)} (h1 : ReadAll a x)
    (h2 : ReadAll b y) : ReadAll (a ++ b) (x ++ y) := by
  induction h1 with
  | nil => exact h2
  | cons h _ ih => exact .cons h ih

theorem readAll_fields : ∀ (fs : List (Ident × ι)) (ss : List (Stmt ι)), fieldsStmts fs = .ok ss →
    ReadAll ((fs.map (·.2)).flatMap fun t => [remToks t, (SizeExpr.ordinalSize t).constToks])
      (ss.flatMap Stmt.exprs)
  | [], ss, h => by simp only [fieldsStmts] at h; cases h; exact .nil
  | (x, t) :: fs, ss, h => by
    rw [fieldsStmts] at h
    cases h1 : fieldStmts x t with
    | error _ => rw [h1] at h; cases h
    | ok a =>
      cases h2 : fieldsStmts fs with
      | error _ => rw [h1, h2] at h; cases h
      | ok b =>
        rw [h1, h2] at h
        cases h
        rw [fieldStmts] at h1
        cases h3 : (SizeExpr.ordinalSize t).constExpr with
        | error _ => rw [h3] at h1; cases h1
        | ok e =>
          rw [h3] at h1
          cases h1
          have hp := constToks_prim _ _ rfl h3
          simp only [List.map_cons, List.flatMap_cons, List.flatMap_append]
          refine ReadAll.append ?_ (readAll_fields fs b h2)
          exact .cons hp.rem (.cons hp.readsAs .nil)

theorem readAll_block {ts : List (Tok ι)} {e : Expr ι} (h : ReadsAs ts e) {vars : List Ident} {tys : List ι}
    (hl : vars.length = tys.length) {bd : Build} {b : Block ι}
    (hb : structFromOrdinal e vars tys bd = .ok b) :
    ReadAll (blockToks ts tys) (b.stmts.flatMap Stmt.exprs) := by
  rw [structFromOrdinal] at hb
  cases h1 : fieldsStmts (vars.zip tys).reverse with
  | error _ => rw [h1] at hb; cases hb
  | ok ss =>
    rw [h1] at hb
    cases hb
    have := readAll_fields _ ss h1
    rw [List.map_reverse, List.map_snd_zip (by omega)] at this
    simp only [blockToks, List.cons_append, List.flatMap_cons, List.flatMap_append,
      Stmt.exprs, List.flatMap_nil, List.append_nil]
    exact .cons h this

theorem fieldVars_length (fs : Fields ι) : (fieldVars fs).length = (fieldTypes fs).length := by
  cases fs <;> simp [fieldVars, fieldTypes]

/-- C62 for structs. -/
theorem C62_struct (fs : Fields ι) (g : GenStruct ι) (h : genStruct fs = .ok g) :
    ∃ t, structToks fs = .ok t ∧ ReadsAs t.size g.size ∧ ReadsAs t.ordinal g.ordinal ∧
      ReadAll t.fromOrdinal (g.fromOrdinal.stmts.flatMap Stmt.exprs) := by
  rw [genStruct] at h
  cases h1 : structOrdinalSize (fieldTypes fs) with
  | error _ => rw [h1] at h; cases h
  | ok s =>
    rw [h1, ok_bind] at h
    cases h2 : s.expr with
    | error _ => rw [h2] at h; cases h
    | ok s' =>
      rw [h2, ok_bind] at h
      cases h3 : structOrdinal (fieldRefExprs fs) (fieldTypes fs) with
      | error _ => rw [h3] at h; cases h
      | ok o =>
        rw [h3, ok_bind] at h
        cases h4 : o.expr with
        | error _ => rw [h4] at h; cases h
        | ok o' =>
          rw [h4, ok_bind] at h
          cases h5 : structFromOrdinal (.var ordinalVar) (fieldVars fs) (fieldTypes fs) (structBuild fs) with
          | error _ => rw [h5] at h; cases h
          | ok b =>
            rw [h5, ok_bind] at h
            cases h
            exact ⟨⟨s.toks, o.toks, _⟩, by simp only [structToks, h1, h3, ok_bind]; rfl,
              (toks_prim s s' (structOrdinalSize_plain h1) h2).readsAs,
              (toks_prim o o' (structOrdinal_plain _ _ _ h3) h4).readsAs,
              readAll_block (var_prim _).readsAs (fieldVars_length fs) h5⟩

example := C62_struct (.unnamed ["X", "Y", "Z"]) _ rfl

/-- C62 for tuples. -/
theorem C62_tuple (tys : List ι) (g : GenStruct ι) (h : genTuple tys = .ok g) :
    ∃ t, tupleToks tys = .ok t ∧ ReadsAs t.size g.size ∧ ReadsAs t.ordinal g.ordinal ∧
      ReadAll t.fromOrdinal (g.fromOrdinal.stmts.flatMap Stmt.exprs) := by
  rw [genTuple] at h
  cases h1 : structOrdinalSize tys with
  | error _ => rw [h1] at h; cases h
  | ok s =>
    rw [h1, ok_bind] at h
    cases h2 : s.expr with
    | error _ => rw [h2] at h; cases h
    | ok s' =>
      rw [h2, ok_bind] at h
      cases h3 : structOrdinal ((List.range tys.length).map .selfIdx) tys with
      | error _ => rw [h3] at h; cases h
      | ok o =>
        rw [h3, ok_bind] at h
        cases h4 : o.expr with
        | error _ => rw [h4] at h; cases h
        | ok o' =>
          rw [h4, ok_bind] at h
          cases h5 : structFromOrdinal (.var ordinalVar) (tupleVars tys.length) tys
              (.positional (tupleVars tys.length)) with
          | error _ => rw [h5] at h; cases h
          | ok b =>
            rw [h5, ok_bind] at h
            cases h
            exact ⟨⟨s.toks, o.toks, _⟩, by simp only [tupleToks, h1, h3, ok_bind]; rfl,
              (toks_prim s s' (structOrdinalSize_plain h1) h2).readsAs,
              (toks_prim o o' (structOrdinal_plain _ _ _ h3) h4).readsAs,
              readAll_block (var_prim _).readsAs (by simp [tupleVars]) h5⟩

example := C62_tuple ["X", "Y", "Z"] _ rfl

theorem readAll_arms (vs : List (Fields ι)) : ∀ (rest : List (Fields ι)) (i : Nat) (arms : List (Pat × Expr ι)),
    enumArms vs i rest = .ok arms → ∃ t, armsToks vs i rest = .ok t ∧ ReadAll t (arms.map (·.2))
  | [], i, arms, h => by simp only [enumArms] at h; cases h; exact ⟨[], rfl, .nil⟩
  | v :: rest, i, arms, h => by
    rw [enumArms] at h
    cases h1 : enumArm vs i v with
    | error _ => rw [h1] at h; cases h
    | ok a =>
      rw [h1, ok_bind] at h
      cases h2 : enumArms vs (i + 1) rest with
      | error _ => rw [h2] at h; cases h
      | ok as =>
        rw [h2, ok_bind] at h
        cases h
        obtain ⟨ts, e1, e2⟩ := readAll_arms vs rest (i + 1) as h2
        rw [enumArm] at h1
        cases g1 : sizeOfFirstVariants vs i with
        | error _ => rw [g1] at h1; cases h1
        | ok first =>
          rw [g1, ok_bind] at h1
          cases g2 : structOrdinal ((fieldVars v).map .var) (fieldTypes v) with
          | error _ => rw [g2] at h1; cases h1
          | ok so =>
            rw [g2, ok_bind] at h1
            cases g3 : SizeExpr.mkSum [first, so] with
            | error _ => rw [g3] at h1; cases h1
            | ok sm =>
              rw [g3, ok_bind] at h1
              cases g4 : sm.expr with
              | error _ => rw [g4] at h1; cases h1
              | ok x =>
                rw [g4, ok_bind] at h1
                cases h1
                have hp : sm.plain = true := mkSum_plain (by
                  simp [SizeExpr.plains, sizeOfFirstVariants_plain g1, structOrdinal_plain _ _ _ g2]) g3
                exact ⟨sm.toks :: ts, by simp only [armsToks, armToks, g1, g2, g3, e1, ok_bind],
                  .cons (toks_prim sm x hp g4).readsAs e2⟩

theorem readStmts_enum (vs : List (Fields ι)) : ∀ (rest : List (Fields ι)) (i : Nat) (ss : List (Expr ι × Block ι)),
    enumFromStmts vs i rest = .ok ss → ∃ t, fromStmtsToks vs i rest = .ok t ∧ ReadStmts t ss
  | [], i, ss, h => by simp only [enumFromStmts] at h; cases h; exact ⟨[], rfl, .nil⟩
  | v :: rest, i, ss, h => by
    rw [enumFromStmts] at h
    cases h1 : enumFromStmt vs i v with
    | error _ => rw [h1] at h; cases h
    | ok a =>
      rw [h1, ok_bind] at h
      cases h2 : enumFromStmts vs (i + 1) rest with
      | error _ => rw [h2] at h; cases h
      | ok as =>
        rw [h2, ok_bind] at h
        cases h
        obtain ⟨ts, e1, e2⟩ := readStmts_enum vs rest (i + 1) as h2
        rw [enumFromStmt] at h1
        cases g1 : sizeOfFirstVariants vs i with
        | error _ => rw [g1] at h1; cases h1
        | ok before =>
          rw [g1, ok_bind] at h1
          cases g2 : before.constExpr with
          | error _ => rw [g2] at h1; cases h1
          | ok b' =>
            rw [g2, ok_bind] at h1
            cases g3 : sizeOfFirstVariants vs (i + 1) with
            | error _ => rw [g3] at h1; cases h1
            | ok including =>
              rw [g3, ok_bind] at h1
              cases g4 : including.constExpr with
              | error _ => rw [g4] at h1; cases h1
              | ok i' =>
                rw [g4, ok_bind] at h1
                cases g5 : structFromOrdinal (.sub (.var ordinalVar) b') (fieldVars v) (fieldTypes v)
                    (variantBuild v) with
                | error _ => rw [g5] at h1; cases h1
                | ok blk =>
                  rw [g5, ok_bind] at h1
                  cases h1
                  refine ⟨(condToks including, blockToks (subToks before) (fieldTypes v)) :: ts,
                    by simp only [fromStmtsToks, fromStmtToks, g1, g3, e1, ok_bind], ?_⟩
                  exact .cons (constToks_prim _ _ (sizeOfFirstVariants_plain g3) g4).cond
                    (readAll_block (constToks_prim _ _ (sizeOfFirstVariants_plain g1) g2).sub
                      (fieldVars_length v) g5) e2

/-- C62 for enums. -/
theorem C62_enum (vs : List (Fields ι)) (g : GenEnum ι) (h : genEnum vs = .ok g) :
    ∃ t, enumToks vs = .ok t ∧ ReadsAs t.size g.size ∧
      ReadAll t.arms ((g.ordinal.getD []).map (·.2)) ∧ ReadStmts t.stmts g.fromOrdinal := by
  rw [genEnum] at h
  cases h1 : sizeOfFirstVariants vs vs.length with
  | error _ => rw [h1] at h; cases h
  | ok s =>
    rw [h1, ok_bind] at h
    cases h2 : s.expr with
    | error _ => rw [h2] at h; cases h
    | ok s' =>
      rw [h2, ok_bind] at h
      cases h3 : enumFromStmts vs 0 vs with
      | error _ =>
        rw [h3] at h
        cases vs with
        | nil => simp [enumFromStmts] at h3
        | cons v vs =>
          simp only [List.isEmpty_cons] at h
          cases h4 : enumArms (v :: vs) 0 (v :: vs) with
          | error _ => rw [h4] at h; cases h
          | ok _ => rw [h4] at h; cases h
      | ok ss =>
        obtain ⟨ts, e1, e2⟩ := readStmts_enum vs vs 0 ss h3
        rw [h3] at h
        have hs := (toks_prim s s' (sizeOfFirstVariants_plain h1) h2).readsAs
        cases vs with
        | nil =>
          cases h
          exact ⟨⟨s.toks, [], ts⟩, by simp only [enumToks, h1, armsToks, e1, ok_bind], hs, .nil, e2⟩
        | cons v vs =>
          simp only [List.isEmpty_cons] at h
          cases h4 : enumArms (v :: vs) 0 (v :: vs) with
          | error _ => rw [h4] at h; cases h
          | ok arms =>
            rw [h4] at h
            cases h
            obtain ⟨ta, a1, a2⟩ := readAll_arms (v :: vs) (v :: vs) 0 arms h4
            exact ⟨⟨s.toks, ta, ts⟩, by simp only [enumToks, h1, a1, e1, ok_bind], hs, a2, e2⟩

example := C62_enum [.unit, .unnamed ["X", "Y"], .unit] _ rfl

/-- C62: a reading is unique. -/
theorem C62_unique {ts : List (Tok ι)} {e e' : Expr ι} (h : ReadsAs ts e) (h' : ReadsAs ts e') : e = e' := by
  obtain ⟨k, h⟩ := h
  obtain ⟨k', h'⟩ := h'
  have h1 := h (k + k') (by omega)
  have h2 := h' (k + k') (by omega)
  rw [h1] at h2
  exact Option.some.inj h2

/-! ## Concrete cases -/

/-- C62: a struct with three fields emits `((a * (Y * Z)…)`: here is `ordinal` of `struct S(X, Y, Z)`,
`((x * Y * Z) + (y * Z) + z)`, and what would be read without the parentheses. -/
example :
    (structToks (.unnamed ["X", "Y", "Z"])).map (·.ordinal) =
      .ok [.lparen, .lparen, .ordinalOf (.selfIdx 0), .star, .sizeOf "Y", .star, .sizeOf "Z", .rparen, .plus,
        .lparen, .ordinalOf (.selfIdx 1), .star, .sizeOf "Z", .rparen, .plus, .ordinalOf (.selfIdx 2), .rparen] ∧
    (enumToks [.unit, .unnamed ["X", "Y"], .unit]).map (fun t => t.stmts.map (·.1)) =
      .ok [condToks (.const 1),
        [.ident ordinalVar, .lt, .const, .lbrace, .lparen, .lit 1, .plus, .lparen, .sizeOf "X", .star, .sizeOf "Y",
          .rparen, .rparen, .rbrace, .lbrace],
        [.ident ordinalVar, .lt, .const, .lbrace, .lparen, .lit 2, .plus, .lparen, .sizeOf "X", .star, .sizeOf "Y",
          .rparen, .rparen, .rbrace, .lbrace]] ∧
    (∃ g, genStruct (.unnamed ["X", "Y", "Z"]) = .ok g) ∧ (∃ g, genTuple ["X", "Y", "Z"] = .ok g) ∧
    (∃ g, genEnum [.unit, .unnamed ["X", "Y"], .unit] = .ok g) ∧
    parseExpr 20 [.ident ordinalVar, .star, .lit 1, .plus, .sizeOf "X"] ≠
      parseExpr 20 [.ident ordinalVar, .star, .lparen, .lit 1, .plus, .sizeOf "X", .rparen] :=
  ⟨rfl, rfl, ⟨_, rfl⟩, ⟨_, rfl⟩, ⟨_, rfl⟩, by decide⟩

end OrdinalMap.Props
