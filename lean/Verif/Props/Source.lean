import Verif.Lemmas.SourceItems
/-!
# C86: the whole emitted text is read as meant

The text the macro emits for a struct, a tuple or an enum, token by token, is read as the `impl` whose
behaviour the other properties are about.
-/

namespace OrdinalMap.Props
open OrdinalMap OrdinalMap.Derive OrdinalMap.Derive.Src

variable {ι : Type} [DecidableEq ι]

omit [DecidableEq ι] in
/-- `check_overflow` before a value that is not a block. -/
theorem rd_ordinalFn {ts : List (T ι)} {e : E ι} (h : RdB ts (.tail e)) :
    RdB (checkOverflowSrc ++ ts) (ordinalFn e) :=
  RdB.let (.user "_check_overflow") (rd_selfPath (ι := ι) true [.user "ORDINAL_SIZE"]).unary.all h

omit [DecidableEq ι] in
/-- `check_zero_size` before a block. -/
theorem rd_fromOrdinalFn {ts : List (T ι)} {b : B ι} (h : RdC pPrim ts (.block b))
    (hb : ∀ r, startsBlockLike (ts ++ r) = true) (hs : ∀ r, startsStmt (ts ++ r) = true) :
    RdB (checkZeroSizeSrc ++ ts) (fromOrdinalFn b) := by
  have hret := rd_return (rd_var (ι := ι) true (.user "None")).unary.all
  have hif := rd_if (rd_compare (p := .eqEq) rfl (rd_selfPath (ι := ι) false [.user "ORDINAL_SIZE"]).unary
    ((rd_int 0).rd 5 false).unary) (RdB.semi hret (fun _ => rfl) RdB.nil)
  exact RdB.stmt hif (fun _ => rfl) hs (RdB.tailBlock h hb)

/-- C86 for structs. -/
theorem C86_struct (fs : Fields ι) (g : GenStruct ι) (h : genStruct fs = .ok g) :
    ∃ ts, structSrc fs = .ok ts ∧ ReadsImpl ts (structTree (.path [.Self]) g) := by
  rw [genStruct] at h
  cases h1 : structOrdinalSize (fieldTypes fs) with
  | error _ => rw [h1] at h; cases h
  | ok s =>
    rw [h1, ok_bind] at h
    cases h2 : s.expr with
    | error _ => rw [h2] at h; cases h
    | ok s' =>
      rw [h2, ok_bind] at h
      cases h3 : structOrdinal (fieldRefExprs fs) (fieldTypes fs) with
      | error _ => rw [h3] at h; cases h
      | ok o =>
        rw [h3, ok_bind] at h
        cases h4 : o.expr with
        | error _ => rw [h4] at h; cases h
        | ok o' =>
          rw [h4, ok_bind] at h
          cases h5 : structFromOrdinal (.var ordinalVar) (fieldVars fs) (fieldTypes fs) (structBuild fs) with
          | error _ => rw [h5] at h; cases h
          | ok b =>
            rw [h5, ok_bind] at h
            cases h
            have hp := structOrdinal_plain _ _ _ h3
            exact ⟨_, by simp only [structSrc, h1, h3, ok_bind],
              reads_impl true (rd_toks s s' (structOrdinalSize_plain h1) h2 true).all
                (rd_ordinalFn (RdB.tail (rd_toks o o' hp h4 true).all (toks_notBlock o hp)))
                (rd_fromOrdinalFn (rd_structFrom (o := .var ordinalVar) (rd_var true ordinalVar).unary.all
                  (rd_structBuild fs) h5) (fun _ => rfl) (fun _ => rfl))⟩

example := C86_struct (.named [("x", "X"), ("y", "Y"), ("z", "Z")]) _ rfl

/-- C86 for tuples. -/
theorem C86_tuple (tys : List ι) (g : GenStruct ι) (h : genTuple tys = .ok g) :
    ∃ ts, tupleSrc tys = .ok ts ∧ ReadsImpl ts (structTree .tuple g) := by
  rw [genTuple] at h
  cases h1 : structOrdinalSize tys with
  | error _ => rw [h1] at h; cases h
  | ok s =>
    rw [h1, ok_bind] at h
    cases h2 : s.expr with
    | error _ => rw [h2] at h; cases h
    | ok s' =>
      rw [h2, ok_bind] at h
      cases h3 : structOrdinal ((List.range tys.length).map .selfIdx) tys with
      | error _ => rw [h3] at h; cases h
      | ok o =>
        rw [h3, ok_bind] at h
        cases h4 : o.expr with
        | error _ => rw [h4] at h; cases h
        | ok o' =>
          rw [h4, ok_bind] at h
          cases h5 : structFromOrdinal (.var ordinalVar) (tupleVars tys.length) tys
              (.positional (tupleVars tys.length)) with
          | error _ => rw [h5] at h; cases h
          | ok b =>
            rw [h5, ok_bind] at h
            cases h
            have hp := structOrdinal_plain _ _ _ h3
            exact ⟨_, by simp only [tupleSrc, h1, h3, ok_bind],
              reads_impl false (rd_toks s s' (structOrdinalSize_plain h1) h2 true).all
                (rd_ordinalFn (RdB.tail (rd_toks o o' hp h4 true).all (toks_notBlock o hp)))
                (rd_fromOrdinalFn (rd_structFrom (o := .var ordinalVar) (rd_var true ordinalVar).unary.all
                  (rd_tupleBuild _) h5) (fun _ => rfl) (fun _ => rfl))⟩

example := C86_tuple ["X", "Y", "Z"] _ rfl

/-- C86 for enums, whatever the names of the variants. -/
theorem C86_enum (vs : List (String × Fields ι)) (g : GenEnum ι) (h : genEnum (vs.map (·.2)) = .ok g) :
    ∃ ts, enumSrc vs = .ok ts ∧ ReadsImpl ts (enumTree (vs.map (·.1)) g) := by
  rw [genEnum] at h
  cases h1 : sizeOfFirstVariants (vs.map (·.2)) (vs.map (·.2)).length with
  | error _ => rw [h1] at h; cases h
  | ok s =>
    rw [h1, ok_bind] at h
    cases h2 : s.expr with
    | error _ => rw [h2] at h; cases h
    | ok s' =>
      rw [h2, ok_bind] at h
      have hz := (rd_toks s s' (sizeOfFirstVariants_plain h1) h2 true).all
      have key : ∀ ss, enumFromStmts (vs.map (·.2)) 0 (vs.map (·.2)) = .ok ss →
          ∃ ts, enumFromSrc vs = .ok ts ∧ RdB (checkZeroSizeSrc ++ ts) (fromOrdinalFn
            (enumStmtsTree ((vs.map (·.1)).zip ss) (.letS false (.user "_ignore") (var ordinalVar)
              (.tail (.path (names ["std", "option", "Option", "None"])))))) := by
        intro ss hss
        have ht := RdB.let (.user "_ignore") (rd_var (ι := ι) true ordinalVar).unary.all
          (RdB.tail (rd_path (ι := ι) true (.user "std") [.user "option", .user "Option", .user "None"]).unary.all
            (fun _ => rfl))
        obtain ⟨ts, e1, e2, _⟩ := rd_enumStmts (vs.map (·.2)) ht (fun _ => rfl) vs 0 ss hss
        refine ⟨_, by simp only [enumFromSrc, e1, ok_bind]; rfl, rd_fromOrdinalFn ?_ (fun _ => rfl) (fun _ => rfl)⟩
        have := rd_block e2
        simpa [optionSrc, segsSrc, names] using this
      cases h3 : enumFromStmts (vs.map (·.2)) 0 (vs.map (·.2)) with
      | error _ =>
        rw [h3] at h
        cases vs with
        | nil => simp [enumFromStmts] at h3
        | cons v vs =>
          simp only [List.map_cons, List.isEmpty_cons] at h
          cases h4 : enumArms (v.2 :: vs.map (·.2)) 0 (v.2 :: vs.map (·.2)) with
          | error _ => rw [h4] at h; cases h
          | ok _ => rw [h4] at h; cases h
      | ok ss =>
        obtain ⟨tf, f1, f2⟩ := key ss h3
        rw [h3] at h
        rw [List.length_map] at h1
        cases vs with
        | nil =>
          cases h
          exact ⟨_, by simp only [enumSrc, enumOrdinalSrc, h1, f1, ok_bind]; rfl, reads_impl true hz
            (rd_ordinalFn (RdB.tail ((rd_usize 0).rd 5 true).unary.all (fun _ => rfl))) f2⟩
        | cons v vs =>
          simp only [List.map_cons, List.isEmpty_cons] at h
          cases h4 : enumArms (v.2 :: vs.map (·.2)) 0 (v.2 :: vs.map (·.2)) with
          | error _ => rw [h4] at h; cases h
          | ok arms =>
            rw [h4] at h
            cases h
            obtain ⟨ta, a1, a2⟩ := rd_arms (v.2 :: vs.map (·.2)) (v :: vs) 0 arms h4
            have ho : enumOrdinalSrc (v :: vs) =
                .ok ([.kw .match, .kw .self, .pn .lbrace] ++ commaAfter ta ++ [.pn .rbrace]) := by
              simp only [enumOrdinalSrc, List.isEmpty_cons, List.map_cons, a1, ok_bind]; rfl
            exact ⟨_, by simp only [enumSrc, ho, h1, f1, ok_bind]; rfl, reads_impl true hz
              (rd_ordinalFn (RdB.tailBlock (by simpa using rd_match a2) (fun _ => rfl))) f2⟩

example := C86_enum [("A", .unit), ("B", .unnamed ["X", "Y"]), ("C", .named [("x", "X")])] _ rfl

/-- C86: a reading is unique. -/
theorem C86_unique {ts : List (T ι)} {A A' : Impl ι} (h : ReadsImpl ts A) (h' : ReadsImpl ts A') : A = A' := by
  obtain ⟨k, h⟩ := h
  obtain ⟨k', h'⟩ := h'
  have h1 := h (k + k') (by omega)
  have h2 := h' (k + k') (by omega)
  rw [h1] at h2
  exact Option.some.inj h2

/-! ## Concrete cases -/

/-- A token as written. -/
def text : T String → List String
  | .id (.user s) => [s]
  | .id (.pos i) => ["f", toString i]
  | .kw k => [match k with
    | .let => "let" | .mut => "mut" | .if => "if" | .return => "return" | .match => "match" | .fn => "fn"
    | .const => "const" | .impl => "impl" | .for => "for" | .as => "as" | .self => "self" | .Self => "Self"]
  | .pn p => [match p with
    | .lparen => "(" | .rparen => ")" | .lbrace => "{" | .rbrace => "}" | .lbracket => "[" | .rbracket => "]"
    | .colon2 => "::" | .colon => ":" | .semi => ";" | .comma => "," | .dot => "." | .eq => "=" | .eqEq => "=="
    | .ne => "!=" | .lt => "<" | .gt => ">" | .plus => "+" | .minus => "-" | .star => "*" | .percent => "%"
    | .slashEq => "/=" | .amp => "&" | .arrow => "->" | .fatArrow => "=>" | .hash => "#"]
  | .int n => [toString n]
  | .usize n => [toString n, "usize"]
  | .ty t => [t]
  | .generics => []
  | .selfTy => ["S"]

set_option maxRecDepth 4000 in
/-- The text for `struct S { x: X }`. -/
example : (structSrc (.named [("x", "X")])).map (fun ts => ts.flatMap text) = .ok
  ["#", "[", "allow", "(", "clippy", "::", "all", ")", "]",
    "impl", "ordinal_map", "::", "Ordinal", "for", "S", "{",
    "const", "ORDINAL_SIZE", ":", "usize", "=", "<", "X", "as", "ordinal_map", "::", "Ordinal", ">", "::",
      "ORDINAL_SIZE", ";",
    "fn", "ordinal", "(", "&", "self", ")", "->", "usize", "{",
      "let", "_check_overflow", "=", "Self", "::", "ORDINAL_SIZE", ";",
      "ordinal_map", "::", "Ordinal", "::", "ordinal", "(", "&", "self", ".", "x", ")", "}",
    "#", "[", "allow", "(", "unreachable_code", ",", "unused_mut", ")", "]",
    "fn", "from_ordinal", "(", "ordinal", ":", "usize", ")", "->", "std", "::", "option", "::", "Option", "<",
      "Self", ">", "{",
      "if", "Self", "::", "ORDINAL_SIZE", "==", "0", "{", "return", "None", ";", "}",
      "{", "let", "mut", "rem", "=", "ordinal", ";",
        "let", "x", "=", "<", "X", "as", "ordinal_map", "::", "Ordinal", ">", "::", "from_ordinal", "(", "rem", "%",
          "const", "{", "<", "X", "as", "ordinal_map", "::", "Ordinal", ">", "::", "ORDINAL_SIZE", "}", ")", ".",
          "unwrap", "(", ")", ";",
        "rem", "/=", "const", "{", "<", "X", "as", "ordinal_map", "::", "Ordinal", ">", "::", "ORDINAL_SIZE", "}", ";",
        "if", "rem", "!=", "0", "{", "return", "None", "}",
        "std", "::", "option", "::", "Option", "::", "Some", "(", "Self", "{", "x", ":", "x", ",", "}", ")", "}",
    "}", "}"] := by rfl

/-- The rules of the grammar that matter: a struct literal is not read in a condition, but it is in
parentheses; a block at the start of a statement ends the statement; comparisons do not chain. -/
example :
    pPrim 30 true ([.kw .if, .nm "a", .pn .eqEq, .kw .Self, .pn .lbrace, .kw .return, .pn .rbrace] : List (T String)) =
      some (.ifE (.bin .eq (var (.user "a")) (.path [.Self])) (.tail .ret0), []) ∧
    pExpr 30 true ([.nm "a", .pn .eqEq, .kw .Self, .pn .lbrace, .pn .rbrace] : List (T String)) =
      some (.bin .eq (var (.user "a")) (.record [.Self] .nil), []) ∧
    pBlock 30 ([.kw .if, .nm "a", .pn .lbrace, .pn .rbrace, .pn .lparen, .nm "b", .pn .rparen, .pn .rbrace] :
        List (T String)) =
      some (.stmt (.ifE (var (.user "a")) .nil) (.tail (var (.user "b"))), []) ∧
    pBlock 30 ([.nm "a", .pn .lparen, .nm "b", .pn .rparen, .pn .rbrace] : List (T String)) =
      some (.tail (.call (var (.user "a")) (one (var (.user "b")))), []) ∧
    pExpr 30 true ([.nm "a", .pn .lt, .nm "b", .pn .lt, .nm "c"] : List (T String)) = none :=
  ⟨rfl, rfl, rfl, rfl, rfl⟩

end OrdinalMap.Props
