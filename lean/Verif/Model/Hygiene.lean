import Verif.Model.Derive
/-!
# Where the identifiers of the generated code come from

`Model/Derive.lean` compares local variables by name.  rustc also compares their syntax context: a
local variable or `self` written by one `macro_rules!` expansion is not visible to an identifier of
the same name that came from elsewhere.  The derive macro makes identifiers with the spans of tokens
of its input (`parse_quote_spanned!`), so for an item produced by `macro_rules!` the contexts can
differ.  This file lists, for the code the macro emits, every binding and every use of a local
variable, with its context.

The contexts of the input are parameters: of the first token of the item (`input.span()`), of the
`struct`/`enum` keyword, of each variant (`variant.span()`), of each field (`ident.span()` for a named
field, `f.span()` for an unnamed one), and of `Span::call_site()`.  Item paths (`Self`, `std`,
`ordinal_map`, field names in constructors) resolve without regard to `macro_rules!` contexts and are
left out.
-/

namespace OrdinalMap.Derive.Hygiene
open OrdinalMap OrdinalMap.Derive

variable {σ : Type}

/-- A field of the input: its name, `none` in a tuple struct or variant, and its context. -/
structure SField (σ : Type) where
  name : Option String
  ctx : σ

/-- A variant: `variant.span()` and the fields. -/
structure SVariant (σ : Type) where
  ctx : σ
  fields : List (SField σ)

/-- Names of local variables, and `self`. -/
inductive Name where
  | self
  | id (x : Ident)
  deriving DecidableEq, Repr

/-- An identifier token. -/
structure Var (σ : Type) where
  name : Name
  ctx : σ
  deriving DecidableEq, Repr

/-- What a variable is supposed to stand for. -/
inductive Kind where
  | self
  | ordinal
  | rem
  | unused
  | field (i : Nat)
  deriving DecidableEq, Repr

/-- An occurrence of a variable, in the order of the emitted code: a binding or a use. -/
inductive Occ (σ : Type) where
  | bind (v : Var σ) (k : Kind)
  | use (v : Var σ) (k : Kind)

/-- `rem` with a given span (ordinal.rs:272, 279, 282, 287). -/
def remAt (s : σ) : Var σ := ⟨.id remVar, s⟩

/-- `self` with a given span (ordinal.rs:49, 310, 311, 431). -/
def selfAt (s : σ) : Var σ := ⟨.self, s⟩

/-- `format_ident!("ordinal")` (ordinal.rs:12): call-site span. -/
def ordinalAt (site : σ) : Var σ := ⟨.id ordinalVar, site⟩

/-- The variable of field number `i` (ordinal.rs:80-85). -/
def fieldVar (i : Nat) (f : SField σ) : Var σ :=
  match f.name with
  | some s => ⟨.id (.user s), f.ctx⟩
  | none => ⟨.id (.pos i), f.ctx⟩

/-- `field_vars` (ordinal.rs:80-85), numbered from `i`. -/
def fieldVars : Nat → List (SField σ) → List (Var σ × Nat)
  | _, [] => []
  | i, f :: fs => (fieldVar i f, i) :: fieldVars (i + 1) fs

/-- The two statements of a field in `struct_from_ordinal` (ordinal.rs:274-285); both have the span
of the field variable. -/
def fieldOccs (p : Var σ × Nat) : List (Occ σ) :=
  [.use (remAt p.1.ctx) .rem, .bind p.1 (.field p.2), .use (remAt p.1.ctx) .rem]

/-- `struct_from_ordinal` (ordinal.rs:260-303): `let mut rem = #ordinal`, the fields in reverse order,
`if rem != 0`, and the constructor, which mentions every field variable. -/
def structFromOrdinal (ordinal : List (Occ σ)) (vars : List (Var σ × Nat)) (span : σ) : List (Occ σ) :=
  ordinal ++ [.bind (remAt span) .rem] ++ vars.reverse.flatMap fieldOccs ++ [.use (remAt span) .rem] ++
    vars.map fun p => .use p.1 (.field p.2)

/-- `fn ordinal` of a struct (ordinal.rs:49-52, 63-68, 306-314): `&self` has the span of the input,
each `&self.field` that of the field. -/
def structOrdinal (site inp : σ) (fs : List (SField σ)) : List (Occ σ) :=
  [.bind (selfAt inp) .self, .bind ⟨.id (.user "_check_overflow"), site⟩ .unused] ++
    fs.map fun f => .use (selfAt f.ctx) .self

/-- `fn from_ordinal` of a struct (ordinal.rs:55-58, 333-366). -/
def structFrom (site kw : σ) (fs : List (SField σ)) : List (Occ σ) :=
  .bind (ordinalAt site) .ordinal ::
    structFromOrdinal [.use (ordinalAt site) .ordinal] (fieldVars 0 fs) kw

/-- One arm of `match self` (ordinal.rs:391-428): the pattern binds the field variables, the value
mentions each once. -/
def arm (v : SVariant σ) : List (Occ σ) :=
  (fieldVars 0 v.fields).map (fun p => .bind p.1 (.field p.2)) ++
    (fieldVars 0 v.fields).map fun p => .use p.1 (.field p.2)

/-- One `if #ordinal_var < .. { return .. }` (ordinal.rs:439-472). -/
def fromStmt (site : σ) (v : SVariant σ) : List (Occ σ) :=
  .use (ordinalAt site) .ordinal ::
    structFromOrdinal [.use (ordinalAt site) .ordinal] (fieldVars 0 v.fields) v.ctx

/-! ## Resolution -/

/-- Bindings in scope, innermost first. -/
abbrev Scope (σ : Type) := List (Var σ × Kind)

/-- Can this identifier pattern bind?  (`Ident.bindable`) -/
def Var.bindable (v : Var σ) : Bool :=
  match v.name with
  | .self => true
  | .id x => x.bindable

variable [DecidableEq σ]

/-- A use must find a binding with the same name and the same context, and the innermost one must be
the intended one (another one has the wrong type: a field where `usize` is needed, or the reverse). -/
def Occ.check (sc : Scope σ) : Occ σ → Option (Scope σ)
  | .bind v k => if v.bindable then some ((v, k) :: sc) else none
  | .use v k => if sc.lookup v = some k then some sc else none

/-- Check occurrences in order. -/
def checkOccs : Scope σ → List (Occ σ) → Option (Scope σ)
  | sc, [] => some sc
  | sc, o :: os => match o.check sc with
    | none => none
    | some sc' => checkOccs sc' os

/-- Do the local variables of a derived struct resolve? -/
def structResolves (site inp kw : σ) (fs : List (SField σ)) : Bool :=
  (checkOccs [] (structOrdinal site inp fs)).isSome && (checkOccs [] (structFrom site kw fs)).isSome

/-- Do the local variables of a derived enum resolve?  Arms and `if` bodies have their own scope;
`ordinal` of an empty enum does not mention `self` (ordinal.rs:384-387); at the end comes
`let _ignore = #ordinal_var` (ordinal.rs:477). -/
def enumResolves (site inp kw : σ) (vs : List (SVariant σ)) : Bool :=
  let scO : Scope σ := [(⟨.id (.user "_check_overflow"), site⟩, .unused), (selfAt inp, .self)]
  let scF : Scope σ := [(ordinalAt site, .ordinal)]
  (vs.isEmpty || (checkOccs scO [.use (selfAt kw) .self]).isSome) &&
  (vs.all fun v => (checkOccs scO (arm v)).isSome) &&
  (vs.all fun v => (checkOccs scF (fromStmt site v)).isSome) &&
  (checkOccs scF [.use (ordinalAt site) .ordinal, .bind ⟨.id (.user "_ignore"), kw⟩ .unused]).isSome

end OrdinalMap.Derive.Hygiene
