import Verif.Lemmas.DeriveEnum
/-!
# A field type that does not compile makes the derived type not compile
-/

namespace OrdinalMap.Derive
open OrdinalMap SizeExpr

variable {ι : Type} {c : Cfg} {Ty : Types ι}

/-- The size expression is rejected by the compiler. -/
def Expr.Bad (c : Cfg) (Ty : Types ι) (x : Expr ι) : Prop := x.eval c Ty [] [] .const = .error .compileError

/-- The size expression evaluates or is rejected. -/
def Expr.Sane (c : Cfg) (Ty : Types ι) (x : Expr ι) : Prop := (∃ n, x.eval c Ty [] [] .const = .ok n) ∨ x.Bad c Ty

/-- The operator evaluates both operands. -/
def Strictly (c : Cfg) (Ty : Types ι) (op : Expr ι → Expr ι → Expr ι) : Prop :=
  ∀ a b : Expr ι, a.Sane c Ty → b.Sane c Ty →
    (op a b).Sane c Ty ∧ (a.Bad c Ty ∨ b.Bad c Ty → (op a b).Bad c Ty)

theorem strictly_add : Strictly c Ty .add := by
  rintro a b (⟨n, hn⟩ | hn) (⟨m, hm⟩ | hm) <;>
    simp only [Expr.Sane, Expr.Bad, Expr.eval] at hn hm ⊢ <;> simp [hn, hm, addC]
  split <;> simp <;> omega

theorem strictly_mul : Strictly c Ty .mul := by
  rintro a b (⟨n, hn⟩ | hn) (⟨m, hm⟩ | hm) <;>
    simp only [Expr.Sane, Expr.Bad, Expr.eval] at hn hm ⊢ <;> simp [hn, hm, mulC]
  split <;> simp <;> omega

theorem foldl_strictly {op : Expr ι → Expr ι → Expr ι} (H : Strictly c Ty op) (xs : List (Expr ι))
    (hs : ∀ y ∈ xs, y.Sane c Ty) (x : Expr ι) (hx : x.Sane c Ty) :
    (xs.foldl op x).Sane c Ty ∧ ((x.Bad c Ty ∨ ∃ y ∈ xs, y.Bad c Ty) → (xs.foldl op x).Bad c Ty) := by
  induction xs generalizing x with
  | nil => exact ⟨hx, fun h => by simpa using h⟩
  | cons y xs ih =>
    obtain ⟨h1, h2⟩ := H x y hx (hs y (by simp))
    obtain ⟨h3, h4⟩ := ih (fun z hz => hs z (by simp [hz])) _ h1
    refine ⟨h3, fun h => h4 ?_⟩
    rcases h with h | ⟨z, hz, hb⟩
    · exact .inl (h2 (.inl h))
    · rcases List.mem_cons.1 hz with rfl | hz
      · exact .inl (h2 (.inr hb))
      · exact .inr ⟨z, hz, hb⟩

theorem prodExpr_strictly (hs : ∀ t, (∃ n, (Ty.impl t).size = .ok n) ∨ (Ty.impl t).size = .error .compileError)
    (ts : List ι) : (prodExpr ts).Sane c Ty ∧
      ((∃ t ∈ ts, (Ty.impl t).size = .error .compileError) → (prodExpr ts).Bad c Ty) := by
  have hS : ∀ t, (Expr.sizeOf t).Sane c Ty := fun t => by
    simpa only [Expr.Sane, Expr.Bad, Expr.eval] using hs t
  cases ts with
  | nil =>
    refine ⟨.inl ⟨1, ?_⟩, by simp⟩
    have := c.M_ge
    simp only [prodExpr, Expr.eval]
    rw [if_pos (by omega)]
  | cons t ts =>
    obtain ⟨h1, h2⟩ := foldl_strictly (c := c) (Ty := Ty) strictly_mul (ts.map Expr.sizeOf) (by
      intro y hy
      obtain ⟨u, -, rfl⟩ := List.mem_map.1 hy
      exact hS u) (.sizeOf t) (hS t)
    refine ⟨h1, ?_⟩
    rintro ⟨u, hu, hb⟩
    apply h2
    rcases List.mem_cons.1 hu with rfl | hu
    · exact .inl (by simpa only [Expr.Bad, Expr.eval] using hb)
    · exact .inr ⟨.sizeOf u, List.mem_map.2 ⟨u, hu, rfl⟩, by simpa only [Expr.Bad, Expr.eval] using hb⟩

theorem sumExpr_bad (hs : ∀ t, (∃ n, (Ty.impl t).size = .ok n) ∨ (Ty.impl t).size = .error .compileError)
    (vs : List (Fields ι)) (v : Fields ι) (hv : v ∈ vs) (t : ι) (ht : t ∈ fieldTypes v)
    (hb : (Ty.impl t).size = .error .compileError) : (sumExpr (sumItems vs)).Bad c Ty := by
  have hsane : ∀ y ∈ sumItems vs, y.Sane c Ty := by
    intro y hy
    rcases List.mem_append.1 hy with hy | hy
    · split at hy
      · cases hy
      · obtain rfl := List.mem_singleton.1 hy
        simp only [Expr.Sane, Expr.Bad, Expr.eval]
        split <;> simp
    · obtain ⟨u, -, rfl⟩ := List.mem_map.1 hy
      exact (prodExpr_strictly hs _).1
  have hmem : prodExpr (fieldTypes v) ∈ sumItems vs := by
    refine List.mem_append_right _ (List.mem_map.2 ⟨v, List.mem_filter.2 ⟨hv, ?_⟩, rfl⟩)
    have : fieldTypes v ≠ [] := List.ne_nil_of_mem ht
    simp [noFields, this]
  have hbad : (prodExpr (fieldTypes v)).Bad c Ty := (prodExpr_strictly hs _).2 ⟨t, ht, hb⟩
  cases hi : sumItems vs with
  | nil => rw [hi] at hmem; cases hmem
  | cons x xs =>
    rw [hi] at hsane hmem
    refine (foldl_strictly strictly_add xs (fun y hy => hsane y (by simp [hy])) x (hsane x (by simp))).2 ?_
    rcases List.mem_cons.1 hmem with h | h
    · exact .inl (h ▸ hbad)
    · exact .inr ⟨_, h, hbad⟩

variable [DecidableEq ι]

theorem tuple_rejected (hs : ∀ t, (∃ n, (Ty.impl t).size = .ok n) ∨ (Ty.impl t).size = .error .compileError)
    (tys : List ι) (h16 : tys.length ≤ 16) (t : ι) (ht : t ∈ tys)
    (hb : (Ty.impl t).size = .error .compileError) : (tupleImpl c Ty tys).size = .error .compileError := by
  obtain ⟨x, -, hi⟩ := tuple_impl_eq (c := c) (Ty := Ty) tys h16
  rw [hi]
  exact (prodExpr_strictly hs _).2 ⟨t, ht, hb⟩

theorem struct_rejected (hs : ∀ t, (∃ n, (Ty.impl t).size = .ok n) ∨ (Ty.impl t).size = .error .compileError)
    (fs : Fields ι) (t : ι) (ht : t ∈ fieldTypes fs)
    (hb : (Ty.impl t).size = .error .compileError) : (structImpl c Ty fs).size = .error .compileError := by
  obtain ⟨x, e, -, -, -, hg⟩ := genStruct_ok fs
  simp only [structImpl, hg]
  split
  · exact (prodExpr_strictly hs _).2 ⟨t, ht, hb⟩
  · rfl

theorem enum_rejected (hs : ∀ t, (∃ n, (Ty.impl t).size = .ok n) ∨ (Ty.impl t).size = .error .compileError)
    (vs : List (Fields ι)) (hw : ∀ v ∈ vs, v.WF) (v : Fields ι) (hv : v ∈ vs) (t : ι) (ht : t ∈ fieldTypes v)
    (hb : (Ty.impl t).size = .error .compileError) : (enumImpl c Ty vs).size = .error .compileError := by
  by_cases h64 : vs.countP noFields < 2 ^ 64
  · obtain ⟨g, arms, hg, hsz, -⟩ := genEnum_ok vs h64 hw
    simp only [enumImpl, hg]
    split
    · simp only [GenEnum.toImpl, hsz]
      exact sumExpr_bad hs vs v hv t ht hb
    · rfl
  · rw [enum_overflow64 vs h64]; rfl

end OrdinalMap.Derive
