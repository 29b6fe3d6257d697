import Verif.Model.Recursive
import Verif.Lemmas.DeriveReject
/-!
# Sizes depend on the sizes of the components only
-/

namespace OrdinalMap.Recursive
open OrdinalMap OrdinalMap.Derive

section
variable {ι : Type} {c : Cfg} {Ty Ty' : Types ι}

theorem foldl_congr (op : Expr ι → Expr ι → Expr ι)
    (hop : ∀ a b : Expr ι, a.eval c Ty [] [] .const = a.eval c Ty' [] [] .const → b.eval c Ty [] [] .const = b.eval c Ty' [] [] .const →
      (op a b).eval c Ty [] [] .const = (op a b).eval c Ty' [] [] .const)
    (xs : List (Expr ι)) (hs : ∀ y ∈ xs, y.eval c Ty [] [] .const = y.eval c Ty' [] [] .const) (x : Expr ι)
    (hx : x.eval c Ty [] [] .const = x.eval c Ty' [] [] .const) :
    (xs.foldl op x).eval c Ty [] [] .const = (xs.foldl op x).eval c Ty' [] [] .const := by
  induction xs generalizing x with
  | nil => exact hx
  | cons y xs ih => exact ih (fun z hz => hs z (by simp [hz])) _ (hop x y hx (hs y (by simp)))

theorem prodExpr_congr (ts : List ι) (h : ∀ t ∈ ts, (Ty.impl t).size = (Ty'.impl t).size) :
    (prodExpr ts).eval c Ty [] [] .const = (prodExpr ts).eval c Ty' [] [] .const := by
  cases ts with
  | nil => simp only [prodExpr, Expr.eval]
  | cons t ts =>
    refine foldl_congr .mul (fun a b ha hb => by simp only [Expr.eval, ha, hb]) _ ?_ _ ?_
    · intro y hy
      obtain ⟨u, hu, rfl⟩ := List.mem_map.1 hy
      simpa only [Expr.eval] using h u (by simp [hu])
    · simpa only [Expr.eval] using h t (by simp)

theorem sumExpr_congr (vs : List (Fields ι)) (h : ∀ t ∈ vs.flatMap fieldTypes, (Ty.impl t).size = (Ty'.impl t).size) :
    (sumExpr (sumItems vs)).eval c Ty [] [] .const = (sumExpr (sumItems vs)).eval c Ty' [] [] .const := by
  have hi : ∀ y ∈ sumItems vs, y.eval c Ty [] [] .const = y.eval c Ty' [] [] .const := by
    intro y hy
    rcases List.mem_append.1 hy with hy | hy
    · split at hy
      · cases hy
      · obtain rfl := List.mem_singleton.1 hy
        simp only [Expr.eval]
    · obtain ⟨v, hv, rfl⟩ := List.mem_map.1 hy
      exact prodExpr_congr _ fun t ht => h t (List.mem_flatMap.2 ⟨v, (List.mem_filter.1 hv).1, ht⟩)
  cases hs : sumItems vs with
  | nil => simp only [sumExpr, Expr.eval]
  | cons x xs =>
    rw [hs] at hi
    exact foldl_congr .add (fun a b ha hb => by simp only [Expr.eval, ha, hb]) _ (fun y hy => hi y (by simp [hy])) _
      (hi x (by simp))

variable [DecidableEq ι]

theorem tuple_congr (ts : List ι) (h : ∀ t ∈ ts, (Ty.impl t).size = (Ty'.impl t).size) :
    (tupleImpl c Ty ts).size = (tupleImpl c Ty' ts).size := by
  by_cases h16 : ts.length ≤ 16
  · obtain ⟨x, hx, hi⟩ := tuple_impl_eq (c := c) (Ty := Ty) ts h16
    obtain ⟨y, hy, hj⟩ := tuple_impl_eq (c := c) (Ty := Ty') ts h16
    rw [hi, hj]
    exact prodExpr_congr ts h
  · simp only [tupleImpl, if_neg h16]; rfl

theorem struct_congr (fs : Fields ι) (h : ∀ t ∈ fieldTypes fs, (Ty.impl t).size = (Ty'.impl t).size) :
    (structImpl c Ty fs).size = (structImpl c Ty' fs).size := by
  obtain ⟨x, e, -, -, -, hg⟩ := genStruct_ok fs
  simp only [structImpl, hg]
  split
  · exact prodExpr_congr _ h
  · rfl

theorem enum_congr (vs : List (Fields ι)) (hw : ∀ v ∈ vs, v.WF)
    (h : ∀ t ∈ vs.flatMap fieldTypes, (Ty.impl t).size = (Ty'.impl t).size) :
    (enumImpl c Ty vs).size = (enumImpl c Ty' vs).size := by
  by_cases h64 : vs.countP noFields < 2 ^ 64
  · obtain ⟨g, arms, hg, hsz, -⟩ := genEnum_ok vs h64 hw
    simp only [enumImpl, hg]
    split
    · simp only [GenEnum.toImpl, hsz]
      exact sumExpr_congr vs h
    · rfl
  · rw [enum_overflow64 vs h64, enum_overflow64 vs h64]; rfl

end

variable {c : Cfg} {α β α' β' : Type}

theorem option_congr {A : OrdinalImpl α} {B : OrdinalImpl β} (h : A.size = B.size) :
    (optionImpl c A).size = (optionImpl c B).size := by simp only [optionImpl, h]

theorem result_congr {A : OrdinalImpl α} {B : OrdinalImpl β} {A' : OrdinalImpl α'} {B' : OrdinalImpl β'}
    (h : A.size = A'.size) (h' : B.size = B'.size) :
    (resultImpl c A B).size = (resultImpl c A' B').size := by simp only [resultImpl, h, h']

theorem either_congr {A : OrdinalImpl α} {B : OrdinalImpl β} {A' : OrdinalImpl α'} {B' : OrdinalImpl β'}
    (h : A.size = A'.size) (h' : B.size = B'.size) :
    (eitherImpl c A B).size = (eitherImpl c A' B').size := result_congr h h'

theorem array_congr {A : OrdinalImpl α} {B : OrdinalImpl β} (N : Nat) (h : A.size = B.size) :
    (arrayImpl c N A).size = (arrayImpl c N B).size := by
  have : ∀ k s, arraySizeLoop c A k s = arraySizeLoop c B k s := by
    intro k
    induction k with
    | zero => intro s; rfl
    | succ k ih => intro s; simp only [arraySizeLoop, h, ih]
  exact this N 1

variable {D : Type} [DecidableEq D] {defs : D → Item D}

theorem Callable.iff (f : Fn) (t : DTy D) : Callable defs c f t ↔
    (∀ k ∈ constants defs f t, ∃ n, Val defs c k n) ∧ ∀ u ∈ mentions defs t, Callable defs c f u := by
  constructor
  · exact fun h => ⟨h t (.refl t), fun u hu v hv => h v (.step hu hv)⟩
  · rintro ⟨h1, h2⟩ v hv
    cases hv with
    | refl => exact h1
    | step hu r => exact h2 _ hu _ r

omit [DecidableEq D] in
theorem Leads.trans {t u v : DTy D} (h : Leads defs t u) (h' : Leads defs u v) : Leads defs t v := by
  induction h with
  | refl => exact h'
  | step hu _ ih => exact .step hu (ih h')

end OrdinalMap.Recursive
