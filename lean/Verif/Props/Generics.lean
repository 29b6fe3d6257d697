import Verif.Model.Generics
import Verif.Props.Nested
/-!
# C74: derive on generic items
-/

namespace OrdinalMap.Props
open OrdinalMap OrdinalMap.Derive OrdinalMap.Derive.Generics

variable {κ γ : Type} (c : Cfg) (env : κ → CT) (gen : γ → Generic)

/-- The type has an `Ordinal` impl. -/
def HasImpl (C : CT) : Prop := ∃ I, C.impl = some I

/-- The type has an impl made from the crate's impls and derive, and its order is the standard one
(see `Built`). -/
def IsBuilt (C : CT) : Prop := ∃ I s, C.impl = some I ∧ Built c C.T I C.lt s

/-- A generic type has an impl exactly when its bounds are met (rustc's reading of an impl header). -/
def Declared (G : Generic) : Prop :=
  ∀ ρ : Inst, HasImpl (G.apply ρ) ↔ ∀ p ∈ G.bounds, HasImpl (ρ.types p)

/-- Its impls are made from the crate's impls and derive if the arguments' are. -/
def Builds (G : Generic) : Prop :=
  ∀ ρ : Inst, (∀ p ∈ G.bounds, IsBuilt c (ρ.types p)) → IsBuilt c (G.apply ρ)

theorem isSome_iff_hasImpl (C : CT) : C.impl.isSome = true ↔ HasImpl C := Option.isSome_iff_exists

theorem implements_sound (hgen : ∀ g, Declared (gen g)) (bounds : List Nat) (ρ : Inst)
    (hρ : ∀ p ∈ bounds, HasImpl (ρ.types p))
    (t : GTy κ γ) (h : t.implements env gen bounds = true) : HasImpl (t.subst c env gen ρ) := by
  induction t with
  | closed k => exact Option.isSome_iff_exists.1 h
  | param p => exact hρ p (by simpa [GTy.implements] using h)
  | box a ih => obtain ⟨I, hI⟩ := ih h; exact ⟨_, by simp [GTy.subst, hI]; rfl⟩
  | option a ih => obtain ⟨I, hI⟩ := ih h; exact ⟨_, by simp [GTy.subst, hI]; rfl⟩
  | array N a ih => obtain ⟨I, hI⟩ := ih h; exact ⟨_, by simp [GTy.subst, hI]; rfl⟩
  | result a b iha ihb =>
    simp only [GTy.implements, Bool.and_eq_true] at h
    obtain ⟨I, hI⟩ := iha h.1
    obtain ⟨J, hJ⟩ := ihb h.2
    exact ⟨_, by simp [GTy.subst, hI, hJ]; rfl⟩
  | either a b iha ihb =>
    simp only [GTy.implements, Bool.and_eq_true] at h
    obtain ⟨I, hI⟩ := iha h.1
    obtain ⟨J, hJ⟩ := ihb h.2
    exact ⟨_, by simp [GTy.subst, hI, hJ]; rfl⟩
  | tuple n a ih =>
    simp only [GTy.implements, Bool.and_eq_true, decide_eq_true_eq, List.all_eq_true] at h
    refine ⟨_, if_pos ⟨h.1, fun t => ?_⟩⟩
    exact (isSome_iff_hasImpl _).2 (ih t (h.2 t (List.mem_finRange t)))
  | app g a N ih =>
    simp only [GTy.implements, List.all_eq_true] at h
    exact (hgen g _).2 fun p hp => ih p (h p hp)

/-- Instantiation with an impl exactly for the bounded parameters. -/
def minimal (bounds : List Nat) : Inst where
  types p := if bounds.contains p then ⟨Bool, fun _ _ => False, some boolImpl⟩ else ⟨Bool, fun _ _ => False, none⟩
  consts _ := 1

theorem minimal_complete (hgen : ∀ g, Declared (gen g)) (bounds : List Nat) (t : GTy κ γ)
    (h : HasImpl (t.subst c env gen (minimal bounds))) : t.implements env gen bounds = true := by
  induction t with
  | closed k => exact Option.isSome_iff_exists.2 h
  | param p =>
    simp only [GTy.implements]
    cases hb : bounds.contains p with
    | true => rfl
    | false =>
      have e : (GTy.param p : GTy κ γ).subst c env gen (minimal bounds) = ⟨Bool, fun _ _ => False, none⟩ := by
        simp only [GTy.subst, minimal, hb, Bool.false_eq_true, if_false]
      rw [e] at h
      obtain ⟨I, hI⟩ := h
      cases hI
  | box a ih =>
    obtain ⟨I, hI⟩ := h
    obtain ⟨A, hA, -⟩ := Option.map_eq_some_iff.1 hI
    exact ih ⟨A, hA⟩
  | option a ih =>
    obtain ⟨I, hI⟩ := h
    obtain ⟨A, hA, -⟩ := Option.map_eq_some_iff.1 hI
    exact ih ⟨A, hA⟩
  | array N a ih =>
    obtain ⟨I, hI⟩ := h
    obtain ⟨A, hA, -⟩ := Option.map_eq_some_iff.1 hI
    exact ih ⟨A, hA⟩
  | result a b iha ihb =>
    obtain ⟨I, hI⟩ := h
    obtain ⟨A, hA, hB⟩ := Option.bind_eq_some_iff.1 hI
    obtain ⟨B, hB, -⟩ := Option.map_eq_some_iff.1 hB
    simp only [GTy.implements, Bool.and_eq_true]
    exact ⟨iha ⟨A, hA⟩, ihb ⟨B, hB⟩⟩
  | either a b iha ihb =>
    obtain ⟨I, hI⟩ := h
    obtain ⟨A, hA, hB⟩ := Option.bind_eq_some_iff.1 hI
    obtain ⟨B, hB, -⟩ := Option.map_eq_some_iff.1 hB
    simp only [GTy.implements, Bool.and_eq_true]
    exact ⟨iha ⟨A, hA⟩, ihb ⟨B, hB⟩⟩
  | tuple n a ih =>
    obtain ⟨I, hI⟩ := h
    simp only [GTy.subst] at hI
    split at hI
    · rename_i hc
      simp only [GTy.implements, Bool.and_eq_true, decide_eq_true_eq, List.all_eq_true]
      exact ⟨hc.1, fun t _ => ih t ((isSome_iff_hasImpl _).1 (hc.2 t))⟩
    · cases hI
  | app g a N ih =>
    simp only [GTy.implements, List.all_eq_true]
    exact fun p hp => ih p ((hgen g _).1 h p hp)

/-- C74, when: the generated code is accepted iff in every instantiation allowed by the declared
bounds every field type has an `Ordinal` impl. -/
theorem C74_accepted_iff (hgen : ∀ g, Declared (gen g)) {ι : Type} (bounds : List Nat) (ty : ι → GTy κ γ)
    (fs : List (Fields ι)) :
    accepted env gen bounds ty fs = true ↔
      ∀ ρ : Inst, (∀ p ∈ bounds, HasImpl (ρ.types p)) →
        ∀ f ∈ fs, ∀ t ∈ fieldTypes f, HasImpl ((ty t).subst c env gen ρ) := by
  simp only [accepted, List.all_eq_true]
  constructor
  · intro h ρ hρ f hf t ht
    exact implements_sound c env gen hgen bounds ρ hρ _ (h f hf t ht)
  · intro h f hf t ht
    refine minimal_complete c env gen hgen bounds _ (h _ ?_ f hf t ht)
    intro p hp
    have e : (minimal bounds).types p = ⟨Bool, fun _ _ => False, some boolImpl⟩ := by simp [minimal, hp]
    rw [e]
    exact ⟨boolImpl, rfl⟩

theorem subst_built (henv : ∀ k I, (env k).impl = some I → IsBuilt c (env k))
    (hgb : ∀ g, Builds c (gen g)) (bounds : List Nat)
    (ρ : Inst) (hρ : ∀ p ∈ bounds, IsBuilt c (ρ.types p)) (t : GTy κ γ)
    (h : t.implements env gen bounds = true) : IsBuilt c (t.subst c env gen ρ) := by
  induction t with
  | closed k => obtain ⟨I, hI⟩ := Option.isSome_iff_exists.1 h; exact henv k I hI
  | param p => exact hρ p (by simpa [GTy.implements] using h)
  | box a ih =>
    obtain ⟨I, s, hI, hb⟩ := ih h
    exact ⟨_, _, by simp only [GTy.subst, hI, Option.map_some], .box hb⟩
  | option a ih =>
    obtain ⟨I, s, hI, hb⟩ := ih h
    exact ⟨_, _, by simp only [GTy.subst, hI, Option.map_some], .option hb⟩
  | array N a ih =>
    obtain ⟨I, s, hI, hb⟩ := ih h
    exact ⟨_, _, by simp only [GTy.subst, hI, Option.map_some], .array _ hb⟩
  | result a b iha ihb =>
    simp only [GTy.implements, Bool.and_eq_true] at h
    obtain ⟨I, s, hI, hb⟩ := iha h.1
    obtain ⟨J, s', hJ, hb'⟩ := ihb h.2
    exact ⟨_, _, by simp only [GTy.subst, hI, hJ, Option.bind_some, Option.map_some], .result hb hb'⟩
  | either a b iha ihb =>
    simp only [GTy.implements, Bool.and_eq_true] at h
    obtain ⟨I, s, hI, hb⟩ := iha h.1
    obtain ⟨J, s', hJ, hb'⟩ := ihb h.2
    exact ⟨_, _, by simp only [GTy.subst, hI, hJ, Option.bind_some, Option.map_some], .either hb hb'⟩
  | tuple n a ih =>
    simp only [GTy.implements, Bool.and_eq_true, decide_eq_true_eq, List.all_eq_true] at h
    have hb : ∀ t, ∃ s, Built c ((tupleTypes fun t => (a t).subst c env gen ρ).T t)
        ((tupleTypes fun t => (a t).subst c env gen ρ).impl t) ((a t).subst c env gen ρ).lt s := by
      intro t
      obtain ⟨I, s, hI, hb⟩ := ih t (h.2 t (List.mem_finRange t))
      refine ⟨s, ?_⟩
      have : (tupleTypes fun t => (a t).subst c env gen ρ).impl t = I := by
        simp only [tupleTypes, hI, Option.getD_some]
      rw [this]
      exact hb
    refine ⟨_, True, if_pos ⟨h.1, fun t => ?_⟩,
      .tuple (fun t => Classical.choose_spec (hb t)) _
        (fun t => .inl (List.mem_finRange t)) (by simpa using h.1)⟩
    obtain ⟨I, s, hI, -⟩ := ih t (h.2 t (List.mem_finRange t))
    exact (isSome_iff_hasImpl _).2 ⟨I, hI⟩
  | app g a N ih =>
    simp only [GTy.implements, List.all_eq_true] at h
    exact hgb g _ fun p hp => ih p (h p hp)

theorem inst_built {ι : Type}
    (henv : ∀ k I, (env k).impl = some I → IsBuilt c (env k)) (hgb : ∀ g, Builds c (gen g))
    (bounds : List Nat) (ty : ι → GTy κ γ) (h : ∀ t, (ty t).implements env gen bounds = true)
    (ρ : Inst) (hρ : ∀ p ∈ bounds, IsBuilt c (ρ.types p)) :
    ∃ s : ι → Prop, ∀ t, Built c ((instTypes c env gen ρ ty).T t) ((instTypes c env gen ρ ty).impl t)
      (instLt c env gen ρ ty t) (s t) := by
  have hb : ∀ t, ∃ s, Built c ((instTypes c env gen ρ ty).T t) ((instTypes c env gen ρ ty).impl t)
      (instLt c env gen ρ ty t) s := by
    intro t
    obtain ⟨I, s, hI, hb⟩ := subst_built c env gen henv hgb bounds ρ hρ (ty t) (h t)
    refine ⟨s, ?_⟩
    have : (instTypes c env gen ρ ty).impl t = I := by simp only [instTypes, hI, Option.getD_some]
    rw [this]
    exact hb
  exact ⟨fun t => Classical.choose (hb t), fun t => Classical.choose_spec (hb t)⟩

/-- What C74 says of one instantiation: the derived struct and enum satisfy everything C60 says.
(A name of `ty` which the item does not use has to stand for a type that compiles.) -/
theorem C74_instances {ι : Type} [DecidableEq ι]
    (henv : ∀ k I, (env k).impl = some I → IsBuilt c (env k)) (hgb : ∀ g, Builds c (gen g))
    (bounds : List Nat) (ty : ι → GTy κ γ) (h : ∀ t, (ty t).implements env gen bounds = true)
    (ρ : Inst) (hρ : ∀ p ∈ bounds, IsBuilt c (ρ.types p)) :
      (∀ fs : Fields ι, fs.WF →
        (∀ t, t ∈ fieldTypes fs ∨ ∃ n, ((instTypes c env gen ρ ty).impl t).size = .ok n) →
        GoodType c (structImpl c (instTypes c env gen ρ ty) fs)
          (fun x y => FieldsLt (instLt c env gen ρ ty) x.1 y.1) True) ∧
      (∀ vs : List (Fields ι), (∀ v ∈ vs, v.WF) →
        (∀ t, (∃ v ∈ vs, t ∈ fieldTypes v) ∨ ∃ n, ((instTypes c env gen ρ ty).impl t).size = .ok n) →
        GoodType c (enumImpl c (instTypes c env gen ρ ty) vs)
          (fun x y => EnumLt (instLt c env gen ρ ty) x.1 y.1) True) := by
  obtain ⟨s, hb⟩ := inst_built c env gen henv hgb bounds ty h ρ hρ
  exact ⟨fun fs hw hu => C60_nested (.struct hb fs hu hw), fun vs hw hu => C60_nested (.enum hb vs hu hw)⟩

/-- C74, generic types in generic types: an accepted struct or enum with `#[derive(Ordinal)]` is again
a generic type that other generic items can mention. -/
theorem C74_derived_generic {ι : Type} [DecidableEq ι]
    (henv : ∀ k I, (env k).impl = some I → IsBuilt c (env k)) (hgb : ∀ g, Builds c (gen g))
    (bounds : List Nat) (ty : ι → GTy κ γ) :
    (∀ fs : Fields ι, fs.WF → (∀ t, t ∈ fieldTypes fs) → accepted env gen bounds ty [fs] = true →
      Declared (derivedStruct c env gen bounds ty fs) ∧ Builds c (derivedStruct c env gen bounds ty fs)) ∧
    (∀ vs : List (Fields ι), (∀ v ∈ vs, v.WF) → (∀ t, ∃ v ∈ vs, t ∈ fieldTypes v) →
      accepted env gen bounds ty vs = true →
      Declared (derivedEnum c env gen bounds ty vs) ∧ Builds c (derivedEnum c env gen bounds ty vs)) := by
  constructor
  · intro fs hw hu ha
    have h : ∀ t, (ty t).implements env gen bounds = true := by
      simp only [accepted, List.all_cons, List.all_nil, Bool.and_true, List.all_eq_true] at ha
      exact fun t => ha t (hu t)
    refine ⟨fun ρ => ⟨?_, fun hp => ⟨_, if_pos fun p h => (isSome_iff_hasImpl _).2 (hp p h)⟩⟩, fun ρ hρ => ?_⟩
    · rintro ⟨I, hI⟩ p hp
      simp only [derivedStruct] at hI
      split at hI
      · rename_i hc; exact (isSome_iff_hasImpl _).1 (hc p hp)
      · cases hI
    · obtain ⟨s, hb⟩ := inst_built c env gen henv hgb bounds ty h ρ hρ
      refine ⟨_, True, if_pos fun p hp => ?_, .struct hb fs (fun t => .inl (hu t)) hw⟩
      obtain ⟨I, -, hI, -⟩ := hρ p hp
      exact (isSome_iff_hasImpl _).2 ⟨I, hI⟩
  · intro vs hw hu ha
    have h : ∀ t, (ty t).implements env gen bounds = true := by
      simp only [accepted, List.all_eq_true] at ha
      intro t
      obtain ⟨v, hv, ht⟩ := hu t
      exact ha v hv t ht
    refine ⟨fun ρ => ⟨?_, fun hp => ⟨_, if_pos fun p h => (isSome_iff_hasImpl _).2 (hp p h)⟩⟩, fun ρ hρ => ?_⟩
    · rintro ⟨I, hI⟩ p hp
      simp only [derivedEnum] at hI
      split at hI
      · rename_i hc; exact (isSome_iff_hasImpl _).1 (hc p hp)
      · cases hI
    · obtain ⟨s, hb⟩ := inst_built c env gen henv hgb bounds ty h ρ hρ
      refine ⟨_, True, if_pos fun p hp => ?_, .enum hb vs (fun t => .inl (hu t)) hw⟩
      obtain ⟨I, -, hI, -⟩ := hρ p hp
      exact (isSome_iff_hasImpl _).2 ⟨I, hI⟩

/-- C74, what a parameter stands for in an instantiation: `T` is the type argument, `[T; N]` the array with as many
items as the `const` argument says, `[T; 3]` has three whatever the arguments, and in `G<A, B, .., M>` the arguments are
instantiated first. -/
theorem C74_instantiation (ρ : Inst) (p q : Nat) (g : γ) (a : Nat → GTy κ γ) (A : CT) (hA : ρ.types p = A) (N : Nat)
    (hN : ρ.consts q = N) :
    (GTy.param p : GTy κ γ).subst c env gen ρ = A ∧
    (GTy.array (.const q) (.param p) : GTy κ γ).subst c env gen ρ =
      ⟨Arr A.T N, arrayLt A.lt, A.impl.map (arrayImpl c N)⟩ ∧
    (GTy.array (.lit 3) (.param p) : GTy κ γ).subst c env gen ρ =
      ⟨Arr A.T 3, arrayLt A.lt, A.impl.map (arrayImpl c 3)⟩ ∧
    (GTy.app g a fun _ => .const q).subst c env gen ρ =
      (gen g).apply ⟨fun p => (a p).subst c env gen ρ, fun _ => N⟩ := by
  subst hA hN
  exact ⟨rfl, rfl, rfl, rfl⟩

example := C74_instantiation (κ := Unit) (γ := Unit) debug64 (fun _ => ⟨Bool, fun a b => a = false ∧ b = true, some boolImpl⟩)
  (fun _ => ⟨[], fun ρ => ρ.types 0⟩) ⟨fun _ => ⟨Ordering, orderingLt, some orderingImpl⟩, fun q => q + 2⟩ 0 1 ()
  (fun _ => .param 1) _ rfl 3 rfl

/-- No bound is added: `struct W<T>(T)` is rejected, `struct W<T: Ordinal, const N: usize>(Option<[T; N]>)`
is not. -/
theorem C74_no_bound_added :
    accepted env gen [] (fun _ : Unit => .param 0) [.unnamed [()]] = false ∧
    accepted env gen [0] (fun _ : Unit => .option (.array (.const 0) (.param 0))) [.unnamed [()]] = true := by
  constructor <;> rfl

/-! ## Examples -/

/-- `struct P<T: Ordinal> { a: Option<T>, b: Result<T, bool> }` at `T = Ordering` has `4 * 5` values
and the laws hold. -/
example :
    let env : Unit → CT := fun _ => ⟨Bool, fun a b => a = false ∧ b = true, some boolImpl⟩
    let gen : Empty → Generic := fun g => nomatch g
    let ty : Bool → GTy Unit Empty := fun b => if b then .option (.param 0) else .result (.param 0) (.closed ())
    let ρ : Inst := ⟨fun _ => ⟨Ordering, orderingLt, some orderingImpl⟩, fun _ => 0⟩
    let fs : Fields Bool := .named [("a", true), ("b", false)]
    accepted env gen [0] ty [fs] = true ∧
    (structImpl debug64 (instTypes debug64 env gen ρ ty) fs).size = .ok 20 ∧
    Lawful debug64 (structImpl debug64 (instTypes debug64 env gen ρ ty) fs) 20 := by
  intro env gen ty ρ fs
  have hs : (structImpl debug64 (instTypes debug64 env gen ρ ty) fs).size = .ok 20 := by rfl
  refine ⟨by rfl, hs, ?_⟩
  obtain ⟨h, -⟩ := C74_instances debug64 env gen (fun k I _ => ⟨boolImpl, _, rfl, .bool⟩) (fun g => nomatch g) [0] ty
    (by intro t; cases t <;> rfl) ρ (fun p _ => ⟨orderingImpl, _, rfl, .ordering⟩)
  exact (h fs (by simp [fs, Fields.WF]) (by intro t; left; cases t <;> simp [fs, fieldTypes])).lawful 20 hs

/-- `struct Inner<T: Ordinal, const N: usize>([T; N], (T, bool))`; then
`enum Outer<U: Ordinal> { A, B(Inner<Option<U>, 2>) }` is accepted, and at `U = bool` has
`1 + 9 * 6` values. -/
example :
    let env : Unit → CT := fun _ => ⟨Bool, fun a b => a = false ∧ b = true, some boolImpl⟩
    let ty : Bool → GTy Unit Empty := fun b =>
      if b then .array (.const 0) (.param 0) else .tuple 2 fun i => if i = 0 then .param 0 else .closed ()
    let inner := derivedStruct debug64 env (fun g : Empty => nomatch g) [0] ty (.unnamed [true, false])
    let ty' : Unit → GTy Unit Unit := fun _ => .app () (fun _ => .option (.param 0)) fun _ => .lit 2
    let vs : List (Fields Unit) := [.unit, .unnamed [()]]
    let ρ : Inst := ⟨fun _ => ⟨Bool, fun a b => a = false ∧ b = true, some boolImpl⟩, fun _ => 0⟩
    accepted env (fun _ : Unit => inner) [0] ty' vs = true ∧
    (enumImpl debug64 (instTypes debug64 env (fun _ => inner) ρ ty') vs).size = .ok 55 ∧
    Lawful debug64 (enumImpl debug64 (instTypes debug64 env (fun _ => inner) ρ ty') vs) 55 := by
  intro env ty inner ty' vs ρ
  have hs : (enumImpl debug64 (instTypes debug64 env (fun _ => inner) ρ ty') vs).size = .ok 55 := by rfl
  refine ⟨by rfl, hs, ?_⟩
  have henv : ∀ k I, (env k).impl = some I → IsBuilt debug64 (env k) := fun k I _ => ⟨boolImpl, _, rfl, .bool⟩
  obtain ⟨-, hb⟩ := (C74_derived_generic debug64 env (fun g : Empty => nomatch g) henv (fun g => nomatch g) [0] ty).1
    (.unnamed [true, false]) trivial (by intro t; cases t <;> simp [fieldTypes]) (by rfl)
  obtain ⟨-, h⟩ := C74_instances debug64 env (fun _ : Unit => inner) henv (fun _ => hb) [0] ty'
    (by intro t; rfl) ρ (fun p _ => ⟨boolImpl, _, rfl, .bool⟩)
  exact (h vs (by simp [vs, Fields.WF]) (by intro t; left; exact ⟨.unnamed [()], by simp [vs], by simp [fieldTypes]⟩)).lawful 55 hs

end OrdinalMap.Props
