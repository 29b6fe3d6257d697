import Verif.Lemmas.Recursive
import Verif.Props.Compile
/-!
# C97: types that mention themselves

`Denotes c defs t α I lt s a`: the written type `t` stands for the type `α` with the impl `I`, the order `lt` and the
compiler's verdicts `a`; see `Checked` (C94) for the parameters.
-/

namespace OrdinalMap.Props
open OrdinalMap OrdinalMap.Derive OrdinalMap.Recursive

/-- The order of a leaf. -/
def Leaf.lt (c : Cfg) : (l : Leaf) → l.T c → l.T c → Prop
  | .bool => fun a b : Bool => a = false ∧ b = true
  | .ordering => orderingLt
  | .infallible => fun _ _ => False
  | .char => fun x y : RChar => x.1 < y.1
  | .u8 => fun x y : U 8 => x.1 < y.1
  | .i8 => fun x y : S 8 => x.1 < y.1
  | .u16 => fun x y : U 16 => x.1 < y.1
  | .i16 => fun x y : S 16 => x.1 < y.1
  | .u32 => fun x y : U 32 => x.1 < y.1
  | .i32 => fun x y : S 32 => x.1 < y.1
  | .nzU8 => fun x y : NZU 8 => x.1 < y.1
  | .nzI8 => fun x y : NZS 8 => x.1 < y.1
  | .nzU16 => fun x y : NZU 16 => x.1 < y.1
  | .nzI16 => fun x y : NZS 16 => x.1 < y.1
  | .nzU32 => fun x y : NZU 32 => x.1 < y.1
  | .nzI32 => fun x y : NZS 32 => x.1 < y.1
  | .nzU64 => fun x y : NZU 64 => x.1 < y.1
  | .nzI64 => fun x y : NZS 64 => x.1 < y.1
  | .nzUsize => fun x y : NZU c.bits => x.1 < y.1
  | .nzIsize => fun x y : NZS c.bits => x.1 < y.1

/-- Does `from_ordinal` of a leaf reject every ordinal out of range? -/
def Leaf.strict (c : Cfg) : Leaf → Prop
  | .char => c.bits = 32
  | _ => True

/-- The verdicts on a leaf (C94). -/
def Leaf.accepts (c : Cfg) : Leaf → Accepts
  | .u32 => .u32 (u32Impl c)
  | .i32 => .forced (i32Impl c)
  | .nzU64 => .forced (nzU64Impl c)
  | .nzI64 => .forced (nzI64Impl c)
  | _ => .always

theorem Leaf.checked (c : Cfg) (l : Leaf) : Checked c (l.T c) (l.impl c) (Leaf.lt c l) (Leaf.strict c l) (Leaf.accepts c l) := by
  cases l
  · exact .bool
  · exact .ordering
  · exact .infallible
  · exact .char
  · exact .u8
  · exact .i8
  · exact .u16
  · exact .i16
  · exact .u32
  · exact .i32
  · exact .nzU8
  · exact .nzI8
  · exact .nzU16
  · exact .nzI16
  · exact .nzU32
  · exact .nzI32
  · exact .nzU64
  · exact .nzI64
  · exact .nzUsize
  · exact .nzIsize

theorem Leaf.size_iff (c : Cfg) (l : Leaf) : (Leaf.accepts c l).size ↔ ∃ n, (l.impl c).size = .ok n := by
  have F := C94_compiles (Leaf.checked c l)
  refine ⟨F.size, ?_⟩
  cases l <;> first | exact id | exact fun _ => trivial

variable {D : Type} [DecidableEq D]

/-- See the head of the file.  As in `Checked`, a name in `Types` that is not used stands for some type that compiles. -/
inductive Denotes (c : Cfg) (defs : D → Item D) :
    DTy D → (α : Type) → OrdinalImpl α → (α → α → Prop) → Prop → Accepts → Prop
  | leaf (l : Leaf) :
      Denotes c defs (.leaf l) (l.T c) (l.impl c) (Leaf.lt c l) (Leaf.strict c l) (Leaf.accepts c l)
  | box {t α A lt s a} : Denotes c defs t α A lt s a →
      Denotes c defs (.box t) _ (boxImpl A) (fun a b => lt a.unbox b.unbox) s a.box
  | option {t α A lt s a} : Denotes c defs t α A lt s a →
      Denotes c defs (.option t) _ (optionImpl c A) (optionLt lt) s (a.option (optionImpl c A))
  | result {t u α β A B ltA ltB s s' a b} : Denotes c defs t α A ltA s a → Denotes c defs u β B ltB s' b →
      Denotes c defs (.result t u) _ (resultImpl c A B) (sumLt ltA ltB) s' (a.result (resultImpl c A B) b)
  | either {t u α β A B ltA ltB s s' a b} : Denotes c defs t α A ltA s a → Denotes c defs u β B ltB s' b →
      Denotes c defs (.either t u) _ (eitherImpl c A B) (sumLt ltA ltB) s' (a.result (eitherImpl c A B) b)
  | array {t α A lt s a} (N : Nat) : Denotes c defs t α A lt s a →
      Denotes c defs (.array N t) _ (arrayImpl c N A) (arrayLt lt) True (a.array N (arrayImpl c N A))
  | tuple {Ty : Types (DTy D)} {lt : ∀ t, Ty.T t → Ty.T t → Prop} {s : DTy D → Prop} {a : DTy D → Accepts}
      (as : List (DTy D)) (comp : ∀ t ∈ as, Denotes c defs t (Ty.T t) (Ty.impl t) (lt t) (s t) (a t))
      (other : ∀ t, t ∉ as → Checked c (Ty.T t) (Ty.impl t) (lt t) (s t) (a t) ∧ ∃ n, (Ty.impl t).size = .ok n)
      (h16 : as.length ≤ 16) :
      Denotes c defs (.tuple as) _ (tupleImpl c Ty as) (fun x y => FieldsLt lt x.1 y.1) True
        (.fields (tupleImpl c Ty as) as a)
  | struct {Ty : Types (DTy D)} {lt : ∀ t, Ty.T t → Ty.T t → Prop} {s : DTy D → Prop} {a : DTy D → Accepts}
      {d : D} {fs : Fields (DTy D)} (hd : defs d = .struct fs)
      (comp : ∀ t ∈ fieldTypes fs, Denotes c defs t (Ty.T t) (Ty.impl t) (lt t) (s t) (a t))
      (other : ∀ t, t ∉ fieldTypes fs → Checked c (Ty.T t) (Ty.impl t) (lt t) (s t) (a t) ∧ ∃ n, (Ty.impl t).size = .ok n)
      (hw : fs.WF) :
      Denotes c defs (.named d) _ (structImpl c Ty fs) (fun x y => FieldsLt lt x.1 y.1) True
        (.fields (structImpl c Ty fs) (fieldTypes fs) a)
  | enum {Ty : Types (DTy D)} {lt : ∀ t, Ty.T t → Ty.T t → Prop} {s : DTy D → Prop} {a : DTy D → Accepts}
      {d : D} {vs : List (Fields (DTy D))} (hd : defs d = .enum vs)
      (comp : ∀ t ∈ vs.flatMap fieldTypes, Denotes c defs t (Ty.T t) (Ty.impl t) (lt t) (s t) (a t))
      (other : ∀ t, t ∉ vs.flatMap fieldTypes →
        Checked c (Ty.T t) (Ty.impl t) (lt t) (s t) (a t) ∧ ∃ n, (Ty.impl t).size = .ok n)
      (hw : ∀ v ∈ vs, v.WF) :
      Denotes c defs (.named d) _ (enumImpl c Ty vs) (fun x y => EnumLt lt x.1 y.1) True
        (.fields (enumImpl c Ty vs) (vs.flatMap fieldTypes) a)

variable {c : Cfg} {defs : D → Item D} {t : DTy D} {α : Type} {I : OrdinalImpl α} {lt : α → α → Prop} {s : Prop} {a : Accepts}

theorem Denotes.checked (h : Denotes c defs t α I lt s a) : Checked c α I lt s a := by
  induction h with
  | leaf l => exact Leaf.checked c l
  | box _ ih => exact .box ih
  | option _ ih => exact .option ih
  | result _ _ ih1 ih2 => exact .result ih1 ih2
  | either _ _ ih1 ih2 => exact .either ih1 ih2
  | array N _ ih => exact .array N ih
  | @tuple Ty lt s a as comp other h16 ih =>
    refine .tuple (s := s) (fun t => ?_) as (fun t => ?_) h16 <;> by_cases ht : t ∈ as
    · exact ih t ht
    · exact (other t ht).1
    · exact .inl ht
    · exact .inr (other t ht).2
  | @struct Ty lt s a d fs hd comp other hw ih =>
    refine .struct (s := s) (fun t => ?_) fs (fun t => ?_) hw <;> by_cases ht : t ∈ fieldTypes fs
    · exact ih t ht
    · exact (other t ht).1
    · exact .inl ht
    · exact .inr (other t ht).2
  | @enum Ty lt s a d vs hd comp other hw ih =>
    refine .enum (s := s) (fun t => ?_) vs (fun t => ?_) hw <;> by_cases ht : t ∈ vs.flatMap fieldTypes
    · exact ih t ht
    · exact (other t ht).1
    · exact .inl (List.mem_flatMap.1 ht)
    · exact .inr (other t ht).2

/-- The value of a constant, with a default. -/
noncomputable def theVal (c : Cfg) (defs : D → Item D) (t : DTy D) : Nat :=
  open Classical in if h : ∃ n, Val defs c t n then h.choose else 0

theorem theVal_spec (h : ∃ n, Val defs c t n) : Val defs c t (theVal c defs t) := by
  simp only [theVal, dif_pos h]; exact h.choose_spec

/-- The constant of a type made of components. -/
theorem val_iff {cs : List (DTy D)} (hm : mentions defs t = cs) (sizes : DTy D → R Nat) (acc : DTy D → Prop)
    (hacc : a.size ↔ (∃ n, I.size = .ok n) ∧ ∀ u ∈ cs, acc u)
    (ok : ∀ u ∈ cs, acc u → ∃ n, sizes u = .ok n)
    (hf : ∀ sz : DTy D → Nat, (∀ u ∈ cs, sizes u = .ok (sz u)) → formula defs c sz t = I.size)
    (ih : ∀ u ∈ cs, ∀ n, Val defs c u n ↔ acc u ∧ sizes u = .ok n) (n : Nat) :
    Val defs c t n ↔ a.size ∧ I.size = .ok n := by
  subst hm
  constructor
  · rintro ⟨sz, hv, h⟩
    rw [hf sz fun u hu => ((ih u hu _).1 (hv u hu)).2] at h
    exact ⟨hacc.2 ⟨⟨n, h⟩, fun u hu => ((ih u hu _).1 (hv u hu)).1⟩, h⟩
  · rintro ⟨hs, hn⟩
    have hv : ∀ u ∈ mentions defs t, Val defs c u (theVal c defs u) := fun u hu => by
      have ha := (hacc.1 hs).2 u hu
      obtain ⟨m, hm⟩ := ok u hu ha
      exact theVal_spec ⟨m, (ih u hu m).2 ⟨ha, hm⟩⟩
    refine .eval (theVal c defs) hv ?_
    rw [hf _ fun u hu => ((ih u hu _).1 (hv u hu)).2, hn]

theorem size_fn (h : Denotes c defs t α I lt s a) (hs : a.size) : ∃ n, I.size = .ok n := (C94_compiles h.checked).size hs

/-- `ORDINAL_SIZE` of a type that stands for something. -/
theorem Denotes.val (h : Denotes c defs t α I lt s a) (n : Nat) : Val defs c t n ↔ a.size ∧ I.size = .ok n := by
  induction h generalizing n with
  | leaf l =>
    constructor
    · rintro ⟨sz, -, h⟩
      exact ⟨(Leaf.size_iff c l).2 ⟨n, h⟩, h⟩
    · rintro ⟨-, h⟩
      exact .eval (fun _ => 0) (by simp [mentions]) h
  | @box t α A lt s a h ih =>
    refine val_iff (cs := [t]) rfl (fun _ => A.size) (fun _ => a.size) ?_ ?_ ?_ ?_ n
    · simp only [List.mem_singleton, forall_eq]
      exact ⟨fun h' => ⟨(size_fn h h' :), h'⟩, fun h' => h'.2⟩
    · exact fun _ _ => size_fn h
    · intro sz hz; exact (hz t (by simp)).symm
    · intro u hu; obtain rfl := List.mem_singleton.1 hu; exact ih
  | @option t α A lt s a h ih =>
    refine val_iff (cs := [t]) rfl (fun _ => A.size) (fun _ => a.size) ?_ ?_ ?_ ?_ n
    · simp only [List.mem_singleton, forall_eq]; exact Iff.rfl
    · exact fun _ _ => size_fn h
    · intro sz hz; exact option_congr (hz t (by simp)).symm
    · intro u hu; obtain rfl := List.mem_singleton.1 hu; exact ih
  | @result t u α β A B ltA ltB s s' a b hA hB ihA ihB =>
    constructor
    · rintro ⟨sz, hv, h⟩
      have h1 := (ihA _).1 (hv t (by simp [mentions]))
      have h2 := (ihB _).1 (hv u (by simp [mentions]))
      have : (resultImpl c A B).size = .ok n := (result_congr h1.2 h2.2).trans h
      exact ⟨⟨⟨n, this⟩, h1.1, h2.1⟩, this⟩
    · rintro ⟨⟨-, ha, hb⟩, hn⟩
      obtain ⟨na, hna⟩ := size_fn hA ha
      obtain ⟨nb, hnb⟩ := size_fn hB hb
      have h1 := theVal_spec ⟨na, (ihA na).2 ⟨ha, hna⟩⟩
      have h2 := theVal_spec ⟨nb, (ihB nb).2 ⟨hb, hnb⟩⟩
      refine .eval (theVal c defs) (fun v hv => ?_) ?_
      · simp only [mentions, List.mem_cons, List.not_mem_nil, or_false] at hv
        rcases hv with rfl | rfl <;> assumption
      · exact (result_congr ((ihA _).1 h1).2 ((ihB _).1 h2).2).symm.trans hn
  | @either t u α β A B ltA ltB s s' a b hA hB ihA ihB =>
    constructor
    · rintro ⟨sz, hv, h⟩
      have h1 := (ihA _).1 (hv t (by simp [mentions]))
      have h2 := (ihB _).1 (hv u (by simp [mentions]))
      have : (eitherImpl c A B).size = .ok n := (either_congr h1.2 h2.2).trans h
      exact ⟨⟨⟨n, this⟩, h1.1, h2.1⟩, this⟩
    · rintro ⟨⟨-, ha, hb⟩, hn⟩
      obtain ⟨na, hna⟩ := size_fn hA ha
      obtain ⟨nb, hnb⟩ := size_fn hB hb
      have h1 := theVal_spec ⟨na, (ihA na).2 ⟨ha, hna⟩⟩
      have h2 := theVal_spec ⟨nb, (ihB nb).2 ⟨hb, hnb⟩⟩
      refine .eval (theVal c defs) (fun v hv => ?_) ?_
      · simp only [mentions, List.mem_cons, List.not_mem_nil, or_false] at hv
        rcases hv with rfl | rfl <;> assumption
      · exact (either_congr ((ihA _).1 h1).2 ((ihB _).1 h2).2).symm.trans hn
  | @array t α A lt s a N h ih =>
    refine val_iff (cs := [t]) rfl (fun _ => A.size) (fun _ => a.size) ?_ ?_ ?_ ?_ n
    · simp only [List.mem_singleton, forall_eq]; exact Iff.rfl
    · exact fun _ _ => size_fn h
    · intro sz hz; exact array_congr N (hz t (by simp)).symm
    · intro u hu; obtain rfl := List.mem_singleton.1 hu; exact ih
  | @tuple Ty lt s a as comp other h16 ih =>
    refine val_iff (cs := as) rfl (fun u => (Ty.impl u).size) (fun u => (a u).size) Iff.rfl ?_ ?_ ih n
    · exact fun u hu => size_fn (comp u hu)
    · exact fun sz hz => tuple_congr as fun u hu => (hz u hu).symm
  | @struct Ty lt s a d fs hd comp other hw ih =>
    refine val_iff (cs := fieldTypes fs) (by simp [mentions, hd, Item.types]) (fun u => (Ty.impl u).size)
      (fun u => (a u).size) Iff.rfl ?_ ?_ ih n
    · exact fun u hu => size_fn (comp u hu)
    · intro sz hz
      simp only [formula, hd]
      exact struct_congr fs fun u hu => (hz u hu).symm
  | @enum Ty lt s a d vs hd comp other hw ih =>
    refine val_iff (cs := vs.flatMap fieldTypes) (by simp [mentions, hd, Item.types]) (fun u => (Ty.impl u).size)
      (fun u => (a u).size) Iff.rfl ?_ ?_ ih n
    · exact fun u hu => size_fn (comp u hu)
    · intro sz hz
      simp only [formula, hd]
      exact enum_congr vs hw fun u hu => (hz u hu).symm

theorem Denotes.exists_val (h : Denotes c defs t α I lt s a) : (∃ n, Val defs c t n) ↔ a.size :=
  ⟨fun ⟨n, hn⟩ => ((h.val n).1 hn).1, fun hs => (size_fn h hs).elim fun n hn => ⟨n, (h.val n).2 ⟨hs, hn⟩⟩⟩

/-- The verdict on a function, given the list of constants and of components. -/
def verdict (f : Fn) (a : Accepts) : Prop := match f with
  | .ordinal => a.ordinal
  | .fromOrdinal => a.fromOrdinal

theorem fields_callable {aa : DTy D → Accepts} {cs : List (DTy D)} (f : Fn) (hm : mentions defs t = cs)
    (hk : constants defs f t = t :: cs) (hv : (∃ n, Val defs c t n) ↔ (Accepts.fields I cs aa).size)
    (hc : ∀ u ∈ cs, ((∃ n, Val defs c u n) ↔ (aa u).size)) (ih : ∀ u ∈ cs, (Callable defs c f u ↔ verdict f (aa u))) :
    Callable defs c f t ↔ verdict f (.fields I cs aa) := by
  have : verdict f (.fields I cs aa) ↔ (Accepts.fields I cs aa).size ∧ ∀ u ∈ cs, verdict f (aa u) := by cases f <;> exact Iff.rfl
  rw [Callable.iff, hk, hm, this]
  constructor
  · exact fun h => ⟨hv.1 (h.1 t (by simp)), fun u hu => (ih u hu).1 (h.2 u hu)⟩
  · refine fun h => ⟨fun k hk => ?_, fun u hu => (ih u hu).2 (h.2 u hu)⟩
    rcases List.mem_cons.1 hk with rfl | hk
    · exact hv.2 h.1
    · exact (hc k hk).2 (h.1.2 k hk)

theorem Denotes.callable (h : Denotes c defs t α I lt s a) (f : Fn) : Callable defs c f t ↔ verdict f a := by
  have h0 := h
  induction h with
  | leaf l =>
    have hv := (Denotes.leaf (defs := defs) (c := c) l).exists_val
    rw [Callable.iff]
    cases l <;> cases f <;> simp only [constants, mentions, List.not_mem_nil, List.mem_singleton, forall_eq, hv,
      false_imp_iff, and_true, implies_true] <;> simp only [verdict, Leaf.accepts] <;>
      simp [Accepts.always, Accepts.u32, Accepts.forced]
  | @box t α A lt s a h ih =>
    rw [Callable.iff]
    simp only [constants, mentions, List.not_mem_nil, List.mem_singleton, forall_eq, ih h]
    cases f <;> simp [verdict, Accepts.box]
  | @option t α A lt s a h ih =>
    rw [Callable.iff]
    simp only [constants, mentions, List.not_mem_nil, List.mem_singleton, forall_eq, ih h]
    cases f <;> simp [verdict, Accepts.option]
  | @result t u α β A B ltA ltB s s' a b hA hB ihA ihB =>
    rw [Callable.iff]
    simp only [constants, mentions, List.mem_cons, List.not_mem_nil, or_false, forall_eq,
      forall_eq_or_imp, ihA hA, ihB hB, hA.exists_val]
    cases f <;> simp [verdict, Accepts.result]
  | @either t u α β A B ltA ltB s s' a b hA hB ihA ihB =>
    rw [Callable.iff]
    simp only [constants, mentions, List.mem_cons, List.not_mem_nil, or_false, forall_eq,
      forall_eq_or_imp, ihA hA, ihB hB, hA.exists_val]
    cases f <;> simp [verdict, Accepts.result]
  | @array t α A lt s a N h ih =>
    rw [Callable.iff]
    simp only [constants, mentions, List.mem_singleton, forall_eq, ih h, h.exists_val]
    cases f <;> simp [verdict, Accepts.array]
  | @tuple Ty lt s a as comp other h16 ih =>
    exact fields_callable f rfl rfl h0.exists_val (fun u hu => (comp u hu).exists_val) fun u hu => ih u hu (comp u hu)
  | @struct Ty lt s a d fs hd comp other hw ih =>
    exact fields_callable f (by simp [mentions, hd, Item.types]) (by simp [constants, hd, Item.types]) h0.exists_val
      (fun u hu => (comp u hu).exists_val) fun u hu => ih u hu (comp u hu)
  | @enum Ty lt s a d vs hd comp other hw ih =>
    exact fields_callable f (by simp [mentions, hd, Item.types]) (by simp [constants, hd, Item.types]) h0.exists_val
      (fun u hu => (comp u hu).exists_val) fun u hu => ih u hu (comp u hu)

/-- All tuples met on the way have an impl (at most 16 components). -/
def Arities (defs : D → Item D) (t : DTy D) : Prop := ∀ as, Leads defs t (.tuple as) → as.length ≤ 16

/-- What a written type stands for, in one record. -/
structure Sem (c : Cfg) (defs : D → Item D) (t : DTy D) where
  α : Type
  I : OrdinalImpl α
  lt : α → α → Prop
  s : Prop
  a : Accepts
  /-- It is that of the type, or, for a name that is not used, some other type that compiles. -/
  used : Prop
  den : used → Denotes c defs t α I lt s a
  other : ¬ used → Checked c α I lt s a ∧ ∃ n, I.size = .ok n

/-- `bool`, for names that are not used. -/
def Sem.dummy (c : Cfg) (defs : D → Item D) (t : DTy D) : Sem c defs t :=
  ⟨Bool, boolImpl, _, _, _, False, False.elim, fun _ => ⟨.bool, 2, rfl⟩⟩

theorem exists_sem (cs : List (DTy D)) (ih : ∀ u ∈ cs, ∃ α I lt s a, Denotes c defs u α I lt s a) :
    ∃ (Ty : Types (DTy D)) (lt : ∀ t, Ty.T t → Ty.T t → Prop) (s : DTy D → Prop) (a : DTy D → Accepts),
      (∀ u ∈ cs, Denotes c defs u (Ty.T u) (Ty.impl u) (lt u) (s u) (a u)) ∧
      ∀ u, u ∉ cs → Checked c (Ty.T u) (Ty.impl u) (lt u) (s u) (a u) ∧ ∃ n, (Ty.impl u).size = .ok n := by
  have : ∀ u, ∃ S : Sem c defs u, S.used ↔ u ∈ cs := fun u => by
    by_cases hu : u ∈ cs
    · obtain ⟨α, I, lt, s, a, h⟩ := ih u hu
      exact ⟨⟨α, I, lt, s, a, True, fun _ => h, fun h => absurd trivial h⟩, by simp [hu]⟩
    · exact ⟨Sem.dummy c defs u, by simp [Sem.dummy, hu]⟩
  let S := fun u => (this u).choose
  have hS : ∀ u, (S u).used ↔ u ∈ cs := fun u => (this u).choose_spec
  exact ⟨⟨fun u => (S u).α, fun u => (S u).I⟩, fun u => (S u).lt, fun u => (S u).s, fun u => (S u).a,
    fun u hu => (S u).den ((hS u).2 hu), fun u hu => (S u).other fun h => hu ((hS u).1 h)⟩

theorem exists_denotes (hw : ∀ d, (defs d).WF) (h : Acc (fun u v => u ∈ mentions defs v) t) (h16 : Arities defs t) :
    ∃ α I lt s a, Denotes c defs t α I lt s a := by
  induction h with
  | intro t _ ih =>
    have ih : ∀ u ∈ mentions defs t, ∃ α I lt s a, Denotes c defs u α I lt s a :=
      fun u hu => ih u hu fun as h => h16 as (.step hu h)
    cases t with
    | leaf l => exact ⟨_, _, _, _, _, .leaf l⟩
    | box u => obtain ⟨_, _, _, _, _, h⟩ := ih u (by simp [mentions]); exact ⟨_, _, _, _, _, .box h⟩
    | option u => obtain ⟨_, _, _, _, _, h⟩ := ih u (by simp [mentions]); exact ⟨_, _, _, _, _, .option h⟩
    | array N u => obtain ⟨_, _, _, _, _, h⟩ := ih u (by simp [mentions]); exact ⟨_, _, _, _, _, .array N h⟩
    | result u v =>
      obtain ⟨_, _, _, _, _, h⟩ := ih u (by simp [mentions])
      obtain ⟨_, _, _, _, _, h'⟩ := ih v (by simp [mentions])
      exact ⟨_, _, _, _, _, .result h h'⟩
    | either u v =>
      obtain ⟨_, _, _, _, _, h⟩ := ih u (by simp [mentions])
      obtain ⟨_, _, _, _, _, h'⟩ := ih v (by simp [mentions])
      exact ⟨_, _, _, _, _, .either h h'⟩
    | tuple as =>
      obtain ⟨Ty, lt, s, a, h, h'⟩ := exists_sem as ih
      exact ⟨_, _, _, _, _, .tuple as h h' (h16 as (.refl _))⟩
    | named d =>
      have hd := hw d
      simp only [mentions] at ih
      cases hi : defs d with
      | struct fs =>
        simp only [hi, Item.types, Item.WF] at ih hd
        obtain ⟨Ty, lt, s, a, h, h'⟩ := exists_sem _ ih
        exact ⟨_, _, _, _, _, .struct hi h h' hd⟩
      | enum vs =>
        simp only [hi, Item.types, Item.WF] at ih hd
        obtain ⟨Ty, lt, s, a, h, h'⟩ := exists_sem _ ih
        exact ⟨_, _, _, _, _, .enum hi h h' hd⟩

theorem val_acc {n : Nat} (h : Val defs c t n) : Acc (fun u v => u ∈ mentions defs v) t := by
  induction h with
  | eval sz _ _ ih => exact .intro _ ih

theorem val_leads {n : Nat} {u : DTy D} (h : Val defs c t n) (hl : Leads defs t u) : ∃ m, Val defs c u m := by
  induction hl generalizing n with
  | refl => exact ⟨n, h⟩
  | step hu _ ih =>
    cases h with
    | eval sz hm _ => exact ih (hm _ hu)

theorem val_arities {n : Nat} (h : Val defs c t n) : Arities defs t := by
  intro as hl
  obtain ⟨m, hm⟩ := val_leads h hl
  cases hm with
  | eval sz _ h =>
    rcases Nat.lt_or_ge 16 as.length with h16 | h16
    · simp [formula, tupleImpl, Nat.not_le.2 h16, rejected] at h
    · exact h16

/-- C97, no recursion: if following mentions always comes to an end, the written type stands for a type of C60 and C94,
and each use is accepted if and only if it is according to C94; the value of `ORDINAL_SIZE` is the same. -/
theorem C97_finite (c : Cfg) (defs : D → Item D) (hw : ∀ d, (defs d).WF) (t : DTy D) (h16 : Arities defs t)
    (h : ¬ ∃ p : Nat → DTy D, p 0 = t ∧ ∀ i, p (i + 1) ∈ mentions defs (p i)) :
    ∃ α I lt s a, Denotes c defs t α I lt s a ∧ Checked c α I lt s a ∧ (∀ n, Val defs c t n ↔ a.size ∧ I.size = .ok n) ∧
      (Callable defs c .ordinal t ↔ a.ordinal) ∧ (Callable defs c .fromOrdinal t ↔ a.fromOrdinal) := by
  have hacc : Acc (fun u v => u ∈ mentions defs v) t := by
    by_cases ht : Acc (fun u v => u ∈ mentions defs v) t
    · exact ht
    · have next : ∀ x : { x // ¬ Acc (fun u v => u ∈ mentions defs v) x },
          ∃ y : { x // ¬ Acc (fun u v => u ∈ mentions defs v) x }, y.1 ∈ mentions defs x.1 := by
        rintro ⟨x, hx⟩
        apply Classical.byContradiction
        intro hn
        exact hx (.intro x fun y hy => Classical.byContradiction fun hya => hn ⟨⟨y, hya⟩, hy⟩)
      let f := fun x => (next x).choose
      let p : Nat → { x // ¬ Acc (fun u v => u ∈ mentions defs v) x } := fun i => Nat.rec ⟨t, ht⟩ (fun _ x => f x) i
      exact absurd ⟨fun i => (p i).1, rfl, fun i => (next (p i)).choose_spec⟩ h
  obtain ⟨α, I, lt, s, a, hd⟩ := exists_denotes (c := c) hw hacc h16
  exact ⟨α, I, lt, s, a, hd, hd.checked, hd.val, hd.callable .ordinal, hd.callable .fromOrdinal⟩

omit [DecidableEq D] in
/-- An infinite chain of mentions meets a derived type. -/
theorem chain_named (p : Nat → DTy D) (h : ∀ i, p (i + 1) ∈ mentions defs (p i)) : ∃ i d, p i = .named d := by
  suffices H : ∀ m (p : Nat → DTy D), (∀ i, p (i + 1) ∈ mentions defs (p i)) → sizeOf (p 0) ≤ m → ∃ i d, p i = .named d from
    H _ p h (Nat.le_refl _)
  intro m
  induction m with
  | zero =>
    intro p _ hm
    cases h0 : p 0 <;> simp [h0] at hm
  | succ m ih =>
    intro p h hm
    have h1 : p 1 ∈ mentions defs (p 0) := h 0
    by_cases hn : ∃ d, p 0 = .named d
    · exact ⟨0, hn⟩
    · have hlt : sizeOf (p 1) < sizeOf (p 0) := by
        cases h0 : p 0 with
        | named d => exact absurd ⟨d, h0⟩ hn
        | tuple as =>
          simp only [h0, mentions] at h1
          have := List.sizeOf_lt_of_mem h1
          simp
          omega
        | _ =>
          simp only [h0, mentions, List.mem_cons, List.not_mem_nil, or_false] at h1
          try first
            | (simp [h1]; done)
            | (rcases h1 with h1 | h1 <;> simp [h1] <;> omega)
            | (simp [h1]; omega)
      obtain ⟨i, d, hi⟩ := ih (fun i => p (i + 1)) (fun i => h (i + 1)) (by show sizeOf (p 1) ≤ m; omega)
      exact ⟨i + 1, d, hi⟩

omit [DecidableEq D] in
theorem leads_chain (p : Nat → DTy D) (h : ∀ i, p (i + 1) ∈ mentions defs (p i)) (i : Nat) : Leads defs (p 0) (p i) := by
  induction i with
  | zero => exact .refl _
  | succ i ih => exact ih.trans (.step (h i) (.refl _))

theorem chain_no_val (p : Nat → DTy D) (h : ∀ i, p (i + 1) ∈ mentions defs (p i)) (n : Nat) : ¬ Val defs c (p 0) n := by
  intro hv
  have hacc := val_acc hv
  generalize ht : p 0 = t at hacc
  clear hv
  induction hacc generalizing p with
  | intro t _ ih =>
    subst ht
    exact ih (p 1) (h 0) (fun i => p (i + 1)) (fun i => h (i + 1)) rfl

/-- C97, recursion: if mentions can be followed for ever from a type, none of the three uses of it is accepted, nor of
any type that leads to it. -/
theorem C97_infinite (c : Cfg) (defs : D → Item D) (p : Nat → DTy D) (h : ∀ i, p (i + 1) ∈ mentions defs (p i)) (t : DTy D)
    (ht : Leads defs t (p 0)) : (∀ n, ¬ Val defs c t n) ∧ ∀ f, ¬ Callable defs c f t := by
  constructor
  · intro n hv
    obtain ⟨m, hm⟩ := val_leads hv ht
    exact chain_no_val p h m hm
  · intro f hf
    obtain ⟨i, d, hi⟩ := chain_named p h
    obtain ⟨n, hn⟩ := hf (p i) (ht.trans (leads_chain p h i)) (p i) (by rw [hi]; simp [constants])
    have := chain_no_val (c := c) (fun j => p (i + j)) (fun j => h (i + j)) n
    exact this hn

omit [DecidableEq D] in
theorem chain_of_cycle {u v : DTy D} (hu : u ∈ mentions defs v) (hl : Leads defs u v) :
    ∃ p : Nat → DTy D, p 0 = v ∧ ∀ i, p (i + 1) ∈ mentions defs (p i) := by
  have next : ∀ x : { x // Leads defs x v }, ∃ y : { x // Leads defs x v }, y.1 ∈ mentions defs x.1 := by
    rintro ⟨x, hx⟩
    cases hx with
    | refl => exact ⟨⟨u, hl⟩, hu⟩
    | step h r => exact ⟨⟨_, r⟩, h⟩
  let f := fun x => (next x).choose
  let p : Nat → { x // Leads defs x v } := fun i => Nat.rec ⟨v, .refl v⟩ (fun _ x => f x) i
  exact ⟨fun i => (p i).1, rfl, fun i => (next (p i)).choose_spec⟩

/-- C97, cycles: a type that contains itself, directly or through other types, cannot be used, nor can any type that contains it.
(`u` is the type of a field of the derived type `d`.) -/
theorem C97_cycle (c : Cfg) (defs : D → Item D) (d : D) (u : DTy D) (hu : u ∈ (defs d).types) (hl : Leads defs u (.named d))
    (t : DTy D) (ht : Leads defs t (.named d)) : (∀ n, ¬ Val defs c t n) ∧ ∀ f, ¬ Callable defs c f t := by
  obtain ⟨p, h0, h⟩ := chain_of_cycle (v := .named d) hu hl
  exact C97_infinite c defs p h t (h0 ▸ ht)

/-- C97, numbers: a type is accepted with `ORDINAL_SIZE` only if it has finitely many values, as many as `ORDINAL_SIZE` says; the impl
obeys the laws, and the functions are accepted too. -/
theorem C97_count (c : Cfg) (defs : D → Item D) (hw : ∀ d, (defs d).WF) (t : DTy D) (n : Nat) (h : Val defs c t n) :
    ∃ α I lt s a, Denotes c defs t α I lt s a ∧ I.size = .ok n ∧
      (∃ l : List α, l.length = n ∧ l.Nodup ∧ ∀ x, x ∈ l) ∧ Lawful c I n ∧ ∀ f, Callable defs c f t := by
  obtain ⟨α, I, lt, s, a, hd⟩ := exists_denotes (c := c) hw (val_acc h) (val_arities h)
  obtain ⟨hs, hn⟩ := (hd.val n).1 h
  obtain ⟨m, l, h1, h2, -, h4, h5, h6, h7, h8⟩ := C94_count hd.checked hs
  obtain rfl : n = m := by rw [hn] at h1; cases h1; rfl
  refine ⟨α, I, lt, s, a, hd, hn, ⟨l, h2, h4, h5⟩, h6, fun f => (hd.callable f).2 ?_⟩
  cases f
  · exact h7
  · exact h8

/-! ## Programs -/

/-- `enum L { Nil, Cons(bool, Box<L>) }`: infinitely many values; rejected, also as `Option<L>`. -/
example (c : Cfg) :
    let defs : Unit → Item Unit := fun _ => .enum [.unit, .unnamed [.leaf .bool, .box (.named ())]]
    (∀ n, ¬ Val defs c (.option (.named ())) n) ∧ ∀ f, ¬ Callable defs c f (.option (.named ())) := by
  intro defs
  exact C97_cycle c defs () (.box (.named ())) (by simp [defs, Item.types, fieldTypes])
    (.step (by simp [mentions]) (.refl _)) _ (.step (by simp [mentions]) (.refl _))

/-- `struct Never(Box<Never>)` has no values and `struct One([Box<One>; 0])` has exactly one; both are rejected nevertheless. -/
example (c : Cfg) :
    let defs : Bool → Item Bool := fun b => match b with
      | false => .struct (.unnamed [.box (.named false)])
      | true => .struct (.unnamed [.array 0 (.box (.named true))])
    (∀ n, ¬ Val defs c (.named false) n) ∧ (∀ n, ¬ Val defs c (.named true) n) := by
  intro defs
  refine ⟨(C97_cycle c defs false (.box (.named false)) (by simp [defs, Item.types, fieldTypes])
    (.step (by simp [mentions]) (.refl _)) _ (.refl _)).1, (C97_cycle c defs true (.array 0 (.box (.named true)))
    (by simp [defs, Item.types, fieldTypes]) (.step (by simp [mentions]; rfl) (.step (by simp [mentions]) (.refl _))) _ (.refl _)).1⟩

/-- `struct A { x: Option<B> }` and `enum B { P(bool), Q((bool, bool)) }`: 7 values. -/
example :
    let defs : Bool → Item Bool := fun b => match b with
      | false => .struct (.named [("x", .option (.named true))])
      | true => .enum [.unnamed [.leaf .bool], .unnamed [.tuple [.leaf .bool, .leaf .bool]]]
    Val defs debug64 (.named false) 7 := by
  intro defs
  refine .eval (fun _ => 7) (fun u hu => ?_) rfl
  obtain rfl : u = .option (.named true) := by simpa [mentions, defs, Item.types, fieldTypes] using hu
  refine .eval (fun _ => 6) (fun u hu => ?_) rfl
  obtain rfl : u = .named true := by simpa [mentions] using hu
  refine .eval (fun u => match u with | .tuple _ => 4 | _ => 2) (fun u hu => ?_) rfl
  have hb : Val defs debug64 (.leaf .bool) 2 := .eval (fun _ => 0) (by simp [mentions]) rfl
  obtain rfl | rfl : u = .leaf .bool ∨ u = .tuple [.leaf .bool, .leaf .bool] := by
    simpa [mentions, defs, Item.types, fieldTypes] using hu
  · exact hb
  · refine .eval (fun _ => 2) (fun u hu => ?_) rfl
    obtain rfl : u = .leaf .bool := by simpa [mentions] using hu
    exact hb

/-- `Option<Option<… bool>>` -/
def options : Nat → DTy Nat
  | 0 => .leaf .bool
  | n + 1 => .option (options n)

/-- `struct P<T: Ordinal>(T, Option<Box<P<Option<T>>>>)` for `T = bool`: `n` names the instantiation with `n` times `Option`.
No type contains itself, but the chain does not end. -/
example (c : Cfg) :
    let defs : Nat → Item Nat := fun n => .struct (.unnamed [options n, .option (.box (.named (n + 1)))])
    (∀ n, ¬ Val defs c (.named 0) n) ∧ ∀ f, ¬ Callable defs c f (.named 0) := by
  intro defs
  let p : Nat → DTy Nat := fun i => match i % 3 with
    | 0 => .named (i / 3)
    | 1 => .option (.box (.named (i / 3 + 1)))
    | _ => .box (.named (i / 3 + 1))
  refine C97_infinite c defs p (fun i => ?_) _ (.refl _)
  obtain ⟨k, h | h | h⟩ : ∃ k, i = 3 * k ∨ i = 3 * k + 1 ∨ i = 3 * k + 2 := ⟨i / 3, by omega⟩
  · have e0 : i % 3 = 0 ∧ (i + 1) % 3 = 1 ∧ i / 3 = k ∧ (i + 1) / 3 = k := by omega
    simp [p, e0.1, e0.2.1, e0.2.2.1, e0.2.2.2, mentions, defs, Item.types, fieldTypes]
  · have e0 : i % 3 = 1 ∧ (i + 1) % 3 = 2 ∧ i / 3 = k ∧ (i + 1) / 3 = k := by omega
    simp [p, e0.1, e0.2.1, e0.2.2.1, e0.2.2.2, mentions]
  · have e0 : i % 3 = 2 ∧ (i + 1) % 3 = 0 ∧ i / 3 = k ∧ (i + 1) / 3 = k + 1 := by omega
    simp [p, e0.1, e0.2.1, e0.2.2.1, e0.2.2.2, mentions]

/-- `Option<NonZeroUsize>` meets the conditions of `C97_finite`; see `C94_handwritten` for the verdicts. -/
example (c : Cfg) := C97_finite c (D := Empty) nofun nofun (.option (.leaf .nzUsize))
  (by
    intro as h
    cases h with
    | step h r =>
      obtain rfl := List.mem_singleton.1 h
      cases r with
      | step h _ => cases h)
  (by
    rintro ⟨p, h0, h⟩
    have h1 := h 0
    rw [h0] at h1
    have h2 := h 1
    rw [List.mem_singleton.1 h1] at h2
    cases h2)

end OrdinalMap.Props
