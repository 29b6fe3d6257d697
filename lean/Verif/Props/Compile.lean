import Verif.Model.Compile
import Verif.Props.Nested
/-!
# C94: which programs compile

`Checked c α I lt s a` is `Built c α I lt s` (C60) with `a : Accepts`, what the compiler accepts of the impl.
-/

namespace OrdinalMap.Props
open OrdinalMap OrdinalMap.Derive

/-- See the head of the file. -/
inductive Checked (c : Cfg) : (α : Type) → OrdinalImpl α → (α → α → Prop) → Prop → Accepts → Prop
  | bool : Checked c _ boolImpl (fun a b => a = false ∧ b = true) True .always
  | ordering : Checked c _ orderingImpl orderingLt True .always
  | infallible : Checked c _ infallibleImpl (fun _ _ => False) True .always
  | char : Checked c _ (charImpl c) (·.1 < ·.1) (c.bits = 32) .always
  | u8 : Checked c _ (u8Impl c) (·.1 < ·.1) True .always
  | i8 : Checked c _ (i8Impl c) (·.1 < ·.1) True .always
  | u16 : Checked c _ (u16Impl c) (·.1 < ·.1) True .always
  | i16 : Checked c _ (i16Impl c) (·.1 < ·.1) True .always
  | u32 : Checked c _ (u32Impl c) (·.1 < ·.1) True (.u32 (u32Impl c))
  | i32 : Checked c _ (i32Impl c) (·.1 < ·.1) True (.forced (i32Impl c))
  | nzU8 : Checked c _ (nzU8Impl c) (·.1 < ·.1) True .always
  | nzI8 : Checked c _ (nzI8Impl c) (·.1 < ·.1) True .always
  | nzU16 : Checked c _ (nzU16Impl c) (·.1 < ·.1) True .always
  | nzI16 : Checked c _ (nzI16Impl c) (·.1 < ·.1) True .always
  | nzU32 : Checked c _ (nzU32Impl c) (·.1 < ·.1) True .always
  | nzI32 : Checked c _ (nzI32Impl c) (·.1 < ·.1) True .always
  | nzU64 : Checked c _ (nzU64Impl c) (·.1 < ·.1) True (.forced (nzU64Impl c))
  | nzI64 : Checked c _ (nzI64Impl c) (·.1 < ·.1) True (.forced (nzI64Impl c))
  | nzUsize : Checked c _ (nzUsizeImpl c) (·.1 < ·.1) True .always
  | nzIsize : Checked c _ (nzIsizeImpl c) (·.1 < ·.1) True .always
  | box {α A lt s a} : Checked c α A lt s a → Checked c _ (boxImpl A) (fun a b => lt a.unbox b.unbox) s a.box
  | option {α A lt s a} : Checked c α A lt s a →
      Checked c _ (optionImpl c A) (optionLt lt) s (a.option (optionImpl c A))
  | result {α β A B ltA ltB s s' a b} : Checked c α A ltA s a → Checked c β B ltB s' b →
      Checked c _ (resultImpl c A B) (sumLt ltA ltB) s' (a.result (resultImpl c A B) b)
  | either {α β A B ltA ltB s s' a b} : Checked c α A ltA s a → Checked c β B ltB s' b →
      Checked c _ (eitherImpl c A B) (sumLt ltA ltB) s' (a.result (eitherImpl c A B) b)
  | array {α A lt s a} (N : Nat) : Checked c α A lt s a →
      Checked c _ (arrayImpl c N A) (arrayLt lt) True (a.array N (arrayImpl c N A))
  | tuple {ι : Type} [DecidableEq ι] {Ty : Types ι} {lt : ∀ t, Ty.T t → Ty.T t → Prop}
      {s : ι → Prop} {a : ι → Accepts} (comp : ∀ t, Checked c (Ty.T t) (Ty.impl t) (lt t) (s t) (a t)) (tys : List ι)
      (used : ∀ t, t ∈ tys ∨ ∃ n, (Ty.impl t).size = .ok n) (h16 : tys.length ≤ 16) :
      Checked c _ (tupleImpl c Ty tys) (fun x y => FieldsLt lt x.1 y.1) True (.fields (tupleImpl c Ty tys) tys a)
  | struct {ι : Type} [DecidableEq ι] {Ty : Types ι} {lt : ∀ t, Ty.T t → Ty.T t → Prop}
      {s : ι → Prop} {a : ι → Accepts} (comp : ∀ t, Checked c (Ty.T t) (Ty.impl t) (lt t) (s t) (a t)) (fs : Fields ι)
      (used : ∀ t, t ∈ fieldTypes fs ∨ ∃ n, (Ty.impl t).size = .ok n) (hw : fs.WF) :
      Checked c _ (structImpl c Ty fs) (fun x y => FieldsLt lt x.1 y.1) True
        (.fields (structImpl c Ty fs) (fieldTypes fs) a)
  | enum {ι : Type} [DecidableEq ι] {Ty : Types ι} {lt : ∀ t, Ty.T t → Ty.T t → Prop}
      {s : ι → Prop} {a : ι → Accepts} (comp : ∀ t, Checked c (Ty.T t) (Ty.impl t) (lt t) (s t) (a t))
      (vs : List (Fields ι))
      (used : ∀ t, (∃ v ∈ vs, t ∈ fieldTypes v) ∨ ∃ n, (Ty.impl t).size = .ok n)
      (hw : ∀ v ∈ vs, v.WF) :
      Checked c _ (enumImpl c Ty vs) (fun x y => EnumLt lt x.1 y.1) True
        (.fields (enumImpl c Ty vs) (vs.flatMap fieldTypes) a)

variable {c : Cfg} {α : Type} {I : OrdinalImpl α} {lt : α → α → Prop} {s : Prop} {a : Accepts}

theorem Checked.built (h : Checked c α I lt s a) : Built c α I lt s := by
  induction h with
  | box _ ih => exact .box ih
  | option _ ih => exact .option ih
  | result _ _ ih1 ih2 => exact .result ih1 ih2
  | either _ _ ih1 ih2 => exact .either ih1 ih2
  | array N _ ih => exact .array N ih
  | tuple _ tys used h16 ih => exact .tuple ih tys used h16
  | struct _ fs used hw ih => exact .struct ih fs used hw
  | enum _ vs used hw ih => exact .enum ih vs used hw
  | _ => constructor

/-- C94: every type built from the impls of the crate has a verdict. -/
theorem C94_all_types (h : Built c α I lt s) : ∃ a, Checked c α I lt s a := by
  induction h with
  | box _ ih => exact ih.elim fun _ h => ⟨_, .box h⟩
  | option _ ih => exact ih.elim fun _ h => ⟨_, .option h⟩
  | result _ _ ih1 ih2 => exact ih1.elim fun _ h1 => ih2.elim fun _ h2 => ⟨_, .result h1 h2⟩
  | either _ _ ih1 ih2 => exact ih1.elim fun _ h1 => ih2.elim fun _ h2 => ⟨_, .either h1 h2⟩
  | array N _ ih => exact ih.elim fun _ h => ⟨_, .array N h⟩
  | tuple _ tys used h16 ih => exact ⟨_, .tuple (fun t => (ih t).choose_spec) tys used h16⟩
  | struct _ fs used hw ih => exact ⟨_, .struct (fun t => (ih t).choose_spec) fs used hw⟩
  | enum _ vs used hw ih => exact ⟨_, .enum (fun t => (ih t).choose_spec) vs used hw⟩
  | _ => exact ⟨_, by constructor⟩

/-- Does not run into a constant without value. -/
def NoCE {β : Type} (r : R β) : Prop := r ≠ .error .compileError

theorem NoCE.bind {β γ : Type} {x : R β} {f : β → R γ} (h : NoCE x) (hf : ∀ b, NoCE (f b)) : NoCE (x >>= f) := by
  cases x with
  | error e => exact fun he => h (by cases he; rfl)
  | ok b => exact hf b

theorem NoCE.pass {β γ : Type} {b : β} {f : β → R γ} (h : NoCE (f b)) : NoCE ((.ok b : R β) >>= f) := h
theorem NoCE.ok {β : Type} (b : β) : NoCE (.ok b : R β) := fun h => by cases h
theorem NoCE.add (c : Cfg) (x y : Nat) : NoCE (addU c x y) := fun h => by
  simp only [addU] at h; split at h <;> try split at h
  all_goals cases h
theorem NoCE.sub (c : Cfg) (x y : Nat) : NoCE (subU c x y) := fun h => by
  simp only [subU] at h; split at h <;> try split at h
  all_goals cases h
theorem NoCE.div (x y : Nat) : NoCE (divU x y) := fun h => by
  simp only [divU] at h; split at h <;> cases h
theorem NoCE.unwrap {β : Type} (o : Option β) : NoCE (unwrap o) := fun h => by cases o <;> cases h
theorem NoCE.assert (b : Bool) : NoCE (OrdinalMap.assert b) := fun h => by cases b <;> cases h

theorem NoCE.mapM {β γ : Type} {f : β → R γ} (h : ∀ x, NoCE (f x)) (l : List β) : NoCE (l.mapM f) := by
  induction l with
  | nil => exact NoCE.ok _
  | cons x l ih =>
    rw [List.mapM_cons]
    exact NoCE.bind (h x) fun y => NoCE.bind ih fun ys => NoCE.ok _

theorem NoCE.transmute {β : Type} (l : List (Option β)) : NoCE (ArrayBuilder.transmute l) := by
  induction l with
  | nil => exact NoCE.ok _
  | cons o l ih =>
    cases o with
    | none => exact fun h => by cases h
    | some x => exact NoCE.bind ih fun ys => NoCE.ok _

theorem NoCE.finish {β : Type} (b : ArrayBuilder β) : NoCE b.finish := by
  refine NoCE.bind ?_ fun f => NoCE.unwrap _
  simp only [ArrayBuilder.tryFinish]
  split
  · refine NoCE.bind (NoCE.assert _) fun _ => NoCE.bind (NoCE.mapM (fun i => ?_) _) fun d => NoCE.ok _
    simp only [ArrayBuilder.dropCell]
    split <;> exact fun h => by cases h
  · exact NoCE.bind (NoCE.transmute _) fun a => NoCE.ok _

/-- What C94 says of one type. -/
structure Fine (c : Cfg) (I : OrdinalImpl α) (a : Accepts) : Prop where
  /-- An accepted constant has a value. -/
  size : a.size → ∃ n, I.size = .ok n
  /-- If the constant is accepted, so are the functions. -/
  enough : a.size → a.ordinal ∧ a.fromOrdinal
  /-- Accepted functions do not run into a constant without value. -/
  ordinal : a.ordinal → ∀ x, I.ordinal x ≠ .error .compileError
  fromOrdinal : a.fromOrdinal → ∀ i, i < c.M → I.fromOrdinal i ≠ .error .compileError
  /-- A constant with a value is accepted, if its evaluation reaches all it mentions. -/
  exact : a.reached → (∃ n, I.size = .ok n) → a.size

theorem lawful_fine {n : Nat} (L : Lawful c I n) (S : Strict c I n) :
    (∀ x, I.ordinal x ≠ .error .compileError) ∧ ∀ i, i < c.M → I.fromOrdinal i ≠ .error .compileError := by
  constructor
  · intro x h
    obtain ⟨i, -, hi, -⟩ := L.ordinal x
    rw [hi] at h; cases h
  · intro i hi h
    by_cases hn : i < n
    · obtain ⟨x, hx, -⟩ := L.fromOrdinal i hn
      rw [hx] at h; cases h
    · rw [S i (by omega) hi] at h; cases h

theorem fine_always {n : Nat} (L : Lawful c I n) (S : Strict c I n) : Fine c I .always :=
  ⟨fun _ => ⟨n, L.size⟩, fun _ => ⟨trivial, trivial⟩, fun _ => (lawful_fine L S).1, fun _ => (lawful_fine L S).2,
    fun _ _ => trivial⟩

theorem fine_forced (h : ∀ n, I.size = .ok n → Lawful c I n ∧ Strict c I n) : Fine c I (.forced I) :=
  ⟨id, fun h => ⟨h, h⟩, fun ⟨_, hn⟩ => (lawful_fine (h _ hn).1 (h _ hn).2).1,
    fun ⟨_, hn⟩ => (lawful_fine (h _ hn).1 (h _ hn).2).2, fun _ h => h⟩

theorem fine_fields {ι : Type} {Ty : Types ι} {aa : ι → Accepts} {tys : List ι} (hg : GoodType c I lt True)
    (ih : ∀ t, Fine c (Ty.impl t) (aa t)) (hs : ∀ t, (∃ n, (Ty.impl t).size = .ok n) ∨ (Ty.impl t).size = .error .compileError)
    (hrej : ∀ t ∈ tys, (Ty.impl t).size = .error .compileError → I.size = .error .compileError) :
    Fine c I (.fields I tys aa) where
  size h := h.1
  enough h := ⟨⟨h, fun t ht => ((ih t).enough (h.2 t ht)).1⟩, ⟨h, fun t ht => ((ih t).enough (h.2 t ht)).2⟩⟩
  ordinal h := by
    obtain ⟨⟨⟨n, hn⟩, -⟩, -⟩ := h
    exact (lawful_fine (hg.lawful n hn) (hg.strict n hn trivial)).1
  fromOrdinal h := by
    obtain ⟨⟨⟨n, hn⟩, -⟩, -⟩ := h
    exact (lawful_fine (hg.lawful n hn) (hg.strict n hn trivial)).2
  exact hr := by
    rintro ⟨n, hn⟩
    refine ⟨⟨n, hn⟩, fun t ht => (ih t).exact (hr t ht) ((hs t).resolve_right fun hb => ?_)⟩
    rw [hrej t ht hb] at hn; cases hn

theorem fine_result {β : Type} {A : OrdinalImpl α} {B : OrdinalImpl β} {a b : Accepts} (FA : Fine c A a) (FB : Fine c B b)
    (hA : (∃ n, A.size = .ok n) ∨ A.size = .error .compileError)
    (hB : (∃ n, B.size = .ok n) ∨ B.size = .error .compileError) (hM : ∀ n, A.size = .ok n → n < c.M) :
    Fine c (resultImpl c A B) (a.result (resultImpl c A B) b) where
  size h := h.1
  enough h := ⟨⟨h.2.1, (FA.enough h.2.1).1, (FB.enough h.2.2).1⟩, h.2.1, (FA.enough h.2.1).2, (FB.enough h.2.2).2⟩
  ordinal h x := by
    obtain ⟨n, hn⟩ := FA.size h.1
    cases x with
    | inl x => exact FA.ordinal h.2.1 x
    | inr x =>
      simp only [resultImpl, hn]
      exact NoCE.pass (NoCE.bind (FB.ordinal h.2.2 x) fun j => NoCE.add _ _ _)
  fromOrdinal h i hi := by
    obtain ⟨n, hn⟩ := FA.size h.1
    have hn' := hM n hn
    simp only [resultImpl, hn]
    show NoCE (if i < n then _ else _)
    split
    · exact NoCE.bind (FA.fromOrdinal h.2.1 i hi) fun o => NoCE.bind (NoCE.unwrap _) fun x => NoCE.ok _
    · show NoCE (subU c i n >>= _)
      rw [show subU c i n = .ok (i - n) from if_pos (by omega)]
      exact NoCE.pass (NoCE.bind (FB.fromOrdinal h.2.2 _ (by omega)) fun o => NoCE.ok _)
  exact := by
    rintro ⟨ra, rb⟩ ⟨n, hn⟩
    refine ⟨⟨n, hn⟩, FA.exact ra (hA.resolve_right fun h => ?_), FB.exact rb (hB.resolve_right fun h => ?_)⟩
    · simp only [resultImpl, h] at hn; cases hn
    · rcases hA with ⟨m, hm⟩ | hm
      · simp only [resultImpl, h, hm] at hn; cases hn
      · simp only [resultImpl, hm] at hn; cases hn

/-- C94: a program that uses a type of any nesting depth. -/
theorem C94_compiles (h : Checked c α I lt s a) : Fine c I a := by
  have good := fun {α : Type} {I : OrdinalImpl α} {lt s a} (h : Checked c α I lt s a) => C60_nested h.built
  obtain ⟨p1, p2, p3, p4, p5, p6, p7⟩ := C01_primitives c
  obtain ⟨z1, z2, z3, z4, z5, z6, z7, z8, -, -⟩ := C02_nonzero c
  have hg := good h
  induction h with
  | bool => exact fine_always p1.1 p1.2
  | ordering => exact fine_always (ordering_lawful c).1 (ordering_lawful c).2
  | infallible => exact fine_always (infallible_lawful c).1 (infallible_lawful c).2
  | char =>
    have L := C03_char c
    refine ⟨fun _ => ⟨_, L.size⟩, fun _ => ⟨trivial, trivial⟩, fun _ x h => ?_, fun _ i _ h => ?_, fun _ _ => trivial⟩
    · obtain ⟨i, -, hi, -⟩ := L.ordinal x
      rw [hi] at h; cases h
    · simp only [charImpl] at h
      split at h <;> cases h
  | u8 => exact fine_always p2.1 p2.2
  | i8 => exact fine_always p3.1 p3.2
  | u16 => exact fine_always p4.1 p4.2
  | i16 => exact fine_always p5.1 p5.2
  | u32 =>
    refine ⟨id, fun h => ⟨h, trivial⟩, ?_, fun _ i _ => NoCE.ok _, fun _ h => h⟩
    rintro ⟨n, hn⟩
    exact (lawful_fine (hg.lawful n hn) (hg.strict n hn trivial)).1
  | i32 => exact fine_forced fun n hn => ⟨hg.lawful n hn, hg.strict n hn trivial⟩
  | nzU64 => exact fine_forced fun n hn => ⟨hg.lawful n hn, hg.strict n hn trivial⟩
  | nzI64 => exact fine_forced fun n hn => ⟨hg.lawful n hn, hg.strict n hn trivial⟩
  | nzU8 => exact fine_always z1.1 z1.2
  | nzI8 => exact fine_always z2.1 z2.2
  | nzU16 => exact fine_always z3.1 z3.2
  | nzI16 => exact fine_always z4.1 z4.2
  | nzU32 => exact fine_always z5.1 z5.2
  | nzI32 => exact fine_always z6.1 z6.2
  | nzUsize => exact fine_always z7.1 z7.2
  | nzIsize => exact fine_always z8.1 z8.2
  | @box α A lt s a h ih =>
    have F := ih (good h)
    refine ⟨F.size, F.enough, fun h x => F.ordinal h x.unbox, fun h i hi => ?_, F.exact⟩
    exact NoCE.bind (F.fromOrdinal h i hi) fun o => by cases o <;> exact NoCE.ok _
  | @option α A lt s a h ih =>
    have F := ih (good h)
    refine ⟨fun h => h.1, fun h => F.enough h.2, fun h x => ?_, fun h i hi => ?_, ?_⟩
    · cases x with
      | none => exact NoCE.ok _
      | some x => exact NoCE.bind (F.ordinal h x) fun j => NoCE.add c j 1
    · simp only [optionImpl]
      split
      · exact NoCE.ok _
      · rename_i h0
        rw [show subU c i 1 = .ok (i - 1) from if_pos (by omega)]
        exact NoCE.pass (NoCE.bind (F.fromOrdinal h (i - 1) (by omega)) fun o => NoCE.ok _)
    · rintro hr ⟨n, hn⟩
      refine ⟨⟨n, hn⟩, F.exact hr ((good h).size.resolve_right fun hb => ?_)⟩
      simp only [optionImpl, hb] at hn
      cases hn
  | @result α β A B ltA ltB s s' a b hA hB ihA ihB =>
    exact fine_result (ihA (good hA)) (ihB (good hB)) (good hA).size (good hB).size
      (fun n hn => ((good hA).lawful n hn).fits)
  | @either α β A B ltA ltB s s' a b hA hB ihA ihB =>
    have F := fine_result (ihA (good hA)) (ihB (good hB)) (good hA).size (good hB).size
      (fun n hn => ((good hA).lawful n hn).fits)
    exact ⟨F.size, F.enough, F.ordinal, F.fromOrdinal, F.exact⟩
  | @array α A lt s a N h ih =>
    have F := ih (good h)
    refine ⟨fun h => h.1, fun h => ⟨⟨h.2, (F.enough h.2).1⟩, h.2, (F.enough h.2).2⟩, fun h x => ?_, fun h i hi => ?_, ?_⟩
    · obtain ⟨n, hn⟩ := F.size h.1
      have : ∀ (l : List α) (r : Nat), NoCE (arrayOrdinalLoop c A l r) := by
        intro l
        induction l with
        | nil => exact fun r => NoCE.ok _
        | cons v l ih =>
          intro r
          simp only [arrayOrdinalLoop, hn]
          exact NoCE.pass (NoCE.bind (NoCE.unwrap _) fun r => NoCE.bind (F.ordinal h.2 v) fun o => NoCE.bind (NoCE.add _ _ _) fun r => ih r)
      exact this x.1 0
    · obtain ⟨n, hn⟩ := F.size h.1
      have hnM := ((good ‹_›).lawful n hn).fits
      have : ∀ (k i : Nat) (b : ArrayBuilder α), NoCE (arrayFromLoop A k i b) := by
        intro k
        induction k with
        | zero => exact fun i b => NoCE.ok _
        | succ k ih =>
          intro i b
          simp only [arrayFromLoop, hn]
          show NoCE (match checkedRem i n with | none => _ | some i => _)
          simp only [checkedRem]
          split
          · exact NoCE.ok _
          · rename_i heq
            split at heq
            · cases heq
            · cases heq
              refine NoCE.bind (F.fromOrdinal h.2 _ ?_) fun o => NoCE.bind (NoCE.unwrap _) fun x => NoCE.bind ?_ fun b =>
                NoCE.pass (NoCE.bind (NoCE.div _ _) fun q => ih q b)
              · exact Nat.lt_trans (Nat.mod_lt _ (by omega)) hnM
              · exact NoCE.bind (NoCE.assert _) fun _ => NoCE.ok _
      refine NoCE.bind (this N i _) fun o => ?_
      rcases o with _ | ⟨n, b⟩
      · exact NoCE.ok _
      · show NoCE (if n ≠ 0 then _ else _)
        split
        · exact NoCE.ok _
        · refine NoCE.bind (NoCE.finish b) fun l => ?_
          show NoCE (if h : _ then _ else _)
          split
          · exact NoCE.ok _
          · exact fun h => by cases h
    · rintro ⟨h0, hr⟩ ⟨n, hn⟩
      refine ⟨⟨n, hn⟩, F.exact hr ((good h).size.resolve_right fun hb => ?_)⟩
      obtain ⟨N, rfl⟩ := Nat.exists_eq_succ_of_ne_zero h0
      simp only [arrayImpl, arraySizeLoop, hb] at hn
      cases hn
  | @tuple ι _ Ty lt s a comp tys used h16 ih =>
    exact fine_fields hg (fun t => ih t (good (comp t))) (fun t => (good (comp t)).size) fun t ht hb =>
      tuple_rejected (fun t => (good (comp t)).size) tys h16 t ht hb
  | @struct ι _ Ty lt s a comp fs used hw ih =>
    exact fine_fields hg (fun t => ih t (good (comp t))) (fun t => (good (comp t)).size) fun t ht hb =>
      struct_rejected (fun t => (good (comp t)).size) fs t ht hb
  | @enum ι _ Ty lt s a comp vs used hw ih =>
    refine fine_fields hg (fun t => ih t (good (comp t))) (fun t => (good (comp t)).size) fun t ht hb => ?_
    obtain ⟨v, hv, ht⟩ := List.mem_flatMap.1 ht
    exact enum_rejected (fun t => (good (comp t)).size) vs hw v hv t ht hb

example := C94_compiles (Checked.option (.array 2 (.u32 (c := debug32))))

/-- C94, numbers: a type is accepted with `ORDINAL_SIZE` only if its values can be listed and the length of the list is
a `usize`; and then `ORDINAL_SIZE`, `ordinal` and `from_ordinal` can all be used, and obey the laws. -/
theorem C94_count (h : Checked c α I lt s a) (hs : a.size) : ∃ n, ∃ l : List α,
    I.size = .ok n ∧ l.length = n ∧ n < c.M ∧ l.Nodup ∧ (∀ x, x ∈ l) ∧ Lawful c I n ∧ a.ordinal ∧ a.fromOrdinal := by
  obtain ⟨n, hn⟩ := (C94_compiles h).size hs
  obtain ⟨l, h1, h2, h3, -⟩ := C60_count h.built n hn
  have L := (C60_nested h.built).lawful n hn
  exact ⟨n, l, hn, h1, L.fits, h2, h3, L, (C94_compiles h).enough hs⟩

example := C94_count (Checked.option (.array 2 (.bool (c := debug32)))) ⟨⟨5, rfl⟩, ⟨4, rfl⟩, trivial⟩

/-- C94, derived types: with `#[derive(Ordinal)]` and for tuples each of the three uses is accepted if and only if the
others are.  (`t` ranges over the field types.) -/
theorem C94_derived {ι : Type} {Ty : Types ι} {lt : ∀ t, Ty.T t → Ty.T t → Prop} {s : ι → Prop} {a : ι → Accepts}
    (comp : ∀ t, Checked c (Ty.T t) (Ty.impl t) (lt t) (s t) (a t)) (I : OrdinalImpl α) (tys : List ι) :
    ((Accepts.fields I tys a).ordinal ↔ (Accepts.fields I tys a).size) ∧
    ((Accepts.fields I tys a).fromOrdinal ↔ (Accepts.fields I tys a).size) :=
  ⟨⟨fun h => h.1, fun h => ⟨h, fun t ht => ((C94_compiles (comp t)).enough (h.2 t ht)).1⟩⟩,
    ⟨fun h => h.1, fun h => ⟨h, fun t ht => ((C94_compiles (comp t)).enough (h.2 t ht)).2⟩⟩⟩

/-- `(NonZeroU64, bool)` on a 32-bit target: nothing is accepted. -/
example :
    let Ty : Types Bool := ⟨fun b => match b with | true => NZU 64 | false => Bool, fun b => match b with
      | true => nzU64Impl debug32
      | false => boolImpl⟩
    let a : Bool → Accepts := fun b => match b with
      | true => .forced (nzU64Impl debug32)
      | false => .always
    let r := Accepts.fields (tupleImpl debug32 Ty [true, false]) [true, false] a
    ¬ r.size ∧ ¬ r.ordinal ∧ ¬ r.fromOrdinal := by
  intro Ty a r
  have h : ¬ r.size := by
    rintro ⟨⟨n, hn⟩, -⟩
    have : (tupleImpl debug32 Ty [true, false]).size = .error .compileError := by rfl
    rw [this] at hn; cases hn
  exact ⟨h, fun h' => h h'.1, fun h' => h h'.1⟩

/-- C94, the functions without the constant: hand-written impls are not like that.  `Option<NonZeroUsize>` has more
values than a `usize` can count; `ordinal` and `from_ordinal` are accepted nevertheless.  And the compiler is stricter
than the evaluation: on 32-bit targets `<[u32; 0]>::ORDINAL_SIZE` is rejected, though it would evaluate to 1. -/
theorem C94_handwritten (c : Cfg) :
    (∃ a, Checked c _ (optionImpl c (nzUsizeImpl c)) (optionLt (·.1 < ·.1)) True a ∧ a.ordinal ∧ a.fromOrdinal ∧ ¬ a.size) ∧
    (∃ a, Checked c _ (arrayImpl c 0 (u32Impl c)) (arrayLt (·.1 < ·.1)) True a ∧ (arrayImpl c 0 (u32Impl c)).size = .ok 1 ∧
      (a.size ↔ c.bits = 64)) := by
  refine ⟨⟨_, .option .nzUsize, trivial, trivial, ?_⟩, ⟨_, .array 0 .u32, rfl, ?_⟩⟩
  · rintro ⟨⟨n, hn⟩, -⟩
    have := c.M_ge
    simp [optionImpl, nzUsizeImpl, usizeMax, addC] at hn
    have : c.M - 1 + 1 = c.M := by omega
    simp [this] at hn
  · constructor
    · rintro ⟨-, n, hn⟩
      rcases c.bits_ok with hb | hb
      · rw [(C01_32bit_rejected c hb).1] at hn; cases hn
      · exact hb
    · intro hb
      exact ⟨⟨1, rfl⟩, _, ((C01_primitives c).2.2.2.2.2.1 hb).1.size⟩

end OrdinalMap.Props
