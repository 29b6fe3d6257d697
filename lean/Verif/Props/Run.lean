import Verif.Lemmas.RunItems
import Verif.Props.Source
import Verif.Props.Derive
/-!
# C87: running the emitted text

Whatever rustc reads the emitted text as, running that is the impl the other properties are about.
-/

namespace OrdinalMap.Props
open OrdinalMap OrdinalMap.Derive OrdinalMap.Derive.Src

variable {ι : Type} [DecidableEq ι] (c : Cfg) (Ty : Types ι)

/-- `from_ordinal` from its body. -/
theorem fromOrdinalOfImpl_eq {d : Decl ι} {A : Impl ι} {b : B ι} {i : Nat} {r : R (Option (Nat × List Ty.Val))}
    (hd : d.ctor [.Self, .id (.user "ORDINAL_SIZE")] = none)
    (hb : A.fromOrdinal = fromOrdinalFn b) (hp : A.param = ordinalVar)
    (h : fnVal (runB c d (sizeOfImpl c d Ty A) none .runtime b [(ordinalVar, false, .num i)]) = optVal r) :
    fromOrdinalOfImpl c d Ty A i =
      (sizeOfImpl c d Ty A >>= fun n => if n = 0 then .ok none else r) := by
  rw [fromOrdinalOfImpl, hb, hp, run_fromOrdinalFn hd, h]
  cases sizeOfImpl c d Ty A with
  | error f => rfl
  | ok n =>
    simp only [ok_bind]
    by_cases hn : n = 0
    · simp [hn]
    · simp only [hn, ↓reduceIte]
      match r with
      | .error f => rfl
      | .ok none => rfl
      | .ok (some p) => rfl

/-- The common part of structs and tuples. -/
theorem text_struct (d : Decl ι) (k : Ctor) (fs : Fields ι) (g : GenStruct ι) (hc : g.check fs = true)
    (hd : d.ctor [.Self, .id (.user "ORDINAL_SIZE")] = none)
    (href : ∀ (l : List Ty.Val) (size : R Nat) (env : VEnv Ty), l.map Sigma.fst = fieldTypes fs →
      ∀ r ∈ fieldRefExprs fs, ∃ v, (selfRefs Ty fs l).lookup r = some v ∧
        runE c d size (some (0, l)) .runtime (refTree r) env = .ok (.val (.fldRef v), env))
    (hbuild : ∀ (size : R Nat) (ctx' : Ctx ι) (old' : Env Ty) (env' : VEnv Ty), RelV ctx' old' env' →
      g.fromOrdinal.build.check ctx' fs = true →
      ∃ l, g.fromOrdinal.build.eval Ty old' fs = .ok l ∧ l.map Sigma.fst = fieldTypes fs ∧
        runE c d size none .runtime (buildTree k g.fromOrdinal.build) env' = .ok (.val (.obj 0 l), env')) :
    structText c Ty d (fieldTypes fs) (structTree k g) = g.toImpl c Ty fs := by
  simp only [GenStruct.check, Bool.and_eq_true] at hc
  obtain ⟨⟨h1, h2⟩, h3⟩ := hc
  have hsz : sizeOfImpl c d Ty (structTree k g) = g.size.eval c Ty [] [] .const :=
    sizeOfImpl_eq _ g.size rfl h1
  unfold structText GenStruct.toImpl
  simp only [OrdinalImpl.mk.injEq]
  refine ⟨hsz, ?_, ?_⟩
  · funext v
    rw [ordinalOfImpl, hsz]
    simp only [structTree]
    rw [run_ordinalFn hd]
    cases g.size.eval c Ty [] [] .const with
    | error f => rfl
    | ok n =>
      simp only [ok_bind]
      rw [run_expr (relV_nil _) (href v.1 _ _ v.2) g.ordinal h2]
      cases g.ordinal.eval c Ty (selfRefs Ty fs v.1) [] .runtime <;> rfl
  · funext i
    have hblk := run_block (c := c) (d := d) (size := sizeOfImpl c d Ty (structTree k g)) (self := none)
      (relV_param (Ty := Ty) i) fs k 0 g.fromOrdinal h3 (hbuild _)
    have hopt : fnVal (runB c d (sizeOfImpl c d Ty (structTree k g)) none .runtime (blockTree k g.fromOrdinal)
        [(ordinalVar, false, .num i)]) =
        optVal ((g.fromOrdinal.exec c Ty [(ordinalVar, .num i)] fs).map (Option.map fun l => (0, l))) := by
      rcases hblk with ⟨f, e1, e2⟩ | ⟨e1, env', e2⟩ | ⟨l, env', e1, _, e2⟩ <;> rw [e1, e2] <;> rfl
    rw [fromOrdinalOfImpl_eq c Ty hd rfl rfl hopt, hsz]
    cases g.size.eval c Ty [] [] .const with
    | error f => rfl
    | ok n =>
      simp only [ok_bind]
      by_cases hn : n = 0
      · simp [hn]
      · simp only [hn, ↓reduceIte]
        cases g.fromOrdinal.exec c Ty [(ordinalVar, .num i)] fs with
        | error f => rfl
        | ok o => cases o <;> rfl

/-- C87 for structs. -/
theorem C87_struct (fs : Fields ι) (hw : fs.WF) (hr : ¬ HasReserved fs) (ts : List (T ι)) (hts : structSrc fs = .ok ts)
    (A : Impl ι) (hA : ReadsImpl ts A) :
    structText c Ty (.struct fs) (fieldTypes fs) A = structImpl c Ty fs := by
  obtain ⟨x, e, -, -, -, hg⟩ := genStruct_ok fs
  obtain ⟨ts', h1, h2⟩ := C86_struct fs _ hg
  rw [hts] at h1
  cases h1
  cases C86_unique hA h2
  have hc := (struct_check fs hw _ hg).2 ((noClash_iff fs).2 hr)
  rw [structImpl, hg]
  simp only [hc, ↓reduceIte]
  refine text_struct c Ty _ _ fs _ hc rfl (fun l size env hl => run_selfRef fs hw l hl env) ?_
  intro size ctx' old' env' hrel hchk
  exact run_build hrel fs hw hchk [] 0 rfl

example := C87_struct debug64 exTypes (.named [("x", .u16), ("y", .bool)])
  (by simp [Fields.WF]) (by simp [HasReserved, reservedNames, HasField]) _ rfl

/-- C87 for structs: the text can be read, and run as it reads it is a lawful impl. -/
theorem C87_struct_lawful {sz : ι → Nat} (L : ∀ t, Lawful c (Ty.impl t) (sz t)) (fs : Fields ι) (hw : fs.WF)
    (hr : ¬ HasReserved fs) :
    ∃ ts, structSrc fs = .ok ts ∧ (∃ A, ReadsImpl ts A) ∧ ∀ A, ReadsImpl ts A → ∀ n,
      sizeOfImpl c (.struct fs) Ty A = .ok n → n = structCount sz (fieldTypes fs) ∧
        Lawful c (structText c Ty (.struct fs) (fieldTypes fs) A) n ∧
        Strict c (structText c Ty (.struct fs) (fieldTypes fs) A) n := by
  obtain ⟨x, e, -, -, -, hg⟩ := genStruct_ok fs
  obtain ⟨ts, h1, h2⟩ := C86_struct fs _ hg
  refine ⟨ts, h1, ⟨_, h2⟩, fun A hA n hn => ?_⟩
  have h := C87_struct c Ty fs hw hr ts h1 A hA
  rw [h]
  exact C08_structs c Ty sz L fs hw n (by rw [← h]; exact hn)

example := C87_struct_lawful debug64 exTypes exTypes_lawful (.named [("x", .u16), ("y", .bool)])
  (by simp [Fields.WF]) (by simp [HasReserved, reservedNames, HasField])

/-- C87 for tuples. -/
theorem C87_tuple (tys : List ι) (h16 : tys.length ≤ 16) (ts : List (T ι)) (hts : tupleSrc tys = .ok ts)
    (A : Impl ι) (hA : ReadsImpl ts A) :
    structText c Ty (.tuple tys) tys A = tupleImpl c Ty tys := by
  obtain ⟨x, e, _, _, h3, hg⟩ := genTuple_ok tys
  obtain ⟨ts', h1, h2⟩ := C86_tuple tys _ hg
  rw [hts] at h1
  cases h1
  cases C86_unique hA h2
  have hc := tuple_check tys h16 x h3
  rw [tupleImpl, if_pos h16, hg]
  simp only [hc, ↓reduceIte]
  refine text_struct c Ty (.tuple tys) .tuple (.unnamed tys) _ hc rfl
    (fun l size env hl => run_selfRefTuple tys l hl env) ?_
  intro size ctx' old' env' hrel hchk
  exact run_buildTuple hrel tys _ hchk

example := C87_tuple debug64 exTypes [.u16, .bool, .ordering] (by decide) _ rfl

/-- C87 for tuples: the text can be read, and run as it reads it is a lawful impl. -/
theorem C87_tuple_lawful {sz : ι → Nat} (L : ∀ t, Lawful c (Ty.impl t) (sz t)) (tys : List ι) (h16 : tys.length ≤ 16) :
    ∃ ts, tupleSrc tys = .ok ts ∧ (∃ A, ReadsImpl ts A) ∧ ∀ A, ReadsImpl ts A → ∀ n,
      sizeOfImpl c (.tuple tys) Ty A = .ok n → n = structCount sz tys ∧
        Lawful c (structText c Ty (.tuple tys) tys A) n ∧ Strict c (structText c Ty (.tuple tys) tys A) n := by
  obtain ⟨x, e, -, -, -, hg⟩ := genTuple_ok tys
  obtain ⟨ts, h1, h2⟩ := C86_tuple tys _ hg
  refine ⟨ts, h1, ⟨_, h2⟩, fun A hA n hn => ?_⟩
  have h := C87_tuple c Ty tys h16 ts h1 A hA
  rw [h]
  exact C07_tuples c Ty sz L tys h16 n (by rw [← h]; exact hn)

example := C87_tuple_lawful debug64 exTypes exTypes_lawful [.u16, .bool, .ordering] (by decide)

/-- C87 for enums. -/
theorem C87_enum (vs : List (String × Fields ι)) (hn : (vs.map (·.1)).Nodup) (hsz : "ORDINAL_SIZE" ∉ vs.map (·.1))
    (hw : ∀ p ∈ vs, p.2.WF) (hr : ∀ p ∈ vs, ¬ HasReserved p.2) (h64 : vs.length < 2 ^ 64) (ts : List (T ι))
    (hts : enumSrc vs = .ok ts) (A : Impl ι) (hA : ReadsImpl ts A) :
    enumText c Ty vs A = enumImpl c Ty (vs.map (·.2)) := by
  have h64' : (vs.map (·.2)).countP noFields < 2 ^ 64 :=
    Nat.lt_of_le_of_lt List.countP_le_length (by simpa using h64)
  have hw' : ∀ v ∈ vs.map (·.2), v.WF := by
    intro v hv
    obtain ⟨p, hp, rfl⟩ := List.mem_map.1 hv
    exact hw p hp
  have hnc : ∀ p ∈ vs, NoClash p.2 := fun p hp => (noClash_iff _).2 (hr p hp)
  obtain ⟨g, arms, hg, -, hgo, hal, ha, hfl, hf, hchk⟩ := genEnum_ok (vs.map (·.2)) h64' hw'
  have hc : g.check (vs.map (·.2)) = true := hchk.2 (by
    intro v hv
    obtain ⟨p, hp, rfl⟩ := List.mem_map.1 hv
    exact hnc p hp)
  obtain ⟨ts', h1, h2⟩ := C86_enum vs _ hg
  rw [hts] at h1
  cases h1
  cases C86_unique hA h2
  rw [enumImpl, hg]
  simp only [hc, ↓reduceIte]
  simp only [GenEnum.check, Bool.and_eq_true, List.all_eq_true] at hc
  obtain ⟨⟨⟨hc1, hc2⟩, -⟩, hc4⟩ := hc
  have hd : Decl.ctor (.enum vs) [.Self, .id (.user "ORDINAL_SIZE")] = none :=
    variantOf_none _ vs hsz 0
  have hsize : sizeOfImpl c (.enum vs) Ty (enumTree (vs.map (·.1)) g) = g.size.eval c Ty [] [] .const :=
    sizeOfImpl_eq _ g.size rfl hc1
  unfold enumText GenEnum.toImpl
  simp only [OrdinalImpl.mk.injEq]
  refine ⟨hsize, ?_, ?_⟩
  · funext x
    obtain ⟨⟨k, l⟩, v, hk, hl⟩ := x
    obtain ⟨p, hp, rfl⟩ : ∃ p, vs[k]? = some p ∧ p.2 = v := by
      simpa only [List.getElem?_map, Option.map_eq_some_iff] using hk
    have hne : (vs.map (·.2)).isEmpty = false := by
      cases vs with
      | nil => simp at hk
      | cons _ _ => rfl
    rw [hne] at hgo
    simp only [Bool.false_eq_true, ↓reduceIte] at hgo
    obtain ⟨a, hka, -⟩ := ha k p.2 (by simp [hp])
    rw [ordinalOfImpl, hsize]
    simp only [enumTree, hgo]
    rw [run_ordinalFn hd]
    cases g.size.eval c Ty [] [] .const with
    | error f => rfl
    | ok n =>
      simp only [ok_bind]
      rw [runE, Ev.bind, runE]
      simp only [Ev.ok]
      have harm : ∀ q ∈ vs.zip arms, q.2.1 = variantPat q.1.2 ∧ q.2.2.check ((fieldVars q.1.2).map .var) [] = true := by
        intro q hq
        obtain ⟨j, hj, rfl⟩ := List.mem_iff_getElem.1 hq
        simp only [List.length_zip] at hj
        have hj1 : j < vs.length := by omega
        have hj2 : j < arms.length := by omega
        obtain ⟨a', e1, e2⟩ := ha j (vs[j].2) (by simp [hj1])
        obtain ⟨_, _, _, y, -, -, -, -, e3, e4⟩ := arm_ok (vs.map (·.2)) h64' j (vs[j].2) (hw _ (List.getElem_mem hj1))
        rw [e3] at e2
        cases e2
        rw [List.getElem?_eq_getElem hj2] at e1
        simp only [Option.some.injEq] at e1
        have e5 := e4 (hnc _ (List.getElem_mem hj1))
        simp only [List.getElem_zip, e1]
        rw [checkArm, pat_check _ (hw _ (List.getElem_mem hj1)) (hnc _ (List.getElem_mem hj1))] at e5
        exact ⟨trivial, e5⟩
      rw [run_arms vs hn hw hnc k l p hp hl _ vs arms 0 (by simp) (by simpa using hal) harm (Nat.zero_le _) a (by simpa using hka)]
      simp only [hka, List.getElem?_map, hp, Option.map_some]
      cases a.2.eval c Ty (a.1.bind Ty p.2 l) [] .runtime <;> rfl
  · funext i
    have hst : ∀ q ∈ vs.zip g.fromOrdinal, q.2.1.check [] paramCtx = true ∧ q.2.2.check paramCtx q.1.2 = true ∧
        q.2.2.build = structBuild q.1.2 := by
      intro q hq
      obtain ⟨j, hj, rfl⟩ := List.mem_iff_getElem.1 hq
      simp only [List.length_zip] at hj
      have hj1 : j < vs.length := by omega
      have hj2 : j < g.fromOrdinal.length := by omega
      obtain ⟨s', e1, e2⟩ := hf j (vs[j].2) (by simp [hj1])
      obtain ⟨_, _, -, -, -, -, e3⟩ := stmt_ok (vs.map (·.2)) h64' j (vs[j].2)
      rw [e3] at e2
      cases e2
      rw [List.getElem?_eq_getElem hj2] at e1
      simp only [Option.some.injEq] at e1
      have hj3 : j < ((vs.map (·.2)).zip g.fromOrdinal).length := by
        simp only [List.length_zip, List.length_map]; omega
      have := hc4 ((vs.map (·.2)).zip g.fromOrdinal)[j] (List.getElem_mem hj3)
      simp only [List.getElem_zip, List.getElem_map] at this ⊢
      exact ⟨this.1, this.2, by rw [e1]; rfl⟩
    have hend : fnVal (runB (Ty := Ty) c (.enum vs) (sizeOfImpl c (.enum vs) Ty (enumTree (vs.map (·.1)) g)) none .runtime
        (.letS false (.user "_ignore") (var ordinalVar) (.tail (.path (names ["std", "option", "Option", "None"]))))
        [(ordinalVar, false, .num i)]) = .ok .none := by
      simp [runB, runE, var, pathV, isNames, names, Ev.bind, Ev.ok, readV, letV, fnVal, ordinalVar, Ident.bindable, preludeCtors]
    obtain ⟨hrun, hty⟩ := run_enumStmts vs hn hw i _ hend vs g.fromOrdinal 0 (by simp) (by simpa using hfl) hst
    rw [fromOrdinalOfImpl_eq c Ty hd rfl rfl hrun, hsize]
    cases g.size.eval c Ty [] [] .const with
    | error f => rfl
    | ok n =>
      simp only [ok_bind]
      by_cases hn : n = 0
      · simp [hn]
      · simp only [hn, ↓reduceIte]
        cases execEnumStmts c Ty i 0 (vs.map (·.2)) g.fromOrdinal with
        | error f => rfl
        | ok o => cases o <;> rfl

/-- An enum with a unit, a tuple and a record variant. -/
def exEnumDecl : List (String × Fields ExTy) :=
  [("A", .unit), ("B", .unnamed [.bool, .ordering]), ("C", .named [("x", .u16), ("y", .bool)])]

example := C87_enum debug64 exTypes exEnumDecl (by decide) (by decide)
    (by simp [exEnumDecl, Fields.WF]) (by simp [exEnumDecl, HasReserved, reservedNames, HasField]) (by decide) _ rfl

/-- C87 for enums: the text can be read, and run as it reads it is a lawful impl. -/
theorem C87_enum_lawful {sz : ι → Nat} (L : ∀ t, Lawful c (Ty.impl t) (sz t)) (vs : List (String × Fields ι))
    (hn : (vs.map (·.1)).Nodup) (hsz : "ORDINAL_SIZE" ∉ vs.map (·.1))
    (hw : ∀ p ∈ vs, p.2.WF) (hr : ∀ p ∈ vs, ¬ HasReserved p.2) (h64 : vs.length < 2 ^ 64) :
    ∃ ts, enumSrc vs = .ok ts ∧ (∃ A, ReadsImpl ts A) ∧ ∀ A, ReadsImpl ts A → ∀ n,
      sizeOfImpl c (.enum vs) Ty A = .ok n → n = enumCount sz (vs.map (·.2)) ∧
        Lawful c (enumText c Ty vs A) n ∧ Strict c (enumText c Ty vs A) n := by
  have h64' : (vs.map (·.2)).countP noFields < 2 ^ 64 :=
    Nat.lt_of_le_of_lt List.countP_le_length (by simpa using h64)
  have hw' : ∀ v ∈ vs.map (·.2), v.WF := by
    intro v hv
    obtain ⟨p, hp, rfl⟩ := List.mem_map.1 hv
    exact hw p hp
  obtain ⟨g, arms, hg, -⟩ := genEnum_ok (vs.map (·.2)) h64' hw'
  obtain ⟨ts, h1, h2⟩ := C86_enum vs _ hg
  refine ⟨ts, h1, ⟨_, h2⟩, fun A hA n hn' => ?_⟩
  have h := C87_enum c Ty vs hn hsz hw hr h64 ts h1 A hA
  rw [h]
  exact C09_enums c Ty sz L (vs.map (·.2)) hw' n (by rw [← h]; exact hn')

example := C87_enum_lawful debug64 exTypes exTypes_lawful exEnumDecl (by decide) (by decide)
    (by simp [exEnumDecl, Fields.WF]) (by simp [exEnumDecl, HasReserved, reservedNames, HasField]) (by decide)

/-- Any reading of the text of `enum { A, B(bool, Ordering), C { x: u16, y: bool } }`: its size, the ordinal of
    `B(true, Greater)`, and the values of ordinals 6, 7 and one past the last. -/
example : ∃ ts, enumSrc exEnumDecl = .ok ts ∧ (∃ A, ReadsImpl ts A) ∧ ∀ A, ReadsImpl ts A →
    sizeOfImpl debug64 (.enum exEnumDecl) exTypes A = .ok 131079 ∧
    ordinalOfImpl (Ty := exTypes) debug64 (.enum exEnumDecl) A (1, [⟨.bool, true⟩, ⟨.ordering, .gt⟩]) = .ok 6 := by
  obtain ⟨ts, h1, h2, h3⟩ := C87_enum_lawful debug64 exTypes exTypes_lawful exEnumDecl (by decide) (by decide)
    (by simp [exEnumDecl, Fields.WF]) (by simp [exEnumDecl, HasReserved, reservedNames, HasField]) (by decide)
  refine ⟨ts, h1, h2, fun A hA => ?_⟩
  have h := C87_enum debug64 exTypes exEnumDecl (by decide) (by decide)
    (by simp [exEnumDecl, Fields.WF]) (by simp [exEnumDecl, HasReserved, reservedNames, HasField]) (by decide) ts h1 A hA
  exact ⟨(congrArg OrdinalImpl.size h).trans rfl,
    (congrFun (congrArg OrdinalImpl.ordinal h) ⟨(1, [⟨.bool, true⟩, ⟨.ordering, .gt⟩]), _, rfl, rfl⟩).trans rfl⟩

end OrdinalMap.Props
