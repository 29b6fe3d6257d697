import Verif.Model.Effect
import Verif.Lemmas.SoundMap
/-! # The model with state agrees with the pure models -/

namespace OrdinalMap

variable {σ s α β ι K V W E ω ο : Type}

namespace M

@[simp] theorem ok_bind (a : α) (f : α → M σ β) : (M.of (.ok a) >>= f) = f a := rfl
@[simp] theorem error_bind (e : Fault) (f : α → M σ β) : ((M.of (.error e) : M σ α) >>= f) = M.of (.error e) := rfl
@[simp] theorem pure_eq (a : α) : (pure a : M σ α) = M.of (.ok a) := rfl

theorem bind_assoc' {γ : Type} (x : M σ α) (f : α → M σ β) (g : β → M σ γ) :
    (x >>= f >>= g) = (x >>= fun a => f a >>= g) := by
  funext st
  change M.bind (M.bind x f) g st = M.bind x (fun a => M.bind (f a) g) st
  unfold M.bind
  rcases x st with ⟨_ | _, _⟩ <;> rfl

theorem of_cong {x : R α} {f : α → M σ β} {g : α → R β} (h : ∀ a, f a = M.of (g a)) :
    (M.of x >>= f) = M.of (x >>= g) := by
  cases x with
  | error e => rfl
  | ok a => exact h a

theorem bind_of {x : M σ α} {y : R α} {f : α → M σ β} {g : α → R β} (hx : x = M.of y)
    (h : ∀ a, f a = M.of (g a)) : (x >>= f) = M.of (y >>= g) := hx ▸ of_cong h

end M

open M

namespace Eff

variable {I : OrdinalImpl K}

/-- The pure implementation as one with state. -/
local notation "P" => SImpl.ofPure (σ := σ)

theorem pure_valuesNext (r : OrdinalValues) : valuesNext (P I) r = .of (OrdinalValues.next I r) := by
  unfold valuesNext OrdinalValues.next
  rcases Range.next r with ⟨_ | i, r⟩
  · rfl
  · exact of_cong fun o => of_cong fun a => rfl

theorem pure_valuesNextBack (r : OrdinalValues) : valuesNextBack (P I) r = .of (OrdinalValues.nextBack I r) := by
  unfold valuesNextBack OrdinalValues.nextBack
  rcases Range.nextBack r with ⟨_ | i, r⟩
  · rfl
  · exact of_cong fun o => of_cong fun a => rfl

theorem pure_run {next nextBack : s → M σ (Option ι × s)} {it : DEIter s ι}
    (h1 : ∀ x, next x = .of (it.next x)) (h2 : ∀ x, nextBack x = .of (it.nextBack x)) (ds : List Dir) (x : s) :
    run next nextBack x ds = .of (it.run x ds) := by
  induction ds generalizing x with
  | nil => rfl
  | cons d ds ih =>
    unfold run DEIter.run
    cases d
    · exact bind_of (h1 x) fun p => bind_of (ih p.2) fun q => rfl
    · exact bind_of (h2 x) fun p => bind_of (ih p.2) fun q => rfl

theorem pure_runOps {step : s → ω → M σ (ο × s)} {step' : s → ω → R (ο × s)}
    (h : ∀ x op, step x op = .of (step' x op)) (ops : List ω) (x : s) :
    runOps step x ops = .of (OrdinalMap.runOps step' x ops) := by
  induction ops generalizing x with
  | nil => rfl
  | cons op ops ih =>
    unfold runOps OrdinalMap.runOps
    exact bind_of (h x op) fun p => bind_of (ih p.2) fun q => rfl

theorem pure_enumNext (c : Cfg) (S : StdIter s ι) (e : Enumerate s) :
    enumNext c (P I) S e = .of (e.nextItem c I S) := by
  unfold enumNext Enumerate.nextItem
  rcases S.next e.iter with ⟨_ | v, r⟩
  · rfl
  · exact of_cong fun o => of_cong fun a => of_cong fun n => rfl

theorem pure_enumNextBack (c : Cfg) (S : StdIter s ι) (e : Enumerate s) :
    enumNextBack c (P I) S e = .of (e.nextBackItem c I S) := by
  unfold enumNextBack Enumerate.nextBackItem
  rcases S.nextBack e.iter with ⟨_ | v, r⟩
  · rfl
  · exact of_cong fun o => of_cong fun a => of_cong fun n => rfl

theorem pure_mutNext (c : Cfg) (it : TotalIterMut V) : mutNext c (P I) it = .of (it.next c I) := by
  unfold mutNext TotalIterMut.next
  exact bind_of (pure_enumNext c slotIter it.it) fun _ => rfl

theorem pure_mutNextBack (c : Cfg) (it : TotalIterMut V) : mutNextBack c (P I) it = .of (it.nextBack c I) := by
  unfold mutNextBack TotalIterMut.nextBack
  exact bind_of (pure_enumNextBack c slotIter it.it) fun _ => rfl

theorem pure_skipLoop {step : s → M σ (Option α × s)} {step' : s → R (Option α × s)}
    (h : ∀ x, step x = .of (step' x)) (body : α → s → R (Option β × s)) (fuel : Nat) (x : s) :
    skipLoop step body fuel x = .of (OrdinalMap.skipLoop step' body fuel x) := by
  induction fuel generalizing x with
  | zero => rfl
  | succ fuel ih =>
    unfold skipLoop OrdinalMap.skipLoop
    refine bind_of (h x) fun p => ?_
    rcases p with ⟨_ | a, x⟩
    · rfl
    · refine of_cong fun q => ?_
      rcases q with ⟨_ | b, x⟩
      · exact ih x
      · rfl

theorem pure_mapNext (c : Cfg) (it : MapIter V) : mapNext c (P I) it = .of (it.next c I) :=
  pure_skipLoop (pure_enumNext c _) _ _ _
theorem pure_mapNextBack (c : Cfg) (it : MapIter V) : mapNextBack c (P I) it = .of (it.nextBack c I) :=
  pure_skipLoop (pure_enumNextBack c _) _ _ _
theorem pure_mapMutNext (c : Cfg) (it : MapIterMut V) : mapMutNext c (P I) it = .of (it.next c I) :=
  pure_skipLoop (pure_mutNext c) _ _ _
theorem pure_mapMutNextBack (c : Cfg) (it : MapIterMut V) : mapMutNextBack c (P I) it = .of (it.nextBack c I) :=
  pure_skipLoop (pure_mutNextBack c) _ _ _
theorem pure_drainNext (c : Cfg) (it : Drain V) : drainNext c (P I) it = .of (it.next c I) :=
  pure_skipLoop (pure_mutNext c) _ _ _
theorem pure_drainNextBack (c : Cfg) (it : Drain V) : drainNextBack c (P I) it = .of (it.nextBack c I) :=
  pure_skipLoop (pure_mutNextBack c) _ _ _

theorem pure_drainDrop (c : Cfg) (it : Drain V) : drainDrop c (P I) it = .of (it.drop c I) := by
  unfold drainDrop Drain.drop
  generalize TotalIterMut.len it + 1 = fuel
  induction fuel generalizing it with
  | zero => rfl
  | succ fuel ih =>
    unfold dropLoop Drain.dropLoop
    refine bind_of (pure_drainNext c it) fun p => ?_
    rcases p with ⟨_ | a, x⟩
    · rfl
    · exact ih x

theorem pure_mapLen (c : Cfg) (m : List (Option V)) :
    mapLen c (P I) m = .of (MapIter.count c I (TotalIter.new m 0)) := by
  unfold mapLen MapIter.count
  generalize TotalIter.len (TotalIter.new m 0) + 1 = fuel
  generalize TotalIter.new m 0 = it
  generalize 0 = acc
  induction fuel generalizing it acc with
  | zero => rfl
  | succ fuel ih =>
    unfold countLoop MapIter.countLoop
    refine bind_of (pure_mapNext c it) fun p => ?_
    rcases p with ⟨_ | a, x⟩
    · rfl
    · exact of_cong fun n => ih x n

theorem pure_mapIsEmpty (c : Cfg) (m : List (Option V)) :
    mapIsEmpty c (P I) m = .of (OMap.isEmpty c I m) :=
  bind_of (pure_mapNext c _) fun _ => rfl

theorem pure_clientStep (c : Cfg) (x : MutClient V) (op : MutStep V) :
    clientStep c (P I) x op = .of (x.step c I op) := by
  cases op with
  | front =>
    refine bind_of (pure_mapMutNext c x.it) fun p => ?_
    rcases p with ⟨_ | a, x⟩ <;> rfl
  | back =>
    refine bind_of (pure_mapMutNextBack c x.it) fun p => ?_
    rcases p with ⟨_ | a, x⟩ <;> rfl
  | write j v =>
    unfold clientStep MutClient.step
    dsimp only
    cases x.handed[j]? <;> rfl

theorem pure_clientStepT (c : Cfg) (x : MutClientT V) (op : MutStep V) :
    clientStepT c (P I) x op = .of (x.step c I op) := by
  cases op with
  | front =>
    refine bind_of (pure_mutNext c x.it) fun p => ?_
    rcases p with ⟨_ | a, x⟩ <;> rfl
  | back =>
    refine bind_of (pure_mutNextBack c x.it) fun p => ?_
    rcases p with ⟨_ | a, x⟩ <;> rfl
  | write j v =>
    unfold clientStepT MutClientT.step
    dsimp only
    cases x.handed[j]? <;> rfl

theorem pure_mapItem {step : s → M σ (Option α × s)} {step' : s → R (Option α × s)}
    (h : ∀ x, step x = .of (step' x)) (f : α → β) (x : s) :
    mapItem f step x = .of (do let (o, x) ← step' x; .ok (o.map f, x)) :=
  bind_of (h x) fun _ => rfl

theorem pure_clientStepV (c : Cfg) (x : MutClient V) (op : MutStep V) :
    clientStepV c (P I) x op = .of (x.stepV c I op) := by
  cases op with
  | front =>
    refine bind_of (pure_mapItem (pure_mapMutNext c) _ x.it) fun p => ?_
    rcases p with ⟨_ | a, x⟩ <;> rfl
  | back =>
    refine bind_of (pure_mapItem (pure_mapMutNextBack c) _ x.it) fun p => ?_
    rcases p with ⟨_ | a, x⟩ <;> rfl
  | write j v =>
    unfold clientStepV MutClient.stepV
    dsimp only
    cases x.handed[j]? <;> rfl

theorem pure_initFullMap (c : Cfg) (sz : Nat) (m : OMap V) :
    initFullMap c (P I) sz m = OMap.initFullMap c I sz m := rfl

theorem pure_omapContainsKey (m : OMap V) (k : K) :
    omapContainsKey (P I) m k = .of (OMap.containsKey I m k) := of_cong fun _ => rfl

theorem pure_omapInsert (c : Cfg) (sz : Nat) (m : OMap V) (k : K) (v : V) :
    omapInsert c (P I) sz m k v = .of (OMap.insert c I sz m k v) := by
  refine of_cong fun m => ?_
  change (M.of (I.ordinal k) >>= _) = _
  cases h : I.ordinal k <;> simp

theorem pure_omapEntry (c : Cfg) (sz : Nat) (m : OMap V) (k : K) :
    omapEntry c (P I) sz m k = .of (OMap.entry c I sz m k) :=
  of_cong fun _ => of_cong fun _ => rfl

/-- On a pure implementation the two models of `OrdinalMap` agree. -/
theorem pure_omapStep (c : Cfg) (sz : Nat) (m : OMap V) (op : MapOp K V) :
    omapStep c (P I) sz m op = .of (OMap.step c I sz m op) := by
  cases op with
  | get k =>
    change (M.of (I.ordinal k) >>= _) = _
    simp only [OMap.step, OMap.get, LawfulMonad.bind_assoc]
    refine of_cong fun i => ?_
    rcases m[i]? with _ | o <;> rfl
  | getMut k w =>
    change (M.of (I.ordinal k) >>= _) = _
    simp only [OMap.step, OMap.getMut, LawfulMonad.bind_assoc]
    refine of_cong fun i => ?_
    rcases h : m[i]? with _ | o
    · rfl
    · rfl
  | insert k v => exact bind_of (pure_omapInsert c sz m k v) fun _ => rfl
  | remove k =>
    change (M.of (I.ordinal k) >>= _) = _
    simp only [OMap.step, OMap.remove, LawfulMonad.bind_assoc]
    refine of_cong fun i => ?_
    rcases m[i]? with _ | o <;> rfl
  | orInsert k v w => exact bind_of (pure_omapEntry c sz m k) fun _ => rfl
  | entry k v w => exact bind_of (pure_omapEntry c sz m k) fun _ => rfl
  | len => exact bind_of (pure_mapLen c m) fun _ => rfl
  | isEmpty => exact bind_of (pure_mapIsEmpty c m) fun _ => rfl
  | iter ds => exact bind_of (pure_run (it := MapIter.it c I) (pure_mapNext c) (pure_mapNextBack c) ds _) fun _ => rfl
  | keys ds =>
    exact bind_of (pure_run (it := Keys.it c I) (pure_mapItem (pure_mapNext c) _)
      (pure_mapItem (pure_mapNextBack c) _) ds _) fun _ => rfl
  | values ds =>
    exact bind_of (pure_run (it := Values.it c I) (pure_mapItem (pure_mapNext c) _)
      (pure_mapItem (pure_mapNextBack c) _) ds _) fun _ => rfl
  | iterMut steps => exact bind_of (pure_runOps (pure_clientStep c) steps _) fun _ => rfl
  | valuesMut steps => exact bind_of (pure_runOps (pure_clientStepV c) steps _) fun _ => rfl
  | drain ds leak =>
    refine bind_of (pure_run (it := Drain.it c I) (pure_drainNext c) (pure_drainNextBack c) ds _) fun p => ?_
    cases leak
    · exact bind_of (pure_drainDrop c _) fun _ => rfl
    · rfl
  | clear => exact bind_of (pure_drainDrop c _) fun _ => rfl

theorem pure_omapExtend (c : Cfg) (sz : Nat) (m : OMap V) (ps : List (K × V)) :
    omapExtend c (P I) sz m ps = .of (OMap.extendLoop c I sz m ps) := by
  induction ps generalizing m with
  | nil => rfl
  | cons p ps ih => exact bind_of (pure_omapInsert c sz m p.1 p.2) fun q => ih q.2

theorem pure_slotFor (m : List V) (k : K) : slotFor (P I) m k = .of (OrdinalTotalMap.getMut I m k) :=
  of_cong fun _ => rfl

theorem pure_totalGet (m : List V) (k : K) : totalGet (P I) m k = .of (OrdinalTotalMap.get I m k) :=
  of_cong fun _ => rfl

theorem pure_amapContainsKey (m : OrdinalArrayMap V) (k : K) :
    amapContainsKey (P I) m k = .of (OrdinalArrayMap.containsKey I m k) := bind_of (pure_totalGet m k) fun _ => rfl

theorem pure_amapInsert (m : OrdinalArrayMap V) (k : K) (v : V) :
    amapInsert (P I) m k v = .of (OrdinalArrayMap.insert I m k v) :=
  bind_of (pure_slotFor m k) fun _ => rfl

theorem pure_amapEntry (m : OrdinalArrayMap V) (k : K) :
    amapEntry (P I) m k = .of (OrdinalArrayMap.entry I m k) :=
  bind_of (pure_slotFor m k) fun _ => rfl

/-- On a pure implementation the two models of `OrdinalArrayMap` agree. -/
theorem pure_amapStep (c : Cfg) (m : OrdinalArrayMap V) (op : MapOp K V) :
    amapStep c (P I) m op = .of (OrdinalArrayMap.step c I m op) := by
  cases op with
  | get k => exact bind_of (pure_totalGet m k) fun _ => rfl
  | getMut k w =>
    simp only [OrdinalArrayMap.step, OrdinalArrayMap.getMut, LawfulMonad.bind_assoc]
    refine bind_of (pure_slotFor m k) fun i => ?_
    congr 1
  | insert k v => exact bind_of (pure_amapInsert m k v) fun _ => rfl
  | remove k =>
    simp only [OrdinalArrayMap.step, OrdinalArrayMap.remove, LawfulMonad.bind_assoc]
    refine bind_of (pure_slotFor m k) fun i => ?_
    congr 1
  | orInsert k v w => exact bind_of (pure_amapEntry m k) fun _ => rfl
  | entry k v w => exact bind_of (pure_amapEntry m k) fun _ => rfl
  | len => exact bind_of (pure_mapLen c m) fun _ => rfl
  | isEmpty => exact bind_of (pure_mapIsEmpty c m) fun _ => rfl
  | iter ds => exact bind_of (pure_run (it := MapIter.it c I) (pure_mapNext c) (pure_mapNextBack c) ds _) fun _ => rfl
  | keys ds =>
    exact bind_of (pure_run (it := Keys.it c I) (pure_mapItem (pure_mapNext c) _)
      (pure_mapItem (pure_mapNextBack c) _) ds _) fun _ => rfl
  | values ds =>
    exact bind_of (pure_run (it := Values.it c I) (pure_mapItem (pure_mapNext c) _)
      (pure_mapItem (pure_mapNextBack c) _) ds _) fun _ => rfl
  | iterMut steps => exact bind_of (pure_runOps (pure_clientStep c) steps _) fun _ => rfl
  | valuesMut steps => exact bind_of (pure_runOps (pure_clientStepV c) steps _) fun _ => rfl
  | drain ds leak =>
    refine bind_of (pure_run (it := Drain.it c I) (pure_drainNext c) (pure_drainNextBack c) ds _) fun p => ?_
    cases leak
    · exact bind_of (pure_drainDrop c _) fun _ => rfl
    · rfl
  | clear => exact bind_of (pure_drainDrop c _) fun _ => rfl

theorem pure_amapExtend (m : OrdinalArrayMap V) (ps : List (K × V)) :
    amapExtend (P I) m ps = .of (OrdinalArrayMap.extendLoop I m ps) := by
  induction ps generalizing m with
  | nil => rfl
  | cons p ps ih => exact bind_of (pure_amapInsert m p.1 p.2) fun q => ih q.2

theorem pure_totalStep_aux (c : Cfg) (m : List V) (op : TotalOp K V) :
    totalStep c (P I) I.size m op = .of (OrdinalTotalMap.step c I m op) ∧
    ∀ S, totalStep c (P I) (.ok S) m op = .of (OrdinalTotalArrayMap.step c I S m op) := by
  cases op with
  | get k => exact ⟨bind_of (pure_totalGet m k) fun _ => rfl, fun _ => bind_of (pure_totalGet m k) fun _ => rfl⟩
  | index k => exact ⟨bind_of (pure_totalGet m k) fun _ => rfl, fun _ => bind_of (pure_totalGet m k) fun _ => rfl⟩
  | getMut k w => exact ⟨bind_of (pure_slotFor m k) fun _ => rfl, fun _ => bind_of (pure_slotFor m k) fun _ => rfl⟩
  | indexMut k w => exact ⟨bind_of (pure_slotFor m k) fun _ => rfl, fun _ => bind_of (pure_slotFor m k) fun _ => rfl⟩
  | insert k v =>
    have e : ∀ len : R Nat, totalStep c (P I) len m (.insert k v) =
        (.of (OrdinalTotalMap.step c I m (.insert k v)) : M σ _) := by
      intro len
      change (M.of (I.ordinal k) >>= _) = _
      simp only [OrdinalTotalMap.step, OrdinalTotalMap.insert, LawfulMonad.bind_assoc]
      cases h : I.ordinal k
      · rfl
      · rfl
    exact ⟨e _, fun _ => e _⟩
  | len => exact ⟨rfl, fun _ => rfl⟩
  | isEmpty =>
    refine ⟨?_, fun _ => rfl⟩
    simp only [totalStep, OrdinalTotalMap.step, OrdinalTotalMap.isEmpty, OrdinalTotalMap.len]
    cases I.size <;> rfl
  | iter ds =>
    have := pure_run (σ := σ) (it := TotalIter.it (V := V) c I) (pure_enumNext c _) (pure_enumNextBack c _) ds
      (TotalIter.new m 0)
    exact ⟨bind_of this fun _ => rfl, fun _ => bind_of this fun _ => rfl⟩
  | keys ds =>
    have := fun r => pure_run (σ := σ) (it := OrdinalValues.iter I) pure_valuesNext pure_valuesNextBack ds r
    exact ⟨of_cong fun r => bind_of (this r) fun _ => rfl, fun _ => of_cong fun r => bind_of (this r) fun _ => rfl⟩
  | values ds => exact ⟨rfl, fun _ => rfl⟩
  | iterMut steps =>
    have := pure_runOps (σ := σ) (pure_clientStepT (I := I) c) steps ⟨TotalIterMut.new m, []⟩
    exact ⟨bind_of this fun _ => rfl, fun _ => bind_of this fun _ => rfl⟩
  | valuesMut steps => exact ⟨rfl, fun _ => rfl⟩

/-! ## Functions that take closures -/

theorem result_of (x : R α) (st : σ) : (M.of x : M σ α).result st = x >>= fun a => .ok (a, st) := by
  cases x <;> rfl

theorem result_ofState (f : σ → R (α × σ)) (st : σ) : (M.ofState f).result st = f st := by
  unfold M.ofState M.result
  dsimp only
  rcases f st with _ | ⟨a, st'⟩ <;> rfl

theorem result_bind (x : M σ α) (f : α → M σ β) (st : σ) :
    (x >>= f).result st = x.result st >>= fun p => (f p.1).result p.2 := by
  change M.result (M.bind x f) st = _
  unfold M.bind M.result
  dsimp only
  rcases x st with ⟨_ | a, st'⟩ <;> rfl

theorem pure_size : (SImpl.ofPure (σ := σ) I).size = I.size := rfl

theorem pure_tryNewLoop (init : K → σ → R (Except E V × σ)) (fuel : Nat) (it : OrdinalValues) (l : List V)
    (st : σ) : (tryNewLoop (SImpl.ofPure I) (fun k => .ofState (init k)) fuel it l).result st =
      OrdinalTotalMap.tryNewLoop I init fuel it l st := by
  induction fuel generalizing it l st with
  | zero => rfl
  | succ fuel ih =>
    unfold tryNewLoop OrdinalTotalMap.tryNewLoop
    rw [pure_valuesNext, result_bind, result_of]
    rcases OrdinalValues.next I it with _ | ⟨_ | v, it⟩
    · rfl
    · rfl
    · simp only [OrdinalMap.ok_bind, result_bind, result_ofState]
      rcases init v st with _ | ⟨_ | x, st⟩
      · rfl
      · rfl
      · exact ih _ _ _

theorem pure_tryNew (c : Cfg) (sz : Nat) (init : K → σ → R (Except E V × σ)) (st : σ) :
    (tryNew c (SImpl.ofPure I) sz (fun k => .ofState (init k))).result st = OrdinalTotalMap.tryNew c I sz init st := by
  unfold tryNew OrdinalTotalMap.tryNew valuesNew OrdinalValues.new
  rw [pure_size, result_bind, result_of]
  cases hn : I.size with
  | error e => rfl
  | ok n =>
    simp only [OrdinalMap.ok_bind]
    cases withCapacity c sz n with
    | error e => rfl
    | ok _ =>
      simp only [OrdinalMap.ok_bind, result_bind, result_of]
      exact pure_tryNewLoop init _ _ _ _

theorem pure_tryNewArrayLoop (init : K → σ → R (Except E V × σ)) (fuel : Nat) (it : OrdinalValues)
    (b : ArrayBuilder V) (st : σ) :
    (tryNewArrayLoop (SImpl.ofPure I) (fun k => .ofState (init k)) fuel it b).result st =
      OrdinalTotalArrayMap.tryNewLoop I init fuel it b st := by
  induction fuel generalizing it b st with
  | zero => rfl
  | succ fuel ih =>
    unfold tryNewArrayLoop OrdinalTotalArrayMap.tryNewLoop
    rw [pure_valuesNext, result_bind, result_of]
    rcases OrdinalValues.next I it with _ | ⟨_ | v, it⟩
    · rfl
    · simp only [OrdinalMap.ok_bind, result_of, LawfulMonad.bind_assoc]
    · simp only [OrdinalMap.ok_bind, result_bind, result_ofState]
      rcases init v st with _ | ⟨_ | x, st⟩
      · rfl
      · simp only [OrdinalMap.ok_bind, result_of, LawfulMonad.bind_assoc]
      · simp only [OrdinalMap.ok_bind, result_bind, result_of]
        cases b.push x with
        | error e => rfl
        | ok b => exact ih _ _ _

theorem pure_tryNewArray (S : Nat) (init : K → σ → R (Except E V × σ)) (st : σ) :
    (tryNewArray (SImpl.ofPure I) S (fun k => .ofState (init k))).result st =
      OrdinalTotalArrayMap.tryNew I S init st := by
  unfold tryNewArray OrdinalTotalArrayMap.tryNew valuesNew OrdinalValues.new OrdinalTotalArrayMap.assertS
  rw [pure_size, result_bind, result_of]
  cases hn : I.size with
  | error e => rfl
  | ok n =>
    simp only [OrdinalMap.ok_bind]
    cases constAssert (n == S) with
    | error e => rfl
    | ok _ =>
      simp only [OrdinalMap.ok_bind, result_bind, result_of]
      exact pure_tryNewArrayLoop init _ _ _ _

theorem pure_newArray (S : Nat) (init : K → σ → R (V × σ)) (st : σ) :
    (newArray (SImpl.ofPure I) S (fun k => .ofState (init k))).result st = OrdinalTotalArrayMap.new I S init st := by
  have e : (fun k => (do let v ← M.ofState (init k); .of (.ok (.ok v)) : M σ (Except Empty V))) =
      fun k => .ofState fun r => (do let (v, r) ← init k r; .ok (.ok v, r)) := by
    funext k st
    change M.bind _ _ st = _
    unfold M.bind M.ofState
    dsimp only
    rcases init k st with _ | ⟨v, st'⟩ <;> rfl
  unfold newArray OrdinalTotalArrayMap.new OrdinalTotalArrayMap.assertS
  rw [result_bind, result_of, pure_size]
  generalize (do constAssert ((← I.size) == S) : R Unit) = a
  cases a with
  | error e => rfl
  | ok _ =>
    simp only [OrdinalMap.ok_bind, result_bind, e, pure_tryNewArray]
    rcases OrdinalTotalArrayMap.tryNew I S _ st with _ | ⟨e | m, st'⟩
    · rfl
    · exact e.elim
    · rfl

theorem ofState_of (x : R α) : (M.ofState fun st => do .ok (← x, st) : M σ α) = .of x := by
  funext st
  cases x <;> rfl

theorem pure_asRef (S : Nat) (m : List V) :
    asRef (SImpl.ofPure I) S m = (.of (OrdinalTotalArrayMap.asRef I S m) : M Unit _) := by
  have h := pure_newArray (I := I) S (fun k () => do .ok (← OrdinalTotalArrayMap.get I m k, ())) ()
  have e : totalGet (SImpl.ofPure (σ := Unit) I) m = fun k => M.ofState (fun () =>
      OrdinalTotalArrayMap.get I m k >>= fun v => .ok (v, ())) := by
    funext k
    rw [pure_totalGet]
    exact (ofState_of _).symm
  rw [asRef, e]
  unfold OrdinalTotalArrayMap.asRef
  rw [← h]
  funext st
  unfold M.result
  rcases newArray _ S _ () with ⟨_ | a, _⟩ <;> rfl

theorem pure_arrayMapNew (S : Nat) :
    arrayMapNew V (SImpl.ofPure I) S = (.of (OrdinalArrayMap.new V I S) : M Unit _) := by
  have h := pure_newArray (I := I) S (fun _ () => .ok ((none : Option V), ())) ()
  have e : (fun _ => .of (.ok none) : K → M Unit (Option V)) = fun _ => M.ofState (fun () => .ok (none, ())) := rfl
  rw [arrayMapNew, e]
  unfold OrdinalArrayMap.new
  rw [← h]
  funext st
  unfold M.result
  rcases newArray _ S _ () with ⟨_ | a, _⟩ <;> rfl

theorem pure_mapLoop (c : Cfg) (f : K → V → σ → R (W × σ)) (fuel : Nat) (it : TotalIntoIterArray V)
    (b : ArrayBuilder W) (st : σ) :
    (mapLoop c (SImpl.ofPure I) (fun k v => .ofState (f k v)) fuel it b).result st =
      OrdinalTotalArrayMap.mapLoop c I f fuel it b st := by
  induction fuel generalizing it b st with
  | zero => rfl
  | succ fuel ih =>
    unfold mapLoop OrdinalTotalArrayMap.mapLoop
    rw [pure_enumNext, result_bind, result_of]
    change _ = (do match ← Enumerate.nextItem c I (listIter V) it with | _ => _)
    rcases Enumerate.nextItem c I (listIter V) it with _ | ⟨_ | ⟨k, v⟩, it⟩
    · rfl
    · simp only [OrdinalMap.ok_bind, result_of]
    · simp only [OrdinalMap.ok_bind, result_bind, result_ofState]
      rcases f k v st with _ | ⟨w, st⟩
      · rfl
      · simp only [OrdinalMap.ok_bind, result_of]
        cases b.push w with
        | error e => rfl
        | ok b => exact ih _ _ _

theorem pure_map (c : Cfg) (S : Nat) (m : List V) (f : K → V → σ → R (W × σ)) (st : σ) :
    (map c (SImpl.ofPure I) S m (fun k v => .ofState (f k v))).result st = OrdinalTotalArrayMap.map c I S m f st :=
  pure_mapLoop c f _ _ _ st

theorem pure_retainLoop (c : Cfg) (f : K → V → σ → R (Bool × V × σ)) (fuel : Nat) (it : MapIterMut V) (st : σ) :
    (retainLoop c (SImpl.ofPure I) (fun k v => .ofState fun st => do
        let (keep, v, st) ← f k v st
        .ok ((keep, v), st)) fuel it).result st =
      OrdinalArrayMap.retainLoop c I f fuel it st := by
  induction fuel generalizing it st with
  | zero => rfl
  | succ fuel ih =>
    unfold retainLoop OrdinalArrayMap.retainLoop
    rw [pure_mutNext, result_bind, result_of]
    rcases TotalIterMut.next c I it with _ | ⟨_ | ⟨k, v⟩, it⟩
    · rfl
    · rfl
    · simp only [OrdinalMap.ok_bind, result_bind, result_of]
      rcases readSlot it.mem v with _ | _ | v'
      · rfl
      · exact ih _ _
      · simp only [OrdinalMap.ok_bind, result_bind, result_ofState]
        rcases f k v' st with _ | ⟨keep, w, st⟩
        · rfl
        · simp only [OrdinalMap.ok_bind, result_of, LawfulMonad.bind_assoc]
          rcases writeSome it.mem v w with _ | mem
          · rfl
          · simp only [OrdinalMap.ok_bind]
            cases keep
            · simp only [Bool.false_eq_true, if_false]
              rcases writeSlot mem v none with _ | mem
              · rfl
              · exact ih _ _
            · exact ih _ _

theorem pure_retain (c : Cfg) (m : OrdinalArrayMap V) (f : K → V → σ → R (Bool × V × σ)) (st : σ) :
    (retain c (SImpl.ofPure I) m fun k v => .ofState fun st => do
        let (keep, v, st) ← f k v st
        .ok ((keep, v), st)).result st = OrdinalArrayMap.retain c I m f st :=
  pure_retainLoop c f _ _ st

/-! ## Sets and arrays -/

theorem pure_refContains (c : Cfg) (ws : SetRef) (x : K) :
    refContains c (P I) ws x = .of (SetRef.contains c I ws x) := by
  unfold refContains SetRef.contains
  refine of_cong fun i => ?_
  cases ws[i / 64]? with
  | none => rfl
  | some w => exact of_cong fun _ => rfl

theorem pure_refNew (c : Cfg) (ws : SetRef) : refNew c (P I) ws = SetRef.new c I ws := by
  unfold refNew SetRef.new ordinalArraySetS SImpl.ofPure
  cases I.size <;> rfl

theorem pure_mutNew (c : Cfg) (ws : SetRef) : mutNew c (P I) ws = SetMut.new c I ws := by
  unfold mutNew SetMut.new ordinalArraySetS SImpl.ofPure
  cases I.size <;> rfl

theorem pure_setInsert (c : Cfg) (ws : List (BitVec 64)) (x : K) :
    setInsert c (P I) ws x = .of (SetMut.insert c I ws x) := by
  unfold setInsert SetMut.insert
  rw [pure_refNew]
  refine of_cong fun r => bind_of (pure_refContains c r x) fun b => ?_
  have e : (P I).ordinal x = M.of (I.ordinal x) := rfl
  rw [e]
  cases I.ordinal x with
  | error e => rfl
  | ok i =>
    simp only [OrdinalMap.ok_bind]
    refine (M.ok_bind i _).trans ?_
    refine of_cong fun mask => ?_
    exact M.ok_bind i _

theorem pure_osetContains (c : Cfg) (t : OrdinalSet) (x : K) :
    osetContains c (P I) t x = .of (OrdinalSet.contains c I t x) := by
  unfold osetContains OrdinalSet.contains OrdinalSet.asRef OrdinalSet.isSmall
  simp only [pure_refNew, LawfulMonad.bind_assoc, OrdinalMap.ok_bind, pure_size]
  rw [← LawfulMonad.bind_assoc]
  exact of_cong fun r => pure_refContains c r x

theorem pure_osetAlloc (c : Cfg) (ws : List (BitVec 64)) : osetAlloc c (P I) ws = OrdinalSet.alloc c I ws := rfl

theorem pure_osetInsert (c : Cfg) (t : OrdinalSet) (x : K) :
    osetInsert c (P I) t x = .of (OrdinalSet.insert c I t x) := by
  unfold osetInsert OrdinalSet.insert OrdinalSet.isSmall
  simp only [LawfulMonad.bind_assoc, OrdinalMap.ok_bind, pure_size, pure_mutNew, pure_osetAlloc]
  refine of_cong fun n => ?_
  cases decide (n ≤ 64) <;> cases t with
  | small w =>
    first
    | rfl
    | exact of_cong fun ws => bind_of (pure_setInsert c ws x) fun _ => rfl
  | large ws =>
    first
    | rfl
    | (dsimp only
       cases OrdinalSet.alloc c I ws with
       | error e => rfl
       | ok ws => exact of_cong fun ws => bind_of (pure_setInsert c ws x) fun _ => rfl)

theorem pure_asetContains (c : Cfg) (S : Nat) (ws : OrdinalArraySet) (x : K) :
    asetContains c (P I) S ws x = .of (OrdinalArraySet.contains c I S ws x) := by
  unfold asetContains OrdinalArraySet.contains OrdinalArraySet.asRef OrdinalArraySet.assertS ordinalArraySetS
  simp only [pure_refNew, LawfulMonad.bind_assoc, OrdinalMap.ok_bind, pure_size]
  have := fun r => pure_refContains (σ := σ) (I := I) c r x
  cases I.size with
  | error e => rfl
  | ok n =>
    simp only [OrdinalMap.ok_bind]
    cases constAssert (S == divCeil n 64) with
    | error e => rfl
    | ok _ => exact of_cong this

theorem pure_asetInsert (c : Cfg) (S : Nat) (ws : OrdinalArraySet) (x : K) :
    asetInsert c (P I) S ws x = .of (OrdinalArraySet.insert c I S ws x) := by
  unfold asetInsert OrdinalArraySet.insert OrdinalArraySet.asMut OrdinalArraySet.assertS ordinalArraySetS
  simp only [pure_mutNew, LawfulMonad.bind_assoc, OrdinalMap.ok_bind, pure_size]
  have := fun r => pure_setInsert (σ := σ) (I := I) c r x
  cases I.size with
  | error e => rfl
  | ok n =>
    simp only [OrdinalMap.ok_bind]
    cases constAssert (S == divCeil n 64) with
    | error e => rfl
    | ok _ => exact of_cong this

theorem pure_set64Contains (c : Cfg) (w : OrdinalSet64) (x : K) :
    set64Contains c (P I) w x = .of (OrdinalSet64.contains c I w x) :=
  of_cong fun _ => of_cong fun _ => rfl

theorem pure_set64Insert (c : Cfg) (w : OrdinalSet64) (x : K) :
    set64Insert c (P I) w x = .of (OrdinalSet64.insert c I w x) :=
  of_cong fun _ => bind_of (pure_set64Contains c w x) fun _ => of_cong fun _ => rfl

theorem pure_set64Extend (c : Cfg) (w : OrdinalSet64) (xs : List K) :
    set64Extend c (P I) w xs = .of (OrdinalSet64.extendLoop c I w xs) := by
  induction xs generalizing w with
  | nil => rfl
  | cons x xs ih => exact of_cong fun _ => of_cong fun mask => ih _

theorem pure_setNext (c : Cfg) (it : SetIter) : setNext c (P I) it = .of (it.next c I) := by
  unfold setNext SetIter.next
  generalize it.iter.len + 1 = fuel
  induction fuel generalizing it with
  | zero => rfl
  | succ fuel ih =>
    unfold setLoop SetIter.nextLoop
    refine bind_of (pure_valuesNext _) fun p => ?_
    rcases p with ⟨_ | x, r⟩
    · rfl
    · refine bind_of (pure_refContains c _ x) fun b => ?_
      cases b
      · exact ih _
      · rfl

theorem pure_setNextBack (c : Cfg) (it : SetIter) : setNextBack c (P I) it = .of (it.nextBack c I) := by
  unfold setNextBack SetIter.nextBack
  generalize it.iter.len + 1 = fuel
  induction fuel generalizing it with
  | zero => rfl
  | succ fuel ih =>
    unfold setLoop SetIter.nextBackLoop
    refine bind_of (pure_valuesNextBack _) fun p => ?_
    rcases p with ⟨_ | x, r⟩
    · rfl
    · refine bind_of (pure_refContains c _ x) fun b => ?_
      cases b
      · exact ih _
      · rfl

theorem pure_iter64Next (c : Cfg) (w : Iter64) : iter64Next c (P I) w = .of (Iter64.next c I w) := by
  unfold iter64Next Iter64.next
  dsimp only
  split
  · rfl
  · exact of_cong fun _ => of_cong fun _ => of_cong fun _ => rfl

theorem pure_iter64NextBack (c : Cfg) (w : Iter64) : iter64NextBack c (P I) w = .of (Iter64.nextBack c I w) := by
  unfold iter64NextBack Iter64.nextBack
  cases checkedSub 63 (leadingZeros w) with
  | none => rfl
  | some i => exact of_cong fun _ => of_cong fun _ => of_cong fun _ => rfl

theorem pure_arrayOrdinal (c : Cfg) (vs : List K) (r : Nat) :
    arrayOrdinalLoop c (P I) vs r = .of (OrdinalMap.arrayOrdinalLoop c I vs r) := by
  induction vs generalizing r with
  | nil => rfl
  | cons v vs ih =>
    unfold arrayOrdinalLoop OrdinalMap.arrayOrdinalLoop
    rw [pure_size]
    cases I.size with
    | error e => rfl
    | ok n => exact of_cong fun r => of_cong fun i => of_cong fun r => ih r

open ArrayBuilder

theorem pure_arrayFromLoop (N : Nat) (k n : Nat) (vs : List K) (hl : vs.length ≤ N) :
    arrayFromLoop (P I) k n (holding N vs) = .of (OrdinalMap.arrayFromLoop I k n (holding N vs)) := by
  induction k generalizing n vs with
  | zero => rfl
  | succ k ih =>
    unfold arrayFromLoop OrdinalMap.arrayFromLoop
    rw [pure_size]
    cases I.size with
    | error e => rfl
    | ok t =>
      simp only [M.ok_bind, OrdinalMap.ok_bind]
      cases checkedRem n t with
      | none => simp only [drop_holding]; rfl
      | some i =>
        refine of_cong fun o => ?_
        cases o with
        | none => rfl
        | some a =>
          simp only [unwrap_some, OrdinalMap.ok_bind]
          rcases Nat.lt_or_ge vs.length N with h | h
          · rw [push_holding a h]
            exact (M.ok_bind _ _).trans (of_cong fun n => ih n _ (by simp; omega))
          · rw [push_full a (by omega)]; rfl

theorem arrayFromLoop_holding (N : Nat) (k n : Nat) (vs : List K) (hl : vs.length ≤ N) {n' : Nat}
    {b : ArrayBuilder K} (h : OrdinalMap.arrayFromLoop I k n (holding N vs) = .ok (some (n', b))) :
    ∃ vs', b = holding N vs' ∧ vs'.length = vs.length + k ∧ vs'.length ≤ N := by
  induction k generalizing n vs with
  | zero =>
    simp only [OrdinalMap.arrayFromLoop, Except.ok.injEq, Option.some.injEq, Prod.mk.injEq] at h
    exact ⟨vs, h.2.symm, rfl, hl⟩
  | succ k ih =>
    unfold OrdinalMap.arrayFromLoop at h
    cases hs : I.size with
    | error e => simp [hs] at h
    | ok t =>
      simp only [hs, OrdinalMap.ok_bind] at h
      cases hr : checkedRem n t with
      | none => simp [hr] at h
      | some i =>
        simp only [hr] at h
        cases hf : I.fromOrdinal i with
        | error e => simp [hf] at h
        | ok o =>
          cases o with
          | none => simp [hf] at h
          | some a =>
            simp only [hf, OrdinalMap.ok_bind, unwrap_some] at h
            rcases Nat.lt_or_ge vs.length N with h1 | h1
            · rw [push_holding a h1, OrdinalMap.ok_bind] at h
              cases hd : divU n t with
              | error e => simp [hd] at h
              | ok m =>
                rw [hd, OrdinalMap.ok_bind] at h
                obtain ⟨vs', e1, e2, e3⟩ := ih m (vs ++ [a]) (by simp; omega) h
                exact ⟨vs', e1, by simp at e2; omega, e3⟩
            · simp [push_full a (by omega : vs.length = N)] at h

/-- On a pure implementation the two models of `<[T; N]>::from_ordinal` agree. -/
theorem pure_arrayFrom (c : Cfg) (N i : Nat) :
    arrayFrom (P I) N i = .of ((arrayImpl c N I).fromOrdinal i >>= fun o => .ok (o.map fun a => a.1)) := by
  unfold arrayFrom arrayImpl
  dsimp only
  rw [new_eq, pure_arrayFromLoop N N i [] (by simp)]
  cases h : OrdinalMap.arrayFromLoop I N i (holding N []) with
  | error e => rfl
  | ok o =>
    simp only [M.ok_bind, OrdinalMap.ok_bind]
    rcases o with _ | ⟨n, b⟩
    · rfl
    · obtain ⟨vs, rfl, e, -⟩ := arrayFromLoop_holding N N i [] (by simp) h
      have e : vs.length = N := by simpa using e
      by_cases hn : n = 0
      · simp [hn, finish_full e, e]
      · simp [hn, drop_holding]

end Eff
end OrdinalMap
