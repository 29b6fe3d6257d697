import Verif.Model.EffectDebug
import Verif.Lemmas.Effect
/-! # `Debug` and `AtomicOrdinal` with state agree with the pure models -/

namespace OrdinalMap.Eff
open M

variable {σ s ι K V τ : Type} {I : OrdinalImpl K}

/-- The pure implementation as one with state. -/
local notation "P" => SImpl.ofPure (σ := σ)

theorem pure_entry (alt : Bool) (b : Builder) (t : String) :
    entry (σ := σ) alt (some b) (.text t) = .of (.ok (some (b.entry alt t))) := rfl

theorem pure_entriesLoop {alt : Bool} {next : s → M σ (Option ι × s)} {next' : s → R (Option ι × s)}
    (hn : ∀ x, next x = .of (next' x)) {text : ι → Fmt σ} {text' : ι → String} (ht : ∀ x, text x = .text (text' x))
    (fuel : Nat) (it : s) (b : Builder) :
    entriesLoop alt next text fuel it (some b) = .of (some <$> OrdinalMap.entriesLoop alt next' text' fuel it b) := by
  induction fuel generalizing it b with
  | zero => rfl
  | succ fuel ih =>
    unfold entriesLoop OrdinalMap.entriesLoop
    rw [hn it]
    rcases next' it with e | ⟨_ | x, it'⟩
    · rfl
    · rfl
    · refine (M.ok_bind _ _).trans ?_
      dsimp only
      rw [ht, pure_entry]
      refine (M.ok_bind _ _).trans (ih _ _)

theorem pure_debugSeq (opn cls : String) (alt : Bool) {next : s → M σ (Option ι × s)} {next' : s → R (Option ι × s)}
    (hn : ∀ x, next x = .of (next' x)) {text : ι → Fmt σ} {text' : ι → String} (ht : ∀ x, text x = .text (text' x))
    (fuel : Nat) (it : s) :
    debugSeq opn cls alt next text fuel it = .of (some <$> OrdinalMap.debugSeq opn cls alt next' text' fuel it) := by
  unfold debugSeq OrdinalMap.debugSeq
  rw [pure_entriesLoop hn ht]
  rcases OrdinalMap.entriesLoop alt next' text' fuel it ⟨opn, false⟩ with _ | _ <;> rfl

theorem pure_pairEntry {key : K → String} {value : V → String} (p : K × V) :
    pairEntry (σ := σ) (fun k => .text (key k)) (fun v => .text (value v)) p =
      Fmt.text (key p.1 ++ ": " ++ value p.2) := rfl

theorem pure_debugPair (alt : Bool) {key : K → String} {value : V → String} (p : K × V) :
    debugPair (σ := σ) alt (fun k => .text (key k)) (fun v => .text (value v)) p =
      Fmt.text (OrdinalMap.debugPair alt key value p) := rfl

variable (c : Cfg) (alt : Bool) (key : K → String) (value : V → String)

theorem pure_totalIterDebug (it : TotalIter V) :
    totalIterDebug c (P I) alt (fun k => .text (key k)) (fun v => .text (value v)) it =
      .of (some <$> TotalIter.debug c I alt key value it) :=
  pure_debugSeq _ _ _ (pure_enumNext c _) (pure_debugPair alt) _ _

theorem pure_totalDebug (m : List V) :
    totalDebug c (P I) alt (fun k => .text (key k)) (fun v => .text (value v)) m =
      .of (some <$> OrdinalTotalMap.debug c I alt key value m) :=
  pure_debugSeq _ _ _ (pure_enumNext c _) pure_pairEntry _ _

theorem pure_mapIterDebug (it : MapIter V) :
    mapIterDebug c (P I) alt (fun k => .text (key k)) (fun v => .text (value v)) it =
      .of (some <$> MapIter.debug c I alt key value it) :=
  pure_debugSeq _ _ _ (pure_mapNext c) (pure_debugPair alt) _ _

theorem pure_keysDebug (it : Keys Unit) :
    keysDebug c (P I) alt (fun k => .text (key k)) it = .of (some <$> Keys.debug c I alt key it) :=
  pure_debugSeq _ _ _ (pure_mapItem (pure_mapNext c) _) (fun _ => rfl) _ _

theorem pure_valuesDebug (it : Values V) :
    valuesDebug c (P I) alt (fun v => .text (value v)) it = .of (some <$> Values.debug c I alt value it) :=
  pure_debugSeq _ _ _ (pure_mapItem (pure_mapNext c) _) (fun _ => rfl) _ _

theorem pure_mapDebug (m : List (Option V)) :
    mapDebug c (P I) alt (fun k => .text (key k)) (fun v => .text (value v)) m =
      .of (some <$> OMap.debug c I alt key value m) :=
  pure_debugSeq _ _ _ (pure_mapNext c) pure_pairEntry _ _

theorem pure_setIterDebug (it : SetIter) :
    setIterDebug c (P I) alt (fun k => .text (key k)) it = .of (some <$> SetIter.debug c I alt key it) :=
  pure_debugSeq _ _ _ (pure_setNext c) (fun _ => rfl) _ _

theorem pure_refDebug (ws : SetRef) :
    refDebug c (P I) alt (fun k => .text (key k)) ws = .of (some <$> SetRef.debug c I alt key ws) := by
  unfold refDebug SetRef.debug SetRef.iter SetIter.new OrdinalValues.new valuesNew
  simp only [pure_size]
  cases I.size with
  | error e => rfl
  | ok n => exact pure_debugSeq _ _ _ (pure_setNext c) (fun _ => rfl) _ _

theorem map_bind' {α β γ : Type} (f : β → γ) (x : R α) (g : α → R β) :
    (f <$> (x >>= g)) = x >>= fun a => f <$> g a := by
  cases x <;> rfl

theorem pure_ordinalValuesDebug (r : OrdinalValues) :
    ordinalValuesDebug (σ := σ) (P I) (fun k => .text (key k)) r = .of (some <$> OrdinalValues.debug I key r) := by
  unfold ordinalValuesDebug OrdinalValues.debug
  rw [pure_valuesNext, map_bind']
  refine of_cong fun p => ?_
  rcases p with ⟨_ | x, it⟩
  · rfl
  · dsimp only
    rw [map_bind']
    refine of_cong fun n => ?_
    split
    · rfl
    · rw [pure_valuesNextBack, map_bind']
      refine of_cong fun p => ?_
      rcases p with ⟨_ | y, it⟩ <;> rfl

theorem pure_osetDebug (t : OrdinalSet) :
    osetDebug c (P I) alt (fun k => .text (key k)) t = .of (some <$> OrdinalSet.debug c I alt key t) := by
  unfold osetDebug OrdinalSet.debug OrdinalSet.asRef OrdinalSet.isSmall
  simp only [pure_refNew, LawfulMonad.bind_assoc, OrdinalMap.ok_bind, pure_size, map_bind']
  rw [← LawfulMonad.bind_assoc]
  exact of_cong fun r => pure_refDebug c alt key r

theorem pure_asetDebug (S : Nat) (ws : OrdinalArraySet) :
    asetDebug c (P I) S alt (fun k => .text (key k)) ws = .of (some <$> OrdinalArraySet.debug c I S alt key ws) := by
  unfold asetDebug OrdinalArraySet.debug OrdinalArraySet.asRef OrdinalArraySet.assertS ordinalArraySetS
  simp only [pure_refNew, LawfulMonad.bind_assoc, OrdinalMap.ok_bind, pure_size, map_bind']
  have := fun r => pure_refDebug (σ := σ) (I := I) c alt key r
  cases I.size with
  | error e => rfl
  | ok n =>
    simp only [OrdinalMap.ok_bind]
    cases constAssert (S == divCeil n 64) with
    | error e => rfl
    | ok _ => exact of_cong this

theorem pure_iter64Debug (w : Iter64) :
    iter64Debug c (P I) alt (fun k => .text (key k)) w = .of (some <$> Iter64.debug c I alt key w) :=
  pure_debugSeq _ _ _ (pure_iter64Next c) (fun _ => rfl) _ _

theorem pure_set64Debug (w : OrdinalSet64) :
    set64Debug c (P I) alt (fun k => .text (key k)) w = .of (some <$> OrdinalSet64.debug c I alt key w) := by
  unfold set64Debug OrdinalSet64.debug OrdinalSet64.asRef
  simp only [pure_refNew, map_bind']
  exact of_cong fun r => pure_refDebug c alt key r

theorem pure_atomicCall (op : AtomicOp K) : atomicCall (P I) op = .of (AtomicOrdinal.call I op) := by
  cases op with
  | load o => rfl
  | store v o => exact of_cong fun _ => rfl
  | cas a b o o' => exact of_cong fun _ => of_cong fun _ => rfl

theorem pure_atomicValue (v : Nat) : atomicValue (P I) v = .of (do unwrap (← I.fromOrdinal v)) :=
  of_cong fun _ => rfl

theorem pure_atomicRet (r : RawRes) : atomicRet (P I) r = .of (AtomicOrdinal.ret I r) := by
  cases r <;> simp only [atomicRet, AtomicOrdinal.ret, pure_atomicValue] <;> first
    | rfl
    | (cases I.fromOrdinal _ with
       | error e => rfl
       | ok o => cases o <;> rfl)

theorem pure_atomicStep (cell : Nat) (op : AtomicOp K) (st : σ) :
    atomicStep (P I) cell op st = (AtomicOrdinal.step I cell op, st) := by
  unfold atomicStep AtomicOrdinal.step
  rw [pure_atomicCall]
  cases AtomicOrdinal.call I op with
  | error e => rfl
  | ok p =>
    dsimp only [M.of]
    cases Prim.exec cell p with
    | error e => rfl
    | ok q =>
      dsimp only
      rw [pure_atomicRet]
      rfl

theorem pure_atomicDebug (cell : Nat) :
    atomicDebug (P I) (fun k => .text (key k)) cell = .of (some <$> AtomicOrdinal.debug I key cell) := by
  unfold atomicDebug AtomicOrdinal.debug
  rw [pure_atomicValue]
  simp only [AtomicOrdinal.step, AtomicOrdinal.call, Prim.exec, AtomicOrdinal.ret]
  cases I.fromOrdinal cell with
  | error e => rfl
  | ok o => cases o <;> rfl

end OrdinalMap.Eff
