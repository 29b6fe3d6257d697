import Verif.Text.TotalSim
/-!
# From the model to the text: histories of total maps
-/

namespace OrdinalMap.Text
open OrdinalMap.Props

variable {P : Nat → Type} {c : Cfg} {J : (p : Nat) → OrdinalImpl (P p)} {S m : Nat} {U : UserFns P}

/-! ## What a client of a mutable iterator has -/

/-- The references handed out, and those to come, are to slots of the slice. -/
def HandedT (s : MutClientT (P 1)) : Prop := s.it.it.iter.stop ≤ s.it.mem.length ∧ ∀ i ∈ s.handed, i < s.it.mem.length

/-- One call. -/
def totalDir (c : Cfg) (I : OrdinalImpl (P 0)) (d : Dir) (s : TotalIterMut (P 1)) : R (Option (P 0 × Nat) × TotalIterMut (P 1)) :=
  match d with
  | .front => TotalIterMut.next c I s
  | .back => TotalIterMut.nextBack c I s

theorem totalDir_keeps {d : Dir} {s : TotalIterMut (P 1)} {r} (hs : s.it.iter.stop ≤ s.mem.length) (hr : totalDir c (J 0) d s = .ok r) :
    (r.2.it.iter.stop ≤ s.mem.length ∧ r.2.mem = s.mem) ∧ ∀ p, r.1 = some p → p.2 < s.mem.length := by
  cases d with
  | front =>
    simp only [totalDir, TotalIterMut.next] at hr
    cases hn : s.it.nextItem c (J 0) slotIter with
    | error f => simp [hn] at hr
    | ok x =>
      obtain ⟨h1, h2, h3⟩ := next_range hn
      simp [hn] at hr
      subst hr
      refine ⟨⟨by simp only; omega, rfl⟩, fun p hp => ?_⟩
      have := (h3 p hp).1
      omega
  | back =>
    simp only [totalDir, TotalIterMut.nextBack] at hr
    cases hn : s.it.nextBackItem c (J 0) slotIter with
    | error f => simp [hn] at hr
    | ok x =>
      obtain ⟨h1, h2, h3⟩ := back_range hn
      simp [hn] at hr
      subst hr
      refine ⟨⟨by simp only; omega, rfl⟩, fun p hp => ?_⟩
      have := (h3 p hp).1
      omega

/-- How the client of `total::IterMut` looks. -/
def encClientT (enc : List (P 1) → Val P) (path : List Proj) (s : MutClientT (P 1)) : Heap P × List (Val P) :=
  ([enc s.it.mem, wrapVal "total::IterMut" (enumVal (mutEnum 0 path s.it.it))], s.handed.map fun i => .mref 0 (path ++ [.idx i]))

/-- How the client of `slice::IterMut` looks. -/
def encSlots (enc : List (P 1) → Val P) (path : List Proj) (s : SlotClient (P 1)) : Heap P × List (Val P) × List (Val P) :=
  ([enc s.mem], (List.range' s.it.start (s.it.stop - s.it.start)).map (fun i => .mref 0 (path ++ [.idx i])),
    s.handed.map fun i => .mref 0 (path ++ [.idx i]))

/-- The references handed out, and those to come, are to slots of the slice. -/
def HandedS (s : SlotClient (P 1)) : Prop := s.it.stop ≤ s.mem.length ∧ ∀ i ∈ s.handed, i < s.mem.length

theorem writeSlot_lt {s : List (P 1)} {i : Nat} (hi : i < s.length) (v : P 1) : writeSlot s i v = .ok (s.set i v) := if_pos hi

theorem readSlot_lt {s : List (P 1)} {i : Nat} (hi : i < s.length) : readSlot s i = .ok s[i] := by
  simp [readSlot, List.getElem?_eq_getElem hi]

/-- What the client does with the answer. -/
def handT (s : MutClientT (P 1)) (m : R (Option (P 0 × Nat) × TotalIterMut (P 1))) : R (Option (P 0 × P 1) × MutClientT (P 1)) := do
  let (o, it) ← m
  match o with
  | none => .ok (none, ⟨it, s.handed⟩)
  | some (k, slot) => .ok (some (k, ← readSlot it.mem slot), ⟨it, s.handed ++ [slot]⟩)

theorem stepT_front (s : MutClientT (P 1)) : MutClientT.step c (J 0) s .front = handT s (totalDir c (J 0) .front s.it) := by
  simp only [MutClientT.step, handT, totalDir]
  cases TotalIterMut.next c (J 0) s.it with
  | error f => rfl
  | ok r => obtain ⟨o, r⟩ := r; cases o <;> rfl

theorem stepT_back (s : MutClientT (P 1)) : MutClientT.step c (J 0) s .back = handT s (totalDir c (J 0) .back s.it) := by
  simp only [MutClientT.step, handT, totalDir]
  cases TotalIterMut.nextBack c (J 0) s.it with
  | error f => rfl
  | ok r => obtain ⟨o, r⟩ := r; cases o <;> rfl

theorem handedT_step {s : MutClientT (P 1)} {op : MutStep (P 1)} {r} (hs : HandedT s) (hr : MutClientT.step c (J 0) s op = .ok r) :
    HandedT r.2 := by
  have key (d : Dir) (hr : handT s (totalDir c (J 0) d s.it) = .ok r) : HandedT r.2 := by
    cases e : totalDir c (J 0) d s.it with
    | error f => simp [e, handT] at hr
    | ok x =>
      obtain ⟨o, it⟩ := x
      obtain ⟨⟨k1, k2⟩, k3⟩ := totalDir_keeps hs.1 e
      simp only at k1 k2 k3
      cases o with
      | none =>
        simp [e, handT] at hr
        subst hr
        exact ⟨by simpa [k2] using k1, by simpa [k2] using hs.2⟩
      | some p =>
        have hp := k3 p rfl
        simp [e, handT, readSlot_lt (s := it.mem) (i := p.2) (by rw [k2]; exact hp)] at hr
        subst hr
        refine ⟨by simpa [k2] using k1, fun i hi => ?_⟩
        simp only [k2]
        rcases List.mem_append.mp hi with hi | hi
        · exact hs.2 i hi
        · simp only [List.mem_singleton] at hi
          exact hi ▸ hp
  cases op with
  | front => exact key .front (stepT_front s ▸ hr)
  | back => exact key .back (stepT_back s ▸ hr)
  | write j v =>
    simp only [MutClientT.step] at hr
    cases hj : s.handed[j]? with
    | none => simp [hj] at hr; subst hr; exact hs
    | some i =>
      simp [hj, writeSlot_lt (hs.2 i (List.mem_of_getElem? hj))] at hr
      subst hr
      exact ⟨by simpa using hs.1, by simpa using hs.2⟩

theorem handedS_step {s : SlotClient (P 1)} {op : MutStep (P 1)} {r} (hs : HandedS s) (hr : SlotClient.step s op = .ok r) :
    HandedS r.2 := by
  obtain ⟨mem, ⟨i, j⟩, hd⟩ := s
  obtain ⟨h1, h2⟩ := hs
  simp only at h1 h2
  have key {p : Nat} (hp : p < mem.length) : ∀ q ∈ hd ++ [p], q < mem.length := by
    intro q hq
    rcases List.mem_append.mp hq with hq | hq
    · exact h2 q hq
    · simp only [List.mem_singleton] at hq
      exact hq ▸ hp
  cases op with
  | front =>
    simp only [SlotClient.step, slotIter, Range.next] at hr
    by_cases hj : i < j
    · have hp : i < mem.length := by omega
      simp [hj, readSlot_lt hp] at hr
      subst hr
      exact ⟨h1, key hp⟩
    · simp [hj] at hr
      subst hr
      exact ⟨h1, h2⟩
  | back =>
    simp only [SlotClient.step, slotIter, Range.nextBack] at hr
    by_cases hj : i < j
    · have hp : j - 1 < mem.length := by omega
      simp [hj, readSlot_lt hp] at hr
      subst hr
      exact ⟨by simp only; omega, key hp⟩
    · simp [hj] at hr
      subst hr
      exact ⟨h1, h2⟩
  | write k v =>
    simp only [SlotClient.step] at hr
    cases hk : hd[k]? with
    | none => simp [hk] at hr; subst hr; exact ⟨h1, h2⟩
    | some q =>
      simp [hk, writeSlot_lt (h2 q (List.mem_of_getElem? hk))] at hr
      subst hr
      exact ⟨by simpa using h1, by simpa using h2⟩

/-! ## The operations -/

section
variable {call : Machine P} {t : RT} {enc : List (P 1) → Val P} {path : List Proj} {F : TFns (P 0) (P 1)}

section
variable (T : TotalText J call t enc path F)
include T

theorem TotalText.at {s : List (P 1)} {i : Nat} (hi : i < s.length) (h : Heap P) :
    Place (enc s :: h) 0 (path ++ [.idx i]) (.usr 1 s[i]) :=
  (T.place s h).sub (by simp [ofV, getPath, part, List.getElem?_eq_getElem hi]) (by simp)

theorem TotalText.read {s : List (P 1)} {i : Nat} (hi : i < s.length) (h : Heap P) :
    deref (enc s :: h) (.mref 0 (path ++ [.idx i])) = .ok (.usr 1 s[i]) := (T.at hi h).get

theorem TotalText.write {s : List (P 1)} {i : Nat} (hi : i < s.length) (w : P 1) (h : Heap P) :
    assign (enc s :: h) (.usr 1 w) (.mref 0 (path ++ [.idx i])) = .ok (enc (s.set i w) :: h) := by
  have h1 := (T.at hi h).set (.usr 1 w)
  have h2 := (T.place s h).put_sub (w := .usr 1 w) (qs := [.idx i]) (v' := .arr (ofV (s.set i w))) (by
    simp [ofV, setPath, setPart, List.map_set, hi, part])
  rw [T.put] at h2
  simp only [assign]
  rw [h1, h2]

omit T in
theorem TotalText.step_read {f : String} {g : List (P 1) → P 0 → R (P 1)} (hf : ∀ s k, call t f [.ref (enc s), .ref (.usr 0 k)] [] =
    (fun v => (.ref (.usr 1 v), [])) <$> g s k) (s k) : textTotalStep.read call t (enc s) f k =
      (fun r : MapOut (P 0) (P 1) × List (P 1) => (r.1, enc r.2)) <$> (do .ok (.opt (some (← g s k)), s)) := by
  simp only [textTotalStep.read, hf]
  cases g s k <;> rfl

theorem TotalText.step_write {f : String} {g : List (P 1) → P 0 → R Nat} (hf : ∀ s k, call t f [.mref 0 [], .ref (.usr 0 k)] [enc s] =
    (fun i => (.mref 0 (path ++ [.idx i]), [enc s])) <$> g s k) (hl : ∀ s k i, g s k = .ok i → i < s.length) (s k w) :
    textTotalStep.write call t (enc s) f k w = (fun r : MapOut (P 0) (P 1) × List (P 1) => (r.1, enc r.2)) <$> (do
      let slot ← g s k
      .ok (.opt (some (← readSlot s slot)), ← writeSlot s slot w)) := by
  simp only [textTotalStep.write, hf]
  cases hg : g s k with
  | error f => rfl
  | ok i =>
    have hi := hl s k i hg
    simp [T.read hi, T.write hi, readSlot_lt hi, writeSlot_lt hi, asValue, firstVar]

theorem TotalText.slots_client (s : SlotClient (P 1)) (op) (hs : HandedS s) :
    stdMutStep (encSlots enc path s) op = (fun r => (r.1, encSlots enc path r.2)) <$> SlotClient.step s op := by
  obtain ⟨mem, ⟨i, j⟩, hd⟩ := s
  obtain ⟨h1, h2⟩ := hs
  simp only at h1 h2
  cases op with
  | front =>
    simp only [stdMutStep, encSlots, SlotClient.step, slotIter, Range.next, listIter]
    by_cases hj : i < j
    · obtain ⟨d, rfl⟩ : ∃ d, j = i + d + 1 := ⟨j - i - 1, by omega⟩
      have e : i + d + 1 - i = d + 1 := by omega
      have e' : i + d + 1 - (i + 1) = d := by omega
      have hp : i < mem.length := by omega
      simp [e, e', List.range'_succ, hj, stdMutStep.hand, T.read hp, readSlot_lt hp, asValue]
    · have e : j - i = 0 := by omega
      simp [hj, e, stdMutStep.hand]
  | back =>
    simp only [stdMutStep, encSlots, SlotClient.step, slotIter, Range.nextBack, listIter]
    by_cases hj : i < j
    · obtain ⟨d, rfl⟩ : ∃ d, j = i + d + 1 := ⟨j - i - 1, by omega⟩
      have e : i + d + 1 - i = d + 1 := by omega
      have e' : i + d - i = d := by omega
      have hp : i + d < mem.length := by omega
      simp [e, e', List.range'_concat, hj, stdMutStep.hand, T.read hp, readSlot_lt hp, asValue]
    · have e : j - i = 0 := by omega
      simp [hj, e, stdMutStep.hand]
  | write k v =>
    simp only [stdMutStep, encSlots, SlotClient.step, List.getElem?_map]
    cases hk : hd[k]? with
    | none => rfl
    | some q =>
      have hq := h2 q (List.mem_of_getElem? hk)
      simp [T.write hq, writeSlot_lt hq]

end

section
variable (T : TotalText J (mapCall c J S maps U) t enc path F)
include T

theorem TotalText.advance (s : MutClientT (P 1)) (hs : HandedT s) (d : Dir) :
    textMutStep.advance (mapCall c J S maps U) "total::IterMut" splitPair (encClientT enc path s)
        (match d with | .front => "next" | .back => "next_back") =
      (fun r : Option (P 0 × P 1) × MutClientT (P 1) => (r.1, encClientT enc path r.2)) <$> handT s (totalDir c (J 0) d s.it) := by
  have hq (u : Val P) : Text.put (encClientT enc path s).1 1 [] u = [enc s.it.mem, u] := put_var (by simp [encClientT])
  have hc : mapCall c J S maps U (.con "total::IterMut") (match d with | .front => "next" | .back => "next_back") [.mref 1 []]
      (encClientT enc path s).1 = (fun r => (.opt (r.1.map fun p => pairVal (p.1, .mref 0 (path ++ [.idx p.2]))),
        [enc s.it.mem, wrapVal "total::IterMut" (enumVal (mutEnum 0 path r.2.it))])) <$> totalDir c (J 0) d s.it := by
    cases d with
    | front =>
      have := total_next (c := c) (J := J) (S := S) (U := U) (h := (encClientT enc path s).1) (a := 1) (ps := []) (x := "total::IterMut")
        (s := mutEnum 0 path s.it.it) 6 rfl (place_var (by simp [encClientT]))
      simp only [hq, mutEnum_next] at this
      refine this.trans ?_
      simp only [totalDir, TotalIterMut.next]
      cases s.it.it.nextItem c (J 0) slotIter with
      | error f => rfl
      | ok r => obtain ⟨o, r⟩ := r; cases o <;> rfl
    | back =>
      have := total_nextBack (c := c) (J := J) (S := S) (U := U) (h := (encClientT enc path s).1) (a := 1) (ps := []) (x := "total::IterMut")
        (s := mutEnum 0 path s.it.it) 6 rfl (place_var (by simp [encClientT]))
      simp only [hq, mutEnum_nextBack] at this
      refine this.trans ?_
      simp only [totalDir, TotalIterMut.nextBack]
      cases s.it.it.nextBackItem c (J 0) slotIter with
      | error f => rfl
      | ok r => obtain ⟨o, r⟩ := r; cases o <;> rfl
  simp only [textMutStep.advance, textNext, hc]
  cases e : totalDir c (J 0) d s.it with
  | error f => rfl
  | ok r =>
    obtain ⟨o, it⟩ := r
    obtain ⟨⟨k1, k2⟩, k3⟩ := totalDir_keeps hs.1 e
    simp only at k1 k2 k3
    cases o with
    | none => simp [encClientT, handT, k2]
    | some a =>
      have hi := k3 a rfl
      have h1 := T.read hi [wrapVal "total::IterMut" (enumVal (mutEnum 0 path it.it))]
      have hsp : splitPair (pairVal (a.1, (.mref 0 (path ++ [.idx a.2]) : Val P))) = .ok (.mref 0 (path ++ [.idx a.2]), fun v => (a.1, v)) := rfl
      simp only [handT, ok_map, ok_bind, Option.map_some, asOpt_opt, hsp, h1, asValue, k2, readSlot_lt hi, encClientT,
        List.map_append, List.map_cons, List.map_nil]

theorem TotalText.iterMut_client (s : MutClientT (P 1)) (op) (hs : HandedT s) :
    textMutStep (mapCall c J S maps U) "total::IterMut" splitPair (encClientT enc path s) op =
      (fun r => (r.1, encClientT enc path r.2)) <$> MutClientT.step c (J 0) s op := by
  cases op with
  | front => rw [stepT_front]; exact T.advance s hs .front
  | back => rw [stepT_back]; exact T.advance s hs .back
  | write k v =>
    simp only [textMutStep, encClientT, MutClientT.step, List.getElem?_map]
    cases hk : s.handed[k]? with
    | none => rfl
    | some q =>
      have hq := hs.2 q (List.mem_of_getElem? hk)
      simp [T.write hq, writeSlot_lt hq]

/-- One operation. -/
theorem TotalText.step (s op) :
    textTotalStep (mapCall c J S maps U) t (enc s) op = (fun r => (r.1, enc r.2)) <$> F.step c (J 0) s op := by
  cases op with
  | get k => exact TotalText.step_read T.get s k
  | index k => exact TotalText.step_read T.index s k
  | getMut k w => exact T.step_write T.getMut T.getMut_lt s k w
  | indexMut k w => exact T.step_write T.indexMut T.indexMut_lt s k w
  | insert k v =>
    simp only [textTotalStep, TFns.step, T.insert]
    cases F.insert s k v <;> rfl
  | len =>
    simp only [textTotalStep, TFns.step, T.len]
    cases F.len s <;> rfl
  | isEmpty =>
    simp only [textTotalStep, TFns.step, T.isEmpty]
    cases F.isEmpty s <;> rfl
  | iter ds =>
    have := iterRun_enc (enc := fun s => [totalIterVal s]) (Inv := fun _ : TotalIter (P 1) => True)
      (fun s d _ => textTotalIter_step (c := c) (J := J) (S := S) (U := U) s d) (fun _ _ _ _ _ => trivial) ds (TotalIter.new s 0) trivial
    have h0 : wrapVal "total::Iter" (enumVal ⟨0, (ofV s).map .ref⟩) = totalIterVal (TotalIter.new s 0) := by
      simp [totalIterVal, encEnum, TotalIter.new, Enumerate.new, ofV, Function.comp_def]
    simp only [textTotalStep, textItems, TFns.step, T.iter, ok_bind, h0, this]
    cases (TotalIter.it c (J 0)).run (TotalIter.new s 0) ds <;> rfl
  | keys ds =>
    simp only [textTotalStep, textItems, TFns.step, T.keys]
    cases OrdinalValues.new (J 0) with
    | error f => rfl
    | ok s' =>
      have := iterRun_enc (enc := fun s => [valuesVal (P := P) s]) (Inv := fun _ : OrdinalValues => True)
        (fun s d _ => textValuesM_step (c := c) (J := J) (S := S) (U := U) s d) (fun _ _ _ _ _ => trivial) ds s' trivial
      simp only [ok_map, ok_bind, this]
      cases (OrdinalValues.iter (J 0)).run s' ds <;> rfl
  | values ds =>
    have := iterRun_enc (enc := fun s => (ofV s).map Val.ref) (Inv := fun _ : List (P 1) => True)
      (fun s d _ => stdIter_step s d) (fun _ _ _ _ _ => trivial) ds s trivial
    simp only [textTotalStep, TFns.step, T.values, ok_bind, asIter, this]
    cases (listIter (P 1)).it.run s ds <;> rfl
  | iterMut ops =>
    have := runOps_enc (enc := encClientT enc path) (Inv := HandedT)
      (fun s op h => T.iterMut_client s op h) (fun s op r h1 h2 => handedT_step (J := J) h1 h2) ops ⟨TotalIterMut.new s, []⟩
      ⟨by simp [TotalIterMut.new, Enumerate.new], by simp⟩
    have h0 : ([enc s] ++ [wrapVal "total::IterMut" (enumVal ⟨0, (List.range s.length).map fun i => .mref 0 (path ++ [.idx i])⟩)],
      ([] : List (Val P))) = encClientT enc path ⟨TotalIterMut.new s, []⟩ := by
      simp [encClientT, TotalIterMut.new, Enumerate.new, mutEnum, rangeEnum, encEnum, List.range_eq_range']
    simp only [textTotalStep, textMut, TFns.step, T.iterMut, ok_bind, h0, this]
    cases runOps (MutClientT.step c (J 0)) ⟨TotalIterMut.new s, []⟩ ops <;> rfl
  | valuesMut ops =>
    have := runOps_enc (enc := encSlots enc path) (Inv := HandedS)
      (fun s op h => T.slots_client s op h) (fun s op r h1 h2 => handedS_step h1 h2) ops ⟨s, ⟨0, s.length⟩, []⟩
      ⟨by simp, by simp⟩
    have h0 : ([enc s], (List.range s.length).map (fun i => .mref 0 (path ++ [.idx i])), ([] : List (Val P))) =
      encSlots enc path ⟨s, ⟨0, s.length⟩, []⟩ := by
      simp [encSlots, List.range_eq_range']
    simp only [textTotalStep, TFns.step, T.valuesMut, ok_bind, asIter, h0, this]
    cases runOps SlotClient.step ⟨s, ⟨0, s.length⟩, []⟩ ops <;> rfl

/-- Histories. -/
theorem TotalText.run (ops s) :
    runOps (textTotalStep (mapCall c J S maps U) t) (enc s) ops = (fun r => (r.1, enc r.2)) <$> runOps (F.step c (J 0)) s ops :=
  runOps_enc (Inv := fun _ : List (P 1) => True) (fun s op _ => T.step s op) (fun _ _ _ _ _ => trivial) ops s trivial

theorem TotalText.runsLike {μ : Type} {spec : μ → TotalOp (P 0) (P 1) → MapOut (P 0) (P 1) × μ}
    {s : List (P 1)} {m : μ} {obs : μ → List (P 1) → Prop} {obs' : μ → Val P → Prop}
    (ho : ∀ m s, obs m s → obs' m (enc s)) (hb : RunsLike (F.step c (J 0)) spec s m obs) :
    RunsLike (textTotalStep (mapCall c J S maps U) t) spec (enc s) m obs' := by
  intro ops
  obtain ⟨s', h1, h2⟩ := hb ops
  exact ⟨enc s', by rw [T.run ops s, h1]; rfl, ho _ _ h2⟩

end
end

end OrdinalMap.Text
