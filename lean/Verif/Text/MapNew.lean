import Verif.Text.MapTotal
import Verif.Lemmas.ArrayBuilder
/-!
# The constructors of total maps, run from their texts

The caller supplies a function.  It keeps its state in the memory below what the constructor allocates.
-/

namespace OrdinalMap.Text

variable {P : Nat → Type} {c : Cfg} {J : (p : Nat) → OrdinalImpl (P p)} {S : Nat} {h xs : Heap P} {U : UserFns P}
  {ρ E V α : Type}

/-- The function `g` computes `f` with its state in the memory `st r`. -/
structure CallsFn (o : Outside P) (g : Val P) (st : ρ → Heap P) (f : P 0 → ρ → R (α × ρ)) (enc : α → Val P) : Prop where
  len : ∀ r r', (st r).length = (st r').length
  apply : ∀ k r xs, o.apply g [.usr 0 k] (st r ++ xs) = (fun p => (enc p.1, st p.2 ++ xs)) <$> f k r

/-- `Result` -/
def resultVal (enc : α → Val P) (encE : E → Val P) : Except E α → Val P
  | .ok v => .con "Ok" [enc v]
  | .error e => .con "Err" [encE e]

/-- How the loop of `try_new` ends. -/
def LoopEnds (encE : E → Val P) (mk : ρ → List V → OrdinalValues → Heap P) (x : Res P) : R (Except E (List V) × ρ) → Prop
  | .error f => x = .error f
  | .ok (.ok vs, r) => ∃ it, x = Res.val .unit (mk r vs it)
  | .ok (.error e, r) => ∃ vs it, x = .ok (.ret (.con "Err" [encE e]), mk r vs it)

/-- The loop of `try_new`. -/
theorem tryNew_loop {I : OrdinalImpl (P 0)} {next : Heap P → R (Val P × Heap P)} {body : Val P → Heap P → Res P} {encE : E → Val P}
    {mk : ρ → List V → OrdinalValues → Heap P} {init : P 0 → ρ → R (Except E V × ρ)} {B : Nat}
    (hn : ∀ r vs it, next (mk r vs it) = (fun q => (optVal q.1, mk r vs q.2)) <$> OrdinalValues.next I it)
    (hb : ∀ r vs it k, vs.length < B → body (.usr 0 k) (mk r vs it) = match init k r with
      | .error f => .error f
      | .ok (.ok x, r) => Res.val .unit (mk r (vs ++ [x]) it)
      | .ok (.error e, r) => .ok (.ret (.con "Err" [encE e]), mk r vs it)) :
    ∀ m it vs r, OrdinalValues.len it ≤ m → vs.length + OrdinalValues.len it ≤ B → LoopEnds encE mk
      (iterLoop next body (m + 1) (mk r vs it)) (OrdinalTotalMap.tryNewLoop I init (OrdinalValues.len it + 1) it vs r)
  | m, ⟨i, j⟩, vs, r, hm, hB => by
    simp only [OrdinalValues.len, range_len] at hm hB ⊢
    rw [iterLoop, hn, OrdinalTotalMap.tryNewLoop]
    by_cases hi : i < j
    · cases hf : I.fromOrdinal i with
      | error f => simp [OrdinalValues.next, Range.next, hi, hf, LoopEnds]
      | ok o =>
        cases o with
        | none => simp [OrdinalValues.next, Range.next, hi, hf, unwrap, LoopEnds]
        | some k =>
          have hb' := hb r vs ⟨i + 1, j⟩ k (by omega)
          obtain ⟨m, rfl⟩ : ∃ m', m = m' + 1 := ⟨m - 1, by omega⟩
          cases hk : init k r with
          | error f => simp [OrdinalValues.next, Range.next, hi, hf, unwrap, LoopEnds, optVal, hb', hk]
          | ok p =>
            obtain ⟨o, r'⟩ := p
            cases o with
            | error e =>
              simp only [OrdinalValues.next, Range.next, hi, hf, unwrap, optVal, hb', hk, if_true, ok_bind,
                ok_map, LoopEnds]
              exact ⟨_, _, rfl⟩
            | ok x =>
              have ih := tryNew_loop hn hb m ⟨i + 1, j⟩ (vs ++ [x]) r' (by simp only [OrdinalValues.len, range_len]; omega)
                (by simp only [OrdinalValues.len, range_len, List.length_append, List.length_cons, List.length_nil]; omega)
              simp only [OrdinalValues.len, range_len] at ih
              simp only [OrdinalValues.next, Range.next, hi, hf, unwrap, optVal, hb', hk, if_true, ok_bind,
                ok_map, Res.val]
              rw [show j - i = j - (i + 1) + 1 by omega]
              exact ih
    · simp only [OrdinalValues.next, Range.next, hi, if_false, ok_bind, ok_map, optVal, LoopEnds]
      exact ⟨_, rfl⟩

/-- Arrays that are filled exactly. -/
theorem tryNewLoop_array (I : OrdinalImpl (P 0)) (init : P 0 → ρ → R (Except E V × ρ)) :
    ∀ fuel it vs r, vs.length + OrdinalValues.len it = S → OrdinalTotalArrayMap.tryNewLoop I init fuel it (ArrayBuilder.holding S vs) r =
      OrdinalTotalMap.tryNewLoop I init fuel it vs r
  | 0, _, _, _, _ => rfl
  | fuel + 1, ⟨i, j⟩, vs, r, hS => by
    simp only [OrdinalValues.len, range_len] at hS
    rw [OrdinalTotalArrayMap.tryNewLoop, OrdinalTotalMap.tryNewLoop]
    by_cases hi : i < j
    · cases hf : I.fromOrdinal i with
      | error f => simp [OrdinalValues.next, Range.next, hi, hf]
      | ok o =>
        cases o with
        | none => simp [OrdinalValues.next, Range.next, hi, hf, unwrap]
        | some k =>
          simp only [OrdinalValues.next, Range.next, hi, hf, unwrap, if_true, ok_bind]
          cases hk : init k r with
          | error f => rfl
          | ok p =>
            obtain ⟨o, r'⟩ := p
            cases o with
            | error e => simp [ArrayBuilder.drop_holding]
            | ok x =>
              simp only [ok_bind]
              rw [ArrayBuilder.push_holding x (by omega), ok_bind]
              exact tryNewLoop_array I init fuel _ _ _ (by
                simp only [OrdinalValues.len, range_len, List.length_append, List.length_cons, List.length_nil]; omega)
    · simp only [OrdinalValues.next, Range.next, hi, if_false, ok_bind]
      rw [ArrayBuilder.finish_full (by omega)]
      rfl

theorem tryNew_array (I : OrdinalImpl (P 0)) (init : P 0 → ρ → R (Except E V × ρ)) (r : ρ) :
    OrdinalTotalArrayMap.tryNew I S init r = (do
      OrdinalTotalArrayMap.assertS I S
      OrdinalTotalMap.tryNewLoop I init (S + 1) ⟨0, S⟩ [] r) := by
  simp only [OrdinalTotalArrayMap.tryNew, OrdinalTotalArrayMap.assertS, OrdinalValues.new]
  cases hz : I.size with
  | error f => rfl
  | ok z =>
    by_cases hS : z = S
    · subst hS
      simp only [ok_bind, constAssert, beq_self_eq_true, if_true]
      rw [ArrayBuilder.new_eq, tryNewLoop_array I init _ _ _ _ (by simp [OrdinalValues.len, range_len])]
      simp [OrdinalValues.len, range_len]
    · simp [constAssert, hS]

theorem tryNewLoop_length {I : OrdinalImpl (P 0)} {init : P 0 → ρ → R (Except E V × ρ)} :
    ∀ {fuel it vs r vs' r'}, OrdinalTotalMap.tryNewLoop I init fuel it vs r = .ok (.ok vs', r') →
      vs'.length = vs.length + OrdinalValues.len it
  | 0, _, _, _, _, _, h => by simp [OrdinalTotalMap.tryNewLoop] at h
  | fuel + 1, ⟨i, j⟩, vs, r, vs', r', h => by
    rw [OrdinalTotalMap.tryNewLoop] at h
    by_cases hi : i < j
    · cases hf : I.fromOrdinal i with
      | error f => simp [OrdinalValues.next, Range.next, hi, hf] at h
      | ok o =>
        cases o with
        | none => simp [OrdinalValues.next, Range.next, hi, hf, unwrap] at h
        | some k =>
          simp only [OrdinalValues.next, Range.next, hi, hf, unwrap, if_true, ok_bind] at h
          cases hk : init k r with
          | error f => simp [hk] at h
          | ok p =>
            obtain ⟨o, r'⟩ := p
            cases o with
            | error e => simp [hk] at h
            | ok x =>
              simp only [hk, ok_bind] at h
              have := tryNewLoop_length h
              simp only [OrdinalValues.len, range_len, List.length_append, List.length_cons, List.length_nil] at this ⊢
              omega
    · simp only [OrdinalValues.next, Range.next, hi, if_false, ok_bind, Except.ok.injEq, Prod.mk.injEq] at h
      rw [← h.1]
      simp only [OrdinalValues.len, range_len]
      omega

theorem take_fresh2 {n : Nat} (e : h.length = n) : (h ++ xs).take (n + 1 + 1) = h ++ xs.take 2 := take_fresh e 2

/-- The variables of `try_new`. -/
def tryHeap (st : ρ → Heap P) (g : Val P) (cell : List (Val P) → Val P) (enc : V → Val P) (r : ρ) (vs : List V) (it : OrdinalValues) : Heap P :=
  st r ++ [g, cell (vs.map enc), valuesVal it]

theorem tryHeap_next (n : Nat) {o : Outside P} {g : Val P} {st : ρ → Heap P} {f : P 0 → ρ → R (Except E V × ρ)} {enc' : Except E V → Val P}
    (hc : CallsFn o g st f enc') (r₀ : ρ) (cell : List (Val P) → Val P) (enc : V → Val P) (r : ρ) (vs : List V) (it : OrdinalValues) :
    (outM c J S U (n + 2)).call (.con "OrdinalValues") "next" [.mref ((st r₀).length + 1 + 1) []] (tryHeap st g cell enc r vs it) =
      (fun q => (optVal q.1, tryHeap st g cell enc r vs q.2)) <$> OrdinalValues.next (J 0) it := by
  have hp : Place (tryHeap st g cell enc r vs it) ((st r₀).length + 2) [] (valuesVal it) :=
    place_var (by rw [tryHeap, fresh (hc.len r r₀)]; rfl)
  rw [show (st r₀).length + 1 + 1 = (st r₀).length + 2 from rfl, valuesM_next n hp]
  have (w : Val P) : put (tryHeap st g cell enc r vs it) ((st r₀).length + 2) [] w = st r ++ [g, cell (vs.map enc), w] := by
    rw [put_var hp.lt, tryHeap, set_fresh (hc.len r r₀)]
    rfl
  simp only [this]
  rfl

theorem totalArr_tryNew (n : Nat) {g : Val P} {st : ρ → Heap P} {init : P 0 → ρ → R (Except E V × ρ)} {enc : V → Val P}
    {encE : E → Val P} (hc : CallsFn (outM c J S U (n + 3)) g st init (resultVal enc encE)) (hS : S < c.M) (r : ρ) :
    (outM c J S U (n + 4)).call (.con "OrdinalTotalArrayMap") "try_new" [g] (st r) =
      (fun p => (resultVal (fun vs => totalArrVal (List.map enc vs)) encE p.1, st p.2)) <$> OrdinalTotalArrayMap.tryNew (J 0) S init r := by
  refine (outside_call (d := totalArrayMapFn1_0) (n + 3) _ _ rfl rfl).trans ?_
  rw [tryNew_array]
  have h1 := totalArr_assert (c := c) (J := J) (S := S) (U := U) (n + 1)
  cases ha : OrdinalTotalArrayMap.assertS (J 0) S with
  | error f =>
    rw [ha] at h1
    runs [totalArrayMapFn1_0, h1]
  | ok u =>
    rw [ha] at h1
    have hz : (J 0).size = .ok S := by
      simp only [OrdinalTotalArrayMap.assertS] at ha
      cases hz : (J 0).size with
      | error f => simp [hz] at ha
      | ok z => by_cases h : z = S <;> simp_all [constAssert]
    have hv (h : Heap P) := allM_values (c := c) (J := J) (S := S) (U := U) (h := h) n
    simp only [OrdinalValues.new, hz, ok_bind, ok_map] at hv
    have hln := fun r' => hc.len r' r
    have hl := tryNew_loop (encE := encE) (mk := tryHeap st g (.bld S) enc) (B := S) (init := init)
      (body := forBody c (("Self", .con "OrdinalTotalArrayMap") :: mapTys S) (outside c J (mapTys S) maps (n + 3) U) .run
        [("a", (st r).length + 1), ("init", (st r).length)] (.path ["v"])
        (.semi (.method (.path [⟨"a", .nil⟩]) "push" .nil (.cons (.try (.call (.path [⟨"init", .nil⟩]) (.cons (.path [⟨"v", .nil⟩]) .nil))) .nil)) .nil))
      (tryHeap_next (c := c) (J := J) (S := S) (U := U) (n + 1) hc r (.bld S) enc) (fun r' vs it k hb => by
        have ha := hc.apply k r' [g, .bld S (vs.map enc), valuesVal it, .usr 0 k]
        simp only [valuesVal, phantom] at ha
        have hl' := hln r'
        cases hk : init k r' with
        | error f => runs [forBody, tryHeap, valuesVal, ha, hk, hl']
        | ok p =>
          obtain ⟨o, r''⟩ := p
          have hl'' := hln r''
          cases o <;> runs [forBody, tryHeap, valuesVal, ha, hk, hl', hl'', resultVal, hb])
      c.M ⟨0, S⟩ [] r (by simp [OrdinalValues.len, range_len]; omega) (by simp [OrdinalValues.len, range_len])
    simp only [OrdinalValues.len, range_len, Nat.sub_zero] at hl
    simp only [tryHeap, valuesVal, List.map_nil, phantom, Cfg.M, Nat.add_assoc n, Nat.reduceAdd] at hl
    cases hm : OrdinalTotalMap.tryNewLoop (J 0) init (S + 1) ⟨0, S⟩ [] r with
    | error f =>
      rw [hm] at hl
      simp only [LoopEnds] at hl
      runs [totalArrayMapFn1_0, h1, hv, valuesVal, hl, hm]
    | ok p =>
      rw [hm] at hl
      obtain ⟨o, r'⟩ := p
      have hl' := hln r'
      cases o with
      | error e =>
        obtain ⟨vs, it, hl⟩ := hl
        runs [totalArrayMapFn1_0, h1, hv, valuesVal, hl, hm, hl', resultVal, tryHeap, take_fresh2]
      | ok vs =>
        obtain ⟨it, hl⟩ := hl
        have hvs : vs.length = S := by simpa [OrdinalValues.len, range_len] using tryNewLoop_length hm
        runs [hvs, totalArrayMapFn1_0, h1, hv, valuesVal, hl, hm, hl', resultVal, totalArrVal, tryHeap, take_fresh2]

/-- `init` as a function that never fails. -/
def okInit (init : P 0 → ρ → R (V × ρ)) (k : P 0) (r : ρ) : R (Except Empty V × ρ) := do
  let (v, r) ← init k r
  .ok (.ok v, r)

/-- No error. -/
def noErr : Empty → Val P := nofun

/-- `move |k| Ok::<_, Infallible>(init(k))` -/
theorem okInit_calls (n : Nat) {g : Val P} {st : ρ → Heap P} {init : P 0 → ρ → R (V × ρ)} {enc : V → Val P} {ts : Tys}
    (hc : CallsFn (outM c J S U (n + 1)) g st init enc) (te : TyEnv) (r₀ : ρ) :
    CallsFn (outM c J S U (n + 2)) (.clo te [("init", (st r₀).length)] (.cons (.path ["k"]) .nil) (.call (.path [⟨"Ok", ts⟩])
      (.cons (.call (.path [⟨"init", .nil⟩]) (.cons (.path [⟨"k", .nil⟩]) .nil)) .nil))) (fun r => st r ++ [g]) (okInit init)
      (resultVal enc noErr) where
  len r r' := by simp [hc.len r r']
  apply k r xs := by
    rw [outside_clo]
    have ha := hc.apply k r (g :: (xs ++ [.usr 0 k]))
    have hl := hc.len r r₀
    cases hk : init k r with
    | error f => runs [ha, hk, okInit, hl]
    | ok p =>
      obtain ⟨v, r'⟩ := p
      have hl' := hc.len r' r₀
      runs [ha, hk, okInit, hl, hl', resultVal]

theorem new_eq_tryNew (I : OrdinalImpl (P 0)) (init : P 0 → ρ → R (V × ρ)) (r : ρ) :
    OrdinalTotalArrayMap.new I S init r = (do
      OrdinalTotalArrayMap.assertS I S
      match ← OrdinalTotalArrayMap.tryNew I S (okInit init) r with
      | (.ok m, r) => .ok (m, r)
      | (.error e, _) => nomatch e) := by
  have : okInit init = fun k r => (do
      let (v, r) ← init k r
      .ok (.ok v, r)) := rfl
  rw [this, OrdinalTotalArrayMap.new]
  cases OrdinalTotalArrayMap.assertS I S with
  | error f => rfl
  | ok u =>
    simp only [ok_bind]
    generalize OrdinalTotalArrayMap.tryNew (E := Empty) I S _ r = x
    rcases x with f | ⟨o, r'⟩
    · rfl
    · cases o with
      | error e => exact nomatch e
      | ok m => rfl

theorem totalArr_new (n : Nat) {g : Val P} {st : ρ → Heap P} {init : P 0 → ρ → R (V × ρ)} {enc : V → Val P}
    (hc : CallsFn (outM c J S U (n + 2)) g st init enc) (hS : S < c.M) (r : ρ) :
    (outM c J S U (n + 5)).call (.con "OrdinalTotalArrayMap") "new" [g] (st r) =
      (fun p => (totalArrVal (List.map enc p.1), st p.2)) <$> OrdinalTotalArrayMap.new (J 0) S init r := by
  refine (outside_call (d := totalArrayMapFn1_1) (n + 4) _ _ rfl rfl).trans ?_
  have h1 := totalArr_assert (c := c) (J := J) (S := S) (U := U) (n + 2)
  have h2 := totalArr_tryNew n (okInit_calls (n + 1) hc (("Self", .con "OrdinalTotalArrayMap") :: mapTys S)
    (ts := .cons .infer (.cons (.path ["Infallible"] .nil) .nil)) r) hS r
  rw [new_eq_tryNew]
  cases ha : OrdinalTotalArrayMap.assertS (J 0) S with
  | error f =>
    rw [ha] at h1
    runs [totalArrayMapFn1_1, h1]
  | ok u =>
    rw [ha] at h1
    cases ht : OrdinalTotalArrayMap.tryNew (J 0) S (okInit init) r with
    | error f =>
      rw [ht] at h2
      runs [totalArrayMapFn1_1, h1, h2]
    | ok p =>
      obtain ⟨o, r'⟩ := p
      cases o with
      | error e => exact nomatch e
      | ok m =>
        have hl' := hc.len r' r
        rw [ht] at h2
        runs [totalArrayMapFn1_1, h1, h2, resultVal, totalArrVal, hl']

end OrdinalMap.Text
