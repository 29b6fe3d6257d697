import Verif.Text.Set64
import Verif.Text.ParsedSet
import Verif.Text.Lawful
import Verif.Lemmas.Set
/-!
# From the model to the text: what holds of a state of the model holds of the value that it is at run time
-/

namespace OrdinalMap.Text

theorem program_setSources : program setSources = some sets :=
  program_cons ordinalTraits_parsed (program_cons values_parsed (program_cons setArray_parsed (program_cons setIter_parsed
    (program_cons setRef_parsed (program_cons setMut_parsed (program_cons set_parsed (program_cons set64_parsed rfl)))))))

theorem SetSources.of {Q : Prog → Prop} (h : Q sets) : SetSources Q := ⟨sets, program_setSources, h⟩

section
variable {σ υ τ : Type} {enc : σ → υ} {Inv : σ → Prop}

/-- Transfer of histories of sets. -/
theorem run_enc {api : SetApi σ τ} {api' : SetApi υ τ} (hc : ∀ s x, api'.contains (enc s) x = api.contains s x)
    (hi : ∀ s x, api'.insert (enc s) x = (fun r => (r.1, enc r.2)) <$> api.insert s x) :
    ∀ (ops : List (SetOp τ)) s, api'.run (enc s) ops = (fun r => (r.1, enc r.2)) <$> api.run s ops
  | [], s => rfl
  | .insert x :: ops, s => by
    simp only [SetApi.run, hi]
    cases api.insert s x with
    | error f => rfl
    | ok r =>
      simp only [ok_map, ok_bind, run_enc hc hi ops]
      cases api.run r.2 ops <;> rfl
  | .contains x :: ops, s => by
    simp only [SetApi.run, hc]
    cases api.contains s x with
    | error f => rfl
    | ok r =>
      simp only [ok_bind, run_enc hc hi ops]
      cases api.run s ops <;> rfl

theorem behaves_enc [DecidableEq τ] {api : SetApi σ τ} {api' : SetApi υ τ}
    (hc : ∀ s x, api'.contains (enc s) x = api.contains s x)
    (hi : ∀ s x, api'.insert (enc s) x = (fun r => (r.1, enc r.2)) <$> api.insert s x) {s : σ} {m : τ → Bool}
    {obs : (τ → Bool) → σ → Prop} {obs' : (τ → Bool) → υ → Prop} (ho : ∀ m s, obs m s → obs' m (enc s))
    (hb : SetBehavesLike api s m obs) : SetBehavesLike api' (enc s) m obs' := by
  intro ops
  obtain ⟨s', h1, h2⟩ := hb ops
  exact ⟨enc s', by rw [run_enc hc hi, h1]; rfl, ho _ _ h2⟩

/-- Transfer of sequences of calls on iterators. -/
theorem iterRun_enc {it : DEIter σ τ} {it' : DEIter υ τ} (hs : ∀ s d, Inv s → it'.step (enc s) d = (fun r => (r.1, enc r.2)) <$> it.step s d)
    (hv : ∀ s d r, Inv s → it.step s d = .ok r → Inv r.2) :
    ∀ (ds : List Dir) s, Inv s → it'.run (enc s) ds = (fun r => (r.1, enc r.2)) <$> it.run s ds
  | [], s, _ => rfl
  | d :: ds, s, h => by
    simp only [DEIter.run, hs s d h]
    cases hd : it.step s d with
    | error f => rfl
    | ok r =>
      simp only [ok_map, ok_bind, iterRun_enc hs hv ds r.2 (hv s d r h hd)]
      cases it.run r.2 ds <;> rfl

theorem iterBehaves_enc {it : DEIter σ τ} {it' : DEIter υ τ} (hs : ∀ s d, Inv s → it'.step (enc s) d = (fun r => (r.1, enc r.2)) <$> it.step s d)
    (hv : ∀ s d r, Inv s → it.step s d = .ok r → Inv r.2) {s : σ} (hI : Inv s) {l : List τ}
    {obs : List τ → σ → Prop} {obs' : List τ → υ → Prop} (ho : ∀ l s, obs l s → obs' l (enc s))
    (hb : BehavesLike it s l obs) : BehavesLike it' (enc s) l obs' := by
  intro ds
  obtain ⟨s', h1, h2⟩ := hb ds
  exact ⟨enc s', by rw [iterRun_enc hs hv ds s hI, h1]; rfl, ho _ _ h2⟩

end

variable {P : Nat → Type} {c : Cfg} {J : (p : Nat) → OrdinalImpl (P p)} {S m : Nat}

@[simp] theorem answer_optVal (o : Option (P 0)) (v : Val P) : answer (optVal o, [v]) = .ok (o, v) := by
  cases o <;> rfl

theorem put_only (v w : Val P) : put [v] 0 [] w = [w] := put_var (by simp)

theorem place_only (v : Val P) : Place [v] 0 [] v := place_var (by simp)

/-! ## Iterators -/

theorem textValues_step (s : OrdinalValues) (d : Dir) : (textIter c J S sets (.con "OrdinalValues")).step (valuesVal s) d =
    (fun r => (r.1, valuesVal r.2)) <$> (OrdinalValues.iter (J 0)).step s d := by
  cases d with
  | front =>
    have := values_next (c := c) (J := J) (S := S) 5 (place_only (valuesVal s))
    simp only [put_only] at this
    show (setCall c J S sets _ "next" [.mref 0 []] [valuesVal s] >>= answer) = _ <$> OrdinalValues.next (J 0) s
    rw [setCall, this]
    cases OrdinalValues.next (J 0) s <;> simp
  | back =>
    have := values_nextBack (c := c) (J := J) (S := S) 5 (place_only (valuesVal s))
    simp only [put_only] at this
    show (setCall c J S sets _ "next_back" [.mref 0 []] [valuesVal s] >>= answer) = _ <$> OrdinalValues.nextBack (J 0) s
    rw [setCall, this]
    cases OrdinalValues.nextBack (J 0) s <;> simp

theorem textIter64_step (s : Iter64) (d : Dir) : (textIter c J S sets (.con "Iter64")).step (iter64Val s) d =
    (fun r => (r.1, iter64Val r.2)) <$> (Iter64.it c (J 0)).step s d := by
  cases d with
  | front =>
    have := iter64_next (c := c) (J := J) (S := S) 5 (place_only (iter64Val s))
    simp only [put_only] at this
    show (setCall c J S sets _ "next" [.mref 0 []] [iter64Val s] >>= answer) = _ <$> Iter64.next c (J 0) s
    rw [setCall, this]
    cases Iter64.next c (J 0) s <;> simp
  | back =>
    have := iter64_nextBack (c := c) (J := J) (S := S) 5 (place_only (iter64Val s))
    simp only [put_only] at this
    show (setCall c J S sets _ "next_back" [.mref 0 []] [iter64Val s] >>= answer) = _ <$> Iter64.nextBack c (J 0) s
    rw [setCall, this]
    cases Iter64.nextBack c (J 0) s <;> simp

theorem textSetIter_step (s : SetIter) (d : Dir) (hs : s.iter.len ≤ c.M) :
    (textIter c J S sets (.con "Iter")).step (setIterVal s) d =
    (fun r => (r.1, setIterVal r.2)) <$> (SetIter.it c (J 0)).step s d := by
  cases d with
  | front =>
    have := setIter_next (c := c) (J := J) (S := S) 4 (place_only (setIterVal s)) hs
    simp only [put_only] at this
    show (setCall c J S sets _ "next" [.mref 0 []] [setIterVal s] >>= answer) = _ <$> SetIter.next c (J 0) s
    rw [setCall, this]
    cases SetIter.next c (J 0) s <;> simp
  | back =>
    have := setIter_nextBack (c := c) (J := J) (S := S) 4 (place_only (setIterVal s)) hs
    simp only [put_only] at this
    show (setCall c J S sets _ "next_back" [.mref 0 []] [setIterVal s] >>= answer) = _ <$> SetIter.nextBack c (J 0) s
    rw [setCall, this]
    cases SetIter.nextBack c (J 0) s <;> simp

theorem values_next_len {I : OrdinalImpl (P 0)} {s : OrdinalValues} {r} (h : OrdinalValues.next I s = .ok r) : r.2.len ≤ s.len := by
  obtain ⟨i, j⟩ := s
  simp only [OrdinalValues.next, Range.next] at h
  by_cases hj : i < j
  · simp only [hj, if_true] at h
    cases hf : I.fromOrdinal i with
    | error f => simp [hf] at h
    | ok o => cases o with
      | none => simp [hf, unwrap] at h
      | some x =>
        simp [hf, unwrap] at h
        subst h
        simp only [OrdinalValues.len, range_len]
        omega
  · simp [hj] at h
    subst h
    exact Nat.le_refl _

theorem values_nextBack_len {I : OrdinalImpl (P 0)} {s : OrdinalValues} {r} (h : OrdinalValues.nextBack I s = .ok r) : r.2.len ≤ s.len := by
  obtain ⟨i, j⟩ := s
  simp only [OrdinalValues.nextBack, Range.nextBack] at h
  by_cases hj : i < j
  · simp only [hj, if_true] at h
    cases hf : I.fromOrdinal (j - 1) with
    | error f => simp [hf] at h
    | ok o => cases o with
      | none => simp [hf, unwrap] at h
      | some x =>
        simp [hf, unwrap] at h
        subst h
        simp only [OrdinalValues.len, range_len]
        omega
  · simp [hj] at h
    subst h
    exact Nat.le_refl _

theorem iterStep_len {I : OrdinalImpl (P 0)} {next : OrdinalValues → R (Option (P 0) × OrdinalValues)}
    (hn : ∀ s r, next s = .ok r → r.2.len ≤ s.len) {s : SetIter} {r} (h : iterStep c I next s = .ok r) :
    r.2.iter.len ≤ s.iter.len := by
  simp only [iterStep] at h
  cases hx : next s.iter with
  | error f => simp [hx] at h
  | ok q =>
    obtain ⟨o, it⟩ := q
    have := hn _ _ hx
    cases o with
    | none =>
      simp [hx] at h
      subst h
      exact this
    | some x =>
      cases hc : SetRef.contains c I s.set x with
      | error f => simp [hx, hc] at h
      | ok b =>
        cases b <;>
        · simp [hx, hc] at h
          subst h
          exact this

theorem setIter_step_len {I : OrdinalImpl (P 0)} {s : SetIter} {d : Dir} {r} (h : (SetIter.it c I).step s d = .ok r) :
    r.2.iter.len ≤ s.iter.len := by
  cases d with
  | front =>
    have key : ∀ k s r, SetIter.nextLoop c I k s = .ok r → r.2.iter.len ≤ s.iter.len := by
      intro k
      induction k with
      | zero => intro s r h; simp [SetIter.nextLoop] at h
      | succ k ih =>
        intro s r h
        rw [nextLoop_succ] at h
        cases hs : iterStep c I (OrdinalValues.next I) s with
        | error f => simp [hs] at h
        | ok q =>
          have := iterStep_len (fun _ _ => values_next_len) hs
          obtain ⟨o, s'⟩ := q
          cases o with
          | none =>
            simp only [hs, ok_bind] at h
            exact Nat.le_trans (ih _ _ h) this
          | some x =>
            simp [hs] at h
            subst h
            exact this
    exact key _ _ _ h
  | back =>
    have key : ∀ k s r, SetIter.nextBackLoop c I k s = .ok r → r.2.iter.len ≤ s.iter.len := by
      intro k
      induction k with
      | zero => intro s r h; simp [SetIter.nextBackLoop] at h
      | succ k ih =>
        intro s r h
        rw [nextBackLoop_succ] at h
        cases hs : iterStep c I (OrdinalValues.nextBack I) s with
        | error f => simp [hs] at h
        | ok q =>
          have := iterStep_len (fun _ _ => values_nextBack_len) hs
          obtain ⟨o, s'⟩ := q
          cases o with
          | none =>
            simp only [hs, ok_bind] at h
            exact Nat.le_trans (ih _ _ h) this
          | some x =>
            simp [hs] at h
            subst h
            exact this
    exact key _ _ _ h

/-! ## Sets -/

theorem textSet_contains (hs : (J 0).size = .ok m) (s : OrdinalSet) (x : P 0) :
    (textSet c J S sets (.con "OrdinalSet")).contains (setVal s) x = (OrdinalSet.api c (J 0)).contains s x := by
  have := set_contains (c := c) (J := J) (S := S) (h := []) 2 s x hs
  simp only [textSet, setFn, setCall, OrdinalSet.api, this]
  cases OrdinalSet.contains c (J 0) s x <;> rfl

theorem textSet_insert (hs : (J 0).size = .ok m) (s : OrdinalSet) (x : P 0) :
    (textSet c J S sets (.con "OrdinalSet")).insert (setVal s) x =
      (fun r => (r.1, setVal r.2)) <$> (OrdinalSet.api c (J 0)).insert s x := by
  have := set_insert (c := c) (J := J) (S := S) 1 (place_only (setVal s)) x hs
  simp only [put_only] at this
  simp only [textSet, setCall, OrdinalSet.api, this]
  cases OrdinalSet.insert c (J 0) s x <;> rfl

theorem textArraySet_contains (hs : (J 0).size = .ok m) (s : OrdinalArraySet) (x : P 0) :
    (textSet c J S sets (.con "OrdinalArraySet")).contains (arraySetVal s) x = (OrdinalArraySet.api c (J 0) S).contains s x := by
  have := arraySet_contains (c := c) (J := J) (S := S) (h := []) 2 s x hs
  simp only [textSet, setFn, setCall, OrdinalArraySet.api, this]
  cases OrdinalArraySet.contains c (J 0) S s x <;> rfl

theorem textArraySet_insert (hs : (J 0).size = .ok m) (s : OrdinalArraySet) (x : P 0) :
    (textSet c J S sets (.con "OrdinalArraySet")).insert (arraySetVal s) x =
      (fun r => (r.1, arraySetVal r.2)) <$> (OrdinalArraySet.api c (J 0) S).insert s x := by
  have := arraySet_insert (c := c) (J := J) (S := S) 1 (place_only (arraySetVal s)) x hs
  simp only [put_only] at this
  simp only [textSet, setCall, OrdinalArraySet.api, this]
  cases OrdinalArraySet.insert c (J 0) S s x <;> rfl

theorem textSet64_contains (s : OrdinalSet64) (x : P 0) :
    (textSet c J S sets (.con "OrdinalSet64")).contains (set64Val s) x = (OrdinalSet64.api c (J 0)).contains s x := by
  have := set64_contains (c := c) (J := J) (S := S) (h := []) 4 s x
  simp only [textSet, setFn, setCall, OrdinalSet64.api, this]
  cases OrdinalSet64.contains c (J 0) s x <;> rfl

theorem textSet64_insert (s : OrdinalSet64) (x : P 0) :
    (textSet c J S sets (.con "OrdinalSet64")).insert (set64Val s) x =
      (fun r => (r.1, set64Val r.2)) <$> (OrdinalSet64.api c (J 0)).insert s x := by
  have := set64_insert (c := c) (J := J) (S := S) 3 (place_only (set64Val s)) x
  simp only [put_only] at this
  simp only [textSet, setCall, OrdinalSet64.api, this]
  cases OrdinalSet64.insert c (J 0) s x <;> rfl

end OrdinalMap.Text
