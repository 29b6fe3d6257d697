import Verif.Model.CloneOwn
import Verif.Lemmas.MapMore
/-! # The loops that clone -/

namespace OrdinalMap.CloneOwn
open OrdinalMap

variable {α K V ρ : Type} {c : Cfg} {I : OrdinalImpl K} {n : Nat}

/-- What the loops give, in terms of the specification. -/
def outcome (run : Bool × List α × ρ) (done : List α) : Cloned α (List α) ρ :=
  if run.1 then ⟨some (done ++ run.2.1), [], run.2.2⟩ else ⟨none, done ++ run.2.1, run.2.2⟩

theorem toVecLoop_eq (cl : α → ρ → Option α × ρ) (xs : List α) : ∀ done r,
    toVecLoop cl xs done r = outcome (cloneRun cl xs r) done := by
  induction xs with
  | nil => intro done r; simp [toVecLoop, cloneRun, outcome]
  | cons x xs ih =>
    intro done r
    rcases h : cl x r with ⟨_ | y, r'⟩
    · simp [toVecLoop, cloneRun, outcome, h]
    · simp only [toVecLoop, cloneRun, h, ih]
      simp [outcome]

theorem arrayIntoIter_eq (cl : α → ρ → Option α × ρ) (xs : List α) : ∀ done r,
    arrayIntoIter cl xs done r = outcome (cloneRun cl xs r) done := by
  induction xs with
  | nil => intro done r; simp [arrayIntoIter, cloneRun, outcome]
  | cons x xs ih =>
    intro done r
    rcases h : cl x r with ⟨_ | y, r'⟩
    · simp [arrayIntoIter, cloneRun, outcome, h]
    · simp only [arrayIntoIter, cloneRun, h, ih]
      simp [outcome]

theorem array_go_eq (cl : α → ρ → Option α × ρ) (s : List α) : ∀ todo i done r, i + todo = s.length →
    array.go cl s todo i done r = outcome (cloneRun cl (s.drop i) r) done := by
  intro todo
  induction todo with
  | zero =>
    intro i done r h
    rw [List.drop_eq_nil_of_le (by omega)]
    simp [array.go, cloneRun, outcome]
  | succ todo ih =>
    intro i done r h
    have hi : i < s.length := by omega
    rw [List.drop_eq_getElem_cons hi]
    simp only [array.go, List.getElem?_eq_getElem hi]
    rcases h' : cl s[i] r with ⟨_ | y, r'⟩
    · simp [cloneRun, outcome, h']
    · simp only [cloneRun, h', ih _ _ _ (by omega : i + 1 + todo = s.length)]
      simp [outcome]

theorem array_eq (cl : α → ρ → Option α × ρ) (s : List α) (r : ρ) : array cl s r = outcome (cloneRun cl s r) [] := by
  rw [array, array_go_eq cl s _ _ _ _ (by omega), List.drop_zero]

theorem outcome_clones (cl : V → ρ → Option V × ρ) (s : List V) {f : ρ → Cloned V (List V) ρ}
    (h : ∀ r, f r = outcome (cloneRun cl s r) []) :
    ClonesLike cl s f (fun ws t => t = ws) := by
  intro r
  rw [h, outcome]
  cases (cloneRun cl s r).1 <;> simp

theorem ClonesLike.mono {β : Type} {cl : V → ρ → Option V × ρ} {vals : List V} {f : ρ → Cloned V β ρ}
    {p q : List V → β → Prop} (h : ClonesLike cl vals f p) (hpq : ∀ ws b, ws.length = vals.length → p ws b → q ws b) :
    ClonesLike cl vals f q := by
  have hl : ∀ (vals : List V) r, (cloneRun cl vals r).1 = true → (cloneRun cl vals r).2.1.length = vals.length := by
    intro vals
    induction vals with
    | nil => intro r _; rfl
    | cons v vs ih =>
      intro r hr
      unfold cloneRun at hr ⊢
      rcases h : cl v r with ⟨_ | w, r'⟩
      · simp [h] at hr
      · simp only [h] at hr ⊢
        simp [ih r' hr]
  intro r
  obtain ⟨h1, h2, h3⟩ := h r
  refine ⟨h1, fun hr => ?_, h3⟩
  obtain ⟨h4, b, h5, h6⟩ := h2 hr
  exact ⟨h4, b, h5, hpq _ _ (hl _ _ hr) h6⟩

/-- Options: the values are cloned, the gaps stay. -/
theorem cloneRun_option (cl : V → ρ → Option V × ρ) (s : List (Option V)) : ∀ r,
    (cloneRun (option cl) s r).1 = (cloneRun cl (s.filterMap id) r).1 ∧
    (cloneRun (option cl) s r).2.1.filterMap id = (cloneRun cl (s.filterMap id) r).2.1 ∧
    (cloneRun (option cl) s r).2.2 = (cloneRun cl (s.filterMap id) r).2.2 ∧
    ((cloneRun (option cl) s r).1 = true → (cloneRun (option cl) s r).2.1.map Option.isSome = s.map Option.isSome) := by
  induction s with
  | nil => intro r; exact ⟨rfl, rfl, rfl, fun _ => rfl⟩
  | cons x s ih =>
    intro r
    cases x with
    | none =>
      obtain ⟨h1, h2, h3, h4⟩ := ih r
      simp only [cloneRun, option, List.filterMap_cons_none, id]
      exact ⟨h1, by simpa using h2, h3, fun h => by simp [h4 h]⟩
    | some v =>
      rcases h : cl v r with ⟨_ | w, r'⟩
      · simp [cloneRun, option, h]
      · obtain ⟨h1, h2, h3, h4⟩ := ih r'
        rw [show (some v :: s).filterMap id = v :: s.filterMap id from rfl]
        simp only [cloneRun, option, h]
        exact ⟨h1, by simpa using h2, h3, fun h => by simp [h4 h]⟩

theorem values_clones {β : Type} (cl : V → ρ → Option V × ρ) (s : List (Option V)) {f : ρ → Cloned (Option V) β ρ}
    {p : List (Option V) → β → Prop} (h : ClonesLike (option cl) s f p) :
    ClonesLike cl (s.filterMap id) (fun r => values (f r)) (fun ws t =>
      ∃ os : List (Option V), os.filterMap id = ws ∧ os.map Option.isSome = s.map Option.isSome ∧ p os t) := by
  intro r
  obtain ⟨h1, h2, h3⟩ := h r
  obtain ⟨e1, e2, e3, e4⟩ := cloneRun_option cl s r
  rw [e1] at h2 h3 e4
  refine ⟨h1.trans e3, fun hr => ?_, fun hr => ?_⟩
  · obtain ⟨h4, b, h5, h6⟩ := h2 hr
    exact ⟨by simp [values, h4], b, h5, _, e2, e4 hr, h6⟩
  · obtain ⟨h4, h5⟩ := h3 hr
    exact ⟨h4, by simp [values, h5, e2]⟩

theorem enumerate_clones {σ : Type} (cl : V → ρ → Option V × ρ) (vals : List V) (next : Nat) {f : ρ → Cloned V σ ρ}
    {p : List V → σ → Prop} (h : ClonesLike cl vals f p) :
    ClonesLike cl vals (fun r => enumerate next (f r)) (fun ws t => t.next = next ∧ p ws t.iter) := by
  intro r
  obtain ⟨h1, h2, h3⟩ := h r
  refine ⟨h1, fun hr => ?_, fun hr => ?_⟩
  · obtain ⟨h4, b, h5, h6⟩ := h2 hr
    exact ⟨h4, ⟨next, b⟩, by simp [enumerate, h5], rfl, h6⟩
  · obtain ⟨h4, h5⟩ := h3 hr
    exact ⟨by simp [enumerate, h4], h5⟩

/-! ## Contents -/

/-- The clones are at the keys of their originals. -/
theorem present_zip (ks : List K) : ∀ (m : List (Option V)) (os : List (Option V)), m.length = ks.length →
    os.map Option.isSome = m.map Option.isSome →
    (ks.zip os).filterMap present = ((ks.zip m).filterMap present |>.map (·.1)).zip (os.filterMap id) := by
  induction ks with
  | nil =>
    intro m os hm h
    have : os = [] := by
      have := congrArg List.length h
      cases os <;> simp_all
    subst this
    rfl
  | cons k ks ih =>
    intro m os hm h
    cases m with
    | nil => simp at hm
    | cons x m =>
      cases os with
      | nil => simp at h
      | cons y os =>
        simp only [List.map_cons, List.cons.injEq] at h
        have := ih m os (by simpa using hm) h.2
        cases x <;> cases y <;> simp_all [present, List.filterMap_cons]

theorem pairs_eq (m : K → Option V) : pairs I n m = ((OrdinalMap.values I n).zip (store I n m)).filterMap present := by
  unfold pairs store
  induction OrdinalMap.values I n with
  | nil => rfl
  | cons k ks ih =>
    simp only [List.map_cons, List.zip_cons_cons, List.filterMap_cons, ih]
    cases h : m k <;> simp [present]

theorem store_filterMap (m : K → Option V) : (store I n m).filterMap id = (pairs I n m).map (·.2) := by
  unfold pairs store
  induction OrdinalMap.values I n with
  | nil => rfl
  | cons k ks ih =>
    simp only [List.map_cons, List.filterMap_cons, ih]
    cases h : m k <;> simp

/-- The map of the clones. -/
theorem store_clone (L : Lawful c I n) (m : K → Option V) {os : List (Option V)}
    (h : os.map Option.isSome = (store I n m).map Option.isSome) :
    ∃ m' : K → Option V, os = store I n m' ∧ pairs I n m' = ((pairs I n m).map (·.1)).zip (os.filterMap id) := by
  have hl : os.length = n := by
    have := congrArg List.length h
    simpa [store, values_length L] using this
  obtain ⟨m', rfl⟩ := exists_store L os hl
  refine ⟨m', rfl, ?_⟩
  rw [pairs_eq m', pairs_eq m]
  exact present_zip _ _ _ (by simp [store]) h

theorem lview_clone {ps : List (K × V)} {s t : Enumerate (List V)} (h : LView I n ps s) (hn : t.next = s.next)
    (hl : t.iter.length = ps.length) : LView I n ((ps.map (·.1)).zip t.iter) t := by
  obtain ⟨h1, h2, h3⟩ := h
  have hz : ((ps.map (·.1)).zip t.iter).length = ps.length := by simp [hl]
  refine ⟨?_, by rw [hz, hn]; exact h2, ?_⟩
  · rw [List.map_snd_zip (by simp [hl])]
  · rw [List.map_fst_zip (by simp [hl]), hz, hn]; exact h3

theorem sview_clone {ps : List (K × Option V)} {s t : Enumerate (List (Option V))} (h : LView I n ps s)
    (hn : t.next = s.next) (ht : t.iter.map Option.isSome = (ps.map (·.2)).map Option.isSome) :
    SView I n (((ps.filterMap present).map (·.1)).zip (t.iter.filterMap id)) t := by
  have hl : t.iter.length = ps.length := by simpa using congrArg List.length ht
  refine ⟨_, lview_clone h hn hl, ?_⟩
  rw [present_zip (ps.map (·.1)) (ps.map (·.2)) t.iter (by simp) ht]
  congr 3
  clear h ht hl
  induction ps with
  | nil => rfl
  | cons p ps ih => simp only [List.map_cons, List.zip_cons_cons, ← ih]

/-! ## A `clone` without state that returns -/

theorem cloneRun_pure {cl : α → ρ → Option α × ρ} {f : α → α} (h : ∀ v r, cl v r = (some (f v), r)) (s : List α) (r : ρ) :
    cloneRun cl s r = (true, s.map f, r) := by
  induction s with
  | nil => rfl
  | cons v s ih => simp [cloneRun, h, ih]

theorem outcome_pure {cl : α → ρ → Option α × ρ} {f : α → α} (h : ∀ v r, cl v r = (some (f v), r)) (s : List α) (r : ρ) :
    outcome (cloneRun cl s r) [] = ⟨some (s.map f), [], r⟩ := by
  simp [cloneRun_pure h, outcome]

theorem option_pure {cl : V → ρ → Option V × ρ} {f : V → V} (h : ∀ v r, cl v r = (some (f v), r)) (o : Option V) (r : ρ) :
    option cl o r = (some (o.map f), r) := by
  cases o <;> simp [option, h]

end OrdinalMap.CloneOwn
