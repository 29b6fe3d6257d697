import Verif.Text.DebugMaps
import Verif.Text.DebugSets
import Verif.Lemmas.Adapt
/-!
# What is printed by an iterator that behaves like a deque
-/

namespace OrdinalMap.Text

variable {P : Nat → Type} {c : Cfg} {J : (p : Nat) → OrdinalImpl (P p)} {S : Nat} {D : Printer P} {σ ι : Type}

theorem entriesOf_eq {it : DEIter σ ι} {obs : List ι → σ → Prop} (entry : ι → P 2 → R (P 2)) : ∀ (fuel : Nat) (l : List ι) (s : σ) (r : P 2),
    BehavesLike it s l obs → l.length < fuel →
    ∃ s', entriesOf it.next entry fuel s r = (fun r => (r, s')) <$> l.foldlM (fun r x => entry x r) r
  | 0, _, _, _, _, h => absurd h (Nat.not_lt_zero _)
  | fuel + 1, [], s, r, hb, _ => by
    obtain ⟨s', h1, -⟩ := hb.frontObs
    exact ⟨s', by simp only [entriesOf, h1]; rfl⟩
  | fuel + 1, x :: l, s, r, hb, hl => by
    obtain ⟨s', h1, h2⟩ := hb.frontObs
    simp only [entriesOf, h1, ok_bind, List.head?_cons, List.foldlM_cons]
    cases entry x r with
    | error f => exact ⟨s', rfl⟩
    | ok r => exact entriesOf_eq entry fuel l s' r h2 (by simpa using hl)

theorem printFrom_eq {it : DEIter σ ι} {obs : List ι → σ → Prop} {l : List ι} {s : σ} (f : String) (val : ι → Val P) {fuel : Nat}
    (hb : BehavesLike it s l obs) (hl : l.length < fuel) (r : P 2) : D.printFrom f it.next val fuel s r = D.print f (l.map val) r := by
  simp only [Printer.printFrom, Printer.print]
  cases D.start f r with
  | error f => rfl
  | ok r =>
    obtain ⟨s', h⟩ := entriesOf_eq (fun x => D.entry (val x)) fuel l s r hb hl
    simp only [ok_bind, h, List.foldlM_map]
    cases List.foldlM (fun r x => D.entry (val x) r) r l <;> rfl

theorem deque_step_le (l : List ι) (d : Dir) : (Deque.step l d).2.length ≤ l.length := by
  cases d <;> simp [Deque.step]

/-- After any sequence of calls, the iterator still behaves like a deque of what is left. -/
theorem stillBehaves {it : DEIter σ ι} {obs : List ι → σ → Prop} : ∀ {l : List ι} {s : σ}, BehavesLike it s l obs →
    BehavesLike it s l fun l' s => l'.length ≤ l.length ∧ BehavesLike it s l' obs := by
  intro l s hb ds
  induction ds generalizing l s with
  | nil => exact ⟨s, rfl, Nat.le_refl _, hb⟩
  | cons d ds ih =>
    obtain ⟨s1, h1, h2⟩ := hb.stepObs d
    obtain ⟨s2, h3, h4, h5⟩ := ih h2
    refine ⟨s2, ?_, Nat.le_trans h4 (deque_step_le l d), h5⟩
    simp only [DEIter.run, Deque.run, h1, ok_bind, h3]

/-- The same with what every step keeps. -/
theorem stillBehaves_inv {it : DEIter σ ι} {obs : List ι → σ → Prop} {Inv : σ → Prop} {l : List ι} {s : σ}
    (hv : ∀ s d r, Inv s → it.step s d = .ok r → Inv r.2) (hI : Inv s) (hb : BehavesLike it s l obs) :
    BehavesLike it s l fun l' s => Inv s ∧ l'.length ≤ l.length ∧ BehavesLike it s l' obs := by
  intro ds
  obtain ⟨s', h1, h2⟩ := stillBehaves hb ds
  refine ⟨s', h1, ?_, h2⟩
  clear h2 hb
  generalize (Deque.run l ds).1 = os at h1
  induction ds generalizing s os with
  | nil => cases h1; exact hI
  | cons d ds ih =>
    simp only [DEIter.run] at h1
    cases h3 : it.step s d with
    | error f => simp [h3] at h1
    | ok r =>
      obtain ⟨o, s1⟩ := r
      simp only [h3, ok_bind] at h1
      cases h4 : it.run s1 ds with
      | error f => simp [h4] at h1
      | ok r =>
        obtain ⟨os', s2⟩ := r
        simp only [h4, ok_bind, Except.ok.injEq, Prod.mk.injEq] at h1
        exact ih (hv _ _ _ hI h3) os' (by rw [h4, h1.2])

variable {n : Nat} {t : RT} {f x : String} {v : Val P} {read : Heap P → Val P → R ι} {val : ι → Val P} {enc : σ → Val P} {U : UserFns P}

theorem printsRest {it : DEIter σ ι} {Inv : σ → Prop} {obs : List ι → σ → Prop} {l : List ι} {s : σ} {arg : Val P}
    (hc : mapCall c J S maps U t f [arg] [] = .ok (enc s, []))
    (hs : ∀ s d, Inv s → (textMapIter (mapCall c J S maps U) x read 0).step [enc s] d = (fun r => (r.1, [enc r.2])) <$> it.step s d)
    (hv : ∀ s d r, Inv s → it.step s d = .ok r → Inv r.2) (hI : Inv s)
    (hf : ∀ s r, Inv s → fmtText c J (mapTys S) maps D x (enc s) r = D.printFrom "debug_list" it.next val (c.M + 1) s r)
    (hb : BehavesLike it s l obs) (hl : l.length ≤ c.M) :
    PrintsRest (mapCall c J S maps U) (fmtText c J (mapTys S) maps D) (D.print "debug_list") t f x arg read val l := by
  refine ⟨enc s, hc, iterBehaves_enc (enc := fun s => [enc s]) hs hv hI (fun l' s h => ⟨_, rfl, fun r => ?_⟩) (stillBehaves_inv hv hI hb)⟩
  rw [hf s r h.1]
  exact printFrom_eq _ _ h.2.2 (by omega) r

/-- The same, if the items are printed through another iterator `it'`. -/
theorem printsRest_of {σ' ι' : Type} {it : DEIter σ ι} {it' : DEIter σ' ι'} {view : σ → σ'} {val' : ι' → Val P} {g : ι → ι'} {Inv : σ → Prop}
    {obs : List ι → σ → Prop} {l : List ι} {s : σ} {arg : Val P}
    (hc : mapCall c J S maps U t f [arg] [] = .ok (enc s, []))
    (hs : ∀ s d, Inv s → (textMapIter (mapCall c J S maps U) x read 0).step [enc s] d = (fun r => (r.1, [enc r.2])) <$> it.step s d)
    (hv : ∀ s d r, Inv s → it.step s d = .ok r → Inv r.2) (hI : Inv s)
    (hf : ∀ s r, Inv s → fmtText c J (mapTys S) maps D x (enc s) r = D.printFrom "debug_list" it'.next val' (c.M + 1) (view s) r)
    (hg : ∀ x, val x = val' (g x))
    (ho : ∀ l s, BehavesLike it s l obs → ∃ obs', BehavesLike it' (view s) (l.map g) obs')
    (hb : BehavesLike it s l obs) (hl : l.length ≤ c.M) :
    PrintsRest (mapCall c J S maps U) (fmtText c J (mapTys S) maps D) (D.print "debug_list") t f x arg read val l := by
  refine ⟨enc s, hc, iterBehaves_enc (enc := fun s => [enc s]) hs hv hI (fun l' s h => ⟨_, rfl, fun r => ?_⟩) (stillBehaves_inv hv hI hb)⟩
  obtain ⟨obs', h'⟩ := ho l' s h.2.2
  rw [hf s r h.1, printFrom_eq _ _ h' (by have := h.2.1; simp; omega) r, List.map_map]
  congr 1
  exact List.map_congr_left fun x _ => (hg x).symm

end OrdinalMap.Text
