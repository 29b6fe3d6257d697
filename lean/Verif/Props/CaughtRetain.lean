import Verif.Lemmas.CaughtRetain
import Verif.Props.Caught
/-!
# C91: `retain` when the key type, the closure or a destructor panics

`OrdinalArrayMap::retain` calls three kinds of user code: `from_ordinal`, the closure, which has a `&mut V`, and the
destructor of the values that it rejects.  All of them may share state and panic at any call.  C91 says what is left
of the map when the panic is caught: the keys before the one that was being decided are decided, the later ones are as
they were; the key itself is as it was (`from_ordinal` panicked), has the value that the closure left (the closure
panicked), or is gone (the destructor panicked).  The map is an ordinary one afterwards, in any history of `retain`s and
other operations whose panics are caught.
-/

namespace OrdinalMap.Props
open OrdinalMap

variable {σ K V : Type} {c : Cfg} {I : OrdinalImpl K} {J : SImpl σ K} {n : Nat} [DecidableEq K]

/-- C91: every history of operations, `retain` among them. -/
theorem C91_retain (L : Lawful c I n) (H : Honest J I) : ∃ s, OrdinalArrayMap.new V I n = .ok s ∧
    ∀ ops, (∀ op ∈ ops, ArrSpec.safe op) → ∀ st, ∃ es st' q r,
      Caught.run (Caught.arrStep c J) ops (st, s) = (.ok es, (st', q)) ∧
      EndsLike (ArrSpec.ends J I n) ArrSpec.fatal (fun _ => none) ops es r ∧
      ∀ m', r = some m' → RunsLike (OrdinalArrayMap.step c I) (MapSpec.step I n) q m' := by
  refine ⟨_, OrdinalArrayMap.new_eq L, fun ops hops st => ?_⟩
  obtain ⟨es, st', q, r, h1, h2, h3⟩ := arrRun_ends (c := c) L H (fun _ => none) ops hops st
  refine ⟨es, st', q, r, h1, h2, fun m' e => ?_⟩
  rw [h3 m' e]
  exact (OrdinalArrayMap.runs L m').mono fun _ _ _ => trivial

/-- A closure that adds 1 to the value and to the state, and panics if the state was a multiple of 5; it keeps odd
values. -/
def fussy (_ : Bool) : Upd Nat Nat Bool := fun (st, v) =>
  (if st % 5 = 0 then .error .panic else .ok ((v + 1) % 2 = 1), (st + 1, v + 1))

/-- A destructor that panics on multiples of 7. -/
def touchy (v : Nat) : M Nat Unit := fun st => (if v % 7 = 0 then .error .panic else .ok (), st + 1)

theorem fussy_safe : ArrSpec.safe (.retain fussy touchy : Caught.ArrOp Nat Bool Nat) := by
  refine ⟨fun k p e h => ?_, fun v st e h => ?_⟩
  · simp only [fussy] at h
    split at h <;> simp_all
  · simp only [touchy] at h
    split at h <;> simp_all

example := fun st => (C91_retain (V := Nat) (bool_lawful debug64).1 moodyImpl_honest).imp fun _ h =>
  h.2 [.op (.insert false 3), .op (.insert true 4), .retain fussy touchy, .op .clear, .retain fussy touchy]
    (by intro op h; simp at h; rcases h with rfl | rfl | rfl | rfl | rfl <;> first | exact trivial | exact fussy_safe) st

omit [DecidableEq K] in
/-- C91, the contents: the keys up to some key are decided, each present one by a call of the closure with its value; the
others are as they were; if `retain` returned, all are decided. -/
theorem C91_contents [DecidableEq K] (L : Lawful c I n) {f : K → Upd σ V Bool} {dtor : V → M σ Unit} {st st' : σ}
    {m m' : K → Option V} {e : Ended Unit} (h : Retains J f dtor (values I n) 0 st m e st' m') :
    ∃ done rest, values I n = done ++ rest ∧ (e = .returned () → rest = []) ∧ (∀ k, k ∉ done → m' k = m k) ∧
      ∀ k ∈ done, (m k = none ∧ m' k = none) ∨ ∃ v st₁ x st₂ w, m k = some v ∧ f k (st₁, v) = (x, (st₂, w)) ∧
        m' k = if x = .ok false then none else some w :=
  h.contents (values_nodup L)

omit [DecidableEq K] in
/-- C91, panics come from the user code only: `retain` returns exactly when it does in the model of C80, with the same
map and the same state of the user code. -/
theorem C91_agrees (J : SImpl σ K) {f : K → V → M σ (Bool × V)} {g : K → Upd σ V Bool}
    (hg : ∀ k v st, match f k v st with
      | (.ok (b, w), st') => g k (st, v) = (.ok b, (st', w))
      | (.error e, st') => ∃ w, g k (st, v) = (.error e, (st', w))) (m : OrdinalArrayMap V) (st : σ) :
    match Eff.retain c J m f st with
    | (.ok m', st') => Caught.retain c J g (fun _ => .of (.ok ())) (st, m) = (.ok (), (st', m'))
    | (.error e, st') => ∃ q, Caught.retain c J g (fun _ => .of (.ok ())) (st, m) = (.error e, (st', q)) := by
  have h := same_retainLoop (c := c) (J := J) hg (TotalIterMut.len (TotalIterMut.new m) + 1) (TotalIterMut.new m) st
  unfold Eff.retain
  simp only [Caught.retain, Upd.zoom, M.bind_apply, Upd.read]
  rcases hy : Eff.retainLoop c J f (TotalIterMut.len (TotalIterMut.new m) + 1) (TotalIterMut.new m) st with ⟨e | m', st'⟩
  · rw [hy] at h
    obtain ⟨q, h⟩ := h
    exact ⟨q.mem, by rw [h]⟩
  · rw [hy] at h
    obtain ⟨q, h, rfl⟩ := h
    simp only [h]

example (m : OrdinalArrayMap Nat) (st : Nat) := C91_agrees (c := debug64) moodyImpl (f := fun k v st =>
    match fussy k (st, v) with
    | (.ok b, (st', w)) => (.ok (b, w), st')
    | (.error e, (st', _)) => (.error e, st')) (g := fussy) (by
      intro k v st
      simp only [fussy]
      by_cases h : st % 5 = 0
      · simp only [h, if_true]; exact ⟨_, rfl⟩
      · simp only [h, if_false]) m st

/-! ## Concrete cases -/

/-- Whether it returned, and what is left. -/
private def look {σ α s : Type} (r : R (Ended α) × (σ × s)) : Option Bool × s :=
  (match r.1 with | .ok (.returned _) => some true | .ok .panicked => some false | _ => none, r.2.2)

private def never (_ : Nat) : M Nat Unit := .of (.ok ())

-- Nothing panics: 3 becomes 4 and is dropped, 4 becomes 5 and stays.
example : look (Caught.catchUnwind (Caught.retain debug64 (.ofPure boolImpl) fussy never) (1, [some 3, some 4])) =
    (some true, [none, some 5]) := by rfl
-- The closure panics on the second key, after it has written.
example : look (Caught.catchUnwind (Caught.retain debug64 (.ofPure boolImpl) fussy never) (4, [some 2, some 8])) =
    (some false, [some 3, some 9]) := by rfl
-- The destructor of 14 panics: the key is gone, the second one not decided.
example : look (Caught.catchUnwind (Caught.retain debug64 (.ofPure boolImpl) fussy touchy) (1, [some 13, some 4])) =
    (some false, [none, some 4]) := by rfl
-- `from_ordinal(1)` panics: the second key is as it was.
example : look (Caught.catchUnwind (Caught.retain debug64 moodyImpl fussy never) (4, [none, some 8])) =
    (some false, [none, some 8]) := by rfl

end OrdinalMap.Props
