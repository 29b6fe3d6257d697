import Verif.SpecTextSet
import Verif.Text.Lemmas
/-!
# Rules for memory

A function runs on a heap `h` that it does not know, and adds its variables at the end.
-/

namespace OrdinalMap.Text

variable {P : Nat → Type} {md : Mode} {h xs : Heap P} {a : Nat} {ps qs : List Proj} {v w u : Val P}

/-! ## Paths -/

theorem getPath_append : getPath md v (ps ++ qs) = (do getPath md (← getPath md v ps) qs) := by
  induction ps generalizing v with
  | nil => rfl
  | cons p ps ih =>
    simp only [List.cons_append, getPath, bind_assoc]
    cases part md v p with
    | error f => rfl
    | ok u => exact ih

theorem setPath_append : setPath md w v (ps ++ qs) = (do
    let u ← getPath md v ps
    let u' ← setPath md w u qs
    setPath md u' v ps) := by
  induction ps generalizing v with
  | nil =>
    simp only [List.nil_append, getPath, setPath, ok_bind]
    cases setPath md w v qs <;> rfl
  | cons p ps ih =>
    simp only [List.cons_append, getPath, setPath, bind_assoc]
    cases hu : part md v p with
    | error f => rfl
    | ok u =>
      simp only [ok_bind, ih]
      cases getPath md u ps with
      | error f => rfl
      | ok x =>
        simp only [ok_bind]
        cases setPath md w x qs with
        | error f => rfl
        | ok y => rfl

theorem findField_setField {x : String} {fs : List (String × Val P)} (hf : findField x fs = some u) :
    findField x (setField x w fs) = some w := by
  induction fs with
  | nil => exact absurd hf (by simp [findField])
  | cons y fs ih =>
    simp only [setField, findField] at hf ⊢
    split at hf
    · rename_i e
      simp [findField, e]
    · rename_i e
      simp [findField, e, ih hf]

theorem setField_setField {x : String} {fs : List (String × Val P)} :
    setField x u (setField x w fs) = setField x u fs := by
  induction fs with
  | nil => rfl
  | cons y fs ih =>
    simp only [setField]
    split
    · rename_i e
      simp [setField, e]
    · rename_i e
      simp [setField, e, ih]

/-- A part can be replaced. -/
theorem part_set {p : Proj} (hp : part md v p = .ok u) (hs : p ≠ .single) (w : Val P) :
    ∃ v', setPart v p w = .ok v' ∧ part md v' p = .ok w ∧ ∀ x, setPart v' p x = setPart v p x := by
  cases p with
  | single => exact absurd rfl hs
  | field x =>
    cases v
    case obj y fs =>
      refine ⟨_, rfl, ?_, fun x => by simp [setPart, setField_setField]⟩
      simp only [part] at hp ⊢
      cases hf : findField x fs with
      | none => exact absurd hp (by simp [hf, stuck])
      | some u => simp [findField_setField hf]
    all_goals exact absurd hp (by simp [part, stuck])
  | idx i =>
    cases v
    case con y vs =>
      refine ⟨_, rfl, ?_, fun x => by simp [setPart, List.set_set]⟩
      simp only [part] at hp ⊢
      cases hf : vs[i]? with
      | none => exact absurd hp (by simp [hf, stuck])
      | some u =>
        have := (List.getElem?_eq_some_iff.mp hf).1
        simp [this]
    case arr vs =>
      refine ⟨_, rfl, ?_, fun x => by simp [setPart, List.set_set]⟩
      simp only [part] at hp ⊢
      cases hf : vs[i]? with
      | none => cases md <;> exact absurd hp (by simp [hf, fail])
      | some u =>
        have := (List.getElem?_eq_some_iff.mp hf).1
        simp [this]
    all_goals exact absurd hp (by simp [part, stuck])

theorem path_set (hp : getPath md v ps = .ok u) (hs : ∀ p ∈ ps, p ≠ .single) (w : Val P) :
    ∃ v', setPath md w v ps = .ok v' ∧ getPath md v' ps = .ok w ∧ ∀ x, setPath md x v' ps = setPath md x v ps := by
  induction ps generalizing v with
  | nil => exact ⟨w, rfl, rfl, fun _ => rfl⟩
  | cons p ps ih =>
    simp only [getPath, setPath] at hp ⊢
    cases hq : part md v p with
    | error f => exact absurd hp (by simp [hq])
    | ok y =>
      rw [hq, ok_bind] at hp
      obtain ⟨y', h1, h2, h3⟩ := ih hp fun q hq => hs q (List.mem_cons_of_mem _ hq)
      obtain ⟨v', k1, k2, k3⟩ := part_set hq (hs p List.mem_cons_self) y'
      refine ⟨v', by simp [h1, k1], by simp [k2, h2], fun x => ?_⟩
      simp only [k2, ok_bind, h3]
      cases setPath md x y ps with
      | error f => rfl
      | ok z => exact k3 z

/-! ## Places -/

theorem get_append : Loc.get md h (.heap a (ps ++ qs)) = (do getPath md (← Loc.get md h (.heap a ps)) qs) := by
  simp only [Loc.get]
  cases h[a]? with
  | none => rfl
  | some v => exact getPath_append

theorem set_append : Loc.set md h w (.heap a (ps ++ qs)) = (do
    let u ← Loc.get md h (.heap a ps)
    let u' ← setPath md w u qs
    Loc.set md h u' (.heap a ps)) := by
  simp only [Loc.get, Loc.set]
  cases h[a]? with
  | none => rfl
  | some v =>
    simp only [setPath_append, bind_assoc]

theorem get_base (ha : a < h.length) : Loc.get md (h ++ xs) (.heap a ps) = Loc.get md h (.heap a ps) := by
  simp only [Loc.get, List.getElem?_append_left ha]

theorem set_base (ha : a < h.length) :
    Loc.set md (h ++ xs) w (.heap a ps) = (· ++ xs) <$> Loc.set md h w (.heap a ps) := by
  simp only [Loc.set, List.getElem?_append_left ha]
  cases h[a]? with
  | none => rfl
  | some v =>
    simp only
    cases setPath md w v ps with
    | error f => rfl
    | ok v' => simp [List.set_append_left _ _ ha]

namespace Place
variable (hp : Place h a ps v)
include hp

theorem get : Loc.get .run h (.heap a ps) = .ok v := hp.1

theorem lt : a < h.length := by
  have := hp.1
  simp only [Loc.get] at this
  cases e : h[a]? with
  | none => exact absurd this (by simp [e, stuck])
  | some v => exact (List.getElem?_eq_some_iff.mp e).1

theorem writes (w : Val P) : Loc.set .run h w (.heap a ps) = .ok (put h a ps w) ∧
    (put h a ps w).length = h.length ∧ Place (put h a ps w) a ps w ∧ ∀ x, put (put h a ps w) a ps x = put h a ps x := by
  have hl := hp.lt
  obtain ⟨hg, hs⟩ := hp
  have e : h[a]? = some h[a] := List.getElem?_eq_getElem hl
  simp only [Loc.get, e] at hg
  obtain ⟨v', h1, h2, h3⟩ := path_set hg hs w
  have hset : Loc.set .run h w (.heap a ps) = .ok (h.set a v') := by simp [Loc.set, e, h1]
  have hput : put h a ps w = h.set a v' := by simp [put, hset]
  refine ⟨by rw [hput, hset], by simp [hput], ⟨?_, hs⟩, fun x => ?_⟩
  · rw [hput]
    simp only [Loc.get, List.getElem?_set, hl, if_true]
    exact h2
  · rw [hput]
    simp only [put, Loc.set, List.getElem?_set, hl, if_true, e, h3]
    obtain ⟨x', k1, -, -⟩ := path_set hg hs x
    simp [k1, List.set_set]

theorem set (w : Val P) : Loc.set .run h w (.heap a ps) = .ok (put h a ps w) := (hp.writes w).1
theorem len (w : Val P) : (put h a ps w).length = h.length := (hp.writes w).2.1
theorem put_at (w : Val P) : Place (put h a ps w) a ps w := (hp.writes w).2.2.1
theorem put_put (w x : Val P) : put (put h a ps w) a ps x = put h a ps x := (hp.writes w).2.2.2 x

theorem append (xs : Heap P) : Place (h ++ xs) a ps v := ⟨(get_base hp.lt).trans hp.1, hp.2⟩

theorem put_append (xs : Heap P) (w : Val P) : put (h ++ xs) a ps w = put h a ps w ++ xs := by
  unfold put
  rw [set_base hp.lt, hp.set w]
  rfl

/-- A part of a place. -/
theorem sub (hq : getPath .run v qs = .ok u) (hs : ∀ p ∈ qs, p ≠ .single) : Place h a (ps ++ qs) u :=
  ⟨by rw [get_append, hp.1, ok_bind, hq], by
    intro p hm
    rcases List.mem_append.mp hm with hm | hm
    · exact hp.2 p hm
    · exact hs p hm⟩

theorem put_sub {v' : Val P} (hq : setPath .run w v qs = .ok v') : put h a (ps ++ qs) w = put h a ps v' := by
  unfold put
  rw [set_append, hp.1, ok_bind, hq, ok_bind]

end Place

theorem place_var {v : Val P} (hv : h[a]? = some v) : Place h a [] v := ⟨by simp [Loc.get, hv, getPath], by simp⟩

theorem put_var (ha : a < h.length) : put h a [] w = h.set a w := by
  simp [put, Loc.set, setPath, List.getElem?_eq_getElem ha]

theorem get_cons {p : Proj} : Loc.get md h (.heap a (p :: ps)) = match h[a]? with
    | some v => getPath md v (p :: ps)
    | none => stuck := rfl

theorem set_cons {p : Proj} : Loc.set md h w (.heap a (p :: ps)) = match h[a]? with
    | some v => do .ok (h.set a (← setPath md w v (p :: ps)))
    | none => stuck := rfl

/-! ## Variables at the end of the heap -/

theorem fresh {n : Nat} (e : h.length = n) (k : Nat) : (h ++ xs)[n + k]? = xs[k]? := by
  simp [List.getElem?_append_right, ← e]

theorem fresh0 {n : Nat} (e : h.length = n) : (h ++ xs)[n]? = xs[0]? := by
  simp [List.getElem?_append_right, ← e]

theorem set_fresh {n : Nat} (e : h.length = n) (k : Nat) : (h ++ xs).set (n + k) v = h ++ xs.set k v := by
  simp [← e]

theorem set_fresh0 {n : Nat} (e : h.length = n) : (h ++ xs).set n v = h ++ xs.set 0 v := by
  simp [← e]

theorem take_fresh {n : Nat} (e : h.length = n) (k : Nat) : (h ++ xs).take (n + k) = h ++ xs.take k := by
  rw [← e, List.take_append, List.take_of_length_le (by omega), Nat.add_sub_cancel_left]

theorem take_fresh0 {n : Nat} (e : h.length = n) : (h ++ xs).take n = h := by
  rw [← e, List.take_left]

theorem take_all {n : Nat} (e : h.length = n) : h.take n = h := by
  rw [← e, List.take_length]

end OrdinalMap.Text
