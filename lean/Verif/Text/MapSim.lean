import Verif.Text.MapMain
import Verif.Text.SetSim
/-!
# From the model to the text: operations on sparse maps
-/

namespace OrdinalMap.Text

variable {P : Nat → Type} {c : Cfg} {J : (p : Nat) → OrdinalImpl (P p)} {S m : Nat} {U : UserFns P}

/-- The functions of a sparse map in which the two types of sparse maps differ. -/
structure Fns (K V : Type) where
  get : List (Option V) → K → R (Option V)
  getMut : List (Option V) → K → R (Option Nat)
  insert : List (Option V) → K → V → R (Option V × List (Option V))
  remove : List (Option V) → K → R (Option V × List (Option V))
  entry : List (Option V) → K → R (Entry K × List (Option V))
  len : List (Option V) → R Nat
  isEmpty : List (Option V) → R Bool
  clear : List (Option V) → R (List (Option V))

/-- One operation. -/
def Fns.step {K V : Type} (F : Fns K V) (c : Cfg) (I : OrdinalImpl K) (s : List (Option V)) :
    MapOp K V → R (MapOut K V × List (Option V))
  | .get k => do .ok (.opt (← F.get s k), s)
  | .getMut k w => do getMutClient (← F.getMut s k) s w
  | .insert k v => do
    let (old, s) ← F.insert s k v
    .ok (.opt old, s)
  | .remove k => do
    let (old, s) ← F.remove s k
    .ok (.opt old, s)
  | .orInsert k v w => do
    let (e, s) ← F.entry s k
    let (slot, s) ← e.orInsert s v
    .ok (.opt (some (← readSome s slot)), ← writeSome s slot w)
  | .entry k v w => do
    let (e, s) ← F.entry s k
    entryClient e s v w
  | .len => do .ok (.nat (← F.len s), s)
  | .isEmpty => do .ok (.bool (← F.isEmpty s), s)
  | .iter ds => do
    let (os, _) ← (MapIter.it c I).run (TotalIter.new s 0) ds
    .ok (.items os, s)
  | .keys ds => do
    let (os, _) ← (Keys.it c I).run (TotalIter.new s 0) ds
    .ok (.keys os, s)
  | .values ds => do
    let (os, _) ← (Values.it c I).run (TotalIter.new s 0) ds
    .ok (.vals os, s)
  | .iterMut steps => do
    let (os, cl) ← runOps (MutClient.step c I) ⟨TotalIterMut.new s, []⟩ steps
    .ok (.items os, cl.it.mem)
  | .valuesMut steps => do
    let (os, cl) ← runOps (MutClient.stepV c I) ⟨TotalIterMut.new s, []⟩ steps
    .ok (.vals os, cl.it.mem)
  | .drain ds leak => do
    let (os, d) ← (Drain.it c I).run (Drain.new s) ds
    .ok (.items os, ← if leak then .ok d.mem else Drain.drop c I d)
  | .clear => do .ok (.unit, ← F.clear s)

/-- `OrdinalMap` -/
def OMap.fns {V K : Type} (c : Cfg) (I : OrdinalImpl K) (sz : Nat) : Fns K V :=
  ⟨OMap.get I, OMap.getMut I, OMap.insert c I sz, OMap.remove I, OMap.entry c I sz, OMap.len c I, OMap.isEmpty c I, OMap.clear c I⟩

theorem OMap.step_fns {V K : Type} (c : Cfg) (I : OrdinalImpl K) (sz : Nat) (s : List (Option V)) (op) :
    OMap.step c I sz s op = (OMap.fns c I sz).step c I s op := by
  cases op <;> rfl

/-- `OrdinalArrayMap` -/
def OrdinalArrayMap.fns {V K : Type} (c : Cfg) (I : OrdinalImpl K) : Fns K V :=
  ⟨OrdinalArrayMap.get I, OrdinalArrayMap.getMut I, OrdinalArrayMap.insert I, OrdinalArrayMap.remove I, OrdinalArrayMap.entry I,
    OrdinalArrayMap.len c I, OrdinalArrayMap.isEmpty c I, OrdinalArrayMap.clear c I⟩

theorem OrdinalArrayMap.step_fns {V K : Type} (c : Cfg) (I : OrdinalImpl K) (s : List (Option V)) (op) :
    OrdinalArrayMap.step c I s op = (OrdinalArrayMap.fns c I).step c I s op := by
  cases op <;> rfl

/-- The slot of an entry. -/
def entrySlot {K : Type} : Entry K → Nat
  | .occupied _ i => i
  | .vacant _ i => i

/-- The type `t` of the text does what `F` does; `enc` is how the slots look at run time, and `path` is where they are. -/
structure MapText (c : Cfg) (J : (p : Nat) → OrdinalImpl (P p)) (call : Machine P) (t : RT) (enc : List (Option (P 1)) → Val P)
    (path : List Proj) (F : Fns (P 0) (P 1)) : Prop where
  place : ∀ s h, Place (enc s :: h) 0 path (slotsVal s)
  put : ∀ s s' h, put (enc s :: h) 0 path (slotsVal s') = enc s' :: h
  get : ∀ s k, call t "get" [.ref (enc s), .ref (.usr 0 k)] [] =
    (fun o => (.opt (o.map fun v => .ref (.usr 1 v)), [])) <$> F.get s k
  getMut : ∀ s k, call t "get_mut" [.mref 0 [], .ref (.usr 0 k)] [enc s] =
    (fun o => (.opt (o.map fun i => .mref 0 (path ++ [.idx i] ++ [.idx 0])), [enc s])) <$> F.getMut s k
  getMut_some : ∀ s k i, F.getMut s k = .ok (some i) → ∃ v, s[i]? = some (some v)
  insert : ∀ s k v, call t "insert" [.mref 0 [], .usr 0 k, .usr 1 v] [enc s] =
    (fun r => (slotVal r.1, [enc r.2])) <$> F.insert s k v
  insert_len : ∀ s k v r, F.insert s k v = .ok r → s.length < c.M → r.2.length < c.M
  remove : ∀ s k, call t "remove" [.mref 0 [], .ref (.usr 0 k)] [enc s] = (fun r => (slotVal r.1, [enc r.2])) <$> F.remove s k
  remove_len : ∀ s k r, F.remove s k = .ok r → r.2.length = s.length
  entry : ∀ s k, call t "entry" [.mref 0 [], .usr 0 k] [enc s] = (fun r => (entryVal 0 path r.1, [enc r.2])) <$> F.entry s k
  entry_len : ∀ s k r, F.entry s k = .ok r → s.length < c.M → r.2.length < c.M
  entry_slot : ∀ s k r, F.entry s k = .ok r → entrySlot r.1 < r.2.length
  len : ∀ s, s.length < c.M → call t "len" [.ref (enc s)] [] = (fun k => (.uint .size k, [])) <$> F.len s
  isEmpty : ∀ s, s.length < c.M → call t "is_empty" [.ref (enc s)] [] = (fun b => (.bool b, [])) <$> F.isEmpty s
  iter : ∀ s, call t "iter" [.ref (enc s)] [] = .ok (mapIterVal (TotalIter.new s 0), [])
  keys : ∀ s, call t "keys" [.ref (enc s)] [] = .ok (wrapVal "Keys" (mapIterVal (TotalIter.new s 0)), [])
  values : ∀ s, call t "values" [.ref (enc s)] [] = .ok (wrapVal "Values" (mapIterVal (TotalIter.new s 0)), [])
  iterMut : ∀ s, call t "iter_mut" [.mref 0 []] [enc s] = .ok (iterMutVal 0 path (TotalIterMut.it (TotalIterMut.new s)), [enc s])
  valuesMut : ∀ s, call t "values_mut" [.mref 0 []] [enc s] =
    .ok (wrapVal "ValuesMut" (iterMutVal 0 path (TotalIterMut.it (TotalIterMut.new s))), [enc s])
  drain : ∀ s, call t "drain" [.mref 0 []] [enc s] = .ok (drainVal 0 path (TotalIterMut.it (Drain.new s)), [enc s])
  clear : ∀ s, s.length < c.M → call t "clear" [.mref 0 []] [enc s] = (fun s' => (.unit, [enc s'])) <$> F.clear s
  clear_len : ∀ s s', s.length < c.M → F.clear s = .ok s' → s'.length = s.length

/-! ## What a loop keeps -/

theorem skipLoop_keeps {σ α β : Type} {step : σ → R (Option α × σ)} {body : α → σ → R (Option β × σ)} {Inv : σ → Prop}
    {G : α → σ → Prop} {Q : β → σ → Prop} (h1 : ∀ s r, Inv s → step s = .ok r → Inv r.2 ∧ ∀ a, r.1 = some a → G a r.2)
    (h2 : ∀ a s r, Inv s → G a s → body a s = .ok r → Inv r.2 ∧ ∀ b, r.1 = some b → Q b r.2) :
    ∀ (fuel : Nat) (s : σ) r, Inv s → skipLoop step body fuel s = .ok r → Inv r.2 ∧ ∀ b, r.1 = some b → Q b r.2
  | 0, s, r, _, h => by simp [skipLoop] at h
  | fuel + 1, s, r, hI, h => by
    simp only [skipLoop] at h
    cases hs : step s with
    | error f => simp [hs] at h
    | ok x =>
      obtain ⟨o, s1⟩ := x
      obtain ⟨k1, k2⟩ := h1 s _ hI hs
      simp only at k1 k2
      cases o with
      | none =>
        simp [hs] at h
        subst h
        exact ⟨k1, by simp⟩
      | some a =>
        have hG := k2 a rfl
        simp only [hs, ok_bind] at h
        cases hb : body a s1 with
        | error f => simp [hb] at h
        | ok y =>
          obtain ⟨ob, s2⟩ := y
          obtain ⟨j1, j2⟩ := h2 a s1 _ k1 hG hb
          simp only at j1 j2
          cases ob with
          | some b =>
            simp [hb] at h
            subst h
            exact ⟨j1, j2⟩
          | none =>
            simp only [hb, ok_bind] at h
            exact skipLoop_keeps h1 h2 fuel s2 r j1 h

/-- The slots left are within the slice. -/
def Within (c : Cfg) (s : TotalIterMut (Option (P 1))) : Prop := s.it.iter.stop ≤ s.mem.length ∧ s.it.iter.len ≤ c.M

theorem within_new {s : List (Option (P 1))} (hs : s.length < c.M) : Within c (TotalIterMut.new s) := by
  simp only [Within, TotalIterMut.new, Enumerate.new, range_len]
  omega

theorem totalMut_next {s : TotalIterMut (Option (P 1))} {r} (hs : Within c s) (hr : TotalIterMut.next c (J 0) s = .ok r) :
    (Within c r.2 ∧ r.2.mem = s.mem) ∧ ∀ p, r.1 = some p → p.2 < s.mem.length := by
  simp only [TotalIterMut.next] at hr
  cases hn : s.it.nextItem c (J 0) slotIter with
  | error f => simp [hn] at hr
  | ok x =>
    obtain ⟨h1, h2, h3⟩ := next_range hn
    simp [hn] at hr
    subst hr
    obtain ⟨k1, k2⟩ := hs
    refine ⟨⟨⟨by simp only; omega, by simp only; omega⟩, rfl⟩, fun p hp => ?_⟩
    have := (h3 p hp).1
    omega

theorem totalMut_nextBack {s : TotalIterMut (Option (P 1))} {r} (hs : Within c s) (hr : TotalIterMut.nextBack c (J 0) s = .ok r) :
    (Within c r.2 ∧ r.2.mem = s.mem) ∧ ∀ p, r.1 = some p → p.2 < s.mem.length := by
  simp only [TotalIterMut.nextBack] at hr
  cases hn : s.it.nextBackItem c (J 0) slotIter with
  | error f => simp [hn] at hr
  | ok x =>
    obtain ⟨h1, h2, h3⟩ := back_range hn
    simp [hn] at hr
    subst hr
    obtain ⟨k1, k2⟩ := hs
    refine ⟨⟨⟨by simp only; omega, by simp only; omega⟩, rfl⟩, fun p hp => ?_⟩
    have := (h3 p hp).1
    omega

theorem iterMut_keeps {step : TotalIterMut (Option (P 1)) → R (Option (P 0 × Nat) × TotalIterMut (Option (P 1)))}
    (h1 : ∀ s r, Within c s → step s = .ok r → (Within c r.2 ∧ r.2.mem = s.mem) ∧ ∀ p, r.1 = some p → p.2 < s.mem.length)
    {fuel : Nat} {s : MapIterMut (P 1)} {r} (hs : Within c s) (hr : skipLoop step MapIterMut.body fuel s = .ok r) :
    (Within c r.2 ∧ r.2.mem = s.mem) ∧ ∀ p, r.1 = some p → ∃ v, s.mem[p.2]? = some (some v) := by
  refine skipLoop_keeps (Inv := fun s' => Within c s' ∧ s'.mem = s.mem) (G := fun _ _ => True)
    (Q := fun p _ => ∃ v, s.mem[p.2]? = some (some v)) ?_ ?_ fuel s r ⟨hs, rfl⟩ hr
  · intro s' r' ⟨k1, k2⟩ hr'
    obtain ⟨⟨j1, j2⟩, _⟩ := h1 s' r' k1 hr'
    exact ⟨⟨j1, j2.trans k2⟩, fun _ _ => trivial⟩
  · intro a s' r' ⟨k1, k2⟩ _ hb
    simp only [MapIterMut.body] at hb
    cases hm : s'.mem[a.2]? with
    | none => simp [hm] at hb
    | some o => cases o with
      | none => simp [hm] at hb; subst hb; exact ⟨⟨k1, k2⟩, by simp⟩
      | some v =>
        simp [hm] at hb
        subst hb
        refine ⟨⟨k1, k2⟩, fun p hp => ?_⟩
        cases hp
        exact ⟨v, k2 ▸ hm⟩

theorem drain_keeps {step : Drain (P 1) → R (Option (P 0 × Nat) × Drain (P 1))}
    (h1 : ∀ s r, Within c s → step s = .ok r → (Within c r.2 ∧ r.2.mem = s.mem) ∧ ∀ p, r.1 = some p → p.2 < s.mem.length)
    {fuel : Nat} {s : Drain (P 1)} {r} (hs : Within c s) (hr : skipLoop step Drain.body fuel s = .ok r) :
    Within c r.2 ∧ r.2.mem.length = s.mem.length := by
  refine (skipLoop_keeps (Inv := fun s' : Drain (P 1) => Within c s' ∧ s'.mem.length = s.mem.length) (G := fun _ _ => True)
    (Q := fun (_ : P 0 × P 1) _ => True) ?_ ?_ fuel s r ⟨hs, rfl⟩ hr).1
  · intro s' r' ⟨k1, k2⟩ hr'
    obtain ⟨⟨j1, j2⟩, _⟩ := h1 s' r' k1 hr'
    exact ⟨⟨j1, by rw [j2, k2]⟩, fun _ _ => trivial⟩
  · intro a s' r' ⟨⟨k1, k3⟩, k2⟩ _ hb
    simp only [Drain.body] at hb
    cases hm : s'.mem[a.2]? with
    | none => simp [hm] at hb
    | some o =>
      have : r'.2 = ⟨s'.mem.set a.2 none, TotalIterMut.it s'⟩ := by
        cases o <;> simp [hm] at hb <;> subst hb <;> rfl
      rw [this]
      exact ⟨⟨⟨by simpa using k1, k3⟩, by simpa using k2⟩, fun _ _ => trivial⟩

theorem drainStep_keeps {s : Drain (P 1)} {d : Dir} {r} (hs : Within c s) (hr : (Drain.it c (J 0)).step s d = .ok r) :
    Within c r.2 ∧ r.2.mem.length = s.mem.length := by
  cases d with
  | front => exact drain_keeps (fun s r h1 h2 => totalMut_next (J := J) h1 h2) hs hr
  | back => exact drain_keeps (fun s r h1 h2 => totalMut_nextBack (J := J) h1 h2) hs hr

theorem drainRun_keeps {ds : List Dir} : ∀ {s : Drain (P 1)} {r}, Within c s → (Drain.it c (J 0)).run s ds = .ok r →
    Within c r.2 ∧ r.2.mem.length = s.mem.length := by
  induction ds with
  | nil => intro s r h hr; cases hr; exact ⟨h, rfl⟩
  | cons d ds ih =>
    intro s r h hr
    simp only [DEIter.run] at hr
    cases hd : (Drain.it c (J 0)).step s d with
    | error f => simp [hd] at hr
    | ok x =>
      obtain ⟨k1, k2⟩ := drainStep_keeps h hd
      simp only [hd, ok_bind] at hr
      cases he : (Drain.it c (J 0)).run x.2 ds with
      | error f => simp [he] at hr
      | ok y =>
        obtain ⟨j1, j2⟩ := ih k1 he
        simp [he] at hr
        subst hr
        exact ⟨j1, j2.trans k2⟩

theorem dropLoop_len : ∀ {fuel : Nat} {s : Drain (P 1)} {r}, Within c s → Drain.dropLoop c (J 0) fuel s = .ok r →
    r.length = s.mem.length
  | 0, s, r, _, h => by simp [Drain.dropLoop] at h
  | fuel + 1, s, r, hs, h => by
    simp only [Drain.dropLoop] at h
    cases hn : Drain.next c (J 0) s with
    | error f => simp [hn] at h
    | ok x =>
      obtain ⟨o, s1⟩ := x
      obtain ⟨k1, k2⟩ := drainStep_keeps (J := J) (d := .front) hs hn
      simp only at k1 k2
      cases o with
      | none => simp [hn] at h; rw [← h, k2]
      | some b =>
        simp only [hn, ok_bind] at h
        rw [dropLoop_len k1 h, k2]

/-! ## Reading and writing through references -/

section
variable {call : Machine P} {t : RT} {enc : List (Option (P 1)) → Val P} {path : List Proj} {F : Fns (P 0) (P 1)}

@[simp] theorem asOpt_opt (o : Option (Val P)) : asOpt (.opt o) = .ok o := by cases o <;> rfl

@[simp] theorem asOpt_slot (o : Option (P 1)) : (do (← asOpt (slotVal o)).mapM asValue) = (.ok o : R (Option (P 1))) := by
  cases o <;> rfl

/-- The reference to the contents of slot `i`. -/
def slotRef (path : List Proj) (i : Nat) : Val P := .mref 0 (path ++ [.idx i] ++ [.idx 0])

variable (T : MapText c J call t enc path F)
include T

theorem MapText.read {s : List (Option (P 1))} {i : Nat} {v : P 1} (hs : s[i]? = some (some v)) (h : Heap P) :
    deref (enc s :: h) (slotRef path i) = .ok (.usr 1 v) :=
  (((T.place s h).slot hs).sub (qs := [.idx 0]) (u := .usr 1 v) rfl (by simp)).get

theorem MapText.write {s : List (Option (P 1))} {i : Nat} {v : P 1} (hs : s[i]? = some (some v)) (w : P 1) (h : Heap P) :
    assign (enc s :: h) (.usr 1 w) (slotRef path i) = .ok (enc (s.set i (some w)) :: h) := by
  have hp := (T.place s h).slot hs
  have h1 := (hp.sub (qs := [.idx 0]) (u := .usr 1 v) rfl (by simp)).set (.usr 1 w)
  have h2 := hp.put_sub (w := .usr 1 w) (qs := [.idx 0]) (v' := slotVal (some w)) rfl
  have h3 := (hp.set (slotVal (some w))).symm.trans (slots_set (T.place s h) hs (some w))
  rw [T.put] at h3
  simp only [assign, slotRef]
  rw [h1, h2]
  exact h3

theorem MapText.readSome {s : List (Option (P 1))} {i : Nat} (hs : ∃ v, s[i]? = some (some v)) (h : Heap P) :
    (do asValue (← deref (enc s :: h) (slotRef path i))) = readSome s i := by
  obtain ⟨v, hv⟩ := hs
  rw [T.read hv, OrdinalMap.readSome, hv]
  rfl

theorem MapText.writeSome {s : List (Option (P 1))} {i : Nat} (hs : ∃ v, s[i]? = some (some v)) (w : P 1) (h : Heap P) :
    assign (enc s :: h) (.usr 1 w) (slotRef path i) = (enc · :: h) <$> writeSome s i w := by
  obtain ⟨v, hv⟩ := hs
  rw [T.write hv, OrdinalMap.writeSome, hv]
  rfl

/-! ## The operations -/

theorem MapText.step_get (s k) : textMapStep call t (enc s) (.get k) = (fun r => (r.1, enc r.2)) <$> F.step c (J 0) s (.get k) := by
  simp only [textMapStep, Fns.step, T.get]
  cases F.get s k with
  | error f => rfl
  | ok o => cases o <;> rfl

theorem MapText.step_getMut (s k w) :
    textMapStep call t (enc s) (.getMut k w) = (fun r => (r.1, enc r.2)) <$> F.step c (J 0) s (.getMut k w) := by
  simp only [textMapStep, Fns.step, T.getMut]
  cases hg : F.getMut s k with
  | error f => rfl
  | ok o => cases o with
    | none => rfl
    | some i =>
      obtain ⟨v, hv⟩ := T.getMut_some s k i hg
      have h1 := T.read hv []
      have h2 := T.write hv w []
      simp only [slotRef, List.append_assoc, List.cons_append, List.nil_append] at h1 h2
      simp [h1, h2, asValue, firstVar, getMutClient, OrdinalMap.readSome, OrdinalMap.writeSome, hv]

theorem MapText.step_insert (s k v) :
    textMapStep call t (enc s) (.insert k v) = (fun r => (r.1, enc r.2)) <$> F.step c (J 0) s (.insert k v) := by
  simp only [textMapStep, Fns.step, T.insert]
  cases F.insert s k v with
  | error f => rfl
  | ok r => obtain ⟨o, s'⟩ := r; cases o <;> rfl

theorem MapText.step_remove (s k) :
    textMapStep call t (enc s) (.remove k) = (fun r => (r.1, enc r.2)) <$> F.step c (J 0) s (.remove k) := by
  simp only [textMapStep, Fns.step, T.remove]
  cases F.remove s k with
  | error f => rfl
  | ok r => obtain ⟨o, s'⟩ := r; cases o <;> rfl

theorem MapText.step_len (s) (hs : s.length < c.M) :
    textMapStep call t (enc s) .len = (fun r => (r.1, enc r.2)) <$> F.step c (J 0) s .len := by
  simp only [textMapStep, Fns.step, T.len s hs]
  cases F.len s <;> rfl

theorem MapText.step_isEmpty (s) (hs : s.length < c.M) :
    textMapStep call t (enc s) .isEmpty = (fun r => (r.1, enc r.2)) <$> F.step c (J 0) s .isEmpty := by
  simp only [textMapStep, Fns.step, T.isEmpty s hs]
  cases F.isEmpty s <;> rfl

theorem MapText.step_clear (s) (hs : s.length < c.M) :
    textMapStep call t (enc s) .clear = (fun r => (r.1, enc r.2)) <$> F.step c (J 0) s .clear := by
  simp only [textMapStep, Fns.step, T.clear s hs]
  cases F.clear s <;> rfl

end

/-! ## Operations that return iterators -/

theorem mapIter_step_left {s : MapIter (P 1)} {d : Dir} {r} (h : (MapIter.it c (J 0)).step s d = .ok r) :
    r.2.iter.length ≤ s.iter.length := by
  cases d with
  | front => exact (mapIter_left h).1
  | back =>
    refine (skipLoop_left (len := fun s : MapIter (P 1) => s.iter.length) (fun s r hr => ?_) (fun x s r hr => ?_) _ s r h).1
    · exact nextBackItem_left hr
    · obtain ⟨k, o⟩ := x
      cases o <;> simp only [MapIter.body, Except.ok.injEq] at hr <;> subst hr <;> rfl

theorem keys_step_left {s : Keys (P 1)} {d : Dir} {r} (h : (Keys.it c (J 0)).step s d = .ok r) :
    r.2.iter.length ≤ s.iter.length := by
  have key {m : R (Option (P 0 × P 1) × MapIter (P 1))} (hm : ∀ r, m = .ok r → r.2.iter.length ≤ s.iter.length)
      (h : (do let (o, s) ← m; .ok (o.map fun p => p.1, s)) = Except.ok (ε := Fault) r) : r.2.iter.length ≤ s.iter.length := by
    cases e : m with
    | error f => simp [e] at h
    | ok x => simp [e] at h; subst h; exact hm x e
  cases d with
  | front => exact key (fun r hr => mapIter_step_left (d := .front) hr) h
  | back => exact key (fun r hr => mapIter_step_left (d := .back) hr) h

theorem values_step_left {s : Values (P 1)} {d : Dir} {r} (h : (Values.it c (J 0)).step s d = .ok r) :
    r.2.iter.length ≤ s.iter.length := by
  have key {m : R (Option (P 0 × P 1) × MapIter (P 1))} (hm : ∀ r, m = .ok r → r.2.iter.length ≤ s.iter.length)
      (h : (do let (o, s) ← m; .ok (o.map fun p => p.2, s)) = Except.ok (ε := Fault) r) : r.2.iter.length ≤ s.iter.length := by
    cases e : m with
    | error f => simp [e] at h
    | ok x => simp [e] at h; subst h; exact hm x e
  cases d with
  | front => exact key (fun r hr => mapIter_step_left (d := .front) hr) h
  | back => exact key (fun r hr => mapIter_step_left (d := .back) hr) h

theorem textNext_of {call : Machine P} {x f : String} {σ τ : Type} {read : Heap P → Val P → R τ} {a : Nat} {h : Heap P}
    {m : R (Option τ × σ)} {e : τ → Val P} {g : σ → Heap P}
    (hc : call (.con x) f [.mref a []] h = (fun r => (.opt (r.1.map e), g r.2)) <$> m) (hr : ∀ h v, read h (e v) = .ok v) :
    textNext call x f read a h = (fun r => (r.1, g r.2)) <$> m := by
  simp only [textNext, hc]
  cases m with
  | error f => rfl
  | ok r => obtain ⟨o, s⟩ := r; cases o <;> simp [hr]

theorem textIter_step (s : MapIter (P 1)) (d : Dir) (hs : s.iter.length ≤ c.M) :
    (textMapIter (mapCall c J S maps U) "Iter" readPairRef 0).step [mapIterVal s] d =
      (fun r => (r.1, [mapIterVal r.2])) <$> (MapIter.it c (J 0)).step s d := by
  have hq (u : Val P) : put [mapIterVal s] 0 [] u = [u] := put_var (by simp)
  cases d with
  | front =>
    have := mapIter_next (c := c) (J := J) (S := S) (U := U) (h := [mapIterVal s]) (a := 0) 5 (place_var (by simp)) hs
    simp only [hq] at this
    exact textNext_of (e := pairRef) (g := fun s : MapIter (P 1) => [mapIterVal s]) this fun _ _ => rfl
  | back =>
    have := mapIter_nextBack (c := c) (J := J) (S := S) (U := U) (h := [mapIterVal s]) (a := 0) 5 (place_var (by simp)) hs
    simp only [hq] at this
    exact textNext_of (e := pairRef) (g := fun s : MapIter (P 1) => [mapIterVal s]) this fun _ _ => rfl

theorem textKeys_step (s : Keys (P 1)) (d : Dir) (hs : s.iter.length ≤ c.M) :
    (textMapIter (mapCall c J S maps U) "Keys" readKey 0).step [wrapVal "Keys" (mapIterVal s)] d =
      (fun r => (r.1, [wrapVal "Keys" (mapIterVal r.2)])) <$> (Keys.it c (J 0)).step s d := by
  have hq (u : Val P) : put [wrapVal "Keys" (mapIterVal s)] 0 [] u = [u] := put_var (by simp)
  cases d with
  | front =>
    have := keys_next (c := c) (J := J) (S := S) (U := U) (h := [wrapVal "Keys" (mapIterVal s)]) (a := 0) 4 (place_var (by simp)) hs
    simp only [hq] at this
    exact textNext_of (e := (.usr 0 ·)) (g := fun s : Keys (P 1) => [wrapVal "Keys" (mapIterVal s)]) this fun _ _ => rfl
  | back =>
    have := keys_nextBack (c := c) (J := J) (S := S) (U := U) (h := [wrapVal "Keys" (mapIterVal s)]) (a := 0) 4 (place_var (by simp)) hs
    simp only [hq] at this
    exact textNext_of (e := (.usr 0 ·)) (g := fun s : Keys (P 1) => [wrapVal "Keys" (mapIterVal s)]) this fun _ _ => rfl

theorem textMapValues_step (s : Values (P 1)) (d : Dir) (hs : s.iter.length ≤ c.M) :
    (textMapIter (mapCall c J S maps U) "Values" readRef 0).step [wrapVal "Values" (mapIterVal s)] d =
      (fun r => (r.1, [wrapVal "Values" (mapIterVal r.2)])) <$> (Values.it c (J 0)).step s d := by
  have hq (u : Val P) : put [wrapVal "Values" (mapIterVal s)] 0 [] u = [u] := put_var (by simp)
  cases d with
  | front =>
    have := mapValues_next (c := c) (J := J) (S := S) (U := U) (h := [wrapVal "Values" (mapIterVal s)]) (a := 0) 4 (place_var (by simp)) hs
    simp only [hq] at this
    exact textNext_of (e := fun v => .ref (.usr 1 v)) (g := fun s : Values (P 1) => [wrapVal "Values" (mapIterVal s)]) this fun _ _ => rfl
  | back =>
    have := mapValues_nextBack (c := c) (J := J) (S := S) (U := U) (h := [wrapVal "Values" (mapIterVal s)]) (a := 0) 4 (place_var (by simp)) hs
    simp only [hq] at this
    exact textNext_of (e := fun v => .ref (.usr 1 v)) (g := fun s : Values (P 1) => [wrapVal "Values" (mapIterVal s)]) this fun _ _ => rfl

/-- Transfer of histories. -/
theorem runOps_enc {σ υ ω ο : Type} {enc : σ → υ} {Inv : σ → Prop} {step : σ → ω → R (ο × σ)} {step' : υ → ω → R (ο × υ)}
    (hs : ∀ s op, Inv s → step' (enc s) op = (fun r => (r.1, enc r.2)) <$> step s op)
    (hv : ∀ s op r, Inv s → step s op = .ok r → Inv r.2) :
    ∀ (ops : List ω) s, Inv s → runOps step' (enc s) ops = (fun r => (r.1, enc r.2)) <$> runOps step s ops
  | [], s, _ => rfl
  | op :: ops, s, h => by
    simp only [runOps, hs s op h]
    cases hd : step s op with
    | error f => rfl
    | ok r =>
      simp only [ok_map, ok_bind, runOps_enc hs hv ops r.2 (hv s op r h hd)]
      cases runOps step r.2 ops <;> rfl

theorem runOps_keeps {σ ω ο : Type} {Inv : σ → Prop} {step : σ → ω → R (ο × σ)} (hv : ∀ s op r, Inv s → step s op = .ok r → Inv r.2) :
    ∀ (ops : List ω) s r, Inv s → runOps step s ops = .ok r → Inv r.2
  | [], s, r, h, hr => by cases hr; exact h
  | op :: ops, s, r, h, hr => by
    simp only [runOps] at hr
    cases hd : step s op with
    | error f => simp [hd] at hr
    | ok x =>
      simp only [hd, ok_bind] at hr
      cases he : runOps step x.2 ops with
      | error f => simp [he] at hr
      | ok y =>
        have := runOps_keeps hv ops x.2 y (hv s op x h hd) he
        simp [he] at hr
        subst hr
        exact this

/-- What a client of a mutable iterator relies on: `L` slots, and the slots handed out hold values. -/
def Handed (c : Cfg) (L : Nat) (s : MutClient (P 1)) : Prop :=
  Within c s.it ∧ s.it.mem.length = L ∧ ∀ i ∈ s.handed, ∃ v, s.it.mem[i]? = some (some v)

/-- One call. -/
def nextDir (c : Cfg) (I : OrdinalImpl (P 0)) (d : Dir) (s : MapIterMut (P 1)) : R (Option (P 0 × Nat) × MapIterMut (P 1)) :=
  match d with
  | .front => MapIterMut.next c I s
  | .back => MapIterMut.nextBack c I s

theorem iterMut_step {d : Dir} {s : MapIterMut (P 1)} {r} (hs : Within c s)
    (hr : nextDir c (J 0) d s = .ok r) :
    (Within c r.2 ∧ r.2.mem = s.mem) ∧ ∀ p, r.1 = some p → ∃ v, s.mem[p.2]? = some (some v) := by
  cases d with
  | front => exact iterMut_keeps (fun s r h1 h2 => totalMut_next (J := J) h1 h2) hs hr
  | back => exact iterMut_keeps (fun s r h1 h2 => totalMut_nextBack (J := J) h1 h2) hs hr

theorem handed_write {L : Nat} {s : MutClient (P 1)} {i : Nat} {v : P 1} {mem} (hs : Handed c L s)
    (hw : writeSome s.it.mem i v = .ok mem) : Handed c L ⟨⟨mem, s.it.it⟩, s.handed⟩ := by
  obtain ⟨⟨k1, k2⟩, k3, k4⟩ := hs
  have hm : mem = s.it.mem.set i (some v) := by
    simp only [writeSome] at hw
    cases h : s.it.mem[i]? with
    | none => simp [h] at hw
    | some o => cases o with
      | none => simp [h] at hw
      | some u => simp [h] at hw; exact hw.symm
  subst hm
  refine ⟨⟨by simpa using k1, k2⟩, by simpa using k3, fun j hj => ?_⟩
  obtain ⟨u, hu⟩ := k4 j hj
  simp only [List.getElem?_set]
  split
  · have := (List.getElem?_eq_some_iff.mp hu).1
    subst_vars
    exact ⟨v, by simp [this]⟩
  · exact ⟨u, hu⟩

theorem handed_step {L : Nat} {s : MutClient (P 1)} {op : MutStep (P 1)} {r} (hs : Handed c L s)
    (hr : MutClient.step c (J 0) s op = .ok r) : Handed c L r.2 := by
  have key (d : Dir) (o it) (e : nextDir c (J 0) d s.it = .ok (o, it)) : Handed c L ⟨it, s.handed⟩ ∧
      ∀ p, o = some p → Handed c L ⟨it, s.handed ++ [p.2]⟩ ∧ ∃ v, readSome it.mem p.2 = .ok v := by
    obtain ⟨⟨k1, k2⟩, k3⟩ := iterMut_step (J := J) (d := d) hs.1 e
    simp only at k1 k2 k3
    refine ⟨⟨k1, by simp only [k2]; exact hs.2.1, by simp only [k2]; exact hs.2.2⟩, fun p hp => ?_⟩
    obtain ⟨v, hv⟩ := k3 p hp
    refine ⟨⟨k1, by simp only [k2]; exact hs.2.1, fun i hi => ?_⟩, v, by simp [readSome, k2, hv]⟩
    simp only [k2]
    rcases List.mem_append.mp hi with hi | hi
    · exact hs.2.2 i hi
    · simp only [List.mem_singleton] at hi
      exact ⟨v, hi ▸ hv⟩
  cases op with
  | front =>
    simp only [MutClient.step] at hr
    cases e : MapIterMut.next c (J 0) s.it with
    | error f => simp [e] at hr
    | ok x =>
      obtain ⟨o, it⟩ := x
      obtain ⟨h1, h2⟩ := key .front o it e
      cases o with
      | none => simp [e] at hr; subst hr; exact h1
      | some p =>
        obtain ⟨h3, v, h4⟩ := h2 p rfl
        simp [e, h4] at hr
        subst hr
        exact h3
  | back =>
    simp only [MutClient.step] at hr
    cases e : MapIterMut.nextBack c (J 0) s.it with
    | error f => simp [e] at hr
    | ok x =>
      obtain ⟨o, it⟩ := x
      obtain ⟨h1, h2⟩ := key .back o it e
      cases o with
      | none => simp [e] at hr; subst hr; exact h1
      | some p =>
        obtain ⟨h3, v, h4⟩ := h2 p rfl
        simp [e, h4] at hr
        subst hr
        exact h3
  | write j v =>
    simp only [MutClient.step] at hr
    cases hj : s.handed[j]? with
    | none => simp [hj] at hr; subst hr; exact hs
    | some i =>
      simp only [hj] at hr
      cases hw : writeSome s.it.mem i v with
      | error f => simp [hw] at hr
      | ok mem => simp [hw] at hr; subst hr; exact handed_write hs hw

/-- `values_mut()` is `iter_mut()` without the keys. -/
theorem stepV_eq {s : MutClient (P 1)} {op : MutStep (P 1)} : MutClient.stepV c (J 0) s op =
    (fun r => (r.1.map (·.2), r.2)) <$> MutClient.step c (J 0) s op := by
  cases op with
  | front =>
    simp only [MutClient.step, MutClient.stepV, ValuesMut.next]
    cases MapIterMut.next c (J 0) s.it with
    | error f => rfl
    | ok r =>
      obtain ⟨o, it⟩ := r
      cases o with
      | none => rfl
      | some p => simp only [ok_bind, Option.map_some]; cases readSome it.mem p.2 <;> rfl
  | back =>
    simp only [MutClient.step, MutClient.stepV, ValuesMut.nextBack]
    cases MapIterMut.nextBack c (J 0) s.it with
    | error f => rfl
    | ok r =>
      obtain ⟨o, it⟩ := r
      cases o with
      | none => rfl
      | some p => simp only [ok_bind, Option.map_some]; cases readSome it.mem p.2 <;> rfl
  | write j v =>
    simp only [MutClient.step, MutClient.stepV]
    cases s.handed[j]? with
    | none => rfl
    | some i => simp only; cases writeSome s.it.mem i v <;> rfl

theorem handed_stepV {L : Nat} {s : MutClient (P 1)} {op : MutStep (P 1)} {r} (hs : Handed c L s)
    (hr : MutClient.stepV c (J 0) s op = .ok r) : Handed c L r.2 := by
  rw [stepV_eq] at hr
  cases e : MutClient.step c (J 0) s op with
  | error f => simp [e] at hr
  | ok x => have := handed_step hs e; simp [e] at hr; subst hr; exact this

/-- The client of a mutable iterator, where `w` is how the iterator looks at run time. -/
def encClient (enc : List (Option (P 1)) → Val P) (path : List Proj) (w : Val P → Val P) (s : MutClient (P 1)) : Heap P × List (Val P) :=
  ([enc s.it.mem, w (iterMutVal 0 path s.it.it)], s.handed.map (slotRef path))

theorem handed_new {s : List (Option (P 1))} (hs : s.length < c.M) : Handed c s.length ⟨TotalIterMut.new s, []⟩ :=
  ⟨within_new hs, rfl, by simp⟩

section
variable {call : Machine P} {t : RT} {enc : List (Option (P 1)) → Val P} {path : List Proj} {F : Fns (P 0) (P 1)}
  (T : MapText c J (mapCall c J S maps U) t enc path F)
include T

theorem MapText.step_orInsert (s k v w) :
    textMapStep (mapCall c J S maps U) t (enc s) (.orInsert k v w) = (fun r => (r.1, enc r.2)) <$> F.step c (J 0) s (.orInsert k v w) := by
  simp only [textMapStep, Fns.step, T.entry]
  cases he : F.entry s k with
  | error f => rfl
  | ok r =>
    obtain ⟨e, s'⟩ := r
    have hi := T.entry_slot s k _ he
    have h1 := entry_orInsert (c := c) (J := J) (S := S) (U := U) 8 e v (T.place s' []) (by cases e <;> exact hi)
    simp only [T.put] at h1
    simp only [ok_map, ok_bind, mapCall]
    rw [h1]
    cases ho : Entry.orInsert s' e v with
    | error f => rfl
    | ok x =>
      obtain ⟨i, s''⟩ := x
      have : ∃ u, s''[i]? = some (some u) := by
        cases e with
        | occupied k j =>
          simp only [Entry.orInsert, Entry.occupiedGetMut] at ho
          cases hj : s'[j]? with
          | none => simp [hj] at ho
          | some o => cases o with
            | none => simp [hj] at ho
            | some u => simp [hj] at ho; obtain ⟨rfl, rfl⟩ := ho; exact ⟨u, hj⟩
        | vacant k j =>
          simp only [entrySlot] at hi
          simp [Entry.orInsert, writeSlot, hi] at ho
          obtain ⟨rfl, rfl⟩ := ho
          exact ⟨v, by simp [hi]⟩
      obtain ⟨u, hu⟩ := this
      have h2 := T.read hu []
      have h3 := T.write hu w []
      simp only [slotRef, List.append_assoc, List.cons_append, List.nil_append] at h2 h3
      simp [h2, h3, asValue, firstVar, OrdinalMap.readSome, OrdinalMap.writeSome, hu]

theorem MapText.step_entry (s k v w) :
    textMapStep (mapCall c J S maps U) t (enc s) (.entry k v w) = (fun r => (r.1, enc r.2)) <$> F.step c (J 0) s (.entry k v w) := by
  simp only [textMapStep, Fns.step, T.entry]
  cases he : F.entry s k with
  | error f => rfl
  | ok r =>
    obtain ⟨e, s'⟩ := r
    have hi := T.entry_slot s k _ he
    have h1 := entry_key (c := c) (J := J) (S := S) (U := U) (h := [enc s']) 7 0 path e
    simp only [ok_map, ok_bind, mapCall]
    rw [h1]
    cases e with
    | vacant k' i =>
      have h2 := vacant_insert (c := c) (J := J) (S := S) (U := U) 8 k' i v (T.place s' []) hi
      simp only [T.put] at h2
      simp only [entryVal, ok_bind, deref, asKey, Entry.key, entryClient]
      rw [h2]
      cases Entry.vacantInsert s' i v <;> rfl
    | occupied k' i =>
      have h2 := occupied_get (c := c) (J := J) (S := S) (U := U) 8 k' i (T.place s' []) hi
      have h3 := occupied_getMut (c := c) (J := J) (S := S) (U := U) 8 k' i
        (h := [enc s', occupiedVal k' 0 (path ++ [.idx i])]) (a := 1) (ps := []) (place_var (by simp)) (T.place s' _) hi
      simp only [entryVal, ok_bind, deref, asKey, Entry.key, entryClient]
      rw [h2]
      have hs := List.getElem?_eq_getElem hi
      simp only [entrySlot] at hs
      simp only [Entry.occupiedGet, Entry.occupiedGetMut, hs] at h2 h3 ⊢
      generalize s'[i] = o at *
      cases o with
      | none => rfl
      | some u =>
        have h4 := T.write hs w [occupiedVal k' 0 (path ++ [.idx i])]
        simp only [slotRef] at h4
        simp only [unwrap, ok_map, ok_bind, asValue, List.cons_append, List.nil_append] at h3 ⊢
        rw [h3]
        simp only [ok_bind, h4, firstVar, OrdinalMap.writeSome, hs]
        rfl

theorem MapText.step_iter (s ds) (hs : s.length < c.M) :
    textMapStep (mapCall c J S maps U) t (enc s) (.iter ds) = (fun r => (r.1, enc r.2)) <$> F.step c (J 0) s (.iter ds) := by
  have := iterRun_enc (enc := fun s => [mapIterVal s]) (Inv := fun s : MapIter (P 1) => s.iter.length ≤ c.M)
    (fun s d h => textIter_step (S := S) (U := U) s d h)
    (fun s d r h1 h2 => Nat.le_trans (mapIter_step_left (J := J) h2) h1) ds (TotalIter.new s 0) (Nat.le_of_lt hs)
  simp only [textMapStep, textItems, Fns.step, T.iter, ok_bind, this]
  cases (MapIter.it c (J 0)).run (TotalIter.new s 0) ds <;> rfl

theorem MapText.step_keys (s ds) (hs : s.length < c.M) :
    textMapStep (mapCall c J S maps U) t (enc s) (.keys ds) = (fun r => (r.1, enc r.2)) <$> F.step c (J 0) s (.keys ds) := by
  have := iterRun_enc (enc := fun s => [wrapVal "Keys" (mapIterVal s)]) (Inv := fun s : Keys (P 1) => s.iter.length ≤ c.M)
    (fun s d h => textKeys_step (S := S) (U := U) s d h)
    (fun s d r h1 h2 => Nat.le_trans (keys_step_left (J := J) h2) h1) ds (TotalIter.new s 0) (Nat.le_of_lt hs)
  simp only [textMapStep, textItems, Fns.step, T.keys, ok_bind, this]
  cases (Keys.it c (J 0)).run (TotalIter.new s 0) ds <;> rfl

theorem MapText.step_values (s ds) (hs : s.length < c.M) :
    textMapStep (mapCall c J S maps U) t (enc s) (.values ds) = (fun r => (r.1, enc r.2)) <$> F.step c (J 0) s (.values ds) := by
  have := iterRun_enc (enc := fun s => [wrapVal "Values" (mapIterVal s)]) (Inv := fun s : Values (P 1) => s.iter.length ≤ c.M)
    (fun s d h => textMapValues_step (S := S) (U := U) s d h)
    (fun s d r h1 h2 => Nat.le_trans (values_step_left (J := J) h2) h1) ds (TotalIter.new s 0) (Nat.le_of_lt hs)
  simp only [textMapStep, textItems, Fns.step, T.values, ok_bind, this]
  cases (Values.it c (J 0)).run (TotalIter.new s 0) ds <;> rfl

/-- The heap of a client of `drain()`. -/
theorem MapText.drain_heap (s s' : Drain (P 1)) :
    drainHeap [enc s.mem, drainVal 0 path (TotalIterMut.it s)] 1 [] 0 path s' = [enc s'.mem, drainVal 0 path (TotalIterMut.it s')] := by
  rw [drainHeap, put_var (by simp)]
  exact T.put _ _ _

theorem MapText.drain_step (s : Drain (P 1)) (d : Dir) (hs : Within c s) :
    (textMapIter (mapCall c J S maps U) "Drain" readPair 1).step [enc s.mem, drainVal 0 path (TotalIterMut.it s)] d =
      (fun r => (r.1, [enc r.2.mem, drainVal 0 path (TotalIterMut.it r.2)])) <$> (Drain.it c (J 0)).step s d := by
  have hd (s' : Drain (P 1)) := T.drain_heap s s'
  simp only [drainHeap] at hd
  cases d with
  | front =>
    have := drain_next (c := c) (J := J) (S := S) (U := U) (s := s) (h := [enc s.mem, drainVal 0 path (TotalIterMut.it s)]) (a := 1)
      (ps := []) 5 (place_var (by simp)) (T.place _ _) (by decide) hs.1 hs.2
    simp only [hd] at this
    exact textNext_of (e := pairOwn) (g := fun r : Drain (P 1) => [enc r.mem, drainVal 0 path (TotalIterMut.it r)]) this fun _ _ => rfl
  | back =>
    have := drain_nextBack (c := c) (J := J) (S := S) (U := U) (s := s) (h := [enc s.mem, drainVal 0 path (TotalIterMut.it s)]) (a := 1)
      (ps := []) 5 (place_var (by simp)) (T.place _ _) (by decide) hs.1 hs.2
    simp only [hd] at this
    exact textNext_of (e := pairOwn) (g := fun r : Drain (P 1) => [enc r.mem, drainVal 0 path (TotalIterMut.it r)]) this fun _ _ => rfl

theorem MapText.step_drain (s ds leak) (hs : s.length < c.M) :
    textMapStep (mapCall c J S maps U) t (enc s) (.drain ds leak) = (fun r => (r.1, enc r.2)) <$> F.step c (J 0) s (.drain ds leak) := by
  have := iterRun_enc (enc := fun s : Drain (P 1) => [enc s.mem, drainVal 0 path (TotalIterMut.it s)]) (Inv := Within c)
    (fun s d h => T.drain_step s d h) (fun s d r h1 h2 => (drainStep_keeps (J := J) h1 h2).1) ds (Drain.new s) (within_new hs)
  have h0 : [enc s] ++ [drainVal 0 path (TotalIterMut.it (Drain.new s))] =
    [enc (TotalIterMut.mem (Drain.new s)), drainVal 0 path (TotalIterMut.it (Drain.new s))] := rfl
  simp only [textMapStep, Fns.step, T.drain, ok_bind, h0, this]
  cases hd : (Drain.it c (J 0)).run (Drain.new s) ds with
  | error f => rfl
  | ok r =>
    obtain ⟨os, d⟩ := r
    obtain ⟨k1, k2⟩ := drainRun_keeps (J := J) (within_new hs) hd
    simp only [ok_map, ok_bind]
    cases leak with
    | true => rfl
    | false =>
      have h1 := drain_drop (c := c) (J := J) (S := S) (U := U) (s := d) (h := [enc d.mem, drainVal 0 path (TotalIterMut.it d)]) (a := 1)
        (ps := []) 4 (place_var (by simp)) (T.place _ _) (by decide) k1.1 k1.2
      simp only [T.drain_heap] at h1
      simp only [Bool.false_eq_true, if_false, Drain.drop, ← drainAll_mem, mapCall]
      rw [h1]
      cases drainAll c (J 0) (TotalIterMut.len d + 1) d <;> rfl

theorem MapText.mut_write {τ : Type} (x : String) (split : Val P → R (Val P × (P 1 → τ))) (w : Val P → Val P) {L : Nat}
    (s : MutClient (P 1)) (j : Nat) (v : P 1) (hs : Handed c L s) :
    textMutStep (mapCall c J S maps U) x split (encClient enc path w s) (.write j v) =
      match s.handed[j]? with
      | none => .ok (none, encClient enc path w s)
      | some slot => (fun mem => (none, encClient enc path w ⟨⟨mem, s.it.it⟩, s.handed⟩)) <$> OrdinalMap.writeSome s.it.mem slot v := by
  simp only [textMutStep, encClient, List.getElem?_map]
  cases hj : s.handed[j]? with
  | none => rfl
  | some i =>
    simp only [Option.map_some]
    rw [T.writeSome (hs.2.2 i (List.mem_of_getElem? hj))]
    cases OrdinalMap.writeSome s.it.mem i v <;> rfl

theorem MapText.mut_advance {σ τ : Type} {x f : String} {split : Val P → R (Val P × (P 1 → τ))} {w : Val P → Val P} {L : Nat}
    {s : MutClient (P 1)} (hs : Handed c L s) {slot : σ → Nat} {report : σ → P 1 → τ} {e : σ → Val P} {m : R (Option σ × MapIterMut (P 1))}
    (hc : mapCall c J S maps U (.con x) f [.mref 1 []] (encClient enc path w s).1 =
      (fun r => (.opt (r.1.map e), [enc s.it.mem, w (iterMutVal 0 path r.2.it)])) <$> m)
    (hsp : ∀ a, split (e a) = .ok (slotRef path (slot a), report a))
    (hm : ∀ r, m = .ok r → (Within c r.2 ∧ r.2.mem = s.it.mem) ∧ ∀ p, r.1 = some p → ∃ v, s.it.mem[slot p]? = some (some v)) :
    textMutStep.advance (mapCall c J S maps U) x split (encClient enc path w s) f = (do
      let (o, it) ← m
      match o with
      | none => .ok (none, encClient enc path w ⟨it, s.handed⟩)
      | some a => .ok (some (report a (← OrdinalMap.readSome it.mem (slot a))), encClient enc path w ⟨it, s.handed ++ [slot a]⟩)) := by
  simp only [textMutStep.advance, textNext, hc]
  cases m with
  | error f => rfl
  | ok r =>
    obtain ⟨o, it⟩ := r
    obtain ⟨⟨k1, k2⟩, k3⟩ := hm _ rfl
    simp only at k1 k2 k3
    cases o with
    | none => simp [encClient, k2]
    | some a =>
      obtain ⟨v, hv⟩ := k3 a rfl
      have h1 := T.read hv [w (iterMutVal 0 path it.it)]
      simp only [ok_map, ok_bind, Option.map_some, asOpt_opt, hsp, h1, asValue, OrdinalMap.readSome, k2, hv, encClient,
        List.map_append, List.map_cons, List.map_nil]

theorem MapText.iterMut_client (s : MutClient (P 1)) (op) {L : Nat} (hs : Handed c L s) :
    textMutStep (mapCall c J S maps U) "IterMut" splitPair (encClient enc path id s) op =
      (fun r => (r.1, encClient enc path id r.2)) <$> MutClient.step c (J 0) s op := by
  have hq (u : Val P) : Text.put (encClient enc path id s).1 1 [] u = [enc s.it.mem, u] := put_var (by simp [encClient])
  cases op with
  | front =>
    have := iterMut_next (c := c) (J := J) (S := S) (U := U) (h := (encClient enc path id s).1) (a := 1) (ps := []) 5
      (place_var (by simp [encClient])) (T.place _ _) (by decide) hs.1.1 hs.1.2
    simp only [hq] at this
    refine (T.mut_advance hs (e := pairSlot 0 path) (slot := Prod.snd) (report := fun p v => (p.1, v)) this (fun _ => rfl)
      (fun r hr => iterMut_step (J := J) (d := .front) hs.1 hr)).trans ?_
    simp only [MutClient.step]
    cases MapIterMut.next c (J 0) s.it with
    | error f => rfl
    | ok r =>
      obtain ⟨o, it⟩ := r
      cases o with
      | none => rfl
      | some p => simp only [ok_bind]; cases OrdinalMap.readSome it.mem p.2 <;> rfl
  | back =>
    have := iterMut_nextBack (c := c) (J := J) (S := S) (U := U) (h := (encClient enc path id s).1) (a := 1) (ps := []) 5
      (place_var (by simp [encClient])) (T.place _ _) (by decide) hs.1.1 hs.1.2
    simp only [hq] at this
    refine (T.mut_advance hs (e := pairSlot 0 path) (slot := Prod.snd) (report := fun p v => (p.1, v)) this (fun _ => rfl)
      (fun r hr => iterMut_step (J := J) (d := .back) hs.1 hr)).trans ?_
    simp only [MutClient.step]
    cases MapIterMut.nextBack c (J 0) s.it with
    | error f => rfl
    | ok r =>
      obtain ⟨o, it⟩ := r
      cases o with
      | none => rfl
      | some p => simp only [ok_bind]; cases OrdinalMap.readSome it.mem p.2 <;> rfl
  | write j v =>
    rw [T.mut_write "IterMut" splitPair id s j v hs]
    simp only [MutClient.step]
    cases s.handed[j]? with
    | none => rfl
    | some i => simp only; cases OrdinalMap.writeSome s.it.mem i v <;> rfl

theorem MapText.valuesMut_client (s : MutClient (P 1)) (op) {L : Nat} (hs : Handed c L s) :
    textMutStep (mapCall c J S maps U) "ValuesMut" splitRef (encClient enc path (wrapVal "ValuesMut") s) op =
      (fun r => (r.1, encClient enc path (wrapVal "ValuesMut") r.2)) <$> MutClient.stepV c (J 0) s op := by
  have hq (u : Val P) : Text.put (encClient enc path (wrapVal "ValuesMut") s).1 1 [] u = [enc s.it.mem, u] := put_var (by simp [encClient])
  have key (d : Dir) : ∀ r, (do let (o, s) ← nextDir c (J 0) d s.it; .ok (o.map fun p => p.2, s)) = Except.ok (ε := Fault) r →
        (Within c r.2 ∧ r.2.mem = s.it.mem) ∧ ∀ i, r.1 = some i → ∃ v, s.it.mem[i]? = some (some v) := by
    intro r hr
    cases e : nextDir c (J 0) d s.it with
    | error f => simp [e] at hr
    | ok x =>
      obtain ⟨h1, h2⟩ := iterMut_step (J := J) (d := d) hs.1 e
      simp [e] at hr
      subst hr
      refine ⟨h1, fun i hi => ?_⟩
      obtain ⟨p, h3, h4⟩ := Option.map_eq_some_iff.mp hi
      exact h4 ▸ h2 p h3
  cases op with
  | front =>
    have := valuesMut_next (c := c) (J := J) (S := S) (U := U) (h := (encClient enc path (wrapVal "ValuesMut") s).1) (a := 1) (ps := []) 4
      (place_var (by simp [encClient])) (T.place _ _) (by decide) hs.1.1 hs.1.2
    simp only [hq] at this
    refine (T.mut_advance hs (e := slotRef path) (slot := id) (report := fun _ v => v) this (fun _ => rfl) (key .front)).trans ?_
    simp only [MutClient.stepV]
    cases ValuesMut.next c (J 0) s.it with
    | error f => rfl
    | ok r =>
      obtain ⟨o, it⟩ := r
      cases o with
      | none => rfl
      | some p => simp only [ok_bind, id]; cases OrdinalMap.readSome it.mem p <;> rfl
  | back =>
    have := valuesMut_nextBack (c := c) (J := J) (S := S) (U := U) (h := (encClient enc path (wrapVal "ValuesMut") s).1) (a := 1) (ps := []) 4
      (place_var (by simp [encClient])) (T.place _ _) (by decide) hs.1.1 hs.1.2
    simp only [hq] at this
    refine (T.mut_advance hs (e := slotRef path) (slot := id) (report := fun _ v => v) this (fun _ => rfl) (key .back)).trans ?_
    simp only [MutClient.stepV]
    cases ValuesMut.nextBack c (J 0) s.it with
    | error f => rfl
    | ok r =>
      obtain ⟨o, it⟩ := r
      cases o with
      | none => rfl
      | some p => simp only [ok_bind, id]; cases OrdinalMap.readSome it.mem p <;> rfl
  | write j v =>
    rw [T.mut_write "ValuesMut" splitRef _ s j v hs]
    simp only [MutClient.stepV]
    cases s.handed[j]? with
    | none => rfl
    | some i => simp only; cases OrdinalMap.writeSome s.it.mem i v <;> rfl

theorem MapText.step_iterMut (s ops) (hs : s.length < c.M) :
    textMapStep (mapCall c J S maps U) t (enc s) (.iterMut ops) = (fun r => (r.1, enc r.2)) <$> F.step c (J 0) s (.iterMut ops) := by
  have := runOps_enc (enc := encClient enc path id) (Inv := Handed c s.length)
    (fun s op h => T.iterMut_client s op h) (fun s op r h1 h2 => handed_step (J := J) h1 h2) ops _ (handed_new hs)
  have h0 : ([enc s] ++ [iterMutVal 0 path (TotalIterMut.it (TotalIterMut.new s))], ([] : List (Val P))) =
    encClient enc path id ⟨TotalIterMut.new s, []⟩ := rfl
  simp only [textMapStep, textMut, Fns.step, T.iterMut, ok_bind, h0, this]
  cases runOps (MutClient.step c (J 0)) ⟨TotalIterMut.new s, []⟩ ops <;> rfl

theorem MapText.step_valuesMut (s ops) (hs : s.length < c.M) :
    textMapStep (mapCall c J S maps U) t (enc s) (.valuesMut ops) = (fun r => (r.1, enc r.2)) <$> F.step c (J 0) s (.valuesMut ops) := by
  have := runOps_enc (enc := encClient enc path (wrapVal "ValuesMut")) (Inv := Handed c s.length)
    (fun s op h => T.valuesMut_client s op h) (fun s op r h1 h2 => handed_stepV (J := J) h1 h2) ops _ (handed_new hs)
  have h0 : ([enc s] ++ [wrapVal "ValuesMut" (iterMutVal 0 path (TotalIterMut.it (TotalIterMut.new s)))], ([] : List (Val P))) =
    encClient enc path (wrapVal "ValuesMut") ⟨TotalIterMut.new s, []⟩ := rfl
  simp only [textMapStep, textMut, Fns.step, T.valuesMut, ok_bind, h0, this]
  cases runOps (MutClient.stepV c (J 0)) ⟨TotalIterMut.new s, []⟩ ops <;> rfl

/-- One operation. -/
theorem MapText.step (s op) (hs : s.length < c.M) :
    textMapStep (mapCall c J S maps U) t (enc s) op = (fun r => (r.1, enc r.2)) <$> F.step c (J 0) s op := by
  cases op with
  | get k => exact T.step_get s k
  | getMut k w => exact T.step_getMut s k w
  | insert k v => exact T.step_insert s k v
  | remove k => exact T.step_remove s k
  | orInsert k v w => exact T.step_orInsert s k v w
  | entry k v w => exact T.step_entry s k v w
  | len => exact T.step_len s hs
  | isEmpty => exact T.step_isEmpty s hs
  | iter ds => exact T.step_iter s ds hs
  | keys ds => exact T.step_keys s ds hs
  | values ds => exact T.step_values s ds hs
  | iterMut ops => exact T.step_iterMut s ops hs
  | valuesMut ops => exact T.step_valuesMut s ops hs
  | drain ds leak => exact T.step_drain s ds leak hs
  | clear => exact T.step_clear s hs

end

end OrdinalMap.Text
