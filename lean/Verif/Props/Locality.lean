import Verif.Lemmas.Map
import Verif.Lemmas.Set
import Verif.Lemmas.Leaf
import Verif.Model.Own
/-!
# C78, C79: what an operation looks at

C78: which parts of the key's `Ordinal` impl an operation uses.  C79: which slots it uses.  Both are
for every impl, lawful or not, and every state of the map.
-/

namespace OrdinalMap.Props
open OrdinalMap

variable {K V W E ρ : Type} {c : Cfg}

/-! ## C78 -/

/-- The two impls agree on what an operation may use: always `ORDINAL_SIZE`; for an operation that is
given a key, `ordinal` of that key and nothing else; for any other operation, `from_ordinal`. -/
def AgreeFor (I J : OrdinalImpl K) (key : Option K) : Prop :=
  I.size = J.size ∧
    match key with
    | some k => I.ordinal k = J.ordinal k
    | none => I.fromOrdinal = J.fromOrdinal

theorem countLoop_ord (sz : R Nat) (o o' : K → R Nat) (f : Nat → R (Option K)) (fuel : Nat) (s : MapIter V)
    (acc : Nat) : MapIter.countLoop c ⟨sz, o, f⟩ fuel s acc = MapIter.countLoop c ⟨sz, o', f⟩ fuel s acc := by
  induction fuel generalizing s acc with
  | zero => rfl
  | succ fuel ih => simp only [MapIter.countLoop, ih]; rfl

theorem dropLoop_ord (sz : R Nat) (o o' : K → R Nat) (f : Nat → R (Option K)) (fuel : Nat) (s : Drain V) :
    Drain.dropLoop c ⟨sz, o, f⟩ fuel s = Drain.dropLoop c ⟨sz, o', f⟩ fuel s := by
  induction fuel generalizing s with
  | zero => rfl
  | succ fuel ih => simp only [Drain.dropLoop, ih]; rfl

/-- An impl for `bool` whose `from_ordinal` is broken. -/
def brokenBool : OrdinalImpl Bool := ⟨.ok 2, fun b => .ok b.toNat, fun _ => .error .panic⟩

/-- An impl for `bool` whose `ordinal` is broken. -/
def brokenOrdinal : OrdinalImpl Bool :=
  ⟨.ok 2, fun _ => .error .panic, fun i => .ok (if i = 0 then some false else if i = 1 then some true else none)⟩

/-- C78, `OrdinalMap`. -/
theorem C78_map {I J : OrdinalImpl K} (sz : Nat) (s : OMap V) (op : MapOp K V)
    (h : AgreeFor I J (MapOp.key? op)) : OMap.step c I sz s op = OMap.step c J sz s op := by
  obtain ⟨h1, h2⟩ := h
  obtain ⟨sz1, o1, f1⟩ := I
  obtain ⟨sz2, o2, f2⟩ := J
  simp only at h1; subst h1
  cases op <;> simp only [MapOp.key?] at h2 <;> first
    | (simp [OMap.step, OMap.get, OMap.getMut, OMap.insert, OMap.entry, OMap.remove, OMap.initFullMap, h2]; done)
    | (subst h2; first | rfl | (simp only [OMap.step, OMap.len, MapIter.count, OMap.clear, Drain.drop,
        countLoop_ord sz1 o1 o2, dropLoop_ord sz1 o1 o2] <;> rfl))

example := C78_map (c := debug64) 8 [none, some 7] (.insert true 9)
  (⟨rfl, rfl⟩ : AgreeFor brokenBool boolImpl (some true))

/-- C78, `OrdinalArrayMap`. -/
theorem C78_array_map {I J : OrdinalImpl K} (s : OrdinalArrayMap V) (op : MapOp K V)
    (h : AgreeFor I J (MapOp.key? op)) : OrdinalArrayMap.step c I s op = OrdinalArrayMap.step c J s op := by
  obtain ⟨h1, h2⟩ := h
  obtain ⟨sz1, o1, f1⟩ := I
  obtain ⟨sz2, o2, f2⟩ := J
  simp only at h1; subst h1
  cases op <;> simp only [MapOp.key?] at h2 <;> first
    | (simp [OrdinalArrayMap.step, OrdinalArrayMap.get, OrdinalArrayMap.getMut, OrdinalArrayMap.insert,
        OrdinalArrayMap.entry, OrdinalArrayMap.remove, OrdinalTotalArrayMap.get, OrdinalTotalArrayMap.getMut,
        OrdinalTotalArrayMap.indexMut, h2]; done)
    | (subst h2; first | rfl | (simp only [OrdinalArrayMap.step, OrdinalArrayMap.len, MapIter.count,
        OrdinalArrayMap.clear, Drain.drop, countLoop_ord sz1 o1 o2, dropLoop_ord sz1 o1 o2] <;> rfl))

example := C78_array_map (c := debug64) [none, some 7] (.insert true 9)
  (⟨rfl, rfl⟩ : AgreeFor brokenBool boolImpl (some true))

/-- C78, `contains_key` of the two maps. -/
theorem C78_contains_key {I J : OrdinalImpl K} {k : K} (h : AgreeFor I J (some k)) (s : List (Option V)) :
    OMap.containsKey I s k = OMap.containsKey J s k ∧
      OrdinalArrayMap.containsKey I s k = OrdinalArrayMap.containsKey J s k := by
  obtain ⟨_, h2⟩ := h
  simp only at h2
  simp [OMap.containsKey, OrdinalArrayMap.containsKey, OrdinalArrayMap.get, OrdinalTotalArrayMap.get, h2]

example := C78_contains_key (⟨rfl, rfl⟩ : AgreeFor brokenBool boolImpl (some true)) [none, some 7]

/-- C78, `OrdinalTotalMap`. -/
theorem C78_total {I J : OrdinalImpl K} (s : OrdinalTotalMap V) (op : TotalOp K V)
    (h : AgreeFor I J (TotalOp.key? op)) : OrdinalTotalMap.step c I s op = OrdinalTotalMap.step c J s op := by
  obtain ⟨h1, h2⟩ := h
  obtain ⟨sz1, o1, f1⟩ := I
  obtain ⟨sz2, o2, f2⟩ := J
  simp only at h1; subst h1
  cases op <;> simp only [TotalOp.key?] at h2 <;> first
    | (simp [OrdinalTotalMap.step, OrdinalTotalMap.get, OrdinalTotalMap.getMut, OrdinalTotalMap.insert,
        OrdinalTotalMap.index, OrdinalTotalMap.indexMut, h2]; done)
    | (subst h2; rfl)

example := C78_total (c := debug64) [6, 7] (.insert true 9) (⟨rfl, rfl⟩ : AgreeFor brokenBool boolImpl (some true))

/-- C78, `OrdinalTotalArrayMap`. -/
theorem C78_total_array {I J : OrdinalImpl K} (S : Nat) (s : OrdinalTotalArrayMap V) (op : TotalOp K V)
    (h : AgreeFor I J (TotalOp.key? op)) :
    OrdinalTotalArrayMap.step c I S s op = OrdinalTotalArrayMap.step c J S s op := by
  obtain ⟨h1, h2⟩ := h
  obtain ⟨sz1, o1, f1⟩ := I
  obtain ⟨sz2, o2, f2⟩ := J
  simp only at h1; subst h1
  cases op <;> simp only [TotalOp.key?] at h2 <;> first
    | (simp [OrdinalTotalArrayMap.step, OrdinalTotalArrayMap.get, OrdinalTotalArrayMap.getMut,
        OrdinalTotalArrayMap.insert, OrdinalTotalArrayMap.index, OrdinalTotalArrayMap.indexMut, h2]; done)
    | (subst h2; rfl)

example := C78_total_array (c := debug64) 2 [6, 7] (.insert true 9)
  (⟨rfl, rfl⟩ : AgreeFor brokenBool boolImpl (some true))

theorem retainLoop_ord (sz : R Nat) (o o' : K → R Nat) (f : Nat → R (Option K))
    (g : K → V → ρ → R (Bool × V × ρ)) (fuel : Nat) (s : MapIterMut V) (r : ρ) :
    OrdinalArrayMap.retainLoop c ⟨sz, o, f⟩ g fuel s r = OrdinalArrayMap.retainLoop c ⟨sz, o', f⟩ g fuel s r := by
  induction fuel generalizing s r with
  | zero => rfl
  | succ fuel ih => simp only [OrdinalArrayMap.retainLoop, ih]; rfl

theorem mapLoop_ord (sz : R Nat) (o o' : K → R Nat) (f : Nat → R (Option K))
    (g : K → V → ρ → R (W × ρ)) (fuel : Nat) (s : TotalIntoIterArray V) (b : ArrayBuilder W) (r : ρ) :
    OrdinalTotalArrayMap.mapLoop c ⟨sz, o, f⟩ g fuel s b r =
      OrdinalTotalArrayMap.mapLoop c ⟨sz, o', f⟩ g fuel s b r := by
  induction fuel generalizing s b r with
  | zero => rfl
  | succ fuel ih => simp only [OrdinalTotalArrayMap.mapLoop, ih]; rfl

theorem tryNewLoop_ord (sz : R Nat) (o o' : K → R Nat) (f : Nat → R (Option K))
    (init : K → ρ → R (Except E V × ρ)) (fuel : Nat) (it : OrdinalValues) (l : List V) (r : ρ) :
    OrdinalTotalMap.tryNewLoop ⟨sz, o, f⟩ init fuel it l r =
      OrdinalTotalMap.tryNewLoop ⟨sz, o', f⟩ init fuel it l r := by
  induction fuel generalizing it l r with
  | zero => rfl
  | succ fuel ih => simp only [OrdinalTotalMap.tryNewLoop, ih]; rfl

theorem tryNewLoopA_ord (sz : R Nat) (o o' : K → R Nat) (f : Nat → R (Option K))
    (init : K → ρ → R (Except E V × ρ)) (fuel : Nat) (it : OrdinalValues) (b : ArrayBuilder V) (r : ρ) :
    OrdinalTotalArrayMap.tryNewLoop ⟨sz, o, f⟩ init fuel it b r =
      OrdinalTotalArrayMap.tryNewLoop ⟨sz, o', f⟩ init fuel it b r := by
  induction fuel generalizing it b r with
  | zero => rfl
  | succ fuel ih => simp only [OrdinalTotalArrayMap.tryNewLoop, ih]; rfl

/-- C78, the functions that walk over all keys (`try_new`, `retain`, `map`, the owning iterators): they
do not use `ordinal`. -/
theorem C78_walk {I J : OrdinalImpl K} (h : AgreeFor I J none) :
    (∀ sz (init : K → ρ → R (Except E V × ρ)) r,
      OrdinalTotalMap.tryNew c I sz init r = OrdinalTotalMap.tryNew c J sz init r) ∧
    (∀ S (init : K → ρ → R (Except E V × ρ)) r,
      OrdinalTotalArrayMap.tryNew I S init r = OrdinalTotalArrayMap.tryNew J S init r) ∧
    (∀ s (f : K → V → ρ → R (Bool × V × ρ)) r,
      OrdinalArrayMap.retain c I s f r = OrdinalArrayMap.retain c J s f r) ∧
    (∀ S s (f : K → V → ρ → R (W × ρ)) r,
      OrdinalTotalArrayMap.map c I S s f r = OrdinalTotalArrayMap.map c J S s f r) ∧
    (∀ (s : MapIntoIter V) ds, (MapIntoIter.it c I).run s ds = (MapIntoIter.it c J).run s ds) ∧
    (∀ (s : MapIntoIterArray V) ds, (MapIntoIterArray.it c I).run s ds = (MapIntoIterArray.it c J).run s ds) ∧
    (∀ (s : TotalIntoIter V) ds, (TotalIntoIter.it c I).run s ds = (TotalIntoIter.it c J).run s ds) ∧
    (∀ (s : TotalIntoIterArray V) ds,
      (TotalIntoIterArray.it c I).run s ds = (TotalIntoIterArray.it c J).run s ds) ∧
    OrdinalValues.new I = OrdinalValues.new J ∧
    (∀ s ds, (OrdinalValues.iter I).run s ds = (OrdinalValues.iter J).run s ds) := by
  obtain ⟨h1, h2⟩ := h
  obtain ⟨sz1, o1, f1⟩ := I
  obtain ⟨sz2, o2, f2⟩ := J
  simp only at h1 h2; subst h1; subst h2
  refine ⟨fun sz init r => ?_, fun S init r => ?_, fun s f r => ?_, fun S s f r => ?_, fun _ _ => rfl,
    fun _ _ => rfl, fun _ _ => rfl, fun _ _ => rfl, rfl, fun _ _ => rfl⟩
  · simp only [OrdinalTotalMap.tryNew, tryNewLoop_ord sz1 o1 o2]; rfl
  · simp only [OrdinalTotalArrayMap.tryNew, tryNewLoopA_ord sz1 o1 o2]; rfl
  · simp only [OrdinalArrayMap.retain, retainLoop_ord sz1 o1 o2]
  · simp only [OrdinalTotalArrayMap.map, mapLoop_ord sz1 o1 o2]

example := C78_walk (V := Nat) (W := Nat) (E := String) (ρ := Nat) (c := debug64)
  (show AgreeFor brokenOrdinal boolImpl none from
    ⟨rfl, funext fun i => by match i with | 0 | 1 | _ + 2 => rfl⟩)

/-- C78, the sets: `contains` and `insert` use `ORDINAL_SIZE` and `ordinal` of the given value. -/
theorem C78_sets {τ : Type} {I J : OrdinalImpl τ} {x : τ} (h : AgreeFor I J (some x)) :
    (∀ s, OrdinalSet.contains c I s x = OrdinalSet.contains c J s x) ∧
    (∀ s, OrdinalSet.insert c I s x = OrdinalSet.insert c J s x) ∧
    (∀ S s, OrdinalArraySet.contains c I S s x = OrdinalArraySet.contains c J S s x) ∧
    (∀ S s, OrdinalArraySet.insert c I S s x = OrdinalArraySet.insert c J S s x) ∧
    (∀ s, OrdinalSet64.contains c I s x = OrdinalSet64.contains c J s x) ∧
    (∀ s, OrdinalSet64.insert c I s x = OrdinalSet64.insert c J s x) := by
  obtain ⟨h1, h2⟩ := h
  simp only at h2
  have e1 : ∀ ws, SetRef.new c I ws = SetRef.new c J ws := by intro ws; simp [SetRef.new, ordinalArraySetS, h1]
  have e2 : ∀ ws, SetMut.new c I ws = SetMut.new c J ws := by intro ws; simp [SetMut.new, ordinalArraySetS, h1]
  have e3 : ∀ ws, SetRef.contains c I ws x = SetRef.contains c J ws x := by intro ws; simp [SetRef.contains, h2]
  have e4 : ∀ ws, SetMut.insert c I ws x = SetMut.insert c J ws x := by intro ws; simp [SetMut.insert, h2, e1, e3]
  have e5 : ∀ s, OrdinalSet.asRef c I s = OrdinalSet.asRef c J s := by
    intro s; cases s <;> simp [OrdinalSet.asRef, OrdinalSet.isSmall, h1, e1]
  have e6 : ∀ S, OrdinalArraySet.assertS I S = OrdinalArraySet.assertS J S := by
    intro S; simp [OrdinalArraySet.assertS, ordinalArraySetS, h1]
  have e7 : OrdinalSet64.assert64 I = OrdinalSet64.assert64 J := by simp [OrdinalSet64.assert64, h1]
  refine ⟨fun s => ?_, fun s => ?_, fun S s => ?_, fun S s => ?_, fun s => ?_, fun s => ?_⟩
  · simp [OrdinalSet.contains, e5, e3]
  · cases s <;> simp [OrdinalSet.insert, OrdinalSet.isSmall, OrdinalSet.alloc, h1, e2, e4]
  · simp [OrdinalArraySet.contains, OrdinalArraySet.asRef, e6, e1, e3]
  · simp [OrdinalArraySet.insert, OrdinalArraySet.asMut, e6, e2, e4]
  · simp [OrdinalSet64.contains, e7, h2]
  · simp [OrdinalSet64.insert, OrdinalSet64.contains, e7, h2]

example := C78_sets (c := debug64) (⟨rfl, rfl⟩ : AgreeFor brokenBool boolImpl (some true))

/-! ## C79 -/

/-- The two stores have the same length and the same contents of slot `i`. -/
def SlotAgree {α : Type} (i : Nat) (s t : List α) : Prop := s.length = t.length ∧ s[i]? = t[i]?

/-- What is stored at `j`, if anything. -/
def content (s : List (Option V)) (j : Nat) : Option V := (s[j]?).join

/-- An operation, run on `s` and on `t`, is confined to slot `i`: it does the same with both, leaves the
same in slot `i`, and leaves all other slots as they were. -/
def Confined {α β : Type} (rd : List α → Nat → Option β) (i : Nat) (s t : List α) {o : Type}
    (x y : R (o × List α)) : Prop :=
  (∃ e, x = .error e ∧ y = .error e) ∨
  ∃ out s' t', x = .ok (out, s') ∧ y = .ok (out, t') ∧ SlotAgree i s' t' ∧
    (∀ j, j ≠ i → rd s' j = rd s j) ∧ ∀ j, j ≠ i → rd t' j = rd t j

theorem Confined.same {α β o : Type} {rd : List α → Nat → Option β} {i : Nat} {s t : List α}
    (h : SlotAgree i s t) (out : o) : Confined rd i s t (.ok (out, s)) (.ok (out, t)) :=
  .inr ⟨out, s, t, rfl, rfl, h, fun _ _ => rfl, fun _ _ => rfl⟩

theorem Confined.set {β o : Type} {α : Type} {rd : List α → Nat → Option β} {i : Nat} {s t : List α}
    (hrd : ∀ (l : List α) j v, j ≠ i → rd (l.set i v) j = rd l j)
    (h : SlotAgree i s t) (out : o) (v : α) : Confined rd i s t (.ok (out, s.set i v)) (.ok (out, t.set i v)) :=
  .inr ⟨out, _, _, rfl, rfl, ⟨by simp [h.1], by
    by_cases hi : i < s.length
    · simp [hi, h.1 ▸ hi]
    · have := h.1
      rw [List.getElem?_eq_none (by simp; omega), List.getElem?_eq_none (by simp; omega)]⟩,
    fun j hj => hrd _ _ _ hj, fun j hj => hrd _ _ _ hj⟩

theorem content_set (i : Nat) (l : List (Option V)) (j : Nat) (v : Option V) (h : j ≠ i) :
    content (l.set i v) j = content l j := by
  simp [content, Ne.symm h]

/-- C79, `OrdinalArrayMap`: an operation with a key of ordinal `i` depends on and changes slot `i` only. -/
theorem C79_array_map {I : OrdinalImpl K} {op : MapOp K V} {k : K} (hk : MapOp.key? op = some k) {i : Nat}
    (hi : I.ordinal k = .ok i) {s t : OrdinalArrayMap V} (h : SlotAgree i s t) :
    Confined content i s t (OrdinalArrayMap.step c I s op) (OrdinalArrayMap.step c I t op) := by
  have h1 := h.1
  have h2 := h.2
  rcases Nat.lt_or_ge i s.length with hl | hl
  · have hl' : i < t.length := h1 ▸ hl
    obtain ⟨o, ho⟩ : ∃ o, s[i] = o := ⟨_, rfl⟩
    have ho' : t[i] = o := by
      rw [List.getElem?_eq_getElem hl, List.getElem?_eq_getElem hl'] at h2
      rw [← ho]; exact (Option.some.inj h2).symm
    have same : ∀ {β : Type} (out : β), Confined content i s t (.ok (out, s)) (.ok (out, t)) :=
      fun out => .same h out
    have set : ∀ {β : Type} (out : β) v, Confined content i s t (.ok (out, s.set i v)) (.ok (out, t.set i v)) :=
      fun out v => .set (fun l j v => content_set i l j v) h out v
    cases op <;> simp only [MapOp.key?, Option.some.injEq, reduceCtorEq] at hk <;> subst hk <;>
      cases o <;> simp [OrdinalArrayMap.step, OrdinalArrayMap.get, OrdinalArrayMap.getMut, OrdinalArrayMap.insert,
        OrdinalArrayMap.entry, OrdinalArrayMap.remove, OrdinalTotalArrayMap.get, OrdinalTotalArrayMap.getMut,
        OrdinalTotalArrayMap.indexMut, OrdinalTotalMap.slotOf, hi, hl, hl', ho, ho', getIdx, readSlot, writeSlot,
        getMutClient, readSome, writeSome, Entry.new, Entry.orInsert, entryClient, Entry.key, Entry.vacantInsert,
        Entry.occupiedGet, Entry.occupiedGetMut, unwrap, same, set]
  · have hl' : ¬ i < t.length := by omega
    have hl'' : ¬ i < s.length := by omega
    have hs : s[i]? = none := List.getElem?_eq_none hl
    have ht : t[i]? = none := h2 ▸ hs
    cases op <;> simp only [MapOp.key?, Option.some.injEq, reduceCtorEq] at hk <;> subst hk <;>
      exact .inl ⟨.panic, by simp only [OrdinalArrayMap.step, OrdinalArrayMap.get, OrdinalArrayMap.getMut,
        OrdinalArrayMap.insert, OrdinalArrayMap.entry, OrdinalArrayMap.remove, OrdinalTotalArrayMap.get,
        OrdinalTotalArrayMap.getMut, OrdinalTotalArrayMap.indexMut, OrdinalTotalMap.slotOf, hi, hl', hl'', hs, ht,
        getIdx, ok_bind, error_bind, if_false, and_self]⟩

example := C79_array_map (c := debug64) (I := brokenBool) (op := .insert true 9) rfl rfl
  (⟨rfl, rfl⟩ : SlotAgree 1 [some 3, some 7] [none, some 7])

theorem confined_alloc {I : OrdinalImpl K} {op : MapOp K V} {k : K} (hk : MapOp.key? op = some k) {i : Nat}
    (hi : I.ordinal k = .ok i) (sz : Nat) {s t : OMap V} (hne : s ≠ []) (h : SlotAgree i s t) :
    Confined content i s t (OMap.step c I sz s op) (OMap.step c I sz t op) := by
  have h1 := h.1
  have h2 := h.2
  cases s with
  | nil => exact absurd rfl hne
  | cons a s =>
  have e1 : OMap.initFullMap c I sz (a :: s) = .ok (a :: s) := rfl
  have e2 : OMap.initFullMap c I sz t = .ok t := by
    cases t with
    | nil => simp at h1
    | cons => rfl
  clear hne
  generalize a :: s = s at *
  have same : ∀ {β : Type} (out : β), Confined content i s t (.ok (out, s)) (.ok (out, t)) :=
    fun out => .same h out
  rcases Nat.lt_or_ge i s.length with hl | hl
  · have hl' : i < t.length := h1 ▸ hl
    obtain ⟨o, ho⟩ : ∃ o, s[i] = o := ⟨_, rfl⟩
    have ho' : t[i] = o := by
      rw [List.getElem?_eq_getElem hl, List.getElem?_eq_getElem hl'] at h2
      rw [← ho]; exact (Option.some.inj h2).symm
    have set : ∀ {β : Type} (out : β) v, Confined content i s t (.ok (out, s.set i v)) (.ok (out, t.set i v)) :=
      fun out v => .set (fun l j v => content_set i l j v) h out v
    cases op <;> simp only [MapOp.key?, Option.some.injEq, reduceCtorEq] at hk <;> subst hk <;>
      cases o <;> simp [OMap.step, OMap.get, OMap.getMut, OMap.insert,
        OMap.entry, OMap.remove, OrdinalTotalMap.slotOf, hi, hl, hl', ho, ho', getIdx, setIdx, e1, e2,
        getMutClient, readSome, writeSome, Entry.new, Entry.orInsert, entryClient, Entry.key, Entry.vacantInsert,
        Entry.occupiedGet, Entry.occupiedGetMut, unwrap, writeSlot, same, set]
  · have hl' : ¬ i < t.length := by omega
    have hl'' : ¬ i < s.length := by omega
    have hs : s[i]? = none := List.getElem?_eq_none hl
    have ht : t[i]? = none := h2 ▸ hs
    cases op <;> simp only [MapOp.key?, Option.some.injEq, reduceCtorEq] at hk <;> subst hk <;> first
      | (simp only [OMap.step, OMap.get, OMap.getMut, OMap.remove, hi, hs, ht, ok_bind, getMutClient, same]; done)
      | exact .inl ⟨.panic, by simp only [OMap.step, OMap.insert, OMap.entry, OrdinalTotalMap.slotOf, hi, e1, e2,
          hl', hl'', hs, ht, getIdx, ok_bind, error_bind, if_false, and_self]⟩

/-- Before the first insertion: what a lookup finds in the empty slice is what it would find in the full
slice of `None`s; what an insertion does is what it would do with that slice. -/
theorem step_nil {I : OrdinalImpl K} {op : MapOp K V} {k : K} (hk : MapOp.key? op = some k) {i : Nat}
    (hi : I.ordinal k = .ok i) (sz : Nat) :
    (∃ out, OMap.step c I sz [] op = .ok (out, [])) ∨ (∃ e, OMap.step c I sz [] op = .error e) ∨
    ∃ n, OMap.step c I sz [] op = OMap.step c I sz (List.replicate (n + 1) none) op := by
  have key : ∀ {β : Type} (f : OMap V → R β),
      (∃ e, (do let s ← OMap.initFullMap c I sz []; f s) = .error e) ∨
      ∃ n, (do let s ← OMap.initFullMap c I sz []; f s) = f (List.replicate n none) := by
    intro β f
    simp only [OMap.initFullMap, List.isEmpty_nil, if_true]
    cases hs : I.size with
    | error e => exact .inl ⟨e, rfl⟩
    | ok n =>
      cases hw : withCapacity c sz n with
      | error e => exact .inl ⟨e, by simp only [ok_bind, hw]; rfl⟩
      | ok _ => exact .inr ⟨n, by simp only [ok_bind, hw]⟩
  have e1 : ∀ n, OMap.initFullMap (V := V) c I sz (List.replicate (n + 1) none) = .ok (List.replicate (n + 1) none) :=
    fun _ => rfl
  cases op <;> simp only [MapOp.key?, Option.some.injEq, reduceCtorEq] at hk <;> subst hk <;> first
    | (left; simp only [OMap.step, OMap.get, OMap.getMut, OMap.remove, hi, List.getElem?_nil, ok_bind, getMutClient]
       exact ⟨_, rfl⟩)
    | (right
       simp only [OMap.step, OMap.insert, OMap.entry, bind_assoc]
       rcases key _ with he | ⟨n, hn⟩
       · exact .inl he
       · cases n with
         | zero =>
           exact .inl ⟨.panic, by rw [hn]; simp only [List.replicate_zero, hi, getIdx, OrdinalTotalMap.slotOf,
             List.getElem?_nil, List.length_nil, Nat.not_lt_zero, if_false, ok_bind, error_bind]⟩
         | succ n => exact .inr ⟨n, by rw [hn]; simp only [e1, ok_bind]⟩)

/-- C79, `OrdinalMap`: the same; the allocation at the first insertion changes no content. -/
theorem C79_map {I : OrdinalImpl K} {op : MapOp K V} {k : K} (hk : MapOp.key? op = some k) {i : Nat}
    (hi : I.ordinal k = .ok i) (sz : Nat) {s t : OMap V} (h : SlotAgree i s t) :
    Confined content i s t (OMap.step c I sz s op) (OMap.step c I sz t op) := by
  cases s with
  | cons a s => exact confined_alloc hk hi sz (by simp) h
  | nil =>
    have : t = [] := List.eq_nil_of_length_eq_zero h.1.symm
    subst this
    rcases step_nil (c := c) hk hi sz with ⟨out, e⟩ | ⟨f, e⟩ | ⟨n, e⟩
    · rw [e]; exact .same h out
    · exact .inl ⟨f, e, e⟩
    · rw [e]
      rcases confined_alloc (c := c) hk hi sz (s := List.replicate (n + 1) none) (by simp) ⟨rfl, rfl⟩ with
        ⟨f, e1, e2⟩ | ⟨out, s', t', e1, e2, e3, e4, e5⟩
      · exact .inl ⟨f, e1, e2⟩
      · have e0 : ∀ j, content (List.replicate (n + 1) (none : Option V)) j = content [] j := by
          intro j; simp only [content, List.getElem?_replicate]; split <;> rfl
        exact .inr ⟨out, s', t', e1, e2, e3, fun j hj => (e4 j hj).trans (e0 j),
          fun j hj => (e5 j hj).trans (e0 j)⟩

example := C79_map (c := debug64) (I := brokenBool) (op := .insert true 9) rfl rfl 8
  (⟨rfl, rfl⟩ : SlotAgree 1 [some 3, some 7] [none, some 7])

/-- C79, the total maps, whose slots hold values. -/
theorem C79_total {I : OrdinalImpl K} {op : TotalOp K V} {k : K} (hk : TotalOp.key? op = some k) {i : Nat}
    (hi : I.ordinal k = .ok i) {s t : List V} (h : SlotAgree i s t) :
    Confined (fun l j => l[j]?) i s t (OrdinalTotalMap.step c I s op) (OrdinalTotalMap.step c I t op) ∧
    ∀ S, Confined (fun l j => l[j]?) i s t (OrdinalTotalArrayMap.step c I S s op)
      (OrdinalTotalArrayMap.step c I S t op) := by
  have h1 := h.1
  have h2 := h.2
  rcases Nat.lt_or_ge i s.length with hl | hl
  · have hl' : i < t.length := h1 ▸ hl
    obtain ⟨o, ho⟩ : ∃ o, s[i] = o := ⟨_, rfl⟩
    have ho' : t[i] = o := by
      rw [List.getElem?_eq_getElem hl, List.getElem?_eq_getElem hl'] at h2
      rw [← ho]; exact (Option.some.inj h2).symm
    have same : ∀ {β : Type} (out : β), Confined (fun l j => l[j]?) i s t (.ok (out, s)) (.ok (out, t)) :=
      fun out => .same h out
    have set : ∀ {β : Type} (out : β) v,
        Confined (fun l j => l[j]?) i s t (.ok (out, s.set i v)) (.ok (out, t.set i v)) :=
      fun out v => .set (fun l j v hj => by simp [Ne.symm hj]) h out v
    cases op <;> simp only [TotalOp.key?, Option.some.injEq, reduceCtorEq] at hk <;> subst hk <;>
      simp [OrdinalTotalMap.step, OrdinalTotalArrayMap.step, OrdinalTotalMap.get, OrdinalTotalMap.getMut,
        OrdinalTotalMap.index, OrdinalTotalMap.indexMut, OrdinalTotalMap.insert, OrdinalTotalArrayMap.get,
        OrdinalTotalArrayMap.getMut, OrdinalTotalArrayMap.index, OrdinalTotalArrayMap.indexMut,
        OrdinalTotalArrayMap.insert, OrdinalTotalMap.slotOf, hi, hl, hl', ho, ho', getIdx, setIdx, readSlot,
        writeSlot, same, set]
  · have hl' : ¬ i < t.length := by omega
    have hl'' : ¬ i < s.length := by omega
    have hs : s[i]? = none := List.getElem?_eq_none hl
    have ht : t[i]? = none := h2 ▸ hs
    refine ⟨.inl ⟨.panic, ?_⟩, fun S => .inl ⟨.panic, ?_⟩⟩ <;>
    cases op <;> simp only [TotalOp.key?, Option.some.injEq, reduceCtorEq] at hk <;> subst hk <;>
      simp only [OrdinalTotalMap.step, OrdinalTotalArrayMap.step, OrdinalTotalMap.get, OrdinalTotalMap.getMut,
        OrdinalTotalMap.index, OrdinalTotalMap.indexMut, OrdinalTotalMap.insert, OrdinalTotalArrayMap.get,
        OrdinalTotalArrayMap.getMut, OrdinalTotalArrayMap.index, OrdinalTotalArrayMap.indexMut,
        OrdinalTotalArrayMap.insert, OrdinalTotalMap.slotOf, hi, hl', hl'', hs, ht, getIdx, ok_bind, error_bind,
        if_false, and_self]

example := C79_total (c := debug64) (I := brokenBool) (op := .insert true 9) rfl rfl
  (⟨rfl, rfl⟩ : SlotAgree 1 [3, 7] [4, 7])

/-- Concrete cases of C78: with a `from_ordinal` that always panics, inserting and removing works as with
a lawful impl, and only iteration panics; with an `ordinal` that always panics, iteration works. -/
example : AgreeFor brokenBool boolImpl (some true) ∧ ¬ AgreeFor brokenBool boolImpl none ∧
    OMap.step debug64 brokenBool 8 [] (.insert true 7) = .ok (.opt none, [none, some 7]) ∧
    OMap.step debug64 boolImpl 8 [] (.insert true 7) = .ok (.opt none, [none, some 7]) ∧
    OMap.step debug64 brokenBool 8 [none, some 7] (.iter [.front]) = .error .panic ∧
    OMap.step debug64 brokenOrdinal 8 [none, some 7] (.iter [.front]) =
      .ok (.items [some (true, 7)], [none, some 7]) ∧
    OMap.step debug64 brokenOrdinal 8 [none, some 7] (.get true) = .error .panic := by
  refine ⟨⟨rfl, rfl⟩, fun h => ?_, rfl, rfl, rfl, rfl, rfl⟩
  have h2 : brokenBool.fromOrdinal 0 = boolImpl.fromOrdinal 0 := congrFun h.2 0
  cases h2

/-- Concrete case of C79: two maps that differ at 0 only, and an insertion at 1. -/
example : MapOp.key? (.insert true 9 : MapOp Bool Nat) = some true ∧ brokenBool.ordinal true = .ok 1 ∧
    SlotAgree 1 [some 3, some 7] [none, some 7] ∧
    OMap.step debug64 brokenBool 8 [some 3, some 7] (.insert true 9) = .ok (.opt (some 7), [some 3, some 9]) ∧
    OMap.step debug64 brokenBool 8 [none, some 7] (.insert true 9) = .ok (.opt (some 7), [none, some 9]) :=
  ⟨rfl, rfl, ⟨rfl, rfl⟩, rfl, rfl⟩

end OrdinalMap.Props
