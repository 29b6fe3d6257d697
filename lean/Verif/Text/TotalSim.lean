import Verif.Text.MapTotalBox
import Verif.Text.MapArray
import Verif.Text.MapObs
import Verif.SpecTextTotal
import Verif.Props.TotalMap
/-!
# From the model to the text: operations on total maps
-/

namespace OrdinalMap.Text
open OrdinalMap.Props

variable {P : Nat → Type} {c : Cfg} {J : (p : Nat) → OrdinalImpl (P p)} {S m : Nat} {U : UserFns P} {h : Heap P}

/-- The functions of a total map in which the two types of total maps differ. -/
structure TFns (K V : Type) where
  get : List V → K → R V
  index : List V → K → R V
  getMut : List V → K → R Nat
  indexMut : List V → K → R Nat
  insert : List V → K → V → R (V × List V)
  len : List V → R Nat
  isEmpty : List V → R Bool

/-- One operation. -/
def TFns.step {K V : Type} (F : TFns K V) (c : Cfg) (I : OrdinalImpl K) (s : List V) :
    TotalOp K V → R (MapOut K V × List V)
  | .get k => do .ok (.opt (some (← F.get s k)), s)
  | .index k => do .ok (.opt (some (← F.index s k)), s)
  | .getMut k w => do
    let slot ← F.getMut s k
    .ok (.opt (some (← readSlot s slot)), ← writeSlot s slot w)
  | .indexMut k w => do
    let slot ← F.indexMut s k
    .ok (.opt (some (← readSlot s slot)), ← writeSlot s slot w)
  | .insert k v => do
    let (old, s) ← F.insert s k v
    .ok (.opt (some old), s)
  | .len => do .ok (.nat (← F.len s), s)
  | .isEmpty => do .ok (.bool (← F.isEmpty s), s)
  | .iter ds => do
    let (os, _) ← (TotalIter.it c I).run (TotalIter.new s 0) ds
    .ok (.items os, s)
  | .keys ds => do
    let (os, _) ← (OrdinalValues.iter I).run (← OrdinalValues.new I) ds
    .ok (.keys os, s)
  | .values ds => do
    let (os, _) ← (listIter V).it.run s ds
    .ok (.vals os, s)
  | .iterMut steps => do
    let (os, cl) ← runOps (MutClientT.step c I) ⟨TotalIterMut.new s, []⟩ steps
    .ok (.items os, cl.it.mem)
  | .valuesMut steps => do
    let (os, cl) ← runOps SlotClient.step ⟨s, ⟨0, s.length⟩, []⟩ steps
    .ok (.vals os, cl.mem)

/-- `OrdinalTotalMap` -/
def boxFns {K V : Type} (I : OrdinalImpl K) : TFns K V :=
  ⟨OrdinalTotalMap.get I, OrdinalTotalMap.index I, OrdinalTotalMap.getMut I, OrdinalTotalMap.indexMut I, OrdinalTotalMap.insert I,
    OrdinalTotalMap.len I, OrdinalTotalMap.isEmpty I⟩

theorem OrdinalTotalMap.step_fns {V K : Type} (c : Cfg) (I : OrdinalImpl K) (s : OrdinalTotalMap V) (op) :
    OrdinalTotalMap.step c I s op = (boxFns I).step c I s op := by cases op <;> rfl

/-- `OrdinalTotalArrayMap` -/
def arrayFns {K V : Type} (I : OrdinalImpl K) (S : Nat) : TFns K V :=
  ⟨OrdinalTotalArrayMap.get I, OrdinalTotalArrayMap.index I, OrdinalTotalArrayMap.getMut I, OrdinalTotalArrayMap.indexMut I,
    OrdinalTotalArrayMap.insert I, fun s => .ok (OrdinalTotalArrayMap.len S s), fun s => .ok (OrdinalTotalArrayMap.isEmpty S s)⟩

theorem OrdinalTotalArrayMap.step_fns {V K : Type} (c : Cfg) (I : OrdinalImpl K) (S : Nat) (s : OrdinalTotalArrayMap V) (op) :
    OrdinalTotalArrayMap.step c I S s op = (arrayFns I S).step c I s op := by cases op <;> rfl

/-- The values of type `V` in a slice. -/
def ofV (s : List (P 1)) : List (Val P) := s.map (.usr 1)

/-- The type `t` of the text does what `F` does; `enc` is how the slots look at run time, and `path` is where they are. -/
structure TotalText (J : (p : Nat) → OrdinalImpl (P p)) (call : Machine P) (t : RT) (enc : List (P 1) → Val P)
    (path : List Proj) (F : TFns (P 0) (P 1)) : Prop where
  place : ∀ s h, Place (enc s :: h) 0 path (.arr (ofV s))
  put : ∀ s s' h, put (enc s :: h) 0 path (.arr (ofV s')) = enc s' :: h
  get : ∀ s k, call t "get" [.ref (enc s), .ref (.usr 0 k)] [] = (fun v => (.ref (.usr 1 v), [])) <$> F.get s k
  index : ∀ s k, call t "index" [.ref (enc s), .ref (.usr 0 k)] [] = (fun v => (.ref (.usr 1 v), [])) <$> F.index s k
  getMut : ∀ s k, call t "get_mut" [.mref 0 [], .ref (.usr 0 k)] [enc s] =
    (fun i => (.mref 0 (path ++ [.idx i]), [enc s])) <$> F.getMut s k
  getMut_lt : ∀ s k i, F.getMut s k = .ok i → i < s.length
  indexMut : ∀ s k, call t "index_mut" [.mref 0 [], .ref (.usr 0 k)] [enc s] =
    (fun i => (.mref 0 (path ++ [.idx i]), [enc s])) <$> F.indexMut s k
  indexMut_lt : ∀ s k i, F.indexMut s k = .ok i → i < s.length
  insert : ∀ s k v, call t "insert" [.mref 0 [], .usr 0 k, .usr 1 v] [enc s] =
    (fun r => (.usr 1 r.1, [enc r.2])) <$> F.insert s k v
  len : ∀ s, call t "len" [.ref (enc s)] [] = (fun k => (.uint .size k, [])) <$> F.len s
  isEmpty : ∀ s, call t "is_empty" [.ref (enc s)] [] = (fun b => (.bool b, [])) <$> F.isEmpty s
  iter : ∀ s, call t "iter" [.ref (enc s)] [] = .ok (wrapVal "total::Iter" (enumVal ⟨0, (ofV s).map .ref⟩), [])
  keys : ∀ s, call t "keys" [.ref (enc s)] [] = (fun s => (valuesVal s, [])) <$> OrdinalValues.new (J 0)
  intoKeys : ∀ s, call t "into_keys" [enc s] [] = (fun s => (valuesVal s, [])) <$> OrdinalValues.new (J 0)
  values : ∀ s, call t "values" [.ref (enc s)] [] = .ok (.it ((ofV s).map .ref), [])
  intoValues : ∀ s, call t "into_values" [enc s] [] = .ok (.arr (ofV s), [])
  iterMut : ∀ s, call t "iter_mut" [.mref 0 []] [enc s] =
    .ok (wrapVal "total::IterMut" (enumVal ⟨0, (List.range s.length).map fun i => .mref 0 (path ++ [.idx i])⟩), [enc s])
  valuesMut : ∀ s, call t "values_mut" [.mref 0 []] [enc s] = .ok (.it ((List.range s.length).map fun i => .mref 0 (path ++ [.idx i])), [enc s])

/-! ## Iterators -/

/-- `total::Iter` at run time -/
def totalIterVal (s : TotalIter (P 1)) : Val P := wrapVal "total::Iter" (enumVal (encEnum (fun v => .ref (.usr 1 v)) s))

/-- `total::IntoIter` and `total::IntoIterArray` at run time -/
def totalIntoVal (x : String) (s : TotalIter (P 1)) : Val P := wrapVal x (enumVal (encEnum (.usr 1) s))

theorem textTotalIter_step (s : TotalIter (P 1)) (d : Dir) :
    (textMapIter (mapCall c J S maps U) "total::Iter" readPairRef 0).step [totalIterVal s] d =
      (fun r => (r.1, [totalIterVal r.2])) <$> (TotalIter.it c (J 0)).step s d := by
  have hq (u : Val P) : put [totalIterVal s] 0 [] u = [u] := put_var (by simp)
  cases d with
  | front =>
    have := total_next (c := c) (J := J) (S := S) (U := U) (h := [totalIterVal s]) (a := 0) (ps := []) (x := "total::Iter") 6 rfl
      (place_var (by simp [totalIterVal]) : Place _ _ _ (wrapVal "total::Iter" (enumVal (encEnum (fun v => .ref (.usr 1 v)) s))))
    simp only [hq, nextItem_enc] at this
    refine textNext_of (e := pairRef) (g := fun s : TotalIter (P 1) => [totalIterVal s]) (m := TotalIter.next c (J 0) s) (this.trans ?_) fun _ _ => rfl
    simp only [TotalIter.next]
    cases Enumerate.nextItem c (J 0) (listIter (P 1)) s with
    | error f => rfl
    | ok r => obtain ⟨o, r⟩ := r; cases o <;> rfl
  | back =>
    have := total_nextBack (c := c) (J := J) (S := S) (U := U) (h := [totalIterVal s]) (a := 0) (ps := []) (x := "total::Iter") 6 rfl
      (place_var (by simp [totalIterVal]) : Place _ _ _ (wrapVal "total::Iter" (enumVal (encEnum (fun v => .ref (.usr 1 v)) s))))
    simp only [hq, nextBackItem_enc] at this
    refine textNext_of (e := pairRef) (g := fun s : TotalIter (P 1) => [totalIterVal s]) (m := TotalIter.nextBack c (J 0) s) (this.trans ?_) fun _ _ => rfl
    simp only [TotalIter.nextBack]
    cases Enumerate.nextBackItem c (J 0) (listIter (P 1)) s with
    | error f => rfl
    | ok r => obtain ⟨o, r⟩ := r; cases o <;> rfl

theorem textTotalInto_step {x : String} (hx : maps.fn (.con x) "next" = some totalIterFn2_0)
    (hy : maps.fn (.con x) "next_back" = some totalIterFn4_0) (s : TotalIter (P 1)) (d : Dir) :
    (textMapIter (mapCall c J S maps U) x readPair 0).step [totalIntoVal x s] d =
      (fun r => (r.1, [totalIntoVal x r.2])) <$> (TotalIter.it c (J 0)).step s d := by
  have hq (u : Val P) : put [totalIntoVal x s] 0 [] u = [u] := put_var (by simp)
  cases d with
  | front =>
    have := total_next (c := c) (J := J) (S := S) (U := U) (h := [totalIntoVal x s]) (a := 0) (ps := []) 6 hx
      (place_var (by simp [totalIntoVal]) : Place _ _ _ (wrapVal x (enumVal (encEnum (.usr 1) s))))
    simp only [hq, nextItem_enc] at this
    refine textNext_of (e := pairOwn) (g := fun s : TotalIter (P 1) => [totalIntoVal x s]) (m := TotalIter.next c (J 0) s) (this.trans ?_) fun _ _ => rfl
    simp only [TotalIter.next]
    cases Enumerate.nextItem c (J 0) (listIter (P 1)) s with
    | error f => rfl
    | ok r => obtain ⟨o, r⟩ := r; cases o <;> rfl
  | back =>
    have := total_nextBack (c := c) (J := J) (S := S) (U := U) (h := [totalIntoVal x s]) (a := 0) (ps := []) 6 hy
      (place_var (by simp [totalIntoVal]) : Place _ _ _ (wrapVal x (enumVal (encEnum (.usr 1) s))))
    simp only [hq, nextBackItem_enc] at this
    refine textNext_of (e := pairOwn) (g := fun s : TotalIter (P 1) => [totalIntoVal x s]) (m := TotalIter.nextBack c (J 0) s) (this.trans ?_) fun _ _ => rfl
    simp only [TotalIter.nextBack]
    cases Enumerate.nextBackItem c (J 0) (listIter (P 1)) s with
    | error f => rfl
    | ok r => obtain ⟨o, r⟩ := r; cases o <;> rfl

theorem textValuesM_step (s : OrdinalValues) (d : Dir) :
    (textMapIter (mapCall c J S maps U) "OrdinalValues" readKey 0).step [valuesVal s] d =
      (fun r => (r.1, [valuesVal r.2])) <$> (OrdinalValues.iter (J 0)).step s d := by
  have hq (u : Val P) : put [valuesVal s] 0 [] u = [u] := put_var (by simp)
  have ho (o : Option (P 0)) : optVal o = .opt (o.map (.usr 0)) := by cases o <;> rfl
  cases d with
  | front =>
    have := valuesM_next (c := c) (J := J) (S := S) (U := U) (h := [valuesVal s]) (a := 0) (ps := []) (s := s) 7 (place_var (by simp))
    simp only [hq, ho] at this
    exact textNext_of (e := (.usr 0 ·)) (g := fun s : OrdinalValues => [valuesVal s]) this fun _ _ => rfl
  | back =>
    have := valuesM_nextBack (c := c) (J := J) (S := S) (U := U) (h := [valuesVal s]) (a := 0) (ps := []) (s := s) 7 (place_var (by simp))
    simp only [hq, ho] at this
    exact textNext_of (e := (.usr 0 ·)) (g := fun s : OrdinalValues => [valuesVal s]) this fun _ _ => rfl

theorem stdIter_step (s : List (P 1)) (d : Dir) :
    (stdIter (readRef (P := P) [])).step ((ofV s).map .ref) d = (fun r => (r.1, (ofV r.2).map .ref)) <$> (listIter (P 1)).it.step s d := by
  cases d with
  | front => cases s <;> rfl
  | back =>
    simp only [DEIter.step, stdIter, StdIter.it, listIter, ofV, List.map_map, List.getLast?_map]
    cases hl : s.getLast? with
    | none => simp [stdIter.item]; 
    | some v => simp [stdIter.item, readRef, deref, asValue]

end OrdinalMap.Text
