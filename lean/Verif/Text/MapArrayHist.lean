import Verif.Text.MapArray
import Verif.Text.MapObs
/-!
# From the model to the text: histories of `OrdinalArrayMap`
-/

namespace OrdinalMap.Text

variable {P : Nat → Type} {c : Cfg} {J : (p : Nat) → OrdinalImpl (P p)} {S : Nat} {h : Heap P} {U : UserFns P}

/-! ## `new`, `default` and `from_iter` -/

/-- `|_| None` -/
theorem noneFn_calls (n : Nat) (h : Heap P) : CallsFn (outM c J S U (n + 1))
    (.clo (("Self", .con "OrdinalArrayMap") :: mapTys S) [] (.cons .wild .nil) (.path [⟨"None", .nil⟩])) (fun _ : Unit => h) (fun _ () => .ok ((none : Option (P 1)), ())) slotVal where
  len _ _ := rfl
  apply k r xs := by
    rw [outside_clo]
    runs [slotVal]

theorem arrMap_new (n : Nat) (hS : S < c.M) : (outM c J S U (n + 6)).call (.con "OrdinalArrayMap") "new" [] h =
    (fun s => (arrMapVal s, h)) <$> OrdinalArrayMap.new (P 1) (J 0) S := by
  refine (outside_call (d := mapArrayMapFn1_0) (n + 5) _ _ rfl rfl).trans ?_
  have h1 := totalArr_new n (noneFn_calls (c := c) (J := J) (S := S) (U := U) (n + 1) h) hS ()
  cases hm : OrdinalTotalArrayMap.new (J 0) S (fun _ () => .ok ((none : Option (P 1)), ())) () with
  | error f => rw [hm] at h1; runs [mapArrayMapFn1_0, OrdinalArrayMap.new, hm, h1]
  | ok p =>
    rw [hm] at h1
    simp only [totalArrVal, phantom] at h1
    runs [mapArrayMapFn1_0, OrdinalArrayMap.new, hm, h1, arrMapVal, totalArrVal]

theorem arrMap_default (n : Nat) (hS : S < c.M) : (outM c J S U (n + 7)).call (.con "OrdinalArrayMap") "default" [] h =
    (fun s => (arrMapVal s, h)) <$> OrdinalArrayMap.new (P 1) (J 0) S := by
  refine (outside_call (d := mapArrayMapFn2_0) (n + 6) _ _ rfl rfl).trans ?_
  have h1 := arrMap_new (c := c) (J := J) (S := S) (U := U) (h := h) n hS
  cases hm : OrdinalArrayMap.new (P 1) (J 0) S <;> rw [hm] at h1 <;> runs [mapArrayMapFn2_0, h1]

/-- The loop in `from_iter`. -/
theorem arrMap_extend {te : TyEnv} {h : Heap P} (n : Nat) (ht : te = ("Self", .con "OrdinalArrayMap") :: mapTys S) (u : Val P)
    (xs : List (P 0 × P 1)) : ∀ s : List (Option (P 1)), forLoop (forBody c te (outM c J S U (n + 3)) .run [("map", h.length + 1), ("iter", h.length)]
      (.tuple (.cons (.path ["key"]) (.cons (.path ["value"]) .nil)))
      (.semi (.method (.path [⟨"map", .nil⟩]) "insert" .nil (.cons (.path [⟨"key", .nil⟩]) (.cons (.path [⟨"value", .nil⟩]) .nil))) .nil))
      (xs.map pairOwn) (h ++ [u, arrMapVal s]) =
      lift (OrdinalArrayMap.extendLoop (J 0) s xs) fun s => Res.val .unit (h ++ [u, arrMapVal s]) := by
  subst ht
  induction xs with
  | nil => intro s; rfl
  | cons x xs ih =>
    intro s
    obtain ⟨k, v⟩ := x
    have hp : Place (h ++ [u, arrMapVal s, .usr 0 k, .usr 1 v]) (h.length + 1) [] (arrMapVal s) := place_var (by simp)
    have h1 := arrMap_insert (c := c) (J := J) (S := S) (U := U) n k v hp
    have hq (w : Val P) : put (h ++ [u, arrMapVal s, .usr 0 k, .usr 1 v]) (h.length + 1) [] w = h ++ [u, w, .usr 0 k, .usr 1 v] := by
      rw [put_var (by simp), set_fresh rfl]
      rfl
    simp only [hq] at h1
    simp only [arrMapVal, totalArrVal, phantom] at h1
    rw [List.map_cons, forLoop]
    cases hi : OrdinalArrayMap.insert (J 0) s k v with
    | error f =>
      rw [show OrdinalArrayMap.extendLoop (J 0) s ((k, v) :: xs) = .error f by simp [OrdinalArrayMap.extendLoop, hi]]
      runs [forBody, arrMapVal, totalArrVal, pairOwn, pairVal, h1, hi]
    | ok r =>
      obtain ⟨b, s'⟩ := r
      rw [show OrdinalArrayMap.extendLoop (J 0) s ((k, v) :: xs) = OrdinalArrayMap.extendLoop (J 0) s' xs by
        simp [OrdinalArrayMap.extendLoop, hi], ← ih s']
      have : forBody c (("Self", .con "OrdinalArrayMap") :: mapTys S) (outM c J S U (n + 3)) .run [("map", h.length + 1), ("iter", h.length)]
        (.tuple (.cons (.path ["key"]) (.cons (.path ["value"]) .nil)))
        (.semi (.method (.path [⟨"map", .nil⟩]) "insert" .nil (.cons (.path [⟨"key", .nil⟩]) (.cons (.path [⟨"value", .nil⟩]) .nil))) .nil)
        (pairOwn (k, v)) (h ++ [u, arrMapVal s]) = Res.val .unit (h ++ [u, arrMapVal s']) := by
        cases b <;> runs [forBody, arrMapVal, totalArrVal, pairOwn, pairVal, slotVal, h1, hi]
      rw [this]
      rfl

theorem arrMap_fromIter {h : Heap P} (n : Nat) (hS : S < c.M) (xs : List (P 0 × P 1)) :
    (outM c J S U (n + 7)).call (.con "OrdinalArrayMap") "from_iter" [.arr (xs.map pairOwn)] h =
      (fun s => (arrMapVal s, h)) <$> OrdinalArrayMap.fromIter (J 0) S xs := by
  refine (outside_call (d := mapArrayMapFn3_0) (n + 6) _ _ rfl rfl).trans ?_
  have h2 := arrMap_new (c := c) (J := J) (S := S) (U := U) (h := h ++ [.arr (xs.map pairOwn)]) n hS
  cases hm : OrdinalArrayMap.new (P 1) (J 0) S with
  | error f => rw [hm] at h2; runs [mapArrayMapFn3_0, OrdinalArrayMap.fromIter, hm, h2]
  | ok s =>
    rw [hm] at h2
    have h1 := arrMap_extend (c := c) (J := J) (S := S) (U := U) (h := h) (n + 3) rfl (.arr (xs.map pairOwn)) xs s
    simp only [arrMapVal, totalArrVal, phantom] at h1 h2
    cases he : OrdinalArrayMap.extendLoop (J 0) s xs <;>
    runs [mapArrayMapFn3_0, OrdinalArrayMap.fromIter, hm, arrMapVal, totalArrVal, iterate, h1, h2, he]

/-! ## Histories -/

theorem arrMap_text : MapText c J (mapCall c J S maps U) (.con "OrdinalArrayMap") arrMapVal [.field "map", .field "map"]
    (OrdinalArrayMap.fns c (J 0)) where
  place s h := (place_var (v := arrMapVal s) (by simp)).arrMap
  put s s' h := by
    rw [show [Proj.field "map", Proj.field "map"] = [] ++ [Proj.field "map"] ++ [Proj.field "map"] from rfl,
      (place_var (v := arrMapVal s) (by simp)).put_arrMap, put_var (by simp)]
    rfl
  get s k := arrMap_get 6 s k
  getMut s k := (arrMap_getMut 6 k (place_only (arrMapVal s))).trans rfl
  getMut_some s k i h := by
    simp only [OrdinalArrayMap.fns, OrdinalArrayMap.getMut] at h
    cases hk : OrdinalTotalArrayMap.getMut (J 0) s k with
    | error f => simp [hk] at h
    | ok j =>
      cases hj : s[j]? with
      | none => simp [hk, hj, readSlot] at h
      | some o => cases o with
        | none => simp [hk, hj, readSlot] at h
        | some v => simp [hk, hj, readSlot] at h; subst h; exact ⟨v, hj⟩
  insert s k v := by
    have := arrMap_insert (c := c) (J := J) (S := S) (U := U) 6 k v (place_only (arrMapVal s))
    simp only [put_only] at this
    exact this
  insert_len s k v r h hs := by
    simp only [OrdinalArrayMap.fns, OrdinalArrayMap.insert] at h
    cases hk : OrdinalTotalArrayMap.getMut (J 0) s k with
    | error f => simp [hk] at h
    | ok j =>
      cases hr : readSlot s j with
      | error f => simp [hk, hr] at h
      | ok o =>
        cases hw : writeSlot s j (some v) with
        | error f => simp [hk, hr, hw] at h
        | ok s' => simp [hk, hr, hw] at h; subst h; rw [writeSlot_len hw]; exact hs
  remove s k := by
    have := arrMap_remove (c := c) (J := J) (S := S) (U := U) 6 k (place_only (arrMapVal s))
    simp only [put_only] at this
    exact this
  remove_len s k r h := by
    simp only [OrdinalArrayMap.fns, OrdinalArrayMap.remove] at h
    cases hk : OrdinalTotalArrayMap.getMut (J 0) s k with
    | error f => simp [hk] at h
    | ok j =>
      cases hr : readSlot s j with
      | error f => simp [hk, hr] at h
      | ok o =>
        cases hw : writeSlot s j none with
        | error f => simp [hk, hr, hw] at h
        | ok s' => simp [hk, hr, hw] at h; subst h; exact writeSlot_len hw
  entry s k := by
    have := arrMap_entry (c := c) (J := J) (S := S) (U := U) 6 k (place_only (arrMapVal s))
    simp only [put_only] at this
    exact this
  entry_len s k r h hs := by
    simp only [OrdinalArrayMap.fns, OrdinalArrayMap.entry] at h
    cases hk : OrdinalTotalArrayMap.indexMut (J 0) s k with
    | error f => simp [hk] at h
    | ok j =>
      cases he : Entry.new s k j with
      | error f => simp [hk, he] at h
      | ok e => simp [hk, he] at h; subst h; exact hs
  entry_slot s k r h := by
    simp only [OrdinalArrayMap.fns, OrdinalArrayMap.entry] at h
    cases hk : OrdinalTotalArrayMap.indexMut (J 0) s k with
    | error f => simp [hk] at h
    | ok j =>
      cases he : Entry.new s k j with
      | error f => simp [hk, he] at h
      | ok e => simp [hk, he] at h; subst h; exact entry_new_slot he
  len s hs := arrMap_len 3 s hs
  isEmpty s hs := arrMap_isEmpty 3 s (Nat.le_of_lt hs)
  iter s := arrMap_iter 4 s
  keys s := arrMap_keys 3 s
  values s := arrMap_values 3 s
  iterMut s := arrMap_iterMut 4 (place_only (arrMapVal s))
  valuesMut s := arrMap_valuesMut 3 (place_only (arrMapVal s))
  drain s := arrMap_drain 4 (place_only (arrMapVal s))
  clear s hs := by
    have := arrMap_clear (c := c) (J := J) (S := S) (U := U) 3 (place_only (arrMapVal s)) (Nat.le_of_lt hs)
    simp only [put_only] at this
    exact this
  clear_len s s' hs h := dropLoop_len (J := J) (within_new hs) h

theorem arrMap_intoIterates {s : List (Option (P 1))} {ps : List (P 0 × P 1)} (hs : s.length < c.M) {obs}
    (hb : BehavesLike (MapIntoIterArray.it c (J 0)) (OrdinalArrayMap.intoIter s) ps obs) :
    Iterates (mapCall c J S maps U) (.con "OrdinalArrayMap") "into_iter" "IntoIterArray" (arrMapVal s) readPair ps fun _ _ => True :=
  iterates_of (Inv := fun s : MapIntoIterArray (P 1) => (Enumerate.iter s).length ≤ c.M) (arrMap_intoIter 4 s)
    (fun s d h => textIntoIterArray_step (S := S) (U := U) s d h)
    (fun _ _ _ h1 h2 => Nat.le_trans (intoIterArray_step_left (J := J) h2) h1) (Nat.le_of_lt hs)
    (fun _ _ _ => trivial) hb

end OrdinalMap.Text
