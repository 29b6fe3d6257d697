import Verif.Text.TotalFns
import Verif.SpecTextFns
/-!
# `OrdinalArrayMap::retain`, run from its text
-/

namespace OrdinalMap.Text

variable {P : Nat → Type} {c : Cfg} {J : (p : Nat) → OrdinalImpl (P p)} {S : Nat} {h xs : Heap P} {U : UserFns P} {V ρ : Type}

/-- What is at slot `i` after a call of the closure. -/
def keepSlot (s : List (Option V)) (i : Nat) (b : Bool) (v : V) : List (Option V) := s.set i (if b then some v else none)

/-- How the loop of `retain` ends. -/
def RetainEnds (mk : ρ → List (Option V) → Enumerate Range → Heap P) (x : Res P) : R (OrdinalArrayMap V × ρ) → Prop
  | .error f => x = .error f
  | .ok (s, r) => ∃ it, x = Res.val .unit (mk r s it)

theorem retain_loop {I : OrdinalImpl (P 0)} {next : Heap P → R (Val P × Heap P)} {body : Val P → Heap P → Res P} {qs : List Proj}
    {mk : ρ → List (Option V) → Enumerate Range → Heap P} {f : P 0 → V → ρ → R (Bool × V × ρ)}
    (hn : ∀ r s it, next (mk r s it) =
      (fun q => (.opt (q.1.map fun p => pairVal (p.1, .mref 1 (qs ++ [.idx p.2]))), mk r s q.2)) <$> it.nextItem c I slotIter)
    (hb0 : ∀ r s it k i, s[i]? = some none → body (pairVal (k, .mref 1 (qs ++ [.idx i]))) (mk r s it) = Res.val .unit (mk r s it))
    (hb1 : ∀ r s it k i v, s[i]? = some (some v) → body (pairVal (k, .mref 1 (qs ++ [.idx i]))) (mk r s it) =
      lift (f k v r) fun q => Res.val .unit (mk q.2.2 (keepSlot s i q.1 q.2.1) it)) :
    ∀ fuel m it s r, it.iter.len ≤ fuel → it.iter.len ≤ m → it.iter.stop ≤ s.length → RetainEnds mk
      (iterLoop next body (m + 1) (mk r s it)) (OrdinalArrayMap.retainLoop c I f (fuel + 1) ⟨s, it⟩ r)
  | fuel, m, it, s, r, hf, hm, hs => by
    rw [iterLoop, hn, OrdinalArrayMap.retainLoop]
    simp only [TotalIterMut.next]
    cases hi : it.nextItem c I slotIter with
    | error e => simp [RetainEnds]
    | ok q =>
      obtain ⟨h1, h2, h3⟩ := next_range hi
      obtain ⟨o, it'⟩ := q
      cases o with
      | none =>
        simp only [ok_map, ok_bind, Option.map_none, Val.opt, RetainEnds]
        exact ⟨_, rfl⟩
      | some p =>
        obtain ⟨k, i⟩ := p
        obtain ⟨h4, h5⟩ := h3 _ rfl
        simp only at h1 h2 h4 h5
        obtain ⟨m, rfl⟩ : ∃ m', m = m' + 1 := ⟨m - 1, by omega⟩
        obtain ⟨o, ho⟩ : ∃ o, s[i]? = some o := ⟨_, List.getElem?_eq_getElem (by omega)⟩
        obtain ⟨fuel, rfl⟩ : ∃ m', fuel = m' + 1 := ⟨fuel - 1, by omega⟩
        cases o with
        | none =>
          have ih := retain_loop hn hb0 hb1 fuel m it' s r (by omega) (by omega) (by omega)
          simp only [ok_map, ok_bind, Option.map_some, Val.opt, Val.some, hb0 r s it' k i ho, Res.val, readSlot, ho]
          exact ih
        | some v =>
          simp only [ok_map, ok_bind, Option.map_some, Val.opt, Val.some, hb1 r s it' k i v ho, readSlot, ho]
          cases hk : f k v r with
          | error e => simp [lift, RetainEnds]
          | ok q =>
            obtain ⟨b, v', r'⟩ := q
            have ih := retain_loop hn hb0 hb1 fuel m it' (keepSlot s i b v') r' (by omega) (by omega) (by simp [keepSlot]; omega)
            simp only [lift, Res.val, ok_bind, writeSome, ho]
            cases b with
            | true => exact ih
            | false =>
              simp only [Bool.false_eq_true, if_false, writeSlot, List.length_set, show i < s.length by omega, if_true, ok_bind, List.set_set]
              exact ih

/-- The variables of `retain`. -/
def retainHeap (g : Val P) (r : P 2) (s : List (Option (P 1))) (it : Enumerate Range) : Heap P :=
  [.usr 2 r, arrMapVal s, .mref 1 [], g, wrapVal "total::IterMut" (enumVal (mutEnum 1 [.field "map", .field "map"] it))]

theorem retainHeap_next (n : Nat) (g : Val P) (r : P 2) (s : List (Option (P 1))) (it : Enumerate Range) :
    (outM c J S U (n + 3)).call (.con "total::IterMut") "next" [.mref 4 []] (retainHeap g r s it) =
      (fun q => (.opt (q.1.map fun p => pairVal (p.1, .mref 1 ([.field "map", .field "map"] ++ [.idx p.2]))), retainHeap g r s q.2)) <$>
        it.nextItem c (J 0) slotIter := by
  have hp : Place (retainHeap g r s it) 4 [] (wrapVal "total::IterMut" (enumVal (mutEnum 1 [.field "map", .field "map"] it))) := place_var rfl
  rw [total_next n rfl hp, mutEnum_next]
  cases it.nextItem c (J 0) slotIter with
  | error e => rfl
  | ok q =>
    obtain ⟨o, it'⟩ := q
    simp only [ok_map, put_var hp.lt]
    cases o <;> rfl

/-! ## Closures of the client -/

theorem mapFn_calls (f : P 0 → P 1 → P 2 → R (P 4 × P 2)) (n : Nat) : CallsOn (outM c J S (mapFn f) (n + 1)) (.ufn 0)
    (pairArgs (.usr 1)) (fun r => [.usr 2 r]) (fun p => f p.1 p.2) (.usr 4) where
  len _ _ := rfl
  apply p r xs := by
    rw [outside_ufn]
    simp only [mapFn, pairArgs, List.cons_append, List.nil_append]
    cases f p.1 p.2 r <;> rfl

theorem mapValuesFn_calls (f : P 1 → P 2 → R (P 4 × P 2)) (n : Nat) : CallsOn (outM c J S (mapValuesFn f) (n + 1)) (.ufn 0)
    (fun v => [.usr 1 v]) (fun r => [.usr 2 r]) f (.usr 4) where
  len _ _ := rfl
  apply v r xs := by
    rw [outside_ufn]
    simp only [mapValuesFn, List.cons_append, List.nil_append]
    cases f v r <;> rfl

theorem retainFn_apply (f : P 0 → P 1 → P 2 → R (Bool × P 1 × P 2)) (n i : Nat) (k : P 0) (v : P 1) (r : P 2) {s : List (Option (P 1))}
    (hi : s[i]? = some (some v)) (xs : Heap P) : (outM c J S (retainFn f) (n + 1)).apply (.ufn 0)
      [.usr 0 k, .mref 1 [.field "map", .field "map", .idx i, .idx 0]] (.usr 2 r :: arrMapVal s :: xs) =
      (fun q => (.bool q.1, .usr 2 q.2.2 :: arrMapVal (s.set i (some q.2.1)) :: xs)) <$> f k v r := by
  rw [outside_ufn]
  have hlt : i < s.length := by
    rw [List.getElem?_eq_some_iff] at hi; exact hi.1
  have hp (r : P 2) : Place (.usr 2 r :: arrMapVal s :: xs) 1 [.field "map", .field "map", .idx i, .idx 0] (.usr 1 v) :=
    ((place_var (v := arrMapVal s) rfl).arrMap.slot hi).sub (qs := [.idx 0]) rfl (by simp)
  have hq (r : P 2) (v' : P 1) : Loc.set .run (.usr 2 r :: arrMapVal s :: xs) (.usr 1 v') (.heap 1 [.field "map", .field "map", .idx i, .idx 0]) =
      .ok (.usr 2 r :: arrMapVal (s.set i (some v')) :: xs) := by
    have he : s[i] = some v := by rw [List.getElem?_eq_some_iff] at hi; exact hi.2
    simp [Loc.set, setPath, part, setPart, arrMapVal, totalArrVal, phantom, findField, setField, hlt, he, slotVal, List.map_set, Val.opt, Val.some]
  simp only [retainFn, deref, (hp r).get, ok_bind, asValue, assign]
  cases f k v r with
  | error e => rfl
  | ok q =>
    obtain ⟨b, v', r'⟩ := q
    simp only [ok_bind, hq, ok_map]


theorem retain_get (r : P 2) {s : List (Option (P 1))} {i : Nat} {o : Option (P 1)} (hi : s[i]? = some o) (xs : Heap P) :
    Loc.get .run (.usr 2 r :: arrMapVal s :: xs) (.heap 1 [.field "map", .field "map", .idx i]) = .ok (slotVal o) :=
  ((place_var (v := arrMapVal s) rfl).arrMap.slot hi).get

theorem retain_get0 (r : P 2) {s : List (Option (P 1))} {i : Nat} {v : P 1} (hi : s[i]? = some (some v)) (xs : Heap P) :
    Loc.get .run (.usr 2 r :: arrMapVal s :: xs) (.heap 1 [.field "map", .field "map", .idx i, .idx 0]) = .ok (.usr 1 v) :=
  (((place_var (v := arrMapVal s) rfl).arrMap.slot hi).sub (qs := [.idx 0]) rfl (by simp)).get

theorem retain_set (r : P 2) {s : List (Option (P 1))} {i : Nat} (hi : i < s.length) (o : Option (P 1)) (xs : Heap P) :
    Loc.set .run (.usr 2 r :: arrMapVal s :: xs) (slotVal o) (.heap 1 [.field "map", .field "map", .idx i]) =
      .ok (.usr 2 r :: arrMapVal (s.set i o) :: xs) := by
  simp [Loc.set, setPath, part, setPart, arrMapVal, totalArrVal, phantom, findField, setField, hi, List.map_set]

theorem arrMap_retain (f : P 0 → P 1 → P 2 → R (Bool × P 1 × P 2)) (n : Nat) (s : List (Option (P 1))) (hs : s.length < c.M) (r : P 2) :
    (outM c J S (retainFn f) (n + 5)).call (.con "OrdinalArrayMap") "retain" [.mref 1 [], .ufn 0] [.usr 2 r, arrMapVal s] =
      (fun q => (.unit, [.usr 2 q.2, arrMapVal q.1])) <$> OrdinalArrayMap.retain c (J 0) s f r := by
  refine (outside_call (d := mapArrayMapFn1_16) (n + 4) _ _ rfl rfl).trans ?_
  have hp : Place [.usr 2 r, arrMapVal s, .mref 1 [], .ufn 0] 1 [] (arrMapVal s) := place_var rfl
  have h1 := totalArr_iterMut (c := c) (J := J) (S := S) (U := retainFn f) n hp.arrTotal
  have hl := retain_loop (c := c) (I := J 0) (f := f) (mk := retainHeap (P := P) (.ufn 0)) (qs := [.field "map", .field "map"])
    (body := forBody c (("Self", .con "OrdinalArrayMap") :: mapTys S) (outM c J S (retainFn f) (n + 4)) .run [("f", 3), ("self", 2)]
      (.tuple (.cons (.path ["key"]) (.cons (.path ["value_opt"]) .nil)))
      (.tail (.ifLet (.ctor ["Some"] (.cons (.path ["value"]) .nil)) (.path [⟨"value_opt", .nil⟩])
        (.tail (.ifE (.un .not (.call (.path [⟨"f", .nil⟩]) (.cons (.path [⟨"key", .nil⟩]) (.cons (.path [⟨"value", .nil⟩]) .nil))))
          (.semi (.assign (.un .deref (.path [⟨"value_opt", .nil⟩])) (.path [⟨"None", .nil⟩])) .nil) (.tuple .nil))) (.tuple .nil))))
    (retainHeap_next (S := S) (U := retainFn f) (n + 1) (.ufn 0))
    (fun r s it k i hi => by
      have h1 := retain_get r hi
      simp only [arrMapVal, totalArrVal, phantom] at h1
      runs [forBody, retainHeap, pairVal, arrMapVal, totalArrVal, h1, slotVal, wrapVal, enumVal])
    (fun r s it k i v hi => by
      have ha := retainFn_apply (c := c) (J := J) (S := S) f (n + 3) i k v r hi [.mref 1 [], .ufn 0, wrapVal "total::IterMut" (enumVal (mutEnum 1 [.field "map", .field "map"] it)),
        .usr 0 k, .mref 1 [.field "map", .field "map", .idx i], .mref 1 [.field "map", .field "map", .idx i, .idx 0]]
      have hlt : i < s.length := by
        rw [List.getElem?_eq_some_iff] at hi; exact hi.1
      have h1 := retain_get r hi
      have h2 := retain_get0 r hi
      have h3 (r : P 2) (v : P 1) := retain_set r (s := s.set i (some v)) (i := i) (by simp; exact hlt) none
      simp only [arrMapVal, totalArrVal, phantom, wrapVal, enumVal, slotVal, Val.opt, Val.none, Option.map_none] at ha h1 h2 h3
      cases hk : f k v r with
      | error e => runs [forBody, retainHeap, pairVal, arrMapVal, totalArrVal, h1, h2, h3, slotVal, wrapVal, enumVal, ha, hk]
      | ok q =>
        obtain ⟨b, v', r'⟩ := q
        have h3 := h3 r' v'
        rw [hk] at ha
        simp only [ok_map] at ha
        have e : keepSlot s i b v' = if b then s.set i (some v') else (s.set i (some v')).set i none := by
          cases b <;> simp [keepSlot]
        simp only [lift]
        rw [e]
        generalize s.set i (some v') = s' at *
        cases b <;> runs [forBody, retainHeap, pairVal, arrMapVal, totalArrVal, h1, h2, h3, slotVal, wrapVal, enumVal, ha])
    s.length c.M ⟨0, ⟨0, s.length⟩⟩ s r (by simp [range_len]) (by simp [range_len]; omega) (Nat.le_refl _)
  have e : OrdinalArrayMap.retain c (J 0) s f r = OrdinalArrayMap.retainLoop c (J 0) f (s.length + 1) ⟨s, ⟨0, ⟨0, s.length⟩⟩⟩ r := by
    simp [OrdinalArrayMap.retain, OrdinalArrayMap.iterMut, OrdinalTotalArrayMap.iterMut, TotalIterMut.new, TotalIterMut.len, Enumerate.len,
      Enumerate.new, slotIter, range_len]
  rw [e]
  have e' : (List.range s.length).map (fun i => Val.mref (P := P) 1 [.field "map", .field "map", .idx i]) =
      (mutEnum 1 [.field "map", .field "map"] ⟨0, ⟨0, s.length⟩⟩).iter := by
    simp [mutEnum, encEnum, rangeEnum, List.range_eq_range']
  simp only [List.nil_append, List.cons_append, List.length_map, e'] at h1
  simp only [arrMapVal, totalArrVal, phantom, wrapVal, enumVal, retainHeap, Cfg.M] at h1 hl
  have e'' : (mutEnum (P := P) 1 [.field "map", .field "map"] ⟨0, ⟨0, s.length⟩⟩).next = 0 := rfl
  rw [e''] at hl
  cases hm : OrdinalArrayMap.retainLoop c (J 0) f (s.length + 1) ⟨s, ⟨0, ⟨0, s.length⟩⟩⟩ r with
  | error e =>
    rw [hm] at hl
    simp only [RetainEnds] at hl
    runs [mapArrayMapFn1_16, arrMapVal, totalArrVal, h1, hl, get_cons]
  | ok q =>
    obtain ⟨s', r'⟩ := q
    rw [hm] at hl
    obtain ⟨it, hl⟩ := hl
    runs [mapArrayMapFn1_16, arrMapVal, totalArrVal, h1, hl, get_cons]
    rfl

end OrdinalMap.Text
