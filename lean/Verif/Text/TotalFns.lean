import Verif.Text.MapArrayHist
/-!
# `zip`, `as_ref`, `map` and `map_values` of `OrdinalTotalArrayMap`, and `array_from_iter`, run from their texts
-/

namespace OrdinalMap.Text

variable {P : Nat → Type} {c : Cfg} {J : (p : Nat) → OrdinalImpl (P p)} {S : Nat} {h xs : Heap P} {U : UserFns P}
  {ρ V W A : Type}

/-! ## `array_from_iter` and `zip` -/

/-- The loop of `array_from_iter` over the items `us`. -/
theorem fromIter_loop {te : TyEnv} (n : Nat) (u : Val P) (us : List (Val P)) : ∀ ws : List (Val P), ws.length + us.length ≤ S →
    forLoop (forBody c te (outM c J S U (n + 1)) .run [("builder", h.length + 1), ("iter", h.length)] (.path ["item"])
      (.semi (.method (.path [⟨"builder", .nil⟩]) "push" .nil (.cons (.path [⟨"item", .nil⟩]) .nil)) .nil))
      us (h ++ [u, .bld S ws]) = Res.val .unit (h ++ [u, .bld S (ws ++ us)]) := by
  induction us with
  | nil => intro ws _; simp [forLoop]
  | cons x us ih =>
    intro ws hw
    simp only [List.length_cons] at hw
    have hlt : ws.length < S := by omega
    rw [forLoop]
    have : forBody c te (outM c J S U (n + 1)) .run [("builder", h.length + 1), ("iter", h.length)] (.path ["item"])
      (.semi (.method (.path [⟨"builder", .nil⟩]) "push" .nil (.cons (.path [⟨"item", .nil⟩]) .nil)) .nil)
      x (h ++ [u, .bld S ws]) = Res.val .unit (h ++ [u, .bld S (ws ++ [x])]) := by
      runs [forBody, hlt]
    rw [this]
    have := ih (ws ++ [x]) (by simp; omega)
    simp only [List.append_assoc, List.cons_append, List.nil_append] at this
    exact this

theorem fromIter_list (n : Nat) (us : List (Val P)) (hu : us.length = S) :
    (outM c J S U (n + 2)).free "array_from_iter" [.it us] h = .ok (.arr us, h) := by
  refine (outside_free (d := arrayFromIterFn0_0) (n + 1) _ _ rfl).trans ?_
  have h1 := fromIter_loop (c := c) (J := J) (S := S) (U := U) (h := h) (te := mapTys S) n (.it us) us [] (by simp [hu])
  simp only [List.nil_append] at h1
  runs [arrayFromIterFn0_0, iterate, h1, hu]

/-- `(V, W)` -/
def zipVals (vs ws : List (Val P)) : List (Val P) := List.zipWith (fun v w => .con "()" [v, w]) vs ws

theorem totalArr_zip (n : Nat) (vs ws : List (Val P)) (hv : vs.length = S) (hw : ws.length = S) :
    (outM c J S U (n + 3)).call (.con "OrdinalTotalArrayMap") "zip" [totalArrVal vs, totalArrVal ws] h =
      .ok (totalArrVal (zipVals vs ws), h) := by
  refine (outside_call (d := totalArrayMapFn1_9) (n + 2) _ _ rfl rfl).trans ?_
  have h1 (h : Heap P) := fromIter_list (c := c) (J := J) (S := S) (U := U) (h := h) n (zipVals vs ws) (by simp [zipVals, hv, hw])
  simp only [zipVals] at h1
  runs [totalArrayMapFn1_9, totalArrVal, get_cons, h1, zipVals]

/-! ## `as_ref` -/

/-- `|k| self.get(&k)` -/
theorem asRef_calls (n : Nat) (te : TyEnv) (vs : List (Val P)) : CallsFn (outM c J S U (n + 3))
    (.clo te [("self", h.length)] (.cons (.path ["k"]) .nil) (.method (.path [⟨"self", .nil⟩]) "get" .nil
      (.cons (.ref false (.path [⟨"k", .nil⟩])) .nil))) (fun _ : Unit => h ++ [.ref (totalArrVal vs)])
    (fun k () => do .ok (← OrdinalTotalArrayMap.get (J 0) vs k, ())) Val.ref where
  len _ _ := rfl
  apply k r xs := by
    rw [outside_clo]
    have h1 (h : Heap P) := totalArr_get (c := c) (J := J) (S := S) (U := U) (h := h) n vs k
    simp only [totalArrVal, phantom] at h1
    cases hg : OrdinalTotalArrayMap.get (J 0) vs k <;> runs [totalArrVal, h1, hg]

theorem totalArr_asRef (n : Nat) (vs : List (Val P)) (hS : S < c.M) :
    (outM c J S U (n + 7)).call (.con "OrdinalTotalArrayMap") "as_ref" [.ref (totalArrVal vs)] h =
      (fun s => (totalArrVal (List.map Val.ref s), h)) <$> OrdinalTotalArrayMap.asRef (J 0) S vs := by
  refine (outside_call (d := totalArrayMapFn1_7) (n + 6) _ _ rfl rfl).trans ?_
  have h1 := totalArr_new (n + 1) (asRef_calls (c := c) (J := J) (S := S) (U := U) (h := h) n (("Self", .con "OrdinalTotalArrayMap") :: mapTys S) vs) hS ()
  cases hm : OrdinalTotalArrayMap.new (J 0) S (fun k () => do .ok (← OrdinalTotalArrayMap.get (J 0) vs k, ())) () with
  | error f =>
    rw [hm] at h1
    simp only [totalArrVal, phantom] at h1
    runs [totalArrayMapFn1_7, OrdinalTotalArrayMap.asRef, hm, h1, totalArrVal]
  | ok p =>
    rw [hm] at h1
    simp only [totalArrVal, phantom] at h1
    runs [totalArrayMapFn1_7, OrdinalTotalArrayMap.asRef, hm, h1, totalArrVal]

/-! ## `map` -/

/-- The function `g` computes `f` with its state in the memory `st r`; `args a` are the arguments. -/
structure CallsOn (o : Outside P) (g : Val P) (args : A → List (Val P)) (st : ρ → Heap P) (f : A → ρ → R (W × ρ)) (enc : W → Val P) :
    Prop where
  len : ∀ r r', (st r).length = (st r').length
  apply : ∀ a r xs, o.apply g (args a) (st r ++ xs) = (fun p => (enc p.1, st p.2 ++ xs)) <$> f a r

/-- `K, V` -/
def pairArgs (enc : V → Val P) (p : P 0 × V) : List (Val P) := [.usr 0 p.1, enc p.2]

/-- `(K, V)` -/
def tupleArg (enc : V → Val P) (p : P 0 × V) : List (Val P) := [.con "()" [.usr 0 p.1, enc p.2]]

/-- `|(k, v)| f(k, v)` -/
theorem tuple_calls (n : Nat) {g u : Val P} {st : ρ → Heap P} {f : P 0 × V → ρ → R (W × ρ)} {encV : V → Val P} {enc : W → Val P}
    (hc : CallsOn (outM c J S U (n + 1)) g (pairArgs encV) st f enc) (te : TyEnv) (r₀ : ρ) :
    CallsOn (outM c J S U (n + 2)) (.clo te [("f", (st r₀).length + 1), ("self", (st r₀).length)]
      (.cons (.tuple (.cons (.path ["k"]) (.cons (.path ["v"]) .nil))) .nil)
      (.call (.path [⟨"f", .nil⟩]) (.cons (.path [⟨"k", .nil⟩]) (.cons (.path [⟨"v", .nil⟩]) .nil))))
      (tupleArg encV) (fun r => st r ++ [u, g]) f enc where
  len r r' := by simp [hc.len r r']
  apply p r xs := by
    rw [outside_clo]
    obtain ⟨k, v⟩ := p
    have ha := hc.apply (k, v) r (u :: g :: (xs ++ [.usr 0 k, encV v]))
    have hl := hc.len r r₀
    simp only [pairArgs] at ha
    cases hk : f (k, v) r with
    | error f => runs [tupleArg, ha, hk, hl]
    | ok p =>
      obtain ⟨w, r'⟩ := p
      have hl' := hc.len r' r₀
      runs [tupleArg, ha, hk, hl, hl']

/-- `|_k, v| f(v)` -/
theorem value_calls (n : Nat) {g u : Val P} {st : ρ → Heap P} {f : V → ρ → R (W × ρ)} {encV : V → Val P} {enc : W → Val P}
    (hc : CallsOn (outM c J S U (n + 1)) g (fun v => [encV v]) st f enc) (te : TyEnv) (r₀ : ρ) :
    CallsOn (outM c J S U (n + 2)) (.clo te [("f", (st r₀).length + 1), ("self", (st r₀).length)]
      (.cons (.path ["_k"]) (.cons (.path ["v"]) .nil))
      (.call (.path [⟨"f", .nil⟩]) (.cons (.path [⟨"v", .nil⟩]) .nil)))
      (pairArgs encV) (fun r => st r ++ [u, g]) (fun p => f p.2) enc where
  len r r' := by simp [hc.len r r']
  apply p r xs := by
    rw [outside_clo]
    obtain ⟨k, v⟩ := p
    have ha := hc.apply v r (u :: g :: (xs ++ [.usr 0 k, encV v]))
    have hl := hc.len r r₀
    cases hk : f v r with
    | error f => runs [pairArgs, ha, hk, hl]
    | ok p =>
      obtain ⟨w, r'⟩ := p
      have hl' := hc.len r' r₀
      runs [pairArgs, ha, hk, hl, hl']

/-- How the loop of `map` ends. -/
def MapEnds (S : Nat) (mk : ρ → List W → TotalIntoIterArray V → Heap P) (x : Res P) : R (List W × ρ) → Prop
  | .error f => x = .error f
  | .ok (ws, r) => ws.length = S ∧ ∃ it, x = Res.val .unit (mk r ws it)

/-- One step of the iterator with `map`. -/
def mapNext (enc : W → Val P) (mk : ρ → TotalIntoIterArray V → Heap P) (f : P 0 × V → ρ → R (W × ρ)) (r : ρ) :
    R (Option (P 0 × V) × TotalIntoIterArray V) → R (Val P × Heap P)
  | .error e => .error e
  | .ok (none, it) => .ok (.none, mk r it)
  | .ok (some p, it) => (fun q => (.some (enc q.1), mk q.2 it)) <$> f p r

theorem map_loop {I : OrdinalImpl (P 0)} {next : Heap P → R (Val P × Heap P)} {body : Val P → Heap P → Res P} {enc : W → Val P}
    {mk : ρ → List W → TotalIntoIterArray V → Heap P} {f : P 0 × V → ρ → R (W × ρ)}
    (hn : ∀ r ws it, next (mk r ws it) = mapNext enc (fun r it => mk r ws it) f r (TotalIntoIterArray.next c I it))
    (hb : ∀ r ws it w, ws.length < S → body (enc w) (mk r ws it) = Res.val .unit (mk r (ws ++ [w]) it)) :
    ∀ m k vs ws r, vs.length ≤ m → ws.length + vs.length = S → MapEnds S mk
      (iterLoop next body (m + 1) (mk r ws ⟨k, vs⟩)) (OrdinalTotalArrayMap.mapLoop c I (fun k v => f (k, v)) (vs.length + 1) ⟨k, vs⟩ (ArrayBuilder.holding S ws) r)
  | m, k, [], ws, r, _, hS => by
    rw [iterLoop, hn, OrdinalTotalArrayMap.mapLoop]
    simp only [List.length_nil, Nat.add_zero] at hS
    simp only [TotalIntoIterArray.next, Enumerate.nextItem, listIter, List.head?_nil, List.tail_nil, mapNext, ok_bind,
      ArrayBuilder.finish_full hS, MapEnds]
    exact ⟨hS, _, rfl⟩
  | m, k, v :: vs, ws, r, hm, hS => by
    simp only [List.length_cons] at hm hS
    rw [iterLoop, hn, OrdinalTotalArrayMap.mapLoop]
    simp only [TotalIntoIterArray.next, Enumerate.nextItem, listIter, List.head?_cons, List.tail_cons]
    cases hf : I.fromOrdinal k with
    | error e => simp [mapNext, MapEnds]
    | ok o =>
      cases o with
      | none => simp [mapNext, MapEnds, unwrap]
      | some x =>
        simp only [ok_bind, unwrap]
        cases ha : addU c k 1 with
        | error e => simp [mapNext, MapEnds]
        | ok k' =>
          simp only [ok_bind, mapNext]
          cases hx : f (x, v) r with
          | error e => simp [MapEnds]
          | ok q =>
            obtain ⟨w, r'⟩ := q
            obtain ⟨m, rfl⟩ : ∃ m', m = m' + 1 := ⟨m - 1, by omega⟩
            have ih := map_loop hn hb m k' vs (ws ++ [w]) r' (by omega) (by simp; omega)
            have hb' := hb r' ws ⟨k', vs⟩ w (by omega)
            simp only [ok_bind, ok_map, ArrayBuilder.push_holding w (show ws.length < S by omega)]
            simp only [Val.some, hb', Res.val]
            exact ih

/-- The variables while `array_from_iter` runs. -/
def mapHeap (st : ρ → Heap P) (u : Val P) (enc : W → Val P) (encV : V → Val P) (r : ρ) (ws : List W) (it : TotalIntoIterArray V) : Heap P :=
  st r ++ [u, .bld S (ws.map enc), wrapVal "total::IntoIterArray" (enumVal (encEnum encV it))]

/-- `next` of an iterator with `map`. -/
def adaptNext (o : Outside P) (a : Nat) (x : String) (g : Val P) (h : Heap P) : R (Val P × Heap P) := do
  match ← o.call (.con x) "next" [.mref a []] h with
  | (.con "Some" [w], h) => do
    let (r, h) ← o.apply g [w] h
    .ok (.some r, h)
  | r => .ok r

@[text] theorem for_map {md : Mode} {o : Outside P} (f : Val P → Heap P → Res P) (x : String) (fs : List (String × Val P)) (g : Val P) :
    forAny c o md f (.con "Map" [.obj x fs, g]) h =
      (iterLoop (adaptNext o h.length x g) f (c.M + 1) (h ++ [.obj x fs])).scope md h.length := rfl

theorem mapHeap_next (n : Nat) {g u : Val P} {st : ρ → Heap P} {f : P 0 × V → ρ → R (W × ρ)} {encV : V → Val P} {enc : W → Val P}
    (hc : CallsOn (outM c J S U (n + 3)) g (tupleArg encV) st f enc) (r₀ r : ρ) (ws : List W) (it : TotalIntoIterArray V) :
    adaptNext (outM c J S U (n + 3)) ((st r₀).length + 1 + 1) "total::IntoIterArray" g (mapHeap (S := S) st u enc encV r ws it) =
      mapNext enc (fun r it => mapHeap (S := S) st u enc encV r ws it) f r (TotalIntoIterArray.next c (J 0) it) := by
  have hp : Place (mapHeap (S := S) st u enc encV r ws it) ((st r₀).length + 2) [] (wrapVal "total::IntoIterArray" (enumVal (encEnum encV it))) :=
    place_var (by rw [mapHeap, fresh (hc.len r r₀)]; rfl)
  have hq (w : Val P) : put (mapHeap (S := S) st u enc encV r ws it) ((st r₀).length + 2) [] w = st r ++ [u, .bld S (ws.map enc), w] := by
    rw [put_var hp.lt, mapHeap, set_fresh (hc.len r r₀)]
    rfl
  have h1 := total_next (c := c) (J := J) (S := S) (U := U) n (x := "total::IntoIterArray") rfl hp
  rw [nextItem_enc] at h1
  simp only [hq] at h1
  rw [adaptNext, show (st r₀).length + 1 + 1 = (st r₀).length + 2 from rfl, h1, TotalIntoIterArray.next]
  cases it.nextItem c (J 0) (listIter V) with
  | error e => rfl
  | ok q =>
    obtain ⟨o, it'⟩ := q
    cases o with
    | none => rfl
    | some p =>
      have ha := hc.apply p r [u, .bld S (ws.map enc), wrapVal "total::IntoIterArray" (enumVal (encEnum encV it'))]
      simp only [tupleArg] at ha
      simp only [ok_map, ok_bind, Option.map, Val.opt, Val.some, pairVal, mapNext, ha]
      cases f p r <;> rfl

theorem fromIter_map (n : Nat) {g : Val P} {st : ρ → Heap P} {f : P 0 × V → ρ → R (W × ρ)} {encV : V → Val P} {enc : W → Val P}
    (hc : CallsOn (outM c J S U (n + 3)) g (tupleArg encV) st f enc) (vs : List V) (hv : vs.length = S) (hS : S < c.M) (r : ρ) :
    (outM c J S U (n + 4)).free "array_from_iter" [.con "Map" [wrapVal "total::IntoIterArray" (enumVal ⟨0, vs.map encV⟩), g]] (st r) =
      (fun p => (.arr (List.map enc p.1), st p.2)) <$> OrdinalTotalArrayMap.map c (J 0) S vs (fun k v => f (k, v)) r := by
  refine (outside_free (d := arrayFromIterFn0_0) (n + 3) _ _ rfl).trans ?_
  have hl := map_loop (c := c) (S := S) (I := J 0) (f := f) (enc := enc)
    (mk := mapHeap (S := S) st (.con "Map" [wrapVal "total::IntoIterArray" (enumVal ⟨0, vs.map encV⟩), g]) enc encV)
    (body := forBody c (mapTys S) (outM c J S U (n + 3)) .run [("builder", (st r).length + 1), ("iter", (st r).length)] (.path ["item"])
      (.semi (.method (.path [⟨"builder", .nil⟩]) "push" .nil (.cons (.path [⟨"item", .nil⟩]) .nil)) .nil))
    (mapHeap_next n hc r) (fun r' ws it w hb => by
      have hl' := hc.len r' r
      runs [forBody, mapHeap, hl', hb, wrapVal, enumVal]) c.M 0 vs [] r (by omega) (by simp [hv])
  rw [OrdinalTotalArrayMap.map, ArrayBuilder.new_eq, show TotalIntoIterArray.len (OrdinalTotalArrayMap.intoIter vs) = vs.length from rfl,
    show OrdinalTotalArrayMap.intoIter vs = ⟨0, vs⟩ from rfl]
  simp only [mapHeap, wrapVal, enumVal, encEnum, List.map_nil, phantom, Cfg.M] at hl
  cases hm : OrdinalTotalArrayMap.mapLoop c (J 0) (fun k v => f (k, v)) (vs.length + 1) ⟨0, vs⟩ (ArrayBuilder.holding S []) r with
  | error e =>
    rw [hm] at hl
    simp only [MapEnds] at hl
    runs [arrayFromIterFn0_0, wrapVal, enumVal, hl]
  | ok p =>
    rw [hm] at hl
    obtain ⟨ws, r'⟩ := p
    obtain ⟨hw, it, hl⟩ := hl
    have hl' := hc.len r' r
    runs [arrayFromIterFn0_0, wrapVal, enumVal, hl, hl', mapHeap, hw, take_fresh2]

theorem self_intoIter_map (n : Nat) : (outM c J S U (n + 1)).self (.con "total::IntoIterArray") "map" = none := rfl
theorem self_totalArr_map (n : Nat) : (outM c J S U (n + 1)).self (.con "OrdinalTotalArrayMap") "map" = some .value := rfl

theorem totalArr_map (n : Nat) {g : Val P} {st : ρ → Heap P} {f : P 0 × V → ρ → R (W × ρ)} {encV : V → Val P} {enc : W → Val P}
    (hc : CallsOn (outM c J S U (n + 2)) g (pairArgs encV) st f enc) (vs : List V) (hv : vs.length = S) (hS : S < c.M) (r : ρ) :
    (outM c J S U (n + 5)).call (.con "OrdinalTotalArrayMap") "map" [totalArrVal (List.map encV vs), g] (st r) =
      (fun p => (totalArrVal (List.map enc p.1), st p.2)) <$> OrdinalTotalArrayMap.map c (J 0) S vs (fun k v => f (k, v)) r := by
  refine (outside_call (d := totalArrayMapFn1_10) (n + 4) _ _ rfl rfl).trans ?_
  have h1 := fromIter_map n (tuple_calls (u := totalArrVal (List.map encV vs)) (n + 1) hc
    (("Self", .con "OrdinalTotalArrayMap") :: mapTys S) r) vs hv hS r
  have h2 (h : Heap P) := totalArr_intoIter (c := c) (J := J) (S := S) (U := U) (h := h) n (List.map encV vs)
  simp only [totalArrVal, wrapVal, enumVal, phantom] at h1 h2
  cases hm : OrdinalTotalArrayMap.map c (J 0) S vs (fun k v => f (k, v)) r with
  | error e =>
    rw [hm] at h1
    runs [totalArrayMapFn1_10, totalArrVal, h1, h2, self_intoIter_map]
  | ok p =>
    obtain ⟨ws, r'⟩ := p
    rw [hm] at h1
    have hl := hc.len r' r
    runs [totalArrayMapFn1_10, totalArrVal, h1, h2, self_intoIter_map, hl]

theorem totalArr_mapValues (n : Nat) {g : Val P} {st : ρ → Heap P} {f : V → ρ → R (W × ρ)} {encV : V → Val P} {enc : W → Val P}
    (hc : CallsOn (outM c J S U (n + 1)) g (fun v => [encV v]) st f enc) (vs : List V) (hv : vs.length = S) (hS : S < c.M) (r : ρ) :
    (outM c J S U (n + 6)).call (.con "OrdinalTotalArrayMap") "map_values" [totalArrVal (List.map encV vs), g] (st r) =
      (fun p => (totalArrVal (List.map enc p.1), st p.2)) <$> OrdinalTotalArrayMap.mapValues c (J 0) S vs f r := by
  refine (outside_call (d := totalArrayMapFn1_11) (n + 5) _ _ rfl rfl).trans ?_
  have h1 := totalArr_map n (value_calls (u := totalArrVal (List.map encV vs)) n hc
    (("Self", .con "OrdinalTotalArrayMap") :: mapTys S) r) vs hv hS r
  simp only [totalArrVal, phantom] at h1
  rw [OrdinalTotalArrayMap.mapValues]
  cases hm : OrdinalTotalArrayMap.map c (J 0) S vs (fun _ v => f v) r with
  | error e =>
    rw [hm] at h1
    runs [totalArrayMapFn1_11, totalArrVal, h1, self_totalArr_map]
  | ok p =>
    obtain ⟨ws, r'⟩ := p
    rw [hm] at h1
    have hl := hc.len r' r
    runs [totalArrayMapFn1_11, totalArrVal, h1, self_totalArr_map, hl]

end OrdinalMap.Text
