import Verif.Text.Impls
import Verif.Lemmas.ArrayBuilder
/-!
# The impl of `Ordinal` for `[T; N]`, run from its text
-/

namespace OrdinalMap.Text

variable {P : Nat → Type} {c : Cfg} {J : (p : Nat) → OrdinalImpl (P p)} {N : Nat}

/-- What a program can see, from inside one function. -/
abbrev out3 (c : Cfg) (J : (p : Nat) → OrdinalImpl (P p)) (N : Nat) : Outside P := outside c J (tyParams N) impls 3

abbrev teArr (N : Nat) : TyEnv := ("Self", RT.arr) :: tyParams N

/-! ## ORDINAL_SIZE -/

/-- The condition of the loop. -/
def sizeCond : Ex := .bin .lt (.path [⟨"i", .nil⟩]) (.path [⟨"N", .nil⟩])

/-- The body of the loop. -/
def sizeBody : Blk :=
  .semi (.assign (.path [⟨"s", .nil⟩]) (.method (.method (.path [⟨"s", .nil⟩]) "checked_mul" .nil
    (.cons (.path [⟨"T", .nil⟩, ⟨"ORDINAL_SIZE", .nil⟩]) .nil)) "unwrap" .nil .nil))
  (.semi (.assignOp .add (.path [⟨"i", .nil⟩]) (.num 1 "")) .nil)

/-- The loop of `ORDINAL_SIZE`. -/
theorem size_loop : ∀ (k i s fuel : Nat), i + k = N → k < fuel →
    whileLoop (whileBody c (teArr N) (out3 c J N) .const [("i", 1), ("s", 0)] sizeCond sizeBody) fuel
      [.uint .size s, .lit i] = match arraySizeLoop c (J 0) k s with
        | .ok r => Res.val .unit [.uint .size r, .lit N]
        | .error f => .error f := by
  intro k
  induction k with
  | zero =>
    intro i s fuel hk hf
    obtain ⟨f, rfl⟩ : ∃ f, fuel = f + 1 := ⟨fuel - 1, by omega⟩
    have : i = N := by omega
    subst this
    have e : whileBody c (teArr i) (out3 c J i) .const [("i", 1), ("s", 0)] sizeCond sizeBody
        [.uint .size s, .lit i] = .ok (none, [.uint .size s, .lit i]) := by
      run [whileBody, sizeCond]
    simp only [whileLoop, e, arraySizeLoop]
  | succ k ih =>
    intro i s fuel hk hf
    obtain ⟨f, rfl⟩ : ∃ f, fuel = f + 1 := ⟨fuel - 1, by omega⟩
    have hi : i < N := by omega
    have hc := outside_par_const (c := c) (J := J) (te := tyParams N) (prog := impls) (U := noFns) 2 0
    cases h0 : (J 0).size with
    | error g =>
      have e : whileBody c (teArr N) (out3 c J N) .const [("i", 1), ("s", 0)] sizeCond sizeBody
          [.uint .size s, .lit i] = .error g := by
        run [whileBody, sizeCond, sizeBody, hi, hc, h0]
      simp [whileLoop, e, arraySizeLoop, h0]
    | ok m =>
      by_cases hm : s * m < 2 ^ c.bits
      · have e : whileBody c (teArr N) (out3 c J N) .const [("i", 1), ("s", 0)] sizeCond sizeBody
            [.uint .size s, .lit i] = .ok (some (.loc (.val .unit)), [.uint .size (s * m), .lit (i + 1)]) := by
          run [whileBody, sizeCond, sizeBody, hi, hc, h0, hm]
        simp only [whileLoop, e, ih (i + 1) (s * m) f (by omega) (by omega)]
        simp [arraySizeLoop, h0, checkedMul, Cfg.M, hm]
      · have e : whileBody c (teArr N) (out3 c J N) .const [("i", 1), ("s", 0)] sizeCond sizeBody
            [.uint .size s, .lit i] = .error .compileError := by
          run [whileBody, sizeCond, sizeBody, hi, hc, h0, hm]
        simp [whileLoop, e, arraySizeLoop, h0, checkedMul, Cfg.M, hm]

theorem const_array (hN : N < c.M) : runSize c J N impls .arr = (.uint .size ·) <$> (arrayImpl c N (J 0)).size := by
  refine (run_size (e := arrayConst0_0) rfl rfl).trans ?_
  have hl := size_loop (c := c) (J := J) (N := N) N 0 1 (c.M + 1) (by omega) (by omega)
  cases hq : arraySizeLoop c (J 0) N 1 with
  | error f =>
    rw [hq] at hl
    simp only [sizeCond, sizeBody, Cfg.M] at hl
    run [arrayConst0_0, arrayImpl, hq, hl]
  | ok r =>
    rw [hq] at hl
    simp only [sizeCond, sizeBody, Cfg.M] at hl
    run [arrayConst0_0, arrayImpl, hq, hl]

/-! ## ordinal -/

/-- The body of the loop. -/
def ordBody : Blk :=
  .semi (.assign (.path [⟨"r", .nil⟩]) (.method (.method (.path [⟨"r", .nil⟩]) "checked_mul" .nil
    (.cons (.path [⟨"T", .nil⟩, ⟨"ORDINAL_SIZE", .nil⟩]) .nil)) "unwrap" .nil .nil))
  (.semi (.assignOp .add (.path [⟨"r", .nil⟩]) (.method (.path [⟨"v", .nil⟩]) "ordinal" .nil .nil)) .nil)

/-- The loop of `ordinal`. -/
theorem ord_loop (x : Val P) : ∀ (vs : List (P 0)) (r : Nat),
    forLoop (forBody c (teArr N) (out3 c J N) .run [("r", 1), ("self", 0)] (.path ["v"]) ordBody)
      (vs.map fun v => .ref (.usr 0 v)) [.ref x, .uint .size r] = match arrayOrdinalLoop c (J 0) vs r with
        | .ok r => Res.val .unit [.ref x, .uint .size r]
        | .error f => .error f := by
  intro vs
  induction vs with
  | nil => intro r; simp only [List.map_nil, forLoop, arrayOrdinalLoop]
  | cons v vs ih =>
    intro r
    have hc := outside_par_const (c := c) (J := J) (te := tyParams N) (prog := impls) (U := noFns) 2 0
    have ho := outside_par_ordinal (c := c) (J := J) (te := tyParams N) (prog := impls) (U := noFns) 2 0 v
    have hf := outside_par_self (c := c) (J := J) (te := tyParams N) (prog := impls) (U := noFns) 2 0 "ordinal"
    cases h0 : (J 0).size with
    | error g =>
      have e : forBody c (teArr N) (out3 c J N) .run [("r", 1), ("self", 0)] (.path ["v"]) ordBody (.ref (.usr 0 v))
          [.ref x, .uint .size r] = .error g := by
        run [forBody, ordBody, hc, h0]
      simp [forLoop, e, arrayOrdinalLoop, h0]
    | ok m =>
      by_cases hm : r * m < 2 ^ c.bits
      · cases hs : (J 0).ordinal v with
        | error g =>
          have e : forBody c (teArr N) (out3 c J N) .run [("r", 1), ("self", 0)] (.path ["v"]) ordBody (.ref (.usr 0 v))
              [.ref x, .uint .size r] = .error g := by
            run [forBody, ordBody, hc, h0, hm, ho, hf, hs]
          simp [forLoop, e, arrayOrdinalLoop, h0, checkedMul, Cfg.M, hm, unwrap, hs]
        | ok n =>
          have e : forBody c (teArr N) (out3 c J N) .run [("r", 1), ("self", 0)] (.path ["v"]) ordBody (.ref (.usr 0 v))
              [.ref x, .uint .size r] = match addU c (r * m) n with
                | .ok q => Res.val .unit [.ref x, .uint .size q]
                | .error f => .error f := by
            by_cases h : r * m + n < 2 ^ c.bits
            · run [forBody, ordBody, hc, h0, hm, ho, hf, hs, h]
            · cases hq : c.overflowChecks <;> run [forBody, ordBody, hc, h0, hm, ho, hf, hs, h, hq]
          cases ha : addU c (r * m) n with
          | error f => simp [forLoop, e, arrayOrdinalLoop, h0, checkedMul, Cfg.M, hm, unwrap, hs, ha]
          | ok q =>
            simp only [ha, Res.val] at e
            simp only [List.map_cons, forLoop, e, ih]
            simp [arrayOrdinalLoop, h0, checkedMul, Cfg.M, hm, unwrap, hs, ha]
      · have e : forBody c (teArr N) (out3 c J N) .run [("r", 1), ("self", 0)] (.path ["v"]) ordBody (.ref (.usr 0 v))
            [.ref x, .uint .size r] = .error .panic := by
          run [forBody, ordBody, hc, h0, hm]
        simp [forLoop, e, arrayOrdinalLoop, h0, checkedMul, Cfg.M, hm, unwrap]

theorem ordinal_array (a : Arr (P 0) N) :
    runOrdinal c J N impls .arr (arrVal a) = (.uint .size ·) <$> (arrayImpl c N (J 0)).ordinal a := by
  refine (run_ordinal (b := arrayFn0_0.body) _ rfl rfl).trans ?_
  have hl := ord_loop (c := c) (J := J) (N := N) (arrVal a) a.1 0
  simp only [ordBody, arrVal] at hl
  cases hq : arrayOrdinalLoop c (J 0) a.1 0 with
  | error f =>
    rw [hq] at hl
    run [arrayFn0_0, arrayImpl, arrVal, iterate, Function.comp_def, hq, hl]
  | ok r =>
    rw [hq] at hl
    run [arrayFn0_0, arrayImpl, arrVal, iterate, Function.comp_def, hq, hl]

/-! ## from_ordinal -/

/-- The body of the loop. -/
def fromBody : Blk :=
  .letElse (.ctor ["Some"] (.cons (.path ["i"]) .nil)) (.method (.path [⟨"n", .nil⟩]) "checked_rem" .nil
    (.cons (.path [⟨"T", .nil⟩, ⟨"ORDINAL_SIZE", .nil⟩]) .nil)) (.semi (.ret (.path [⟨"None", .nil⟩])) .nil)
  (.semi (.method (.path [⟨"array", .nil⟩]) "push" .nil (.cons (.method (.call (.path [⟨"T", .nil⟩, ⟨"from_ordinal", .nil⟩])
    (.cons (.path [⟨"i", .nil⟩]) .nil)) "unwrap" .nil .nil) .nil))
  (.semi (.assignOp .div (.path [⟨"n", .nil⟩]) (.path [⟨"T", .nil⟩, ⟨"ORDINAL_SIZE", .nil⟩])) .nil))

/-- The loop of `from_ordinal`: how it ends, by how the loop of the model ends. -/
def FromEnd (x : Val P) (N : Nat) (r : Res P) : R (Option (Nat × ArrayBuilder (P 0))) → Prop
  | .ok none => ∃ h, r = .ok (.ret .none, h)
  | .ok (some (n, b)) => ∃ us : List (P 0), b = ArrayBuilder.holding N us ∧ us.length = N ∧
    r = Res.val .unit [x, .uint .size n, .bld N (us.map (.usr 0 ·))]
  | .error f => r = .error f

/-- The loop of `from_ordinal`. -/
theorem from_loop (x : Val P) : ∀ (ws : List (Val P)) (vs : List (P 0)) (n : Nat), vs.length + ws.length = N →
    FromEnd x N
      (forLoop (forBody c (teArr N) (out3 c J N) .run [("array", 2), ("n", 1), ("ordinal", 0)] .wild fromBody)
        ws [x, .uint .size n, .bld N (vs.map (.usr 0 ·))])
      (arrayFromLoop (J 0) ws.length n (ArrayBuilder.holding N vs)) := by
  intro ws
  induction ws with
  | nil => intro vs n hl; exact ⟨vs, rfl, hl, rfl⟩
  | cons w ws ih =>
    intro vs n hl
    have hlt : vs.length < N := by simp only [List.length_cons] at hl; omega
    have hc := outside_par_const (c := c) (J := J) (te := tyParams N) (prog := impls) (U := noFns) 2 0
    cases h0 : (J 0).size with
    | error g =>
      have e : forBody c (teArr N) (out3 c J N) .run [("array", 2), ("n", 1), ("ordinal", 0)] .wild fromBody w
          [x, .uint .size n, .bld N (vs.map (.usr 0 ·))] = .error g := by
        run [forBody, fromBody, hc, h0]
      simp [forLoop, e, arrayFromLoop, h0, FromEnd]
    | ok m =>
      by_cases hm : m = 0
      · have e : forBody c (teArr N) (out3 c J N) .run [("array", 2), ("n", 1), ("ordinal", 0)] .wild fromBody w
            [x, .uint .size n, .bld N (vs.map (.usr 0 ·))] =
              .ok (.ret .none, [x, .uint .size n, .bld N (vs.map (.usr 0 ·))]) := by
          run [forBody, fromBody, hc, h0, hm]
        simp [forLoop, e, arrayFromLoop, h0, FromEnd, checkedRem, hm]
      · have ho := outside_par_from (c := c) (J := J) (te := tyParams N) (prog := impls) (U := noFns) 2 0 (n % m)
        cases hs : (J 0).fromOrdinal (n % m) with
        | error g =>
          have e : forBody c (teArr N) (out3 c J N) .run [("array", 2), ("n", 1), ("ordinal", 0)] .wild fromBody w
              [x, .uint .size n, .bld N (vs.map (.usr 0 ·))] = .error g := by
            run [forBody, fromBody, hc, h0, hm, ho, hs]
          simp [forLoop, e, arrayFromLoop, h0, FromEnd, checkedRem, hm, hs]
        | ok q => cases q with
          | none =>
            have e : forBody c (teArr N) (out3 c J N) .run [("array", 2), ("n", 1), ("ordinal", 0)] .wild fromBody w
                [x, .uint .size n, .bld N (vs.map (.usr 0 ·))] = .error .panic := by
              run [forBody, fromBody, hc, h0, hm, ho, hs]
            simp [forLoop, e, arrayFromLoop, h0, FromEnd, checkedRem, hm, hs, unwrap]
          | some a =>
            have e : forBody c (teArr N) (out3 c J N) .run [("array", 2), ("n", 1), ("ordinal", 0)] .wild fromBody w
                [x, .uint .size n, .bld N (vs.map (.usr 0 ·))] =
                  Res.val .unit [x, .uint .size (n / m), .bld N ((vs ++ [a]).map (.usr 0 ·))] := by
              run [forBody, fromBody, hc, h0, hm, ho, hs, hlt]
            simp only [Res.val] at e
            have := ih (vs ++ [a]) (n / m) (by simp only [List.length_cons] at hl; simp; omega)
            simpa [forLoop, e, arrayFromLoop, h0, checkedRem, hm, hs, unwrap, ArrayBuilder.push_holding a hlt, divU] using this

theorem from_array (i : Nat) : runFromOrdinal c J N impls .arr i = (fun o => match o with
    | some a => .con "Some" [arrVal a]
    | none => .con "None" []) <$> (arrayImpl c N (J 0)).fromOrdinal i := by
  refine (run_from (b := arrayFn0_1.body) _ rfl rfl).trans ?_
  have hl := from_loop (c := c) (J := J) (N := N) (.uint .size i) ((List.range' 0 N).map (.uint .size ·)) [] i (by simp)
  simp only [fromBody, List.length_map, List.length_range', List.map_nil, ← ArrayBuilder.new_eq] at hl
  cases hq : arrayFromLoop (J 0) N i (ArrayBuilder.new (P 0) N) with
  | error f =>
    rw [hq] at hl
    simp only [FromEnd] at hl
    run [arrayFn0_1, arrayImpl, iterate, hq, hl]
  | ok q => cases q with
    | none =>
      rw [hq] at hl
      obtain ⟨h, hl⟩ := hl
      run [arrayFn0_1, arrayImpl, iterate, hq, hl]
    | some q =>
      obtain ⟨n, b⟩ := q
      rw [hq] at hl
      obtain ⟨us, rfl, hu, hl⟩ := hl
      by_cases hn : n = 0
      · have hf := ArrayBuilder.finish_full hu
        run [arrayFn0_1, arrayImpl, iterate, hq, hl, hn, hu, hf, arrVal]
      · have hb : (n != 0) = true := by simp [hn]
        run [arrayFn0_1, arrayImpl, iterate, hq, hl, hn, hb]

theorem array_agrees (hN : N < c.M) : TextAgrees c J N impls .arr (arrVal (N := N)) (arrayImpl c N (J 0)) where
  inj a b h := by
    simp only [arrVal, Val.arr.injEq] at h
    have hi : Function.Injective (Val.usr (P := P) 0) := fun _ _ h => by injection h
    exact Subtype.ext (List.map_inj_right (fun _ _ h => hi h) |>.1 h)
  size := const_array hN
  ordinal := ordinal_array
  fromOrdinal i _ := by
    rw [from_array i]
    cases (arrayImpl c N (J 0)).fromOrdinal i with
    | error f => rfl
    | ok o => cases o <;> rfl

end OrdinalMap.Text
