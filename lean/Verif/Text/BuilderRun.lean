import Verif.SpecTextBuilder
import Verif.Text.ParsedBuilder
import Verif.Text.SetValues
/-!
# `array_builder.rs`, run from its text
-/

namespace OrdinalMap.Text

variable {P : Nat → Type} {c : Cfg} {S : Nat} {D : P 0 → P 2 → R (P 2)} {h : Heap P}

@[text] theorem find_builderTys (x : String) : TyEnv.find x (builderTys S) = if x = "T" then some (.par 0) else
    if x = "S" then some (.num S) else none := rfl

/-- What is outside, in the program. -/
abbrev outB (c : Cfg) (S : Nat) (D : P 0 → P 2 → R (P 2)) (n : Nat) : Outside P := outsideB c S D arrayBuilderTree n

/-- Elements: `i` uninitialized ones, then the items, then `k` uninitialized ones. -/
def cells (i : Nat) (items : List (P 0)) (k : Nat) : List (Val P) :=
  List.replicate i uninitVal ++ (items.map (fun v => initVal (.usr 0 v)) ++ List.replicate k uninitVal)

/-- An `ArrayBuilder` -/
def builderVal (l : List (Val P)) (n : Nat) : Val P := .obj "ArrayBuilder" [("array", cellsVal l), ("filled", .uint .size n)]

@[text] theorem struct_builder (n : Nat) : (outB c S D (n + 1)).struct "ArrayBuilder" =
    some [("array", .arr (.path ["MaybeUninit"] (.cons (.path ["T"] .nil) .nil)) "S"),
      ("filled", .path ["usize"] .nil)] := rfl

theorem outB_array (n : Nat) (f : String) (args : List (Val P)) :
    (outB c S D (n + 1)).call (.con "array") f args h = rawCall S D (outB c S D n).apply "array" f args h := rfl
theorem outB_uninit (n : Nat) (f : String) (args : List (Val P)) :
    (outB c S D (n + 1)).call (.con "MaybeUninit") f args h = rawCall S D (outB c S D n).apply "MaybeUninit" f args h := rfl
theorem outB_cells (n : Nat) (f : String) (args : List (Val P)) :
    (outB c S D (n + 1)).call (.con "[MaybeUninit<T>; S]") f args h = rawCall S D (outB c S D n).apply "[MaybeUninit<T>; S]" f args h := rfl
theorem outB_ptr (n : Nat) (f : String) (args : List (Val P)) :
    (outB c S D (n + 1)).call (.con "Ptr") f args h = rawCall S D (outB c S D n).apply "Ptr" f args h := rfl
theorem outB_ptrMod (n : Nat) (f : String) (args : List (Val P)) :
    (outB c S D (n + 1)).call (.con "ptr") f args h = rawCall S D (outB c S D n).apply "ptr" f args h := rfl
theorem outB_mem (n : Nat) (f : String) (args : List (Val P)) :
    (outB c S D (n + 1)).call (.con "mem") f args h = rawCall S D (outB c S D n).apply "mem" f args h := rfl

theorem outB_call {f : String} {d : FnDef} (n : Nat) (args : List (Val P)) (h : Heap P)
    (hp : Prog.fn (.con "ArrayBuilder") f arrayBuilderTree = some d) (hs : d.self ≠ .value) :
    (outB c S D (n + 1)).call (.con "ArrayBuilder") f args h = (do
      let xs ← bindAll h d args
      (evalBlk c (("Self", .con "ArrayBuilder") :: builderTys S) (outB c S D n) d.body .run (alloc xs [] h).1 (alloc xs [] h).2).out .run
        h.length (rty (("Self", .con "ArrayBuilder") :: builderTys S) d.ret)) := by
  simp only [outsideB, hp]

theorem outB_into {f : String} {d : FnDef} (n : Nat) (args : List (Val P)) (w : Val P) (m : Bool) (h : Heap P)
    (hp : Prog.fn (.con "ArrayBuilder") f arrayBuilderTree = some d) (hs : d.self = .value) :
    (outB c S D (n + 1)).call (.con "ArrayBuilder") f args (w :: .bool m :: h) = (do
      let (v, h') ← (do
        let xs ← bindAll (w :: .bool false :: h) d args
        (evalBlk c (("Self", .con "ArrayBuilder") :: builderTys S) (outB c S D n) d.body .run (alloc xs [] (w :: .bool false :: h)).1
          (alloc xs [] (w :: .bool false :: h)).2).out .run
          (h.length + 1 + 1 + 1) (rty (("Self", .con "ArrayBuilder") :: builderTys S) d.ret))
      let h' ← if ← moved h' then .ok h' else Prod.snd <$> (outB c S D n).call (.con "ArrayBuilder") "drop" [.mref (h.length + 1 + 1) []] h'
      .ok (v, (← setMoved true h').take (h.length + 1 + 1))) := by
  simp only [outsideB, hp, hs]
  rfl

@[text] theorem outB_glob (n : Nat) : (outB c S D (n + 1)).glob "ArrayNotFilled" = .ok (.con "ArrayNotFilled" []) := rfl
@[text] theorem self_asMutPtr (n : Nat) : (outB c S D (n + 1)).self (.con "[MaybeUninit<T>; S]") "as_mut_ptr" = some .refMut := rfl
@[text] theorem self_assumeInitDrop (n : Nat) : (outB c S D (n + 1)).self (.con "MaybeUninit") "assume_init_drop" = some .refMut := rfl
@[text] theorem self_ptrCast (n : Nat) : (outB c S D (n + 1)).self (.con "Ptr") "cast" = some .value := rfl
@[text] theorem self_ptrAdd (n : Nat) : (outB c S D (n + 1)).self (.con "Ptr") "add" = some .value := rfl
@[text] theorem self_ptrWrite (n : Nat) : (outB c S D (n + 1)).self (.con "Ptr") "write" = some .value := rfl
@[text] theorem self_tryFinish (n : Nat) : (outB c S D (n + 1)).self (.con "ArrayBuilder") "try_finish" = some .value := rfl

@[text] theorem eval_unsafe {te : TyEnv} {o : Outside P} {b : Blk} {md : Mode} {env : Env} :
    eval c te o (.unsafeBlock b) md env h = (evalBlk c te o b md env h).scope md h.length := by
  rw [eval]

/-! ## `new` -/

theorem outB_apply (n : Nat) (te : TyEnv) (env : Env) (ps : Pats) (e : Ex) (args : List (Val P)) :
    (outB c S D (n + 1)).apply (.clo te env ps e) args h = (do
      let xs ← bindPats h ps args
      (eval c te (outB c S D n) e .run (alloc xs env h).1 (alloc xs env h).2).out .run h.length none) := rfl

theorem fromFn_const {apply : Val P → List (Val P) → Heap P → R (Val P × Heap P)} {g v : Val P}
    (ha : ∀ i, apply g [.uint .size i] h = .ok (v, h)) (n i : Nat) : fromFn apply g n i h = .ok (List.replicate n v, h) := by
  induction n generalizing i with
  | zero => rfl
  | succ n ih =>
    simp only [fromFn, ha, ih, bind, Except.bind]
    rfl

theorem builder_new (n : Nat) : (outB c S D (n + 4)).call (.con "ArrayBuilder") "new" [] h =
    .ok (builderVal (cells 0 [] S) 0, h) := by
  refine (outB_call (d := arrayBuilderFn2_0) (n + 3) _ _ rfl (by decide)).trans ?_
  have ha : ∀ env i, (outB c S D (n + 2)).apply (.clo (("Self", .con "ArrayBuilder") :: builderTys S) env (.cons .wild .nil)
      (.call (.path [⟨"MaybeUninit", .nil⟩, ⟨"uninit", .nil⟩]) .nil)) [.uint .size i] h = .ok (uninitVal, h) := by
    intro env i
    rw [outB_apply]
    runs [bindPats, outB_uninit, rawCall]
  runs [arrayBuilderFn2_0, outB_array, rawCall, fromFn_const (ha _), cells, builderVal]


/-! ## Elements -/

theorem cells_length (i : Nat) (items : List (P 0)) (k : Nat) : (cells i items k).length = i + items.length + k := by
  simp [cells, Nat.add_assoc]

theorem cells_get (i : Nat) (v : P 0) (items : List (P 0)) (k : Nat) : (cells i (v :: items) k)[i]? = some (initVal (.usr 0 v)) := by
  simp [cells]

theorem cells_getE (i : Nat) (v : P 0) (items : List (P 0)) (k : Nat) (hi : i < (cells i (v :: items) k).length) :
    (cells i (v :: items) k)[i] = initVal (.usr 0 v) := by
  have := cells_get i v items k
  rw [List.getElem?_eq_getElem hi] at this
  exact Option.some.inj this

theorem cells_drop (i : Nat) (v : P 0) (items : List (P 0)) (k : Nat) :
    (cells i (v :: items) k).set i uninitVal = cells (i + 1) items k := by
  simp [cells, List.replicate_succ']

theorem cells_push (v : P 0) (items : List (P 0)) (k : Nat) :
    (cells 0 items (k + 1)).set items.length (initVal (.usr 0 v)) = cells 0 (items ++ [v]) k := by
  simp [cells, List.replicate_succ]

theorem cells_get0 (items : List (P 0)) (k : Nat) : (cells 0 items (k + 1))[items.length]? = some uninitVal := by
  simp [cells, List.replicate_succ]

theorem cells_assume (items : List (P 0)) : assumeInit (cells 0 items 0) = .ok (items.map (.usr 0 ·)) := by
  induction items with
  | nil => rfl
  | cons v items ih =>
    simp only [cells, List.replicate_zero, List.nil_append, List.append_nil, List.map_cons] at ih ⊢
    rw [initVal, assumeInit, ih]
    rfl

/-! ## `push` -/

theorem builder_push (n : Nat) (hS : S < c.M) (r : P 2) (m : Bool) (v : P 0) (items : List (P 0)) (hl : items.length < S) :
    (outB c S D (n + 2)).call (.con "ArrayBuilder") "push" [.mref 2 [], .usr 0 v]
        [.usr 2 r, .bool m, builderVal (cells 0 items (S - items.length)) items.length] =
      .ok (.unit, [.usr 2 r, .bool m, builderVal (cells 0 (items ++ [v]) (S - (items ++ [v]).length)) (items ++ [v]).length]) := by
  refine (outB_call (d := arrayBuilderFn2_1) (n + 1) _ _ rfl (by decide)).trans ?_
  obtain ⟨k, rfl⟩ : ∃ k, S = items.length + (k + 1) := ⟨S - items.length - 1, by omega⟩
  have e1 : items.length + (k + 1) - items.length = k + 1 := by omega
  have e2 : items.length + (k + 1) - (items.length + 1) = k := by omega
  have e3 : items.length + 1 < 2 ^ c.bits := by simp only [Cfg.M] at hS; omega
  runs [arrayBuilderFn2_1, get_cons, set_cons, outB_cells, outB_ptr, rawCall, cellsAt, cellsVal, ptrVal, builderVal, e1, e2, e3, cells_length, cells_get0,
    cells_push]

theorem builder_full (n : Nat) (r : P 2) (m : Bool) (v : P 0) (items : List (P 0)) (hl : items.length = S) :
    (outB c S D (n + 2)).call (.con "ArrayBuilder") "push" [.mref 2 [], .usr 0 v]
        [.usr 2 r, .bool m, builderVal (cells 0 items (S - items.length)) items.length] = .error .panic := by
  refine (outB_call (d := arrayBuilderFn2_1) (n + 1) _ _ rfl (by decide)).trans ?_
  runs [arrayBuilderFn2_1, get_cons, builderVal, hl]

/-! ## `drop` -/

/-- The memory in `drop`, when `i` items have been dropped. -/
def dropHeap (r : P 2) (h : Heap P) (n i : Nat) (items : List (P 0)) (k f : Nat) : Heap P :=
  .usr 2 r :: (h ++ [builderVal (cells i items k) f, .mref (n + 1) []])

/-- The body of the loop in `drop`. -/
def dropBody (c : Cfg) (S : Nat) (D : P 0 → P 2 → R (P 2)) (n m : Nat) : Val P → Heap P → Res P :=
  forBody c (("Self", .con "ArrayBuilder") :: builderTys S) (outB c S D (n + 1)) .run [("self", m + 1 + 1)] (.path ["i"])
    (.tail (.unsafeBlock (.semi (.method (.index (.field (.path [⟨"self", .nil⟩]) "array") (.path [⟨"i", .nil⟩]))
      "assume_init_drop" .nil .nil) .nil)))

theorem builder_dropBody (n m : Nat) (e : h.length = m) (i k f : Nat) (v : P 0) (items : List (P 0)) (r : P 2) :
    dropBody c S D n m (.uint .size i) (dropHeap r h m i (v :: items) k f) = match D v r with
      | .ok r => Res.val .unit (dropHeap r h m (i + 1) items k f)
      | .error e => .error e := by
  have hi : i < i + (items.length + 1) + k := by omega
  cases hv : D v r <;>
    runs [dropBody, forBody, dropHeap, e, outB_cells, outB_uninit, rawCall, cellsAt, cellsVal, builderVal, cells_length, cells_getE, cells_drop, hi, initVal,
      assumeInit, dropWith, hv, get_cons, set_cons]

theorem builder_dropLoop (n m : Nat) (e : h.length = m) (i k f : Nat) (items : List (P 0)) (r : P 2) :
    forLoop (dropBody c S D n m) ((List.range' i items.length).map (.uint .size ·)) (dropHeap r h m i items k f) =
      match dropAll D items r with
      | .ok r => Res.val .unit (dropHeap r h m (i + items.length) [] k f)
      | .error e => .error e := by
  induction items generalizing i r with
  | nil => rfl
  | cons v items ih =>
    simp only [List.length_cons, List.range'_succ, List.map_cons, forLoop, builder_dropBody n m e]
    have hd : dropAll D (v :: items) r = D v r >>= dropAll D items := rfl
    rw [hd, show i + (items.length + 1) = i + 1 + items.length by omega]
    cases D v r with
    | error x => rfl
    | ok r' => exact ih (i + 1) r'

theorem builder_drop (n m : Nat) (e : h.length = m) (k : Nat) (items : List (P 0)) (r : P 2) :
    (outB c S D (n + 2)).call (.con "ArrayBuilder") "drop" [.mref (m + 1) []]
        (.usr 2 r :: (h ++ [builderVal (cells 0 items k) items.length])) =
      (fun r => (.unit, .usr 2 r :: (h ++ [builderVal (cells items.length [] k) items.length]))) <$> dropAll D items r := by
  refine (outB_call (d := arrayBuilderFn1_0) (n + 1) _ _ rfl (by decide)).trans ?_
  have hl := builder_dropLoop (c := c) (S := S) (D := D) n m e 0 k items.length items r
  simp only [dropHeap, builderVal, dropBody, Nat.zero_add] at hl
  cases hd : dropAll D items r with
  | error x =>
    rw [hd] at hl
    runs [arrayBuilderFn1_0, e, builderVal, get_cons, forAny, iterate, hl]
  | ok r' =>
    rw [hd] at hl
    runs [arrayBuilderFn1_0, e, builderVal, get_cons, forAny, iterate, hl]

/-! ## `try_finish` and `finish` -/

theorem builder_tryFinish_full (n : Nat) (m : Bool) (items : List (P 0)) (hl : items.length = S) (r : P 2) :
    (outB c S D (n + 4)).call (.con "ArrayBuilder") "try_finish" [builderVal (cells 0 items (S - items.length)) items.length]
        (.usr 2 r :: .bool m :: h) =
      .ok (.con "Ok" [itemsVal items], .usr 2 r :: .bool true :: h) := by
  refine (outB_into (d := arrayBuilderFn2_2) (n + 3) _ _ _ _ rfl rfl).trans ?_
  generalize e : h.length = k
  have hk : S - items.length = 0 := by omega
  rw [hk]
  runs [arrayBuilderFn2_2, e, outB_cells, outB_mem, rawCall, builderVal, hl, cellsVal, cells_assume, get_cons, setMoved, moved, itemsVal]

theorem builder_tryFinish_err (n : Nat) (m : Bool) (items : List (P 0)) (hl : items.length < S) (r : P 2) :
    (outB c S D (n + 4)).call (.con "ArrayBuilder") "try_finish" [builderVal (cells 0 items (S - items.length)) items.length]
        (.usr 2 r :: .bool m :: h) =
      (fun r => (.con "Err" [.con "ArrayNotFilled" []], .usr 2 r :: .bool true :: h)) <$> dropAll D items r := by
  refine (outB_into (d := arrayBuilderFn2_2) (n + 3) _ _ _ _ rfl rfl).trans ?_
  generalize e : h.length = k
  have hk : items.length ≤ S := by omega
  have hn : (items.length != S) = true := bne_iff_ne.mpr (by omega)
  have hle : S ≤ items.length + (S - items.length) := by omega
  have hd := builder_drop (c := c) (S := S) (D := D) (h := .bool false :: h) (n + 1) (k + 1) (by simp [e]) (S - items.length) items r
  simp only [List.cons_append, builderVal, cellsVal] at hd
  cases hv : dropAll D items r <;> rw [hv] at hd <;>
    runs [arrayBuilderFn2_2, e, outB_cells, outB_ptrMod, rawCall, cellsAt, builderVal, hk, hn, hle, cellsVal, cells_length, get_cons, setMoved, moved, hd]

theorem builder_finish_full (n : Nat) (items : List (P 0)) (hl : items.length = S) (r : P 2) :
    (outB c S D (n + 5)).call (.con "ArrayBuilder") "finish" [builderVal (cells 0 items (S - items.length)) items.length]
        [.usr 2 r, .bool true] = .ok (itemsVal items, [.usr 2 r, .bool true]) := by
  refine (outB_into (d := arrayBuilderFn2_3) (n + 4) _ _ _ _ rfl rfl).trans ?_
  have ht := builder_tryFinish_full (c := c) (S := S) (D := D)
    (h := [builderVal (cells 0 items (S - items.length)) items.length]) n false items hl r
  simp only [builderVal] at ht
  runs [arrayBuilderFn2_3, builderVal, ht, get_cons, setMoved, moved]

theorem builder_finish_err (n : Nat) (items : List (P 0)) (hl : items.length < S) (r : P 2) :
    (outB c S D (n + 5)).call (.con "ArrayBuilder") "finish" [builderVal (cells 0 items (S - items.length)) items.length]
        [.usr 2 r, .bool true] = (do
      let _ ← dropAll D items r
      .error .panic) := by
  refine (outB_into (d := arrayBuilderFn2_3) (n + 4) _ _ _ _ rfl rfl).trans ?_
  have ht := builder_tryFinish_err (c := c) (S := S) (D := D)
    (h := [builderVal (cells 0 items (S - items.length)) items.length]) n false items hl r
  simp only [builderVal] at ht
  cases hv : dropAll D items r <;> rw [hv] at ht <;>
    runs [arrayBuilderFn2_3, builderVal, ht, get_cons, setMoved, moved]

end OrdinalMap.Text
