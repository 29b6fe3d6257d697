import Verif.Text.TotalMain
import Verif.Text.TotalDefault
import Verif.Props.TextMap
/-!
# C104: `OrdinalTotalMap` and `OrdinalTotalArrayMap`, lexed, parsed and run from their source text

`P 0` is the type of keys, `P 1` of values, `P 2` of states of the closures that the client passes, and `P 3` of errors.
-/

namespace OrdinalMap.Props
open OrdinalMap OrdinalMap.Text

variable {P : Nat → Type} (c : Cfg) (J : (p : Nat) → OrdinalImpl (P p)) (S : Nat) {n : Nat}

/-- The map `v` of type `t` answers every history as the function `m` does; after every history, its iterators behave like deques
of what the function holds.  `x` is the type of the iterator that consumes the map, and `len` what is known of its length. -/
def TotalLike [DecidableEq (P 0)] (call : Machine P) (t : RT) (x : String) (len : Nat → Val P → Prop) (I : OrdinalImpl (P 0)) (n : Nat)
    (v : Val P) (m : P 0 → P 1) : Prop :=
  RunsLike (textTotalStep call t) (TotalSpec.step I n) v m fun m v =>
    TotalIterates call t v (pairsT I n m) ∧ Iterates call t "into_iter" x v readPair (pairsT I n m) len

/-- What `new` of a type `t` must do with a closure that computes `init`, in state `r`: call it on the keys in ordinal order, and make
the map of the answers. -/
def TextNew (new : P 2 → R (Val P × Heap P)) (like : Val P → (P 0 → P 1) → Prop) (ks : List (P 0)) (init : P 0 → P 2 → R (P 1 × P 2)) : Prop :=
  ∀ r, (∀ f, initEach init ks r = .error f → new r = .error f) ∧
    ∀ vs r', initEach init ks r = .ok (vs, r') → ∃ v m, new r = .ok (v, [.usr 2 r']) ∧ ks.map m = vs ∧ like v m

/-- What `try_new` must do: stop at the first error and return it. -/
def TextTryNew (new : P 2 → R (Val P × Heap P)) (like : Val P → (P 0 → P 1) → Prop) (ks : List (P 0))
    (init : P 0 → P 2 → R (Except (P 3) (P 1) × P 2)) : Prop :=
  ∀ r, (∀ f, initAll init ks r = .error f → new r = .error f) ∧
    (∀ e r', initAll init ks r = .ok (.error e, r') → new r = .ok (.con "Err" [.usr 3 e], [.usr 2 r'])) ∧
    ∀ vs r', initAll init ks r = .ok (.ok vs, r') → ∃ v m, new r = .ok (.con "Ok" [v], [.usr 2 r']) ∧ ks.map m = vs ∧ like v m

/-- `len` of the iterator `it` of type `x` is right: `k` items are left. -/
def LenIs (call : Machine P) (x : String) (k : Nat) (it : Val P) : Prop := call (.con x) "len" [.ref it] [] = .ok (.uint .size k, [])

theorem totalMap_like [DecidableEq (P 0)] (L : Lawful c (J 0) n) (U : UserFns P) (m : P 0 → P 1) :
    TotalLike (mapCall c J S maps U) (.con "OrdinalTotalMap") "total::IntoIter" (ExactLen (mapCall c J S maps U) "total::IntoIter")
      (J 0) n (boxMapVal (store (J 0) n m)) m := by
  have hb := totalMap_runs L m
  rw [show OrdinalTotalMap.step c (J 0) = (boxFns (V := P 1) (J 0)).step c (J 0) from by
    funext s op; exact OrdinalTotalMap.step_fns c (J 0) s op] at hb
  refine totalMap_text.runsLike ?_ hb
  rintro m s rfl
  refine ⟨totalMap_text.iterates L m, ?_⟩
  exact iterates_of (Inv := fun _ : TotalIter (P 1) => True) (enc := totalIntoVal "total::IntoIter")
    (s := OrdinalTotalMap.intoIter (store (J 0) n m)) (totalMap_intoIter 5 (ofV (store (J 0) n m)))
    (fun s d _ => textTotalInto_step rfl rfl s d) (fun _ _ _ _ _ => trivial) trivial
    (fun l s h => total_exact rfl rfl h) ((TotalIntoIter.behaves L (fresh_view L m)).mono fun rest s h => h.len (listIter_views _))

theorem totalArrayMap_like [DecidableEq (P 0)] (L : Lawful c (J 0) n) (U : UserFns P) (m : P 0 → P 1) :
    TotalLike (mapCall c J n maps U) (.con "OrdinalTotalArrayMap") "total::IntoIterArray" (LenIs (mapCall c J n maps U) "total::IntoIterArray")
      (J 0) n (arrayMapVal (store (J 0) n m)) m := by
  have hb := totalArrayMap_runs L m
  rw [show OrdinalTotalArrayMap.step c (J 0) n = (arrayFns (V := P 1) (J 0) n).step c (J 0) from by
    funext s op; exact OrdinalTotalArrayMap.step_fns c (J 0) n s op] at hb
  refine totalArr_text.runsLike ?_ hb
  rintro m s rfl
  refine ⟨totalArr_text.iterates L m, ?_⟩
  refine iterates_of (Inv := fun _ : TotalIter (P 1) => True) (enc := totalIntoVal "total::IntoIterArray")
    (s := OrdinalTotalArrayMap.intoIter (store (J 0) n m)) (totalArr_intoIter 5 (ofV (store (J 0) n m)))
    (fun s d _ => textTotalInto_step rfl rfl s d) (fun _ _ _ _ _ => trivial) trivial
    (fun l s h => ?_) ((TotalIntoIterArray.behaves L (fresh_view L m)).mono fun rest s h => h.len (listIter_views _))
  refine (total_len 7 rfl _).trans ?_
  simp only [← h]
  simp [Enumerate.len, encEnum, listIter]

/-- C104: the text of `OrdinalTotalMap::new` and `try_new` calls the closure of the client on the keys in ordinal order, `try_new` until
the first error, and makes a map that answers every history of operations as the function does. -/
theorem C104_total_map [DecidableEq (P 0)] (L : Lawful c (J 0) n) : MapSources fun prog =>
    let t := RT.con "OrdinalTotalMap"
    let like (call : Machine P) := TotalLike call t "total::IntoIter" (ExactLen call "total::IntoIter") (J 0) n
    (∀ init, let call := mapCall c J S prog (initFn init)
      TextNew (fun r => call t "new" [.ufn 0] [.usr 2 r]) (like call) (values (J 0) n) init) ∧
    ∀ init, let call := mapCall c J S prog (tryInitFn init)
      TextTryNew (fun r => call t "try_new" [.ufn 0] [.usr 2 r]) (like call) (values (J 0) n) init := by
  have hz : ∀ z, (J 0).size = .ok z → z < c.M := fun z h => by rw [L.size] at h; cases h; exact L.fits
  have h0 : n * 0 ≤ 2 ^ (c.bits - 1) - 1 := by simp
  refine .of ⟨fun init r => ?_, fun init r => ?_⟩
  · have h1 := totalMap_new (c := c) (J := J) (S := S) 4 (initFn_calls init 5) hz r
    rw [OrdinalTotalMap.new_eq L h0] at h1
    refine ⟨fun f hf => h1.trans (by rw [hf]; rfl), fun vs r' hv => ?_⟩
    obtain ⟨m, rfl⟩ := exists_store L vs (by rw [initEach_length _ _ _ _ _ hv, values_length L])
    exact ⟨_, m, h1.trans (by rw [hv]; rfl), rfl, totalMap_like c J S L _ m⟩
  · have h1 := totalMap_tryNew (c := c) (J := J) (S := S) 5 (tryInitFn_calls init 7) hz r
    rw [OrdinalTotalMap.tryNew_eq L h0] at h1
    refine ⟨fun f hf => h1.trans (by rw [hf]; rfl), fun e r' hv => h1.trans (by rw [hv]; rfl), fun vs r' hv => ?_⟩
    obtain ⟨m, rfl⟩ := exists_store L vs (by rw [initAll_length _ _ _ _ _ hv, values_length L])
    exact ⟨_, m, h1.trans (by rw [hv]; rfl), rfl, totalMap_like c J S L _ m⟩

example := C104_total_map debug64 (twoImpls orderingImpl boolImpl) 0 (ordering_lawful debug64).1
example := C104_total_map release32 (twoImpls (u8Impl release32) boolImpl) 5 (u8_lawful release32).1

/-- A closure that answers with its state and flips it, and one that fails when its state is false. -/
example : initEach (fun _ r => .ok (r, !r)) (values orderingImpl 3) true = .ok ([true, false, true], false) := rfl
example : initAll (fun _ r => .ok (if r then .ok r else .error r, !r)) (values orderingImpl 3) true = .ok (.error false, true) := rfl

/-- C104 for `OrdinalTotalArrayMap` with `S` the number of keys.  (The text of its consuming iterator has no `size_hint`.)  Every array
makes a map by `from_array`. -/
theorem C104_total_array_map [DecidableEq (P 0)] (L : Lawful c (J 0) n) : MapSources fun prog =>
    let t := RT.con "OrdinalTotalArrayMap"
    let like (call : Machine P) := TotalLike call t "total::IntoIterArray" (LenIs call "total::IntoIterArray") (J 0) n
    (∀ init, let call := mapCall c J n prog (initFn init)
      TextNew (fun r => call t "new" [.ufn 0] [.usr 2 r]) (like call) (values (J 0) n) init) ∧
    (∀ init, let call := mapCall c J n prog (tryInitFn init)
      TextTryNew (fun r => call t "try_new" [.ufn 0] [.usr 2 r]) (like call) (values (J 0) n) init) ∧
    ∀ vs : List (P 1), vs.length = n → let call := mapCall c J n prog
      ∃ v m, call t "from_array" [.arr (vs.map (.usr 1))] [] = .ok (v, []) ∧ (values (J 0) n).map m = vs ∧ like call v m := by
  refine .of ⟨fun init r => ?_, fun init r => ?_, fun vs hv => ?_⟩
  · have h1 := totalArr_new (c := c) (J := J) (S := n) 4 (initFn_calls init 5) L.fits r
    rw [OrdinalTotalArrayMap.new_eq L] at h1
    refine ⟨fun f hf => h1.trans (by rw [hf]; rfl), fun vs r' hv => ?_⟩
    obtain ⟨m, rfl⟩ := exists_store L vs (by rw [initEach_length _ _ _ _ _ hv, values_length L])
    exact ⟨_, m, h1.trans (by rw [hv]; rfl), rfl, totalArrayMap_like c J L _ m⟩
  · have h1 := totalArr_tryNew (c := c) (J := J) (S := n) 5 (tryInitFn_calls init 7) L.fits r
    rw [OrdinalTotalArrayMap.tryNew_eq L] at h1
    refine ⟨fun f hf => h1.trans (by rw [hf]; rfl), fun e r' hv => h1.trans (by rw [hv]; rfl), fun vs r' hv => ?_⟩
    obtain ⟨m, rfl⟩ := exists_store L vs (by rw [initAll_length _ _ _ _ _ hv, values_length L])
    exact ⟨_, m, h1.trans (by rw [hv]; rfl), rfl, totalArrayMap_like c J L _ m⟩
  · obtain ⟨m, rfl⟩ := exists_store L vs hv
    exact ⟨_, m, totalArr_fromArray 7 _, rfl, totalArrayMap_like c J L _ m⟩

example := C104_total_array_map debug64 (twoImpls orderingImpl boolImpl) (ordering_lawful debug64).1
example := C104_total_array_map release32 (twoImpls (u8Impl release32) boolImpl) (u8_lawful release32).1

/-- C104: with any other `S`, the text of `new` and `try_new` does not compile: the assertion on `S` fails before the closure is called. -/
theorem C104_wrong_size (L : Lawful c (J 0) n) (hS : S ≠ n) (hM : S < c.M) : MapSources fun prog =>
    let t := RT.con "OrdinalTotalArrayMap"
    (∀ init r, mapCall c J S prog (initFn init) t "new" [.ufn 0] [.usr 2 r] = .error .compileError) ∧
    ∀ init r, mapCall c J S prog (tryInitFn init) t "try_new" [.ufn 0] [.usr 2 r] = .error .compileError := by
  refine .of ⟨fun init r => ?_, fun init r => ?_⟩
  · refine (totalArr_new (c := c) (J := J) (S := S) 4 (initFn_calls init 5) hM r).trans ?_
    simp only [OrdinalTotalArrayMap.new, OrdinalTotalArrayMap.assertS_wrong L hS]
    rfl
  · refine (totalArr_tryNew (c := c) (J := J) (S := S) 5 (tryInitFn_calls init 7) hM r).trans ?_
    simp only [OrdinalTotalArrayMap.tryNew, OrdinalTotalArrayMap.assertS_wrong L hS]
    rfl

example := C104_wrong_size debug64 (twoImpls orderingImpl boolImpl) 4 (ordering_lawful debug64).1 (by decide) (by decide)

/-- C104 for `default()`: it calls `V::default` once for each key, in ordinal order, and makes the map of these values; a panic ends it
there.  `V::default` is arbitrary: it changes the state of the world and may panic. -/
theorem C104_default [DecidableEq (P 0)] (L : Lawful c (J 0) n) (D : P 2 → R (P 1 × P 2)) : MapSources fun prog =>
    (let call := mapCall c J S prog (defaultFn D);
      TextNew (fun r => call (.con "OrdinalTotalMap") "default" [] [.usr 2 r])
        (TotalLike call (.con "OrdinalTotalMap") "total::IntoIter" (ExactLen call "total::IntoIter") (J 0) n) (values (J 0) n) fun _ r => D r) ∧
    (let call := mapCall c J n prog (defaultFn D);
      TextNew (fun r => call (.con "OrdinalTotalArrayMap") "default" [] [.usr 2 r])
        (TotalLike call (.con "OrdinalTotalArrayMap") "total::IntoIterArray" (LenIs call "total::IntoIterArray") (J 0) n) (values (J 0) n) fun _ r => D r) ∧
    ∀ S, S ≠ n → S < c.M → ∀ r, mapCall c J S prog (defaultFn D) (.con "OrdinalTotalArrayMap") "default" [] [.usr 2 r] = .error .compileError := by
  have hz : ∀ z, (J 0).size = .ok z → z < c.M := fun z h => by rw [L.size] at h; cases h; exact L.fits
  refine .of ⟨fun r => ?_, fun r => ?_, fun S hS hM r => ?_⟩
  · have h1 := totalMap_default (c := c) (J := J) (S := S) (D := D) 3 hz r
    rw [OrdinalTotalMap.new_eq L (by simp)] at h1
    refine ⟨fun f hf => h1.trans (by rw [hf]; rfl), fun vs r' hv => ?_⟩
    obtain ⟨m, rfl⟩ := exists_store L vs (by rw [initEach_length _ _ _ _ _ hv, values_length L])
    exact ⟨_, m, h1.trans (by rw [hv]; rfl), rfl, totalMap_like c J S L _ m⟩
  · have h1 := totalArr_default (c := c) (J := J) (S := n) (D := D) 3 L.fits r
    rw [OrdinalTotalArrayMap.new_eq L] at h1
    refine ⟨fun f hf => h1.trans (by rw [hf]; rfl), fun vs r' hv => ?_⟩
    obtain ⟨m, rfl⟩ := exists_store L vs (by rw [initEach_length _ _ _ _ _ hv, values_length L])
    exact ⟨_, m, h1.trans (by rw [hv]; rfl), rfl, totalArrayMap_like c J L _ m⟩
  · refine (totalArr_default (c := c) (J := J) (S := S) (D := D) 3 hM r).trans ?_
    simp only [OrdinalTotalArrayMap.new, OrdinalTotalArrayMap.assertS_wrong L hS]
    rfl

example (D) := C104_default debug64 (twoImpls orderingImpl boolImpl) 4 (ordering_lawful debug64).1 D

/-- A `default` that answers with the state of the world and flips it, and one that panics in one of the two states. -/
example : initEach (fun (_ : Ordering) r => .ok (r, !r)) (values orderingImpl 3) false = .ok ([false, true, false], true) := rfl
example : initEach (fun (_ : Ordering) r => if r then .error .panic else .ok (r, !r)) (values orderingImpl 3) false = .error .panic := rfl

/-- C104: the text and the model compute the same for `OrdinalTotalMap`, with every impl, lawful or not, including panics.  (The model
is taken at values of size 0: the text is run without a limit on memory.) -/
theorem C104_agrees_map (hz : ∀ z, (J 0).size = .ok z → z < c.M) : MapSources fun prog =>
    let t := RT.con "OrdinalTotalMap"
    (∀ init r, mapCall c J S prog (initFn init) t "new" [.ufn 0] [.usr 2 r] =
      (fun p => (boxMapVal p.1, [.usr 2 p.2])) <$> OrdinalTotalMap.new c (J 0) 0 init r) ∧
    (∀ init r, mapCall c J S prog (tryInitFn init) t "try_new" [.ufn 0] [.usr 2 r] =
      (fun p => (resultVal boxMapVal (.usr 3 ·) p.1, [.usr 2 p.2])) <$> OrdinalTotalMap.tryNew c (J 0) 0 init r) ∧
    ∀ (U : UserFns P) (s : OrdinalTotalMap (P 1)), let call := mapCall c J S prog U
      (∀ ops, runOps (textTotalStep call t) (boxMapVal s) ops = (fun r => (r.1, boxMapVal r.2)) <$> runOps (OrdinalTotalMap.step c (J 0)) s ops) ∧
      call t "into_keys" [boxMapVal s] [] = (fun s => (valuesVal s, [])) <$> OrdinalTotalMap.intoKeys (J 0) s ∧
      call t "into_values" [boxMapVal s] [] = .ok (.arr (List.map (.usr 1) s), []) ∧
      call t "into_iter" [boxMapVal s] [] = .ok (totalIntoVal "total::IntoIter" (OrdinalTotalMap.intoIter s), []) := by
  refine .of ⟨fun init r => totalMap_new 4 (initFn_calls init 5) hz r, fun init r => totalMap_tryNew 5 (tryInitFn_calls init 7) hz r,
    fun U s => ⟨fun ops => ?_, totalMap_text.intoKeys s, totalMap_text.intoValues s, totalMap_intoIter 5 _⟩⟩
  rw [totalMap_text.run ops s, show (boxFns (V := P 1) (J 0)).step c (J 0) = OrdinalTotalMap.step c (J 0) from by
    funext s op; exact (OrdinalTotalMap.step_fns c (J 0) s op).symm]

/-- With the wrong impl `bogusImpl`. -/
example := C104_agrees_map (P := two Bool Bool) debug64 (twoImpls bogusImpl boolImpl) 2 (by intro z h; cases h; decide)

/-- C104: the same for `OrdinalTotalArrayMap`, with every `S`. -/
theorem C104_agrees_array (hS : S < c.M) : MapSources fun prog =>
    let t := RT.con "OrdinalTotalArrayMap"
    (∀ init r, mapCall c J S prog (initFn init) t "new" [.ufn 0] [.usr 2 r] =
      (fun p => (arrayMapVal p.1, [.usr 2 p.2])) <$> OrdinalTotalArrayMap.new (J 0) S init r) ∧
    (∀ init r, mapCall c J S prog (tryInitFn init) t "try_new" [.ufn 0] [.usr 2 r] =
      (fun p => (resultVal arrayMapVal (.usr 3 ·) p.1, [.usr 2 p.2])) <$> OrdinalTotalArrayMap.tryNew (J 0) S init r) ∧
    ∀ (U : UserFns P) (s : OrdinalTotalArrayMap (P 1)), let call := mapCall c J S prog U
      (∀ ops, runOps (textTotalStep call t) (arrayMapVal s) ops =
        (fun r => (r.1, arrayMapVal r.2)) <$> runOps (OrdinalTotalArrayMap.step c (J 0) S) s ops) ∧
      call t "into_keys" [arrayMapVal s] [] = (fun s => (valuesVal s, [])) <$> OrdinalTotalArrayMap.intoKeys (J 0) s ∧
      call t "into_values" [arrayMapVal s] [] = .ok (.arr (List.map (.usr 1) s), []) ∧
      call t "into_iter" [arrayMapVal s] [] = .ok (totalIntoVal "total::IntoIterArray" (OrdinalTotalArrayMap.intoIter s), []) := by
  refine .of ⟨fun init r => totalArr_new 4 (initFn_calls init 5) hS r, fun init r => totalArr_tryNew 5 (tryInitFn_calls init 7) hS r,
    fun U s => ⟨fun ops => ?_, totalArr_text.intoKeys s, totalArr_text.intoValues s, totalArr_intoIter 5 _⟩⟩
  rw [totalArr_text.run ops s, show (arrayFns (V := P 1) (J 0) S).step c (J 0) = OrdinalTotalArrayMap.step c (J 0) S from by
    funext s op; exact (OrdinalTotalArrayMap.step_fns c (J 0) S s op).symm]

/-- With the wrong impl `bogusImpl`, and one slot too many. -/
example := C104_agrees_array (P := two Bool Bool) debug64 (twoImpls bogusImpl boolImpl) 3 (by decide)

end OrdinalMap.Props
