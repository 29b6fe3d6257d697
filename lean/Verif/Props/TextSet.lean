import Verif.Text.SetSim
import Verif.Props.Set
import Verif.Props.Values
/-!
# C101: `Ordinal::all_values`, `values.rs` and the files in `set/`, lexed, parsed and run from their source text

`SetSources Q` says that the texts in `Verif.Text.FilesSet` are accepted by the parser and that the program they make up
has the property `Q`.  `textSet t` and `textIter t` are the API of a type of such a program: every call evaluates the body
of the function in the text.  The type parameter `T` is an arbitrary type `P 0` with an arbitrary impl `J 0`.
-/

namespace OrdinalMap.Props
open OrdinalMap OrdinalMap.Text

variable {P : Nat → Type} (c : Cfg) (J : (p : Nat) → OrdinalImpl (P p)) (S : Nat) {n : Nat}

/-- C101 for `OrdinalValues`: the text of `all_values()` makes an iterator that behaves like a deque of all values in ordinal
order, and `len`, `size_hint`, `count` and `last` tell what is left. -/
theorem C101_values (L : Lawful c (J 0) n) : SetSources fun prog =>
    ∃ v, setFn c J S prog (.par 0) "all_values" [] = .ok v ∧
      BehavesLike (textIter c J S prog (.con "OrdinalValues")) v (values (J 0) n) fun rest v =>
        setFn c J S prog (.con "OrdinalValues") "len" [.ref v] = .ok (.uint .size rest.length) ∧
        setFn c J S prog (.con "OrdinalValues") "size_hint" [.ref v] = .ok (hintVal (rest.length, some rest.length)) ∧
        setFn c J S prog (.con "OrdinalValues") "count" [v] = .ok (.uint .size rest.length) ∧
        setFn c J S prog (.con "OrdinalValues") "last" [v] = .ok (optVal rest.getLast?) ∧
        setFn c J S prog (.con "OrdinalValues") "clone" [.ref v] = .ok v := by
  obtain ⟨s, h1, h2⟩ := C17_len_hint_count_last L
  refine .of ⟨valuesVal s, ?_, ?_⟩
  · rw [setFn, setCall, all_values (h := []) 4, h1]
    rfl
  · refine iterBehaves_enc (Inv := fun _ => True) (fun s d _ => textValues_step s d) (fun _ _ _ _ _ => trivial) trivial ?_ h2
    intro l s ⟨k1, k2, k3, k4⟩
    refine ⟨?_, ?_, ?_, ?_, ?_⟩
    · rw [setFn, setCall, values_len (h := []) 6, k1]; rfl
    · rw [setFn, setCall, values_sizeHint (h := []) 6, k2]; rfl
    · rw [setFn, setCall, values_count (h := []) 6, k3]; rfl
    · rw [setFn, setCall, values_last (h := []) 4, k4]; rfl
    · rw [setFn, setCall, values_clone (h := []) 5]; rfl

example := C101_values debug64 (twoImpls orderingImpl boolImpl) 1 (ordering_lawful debug64).1

variable [DecidableEq (P 0)]

/-- C101 for `OrdinalSet`: the text of `new()`, `default()` and `from_iter` makes a set that answers every history of
`insert` and `contains` as the mathematical set does.  After every history, `iter()` behaves like a deque of the elements in
increasing ordinal order, with `size_hint` bracketing what is left. -/
theorem C101_ordinal_set (L : Lawful c (J 0) n) (hpos : 0 < n) (hfit : n + 64 < c.M) : SetSources fun prog =>
    let set (v : Val P) (m : P 0 → Bool) := SetBehavesLike (textSet c J S prog (.con "OrdinalSet")) v m fun m v =>
      setFn c J S prog (.con "OrdinalSet") "clone" [.ref v] = .ok v ∧
      ∃ it, setFn c J S prog (.con "OrdinalSet") "iter" [.ref v] = .ok it ∧
        BehavesLike (textIter c J S prog (.con "Iter")) it (elements (J 0) n m) fun rest it =>
          (∃ lo hi, setFn c J S prog (.con "Iter") "size_hint" [.ref it] = .ok (hintVal (lo, some hi)) ∧
            lo ≤ rest.length ∧ rest.length ≤ hi) ∧
          setFn c J S prog (.con "Iter") "clone" [.ref it] = .ok it
    (∃ v, setFn c J S prog (.con "OrdinalSet") "new" [] = .ok v ∧
      setFn c J S prog (.con "OrdinalSet") "default" [] = .ok v ∧ set v fun _ => false) ∧
    ∀ xs : List (P 0), ∃ v, setFn c J S prog (.con "OrdinalSet") "from_iter" [.arr (xs.map (.usr 0 ·))] = .ok v ∧
      set v fun x => decide (x ∈ xs) := by
  refine .of ?_
  have key (s : OrdinalSet) (m : P 0 → Bool) (h : SetBehavesLike (OrdinalSet.api c (J 0)) s m fun m s =>
      ∃ it, OrdinalSet.iter c (J 0) s = .ok it ∧
        BehavesLike (SetIter.it c (J 0)) it (elements (J 0) n m) fun rest it =>
          (SetIter.sizeHint it).1 ≤ rest.length ∧ ∃ hi, (SetIter.sizeHint it).2 = some hi ∧ rest.length ≤ hi) :
      SetBehavesLike (textSet c J S sets (.con "OrdinalSet")) (setVal s) m fun m v =>
        setFn c J S sets (.con "OrdinalSet") "clone" [.ref v] = .ok v ∧
        ∃ it, setFn c J S sets (.con "OrdinalSet") "iter" [.ref v] = .ok it ∧
          BehavesLike (textIter c J S sets (.con "Iter")) it (elements (J 0) n m) fun rest it =>
            (∃ lo hi, setFn c J S sets (.con "Iter") "size_hint" [.ref it] = .ok (hintVal (lo, some hi)) ∧
              lo ≤ rest.length ∧ rest.length ≤ hi) ∧
            setFn c J S sets (.con "Iter") "clone" [.ref it] = .ok it := by
    refine behaves_enc (textSet_contains L.size) (textSet_insert L.size) ?_ h
    rintro m s ⟨it, k1, k2⟩
    refine ⟨by rw [setFn, setCall, set_clone (h := []) 5]; rfl, setIterVal it, ?_, ?_⟩
    · rw [setFn, setCall, set_iter (h := []) 1 s L.size, k1]; rfl
    · have hlen : it.iter.len ≤ c.M := by
        have hw : ∃ ws, it = ⟨⟨0, n⟩, ws⟩ := by
          simp only [OrdinalSet.iter] at k1
          cases ha : OrdinalSet.asRef c (J 0) s with
          | error f => simp [ha] at k1
          | ok ws =>
            simp [ha, SetRef.iter, SetIter.new, OrdinalValues.new, L.size] at k1
            exact ⟨ws, k1.symm⟩
        obtain ⟨ws, rfl⟩ := hw
        have := L.fits
        simp only [OrdinalValues.len, range_len]
        omega
      refine iterBehaves_enc (Inv := fun it : SetIter => it.iter.len ≤ c.M) (fun s d h => textSetIter_step s d h)
        (fun s d r h1 h2 => Nat.le_trans (setIter_step_len h2) h1) hlen ?_ k2
      rintro l it ⟨j1, hi, j2, j3⟩
      refine ⟨⟨(SetIter.sizeHint it).1, hi, ?_, j1, j3⟩, ?_⟩
      · rw [setFn, setCall, setIter_sizeHint (h := []) 5, ← j2]; rfl
      · rw [setFn, setCall, setIter_clone (h := []) 4]; rfl
  have hf (xs : List (P 0)) := C21_iter L hpos hfit xs
  constructor
  · obtain ⟨s, h1, h2⟩ := hf []
    have h1 : OrdinalSet.new (J 0) = .ok s := by
      simp only [OrdinalSet.fromIter] at h1
      cases hn : OrdinalSet.new (J 0) with
      | error f => simp [hn] at h1
      | ok s' => simpa [hn, OrdinalSet.extendLoop] using h1
    refine ⟨setVal s, ?_, ?_, ?_⟩
    · rw [setFn, setCall, set_new (h := []) 4, h1]; rfl
    · rw [setFn, setCall, set_default (h := []) 3, OrdinalSet.default, h1]; rfl
    · exact key s _ (by simpa using h2)
  · intro xs
    obtain ⟨s, h1, h2⟩ := hf xs
    refine ⟨setVal s, ?_, key s _ h2⟩
    rw [setFn, setCall, set_fromIter (h := []) 0 xs L.size, h1]; rfl

instance : DecidableEq (two Ordering Bool 0) := inferInstanceAs (DecidableEq Ordering)
instance : DecidableEq (two (U 8) Bool 0) := inferInstanceAs (DecidableEq (U 8))

example := C101_ordinal_set debug64 (twoImpls orderingImpl boolImpl) 1 (ordering_lawful debug64).1 (by decide) (by decide)
/-- More than one word. -/
example := C101_ordinal_set release32 (twoImpls (u8Impl release32) boolImpl) 4 (u8_lawful release32).1 (by decide) (by decide)

/-- C101 for `OrdinalArraySet` with the right number of words. -/
theorem C101_ordinal_array_set (L : Lawful c (J 0) n) (hS : S = (n + 63) / 64) : SetSources fun prog =>
    let set (v : Val P) (m : P 0 → Bool) := SetBehavesLike (textSet c J S prog (.con "OrdinalArraySet")) v m fun _ v =>
      setFn c J S prog (.con "OrdinalArraySet") "clone" [.ref v] = .ok v
    (∃ v, setFn c J S prog (.con "OrdinalArraySet") "new" [] = .ok v ∧
      setFn c J S prog (.con "OrdinalArraySet") "default" [] = .ok v ∧ set v fun _ => false) ∧
    ∀ xs : List (P 0), ∃ v, setFn c J S prog (.con "OrdinalArraySet") "from_iter" [.arr (xs.map (.usr 0 ·))] = .ok v ∧
      set v fun x => decide (x ∈ xs) := by
  refine .of ?_
  obtain ⟨S', e, ⟨s, h1, h2, h3⟩, h4⟩ := C19_ordinal_array_set L
  have hd : divCeil n 64 = (n + 63) / 64 := by
    simp only [divCeil]
    split <;> omega
  rw [arraySetS_eq L, hd, ← hS] at e
  cases e
  have key (s : OrdinalArraySet) (m : P 0 → Bool) (h : SetBehavesLike (OrdinalArraySet.api c (J 0) S) s m) :
      SetBehavesLike (textSet c J S sets (.con "OrdinalArraySet")) (arraySetVal s) m fun _ v =>
        setFn c J S sets (.con "OrdinalArraySet") "clone" [.ref v] = .ok v :=
    behaves_enc (textArraySet_contains L.size) (textArraySet_insert L.size)
      (fun m s _ => by rw [setFn, setCall, arraySet_clone (h := []) 5]; rfl) h
  refine ⟨⟨arraySetVal s, ?_, ?_, key s _ h3⟩, fun xs => ?_⟩
  · rw [setFn, setCall, arraySet_new (h := []) 3, h1]; rfl
  · rw [setFn, setCall, arraySet_default (h := []) 5, h2]; rfl
  · obtain ⟨s, h1, h2⟩ := h4 xs
    refine ⟨arraySetVal s, ?_, key s _ h2⟩
    rw [setFn, setCall, arraySet_fromIter (h := []) 0 xs L.size, h1]; rfl

example := C101_ordinal_array_set debug64 (twoImpls (u8Impl debug64) boolImpl) 4 (u8_lawful debug64).1 (by decide)

omit [DecidableEq (P 0)] in
/-- C101 for `OrdinalArraySet` with any other number of words: rejected at compile time, except `default()` and `clone()`. -/
theorem C101_wrong_S (L : Lawful c (J 0) n) (hS : S ≠ (n + 63) / 64) : SetSources fun prog =>
    setFn c J S prog (.con "OrdinalArraySet") "new" [] = .error .compileError ∧
    (∀ xs : List (P 0), setFn c J S prog (.con "OrdinalArraySet") "from_iter" [.arr (xs.map (.usr 0 ·))] = .error .compileError) ∧
    ∀ (s : OrdinalArraySet) (x : P 0),
      (textSet c J S prog (.con "OrdinalArraySet")).contains (arraySetVal s) x = .error .compileError ∧
      (textSet c J S prog (.con "OrdinalArraySet")).insert (arraySetVal s) x = .error .compileError := by
  refine .of ?_
  have hd : divCeil n 64 = (n + 63) / 64 := by
    simp only [divCeil]
    split <;> omega
  obtain ⟨h1, h2, h3, h4, -⟩ := C19_wrong_S (c := c) L S (by rw [arraySetS_eq L, hd]; exact fun e => hS (by injection e with e; exact e.symm))
  refine ⟨?_, fun xs => ?_, fun s x => ⟨(textArraySet_contains L.size s x).trans (h3 s x), ?_⟩⟩
  · rw [setFn, setCall, arraySet_new (h := []) 3, h1]; rfl
  · rw [setFn, setCall, arraySet_fromIter (h := []) 0 xs L.size, h2]; rfl
  · refine (textArraySet_insert L.size s x).trans ?_
    show _ <$> OrdinalArraySet.insert c (J 0) S s x = _
    rw [h4]; rfl

example := C101_wrong_S debug64 (twoImpls (u8Impl debug64) boolImpl) 3 (u8_lawful debug64).1 (by decide)

/-- C101 for `OrdinalSet64` with at most 64 values. -/
theorem C101_ordinal_set64 (L : Lawful c (J 0) n) (h64 : n ≤ 64) : SetSources fun prog =>
    let set (v : Val P) (m : P 0 → Bool) := SetBehavesLike (textSet c J S prog (.con "OrdinalSet64")) v m fun m v =>
      setFn c J S prog (.con "OrdinalSet64") "clone" [.ref v] = .ok v ∧
      ∃ it, setFn c J S prog (.con "OrdinalSet64") "iter" [.ref v] = .ok it ∧
        BehavesLike (textIter c J S prog (.con "Iter64")) it (elements (J 0) n m) fun rest it =>
          setFn c J S prog (.con "Iter64") "len" [.ref it] = .ok (.uint .size rest.length) ∧
          setFn c J S prog (.con "Iter64") "size_hint" [.ref it] = .ok (hintVal (rest.length, some rest.length)) ∧
          setFn c J S prog (.con "Iter64") "clone" [.ref it] = .ok it
    (∃ v, setFn c J S prog (.con "OrdinalSet64") "new" [] = .ok v ∧
      setFn c J S prog (.con "OrdinalSet64") "default" [] = .ok v ∧ set v fun _ => false) ∧
    (∀ xs : List (P 0), ∃ v, setFn c J S prog (.con "OrdinalSet64") "from_iter" [.arr (xs.map (.usr 0 ·))] = .ok v ∧
      set v fun x => decide (x ∈ xs)) ∧
    (n < 64 → ∃ v, setFn c J S prog (.con "OrdinalSet64") "all" [] = .ok v ∧ set v fun _ => true) := by
  refine .of ?_
  have key (s : OrdinalSet64) (m : P 0 → Bool) (h : OrdinalSet64.View (J 0) n m s) :
      SetBehavesLike (textSet c J S sets (.con "OrdinalSet64")) (set64Val s) m fun m v =>
        setFn c J S sets (.con "OrdinalSet64") "clone" [.ref v] = .ok v ∧
        ∃ it, setFn c J S sets (.con "OrdinalSet64") "iter" [.ref v] = .ok it ∧
          BehavesLike (textIter c J S sets (.con "Iter64")) it (elements (J 0) n m) fun rest it =>
            setFn c J S sets (.con "Iter64") "len" [.ref it] = .ok (.uint .size rest.length) ∧
            setFn c J S sets (.con "Iter64") "size_hint" [.ref it] = .ok (hintVal (rest.length, some rest.length)) ∧
            setFn c J S sets (.con "Iter64") "clone" [.ref it] = .ok it := by
    refine behaves_enc textSet64_contains textSet64_insert ?_ (OrdinalSet64.behaves L h64 h)
    intro m s hm
    refine ⟨by rw [setFn, setCall, set64_clone (h := []) 5]; rfl, iter64Val s, ?_, ?_⟩
    · rw [setFn, setCall, set64_iter (h := []) 4, OrdinalSet64.iter, OrdinalSet64.assert64_ok L h64]; rfl
    · refine iterBehaves_enc (Inv := fun _ => True) (fun s d _ => textIter64_step s d) (fun _ _ _ _ _ => trivial) trivial ?_
        (Iter64.behaves L h64 (Iter64.view_of_set hm))
      intro l it hv
      have := Iter64.len_view L h64 hv
      refine ⟨?_, ?_, ?_⟩
      · rw [setFn, setCall, iter64_len (h := []) 5, this]; rfl
      · rw [setFn, setCall, iter64_sizeHint (h := []) 4, Iter64.sizeHint, this]; rfl
      · rw [setFn, setCall, iter64_clone (h := []) 5]; rfl
  refine ⟨?_, fun xs => ?_, fun hlt => ?_⟩
  · obtain ⟨s, h1, h2⟩ := OrdinalSet64.new_view L h64
    refine ⟨set64Val s, ?_, ?_, key s _ h2⟩
    · rw [setFn, setCall, set64_new (h := []) 4, h1]; rfl
    · rw [setFn, setCall, set64_default (h := []) 3, h1]; rfl
  · obtain ⟨s, h1, h2⟩ := OrdinalSet64.fromIter_view L h64 xs
    refine ⟨set64Val s, ?_, key s _ h2⟩
    rw [setFn, setCall, set64_fromIter (h := []) 3, h1]; rfl
  · obtain ⟨s, h1, h2⟩ := OrdinalSet64.all_view L hlt
    refine ⟨set64Val s, ?_, key s _ h2⟩
    rw [setFn, setCall, set64_all (h := []) 4, h1]; rfl

example := C101_ordinal_set64 release32 (twoImpls orderingImpl boolImpl) 1 (ordering_lawful release32).1 (by decide)

omit [DecidableEq (P 0)] in
/-- C101, the findings C23 and C25 in the text, and the rejection of more than 64 values (C20). -/
theorem C101_findings : SetSources fun prog =>
    (Lawful c (J 0) 64 → setFn c J S prog (.con "OrdinalSet64") "all" [] =
      if c.overflowChecks then .error .panic else setFn c J S prog (.con "OrdinalSet64") "new" []) ∧
    (Lawful c (J 0) 0 → c.debugAssertions = true → ∃ v, setFn c J S prog (.con "OrdinalSet") "new" [] = .ok v ∧
      setFn c J S prog (.con "OrdinalSet") "iter" [.ref v] = .error .panic) ∧
    (Lawful c (J 0) n → 64 < n → setFn c J S prog (.con "OrdinalSet64") "new" [] = .error .compileError ∧
      setFn c J S prog (.con "OrdinalSet64") "all" [] = .error .compileError) := by
  refine .of ⟨fun L => ?_, fun L hd => ?_, fun L h => ?_⟩
  · have hn : OrdinalSet64.new (J 0) = .ok 0 := by
      rw [OrdinalSet64.new, OrdinalSet64.assert64_ok L (Nat.le_refl _)]; rfl
    rw [setFn, setCall, set64_all (h := []) 4, C23_exact_64 L, setFn, setCall, set64_new (h := []) 4, hn]
    cases c.overflowChecks <;> rfl
  · obtain ⟨s, h1, h2⟩ := C25_false L hd
    refine ⟨setVal s, ?_, ?_⟩
    · rw [setFn, setCall, set_new (h := []) 4, h1]; rfl
    · rw [setFn, setCall, set_iter (h := []) 1 s L.size, h2]; rfl
  · obtain ⟨e1, e2, -⟩ := C20_too_large L h
    refine ⟨?_, ?_⟩
    · rw [setFn, setCall, set64_new (h := []) 4, e1]; rfl
    · rw [setFn, setCall, set64_all (h := []) 4, e2]; rfl

/-- The first part with `[bool; 6]`, the second with `Infallible`, the third with `u8`. -/
example := (C101_findings (n := 0) release32 (twoImpls (arrayImpl release32 6 boolImpl) boolImpl) 1).imp fun _ h =>
  And.imp id (fun h => h.1 (bool6_lawful release32)) h
example := (C101_findings (n := 0) debug64 (twoImpls infallibleImpl boolImpl) 1).imp fun _ h =>
  And.imp id (fun h => h.2.1 (infallible_lawful debug64).1 rfl) h
example := (C101_findings debug64 (twoImpls (u8Impl debug64) boolImpl) 1).imp fun _ h =>
  And.imp id (fun h => h.2.2 (u8_lawful debug64).1 (by decide)) h

variable {h : Heap P} {a : Nat} {ps : List Proj} {m : Nat}

omit [DecidableEq (P 0)]

/-- C101: the text and the model compute the same with every impl, lawful or not, including panics, compile errors and what
is in memory afterwards: `all_values` and `OrdinalValues`. -/
theorem C101_agrees_values : SetSources fun prog =>
    setCall c J S prog (.par 0) "all_values" [] h = (fun s => (valuesVal s, h)) <$> OrdinalValues.new (J 0) ∧
    ∀ s : OrdinalValues,
      (Place h a ps (valuesVal s) →
        setCall c J S prog (.con "OrdinalValues") "next" [.mref a ps] h =
          (fun r => (optVal r.1, put h a ps (valuesVal r.2))) <$> OrdinalValues.next (J 0) s ∧
        setCall c J S prog (.con "OrdinalValues") "next_back" [.mref a ps] h =
          (fun r => (optVal r.1, put h a ps (valuesVal r.2))) <$> OrdinalValues.nextBack (J 0) s) ∧
      setCall c J S prog (.con "OrdinalValues") "size_hint" [.ref (valuesVal s)] h = .ok (hintVal s.sizeHint, h) ∧
      setCall c J S prog (.con "OrdinalValues") "len" [.ref (valuesVal s)] h = .ok (.uint .size s.len, h) ∧
      setCall c J S prog (.con "OrdinalValues") "count" [valuesVal s] h = .ok (.uint .size s.count, h) ∧
      setCall c J S prog (.con "OrdinalValues") "last" [valuesVal s] h =
        (fun o => (optVal o, h)) <$> OrdinalValues.last (J 0) s ∧
      setCall c J S prog (.con "OrdinalValues") "clone" [.ref (valuesVal s)] h = .ok (valuesVal s.clone, h) :=
  .of ⟨all_values 4, fun s => ⟨fun hp => ⟨values_next 5 hp, values_nextBack 5 hp⟩, values_sizeHint 6 s, values_len 6 s,
    values_count 6 s, values_last 4 s, values_clone 5 s⟩⟩

/-- C101, the text and the model: `OrdinalSet` and its iterator. -/
theorem C101_agrees_set (hs : (J 0).size = .ok m) : SetSources fun prog =>
    setCall c J S prog (.con "OrdinalSet") "new" [] h = (fun s => (setVal s, h)) <$> OrdinalSet.new (J 0) ∧
    setCall c J S prog (.con "OrdinalSet") "default" [] h = (fun s => (setVal s, h)) <$> OrdinalSet.default (J 0) ∧
    (∀ xs : List (P 0), setCall c J S prog (.con "OrdinalSet") "from_iter" [.arr (xs.map (.usr 0 ·))] h =
      (fun s => (setVal s, h)) <$> OrdinalSet.fromIter c (J 0) xs) ∧
    (∀ (s : OrdinalSet) (x : P 0), setCall c J S prog (.con "OrdinalSet") "contains" [.ref (setVal s), .ref (.usr 0 x)] h =
      (fun b => (.bool b, h)) <$> OrdinalSet.contains c (J 0) s x) ∧
    (∀ (s : OrdinalSet) (x : P 0), Place h a ps (setVal s) →
      setCall c J S prog (.con "OrdinalSet") "insert" [.mref a ps, .usr 0 x] h =
        (fun r => (.bool r.1, put h a ps (setVal r.2))) <$> OrdinalSet.insert c (J 0) s x) ∧
    (∀ s : OrdinalSet, setCall c J S prog (.con "OrdinalSet") "iter" [.ref (setVal s)] h =
      (fun s => (setIterVal s, h)) <$> OrdinalSet.iter c (J 0) s) ∧
    (∀ s : OrdinalSet, setCall c J S prog (.con "OrdinalSet") "clone" [.ref (setVal s)] h = .ok (setVal s.clone, h)) ∧
    (∀ s : SetIter, Place h a ps (setIterVal s) → s.iter.len ≤ c.M →
      setCall c J S prog (.con "Iter") "next" [.mref a ps] h =
        (fun r => (optVal r.1, put h a ps (setIterVal r.2))) <$> SetIter.next c (J 0) s ∧
      setCall c J S prog (.con "Iter") "next_back" [.mref a ps] h =
        (fun r => (optVal r.1, put h a ps (setIterVal r.2))) <$> SetIter.nextBack c (J 0) s) ∧
    (∀ s : SetIter, setCall c J S prog (.con "Iter") "size_hint" [.ref (setIterVal s)] h = .ok (hintVal s.sizeHint, h)) ∧
    (∀ s : SetIter, setCall c J S prog (.con "Iter") "clone" [.ref (setIterVal s)] h = .ok (setIterVal s.clone, h)) :=
  .of ⟨set_new 4, set_default 3, fun xs => set_fromIter 0 xs hs, fun s x => set_contains 2 s x hs,
    fun _ x hp => set_insert 1 hp x hs, fun s => set_iter 1 s hs, fun s => set_clone 5 s,
    fun _ hp hl => ⟨setIter_next 4 hp hl, setIter_nextBack 4 hp hl⟩, setIter_sizeHint 5, setIter_clone 4⟩

/-- C101, the text and the model: `OrdinalArraySet`. -/
theorem C101_agrees_array_set (hs : (J 0).size = .ok m) : SetSources fun prog =>
    setCall c J S prog (.con "OrdinalArraySet") "new" [] h =
      (fun s => (arraySetVal s, h)) <$> OrdinalArraySet.new (J 0) S ∧
    setCall c J S prog (.con "OrdinalArraySet") "default" [] h =
      (fun s => (arraySetVal s, h)) <$> OrdinalArraySet.default S ∧
    (∀ xs : List (P 0), setCall c J S prog (.con "OrdinalArraySet") "from_iter" [.arr (xs.map (.usr 0 ·))] h =
      (fun s => (arraySetVal s, h)) <$> OrdinalArraySet.fromIter c (J 0) S xs) ∧
    (∀ (s : OrdinalArraySet) (x : P 0),
      setCall c J S prog (.con "OrdinalArraySet") "contains" [.ref (arraySetVal s), .ref (.usr 0 x)] h =
        (fun b => (.bool b, h)) <$> OrdinalArraySet.contains c (J 0) S s x) ∧
    (∀ (s : OrdinalArraySet) (x : P 0), Place h a ps (arraySetVal s) →
      setCall c J S prog (.con "OrdinalArraySet") "insert" [.mref a ps, .usr 0 x] h =
        (fun r => (.bool r.1, put h a ps (arraySetVal r.2))) <$> OrdinalArraySet.insert c (J 0) S s x) ∧
    (∀ s : OrdinalArraySet, setCall c J S prog (.con "OrdinalArraySet") "clone" [.ref (arraySetVal s)] h =
      .ok (arraySetVal s.clone, h)) :=
  .of ⟨arraySet_new 3, arraySet_default 5, fun xs => arraySet_fromIter 0 xs hs, fun s x => arraySet_contains 2 s x hs,
    fun _ x hp => arraySet_insert 1 hp x hs, arraySet_clone 5⟩

/-- C101, the text and the model: `OrdinalSet64` and its iterator. -/
theorem C101_agrees_set64 : SetSources fun prog =>
    setCall c J S prog (.con "OrdinalSet64") "new" [] h = (fun s => (set64Val s, h)) <$> OrdinalSet64.new (J 0) ∧
    setCall c J S prog (.con "OrdinalSet64") "default" [] h = (fun s => (set64Val s, h)) <$> OrdinalSet64.new (J 0) ∧
    setCall c J S prog (.con "OrdinalSet64") "all" [] h = (fun s => (set64Val s, h)) <$> OrdinalSet64.all c (J 0) ∧
    (∀ xs : List (P 0), setCall c J S prog (.con "OrdinalSet64") "from_iter" [.arr (xs.map (.usr 0 ·))] h =
      (fun s => (set64Val s, h)) <$> OrdinalSet64.fromIter c (J 0) xs) ∧
    (∀ (s : OrdinalSet64) (x : P 0),
      setCall c J S prog (.con "OrdinalSet64") "contains" [.ref (set64Val s), .ref (.usr 0 x)] h =
        (fun b => (.bool b, h)) <$> OrdinalSet64.contains c (J 0) s x) ∧
    (∀ (s : OrdinalSet64) (x : P 0), Place h a ps (set64Val s) →
      setCall c J S prog (.con "OrdinalSet64") "insert" [.mref a ps, .usr 0 x] h =
        (fun r => (.bool r.1, put h a ps (set64Val r.2))) <$> OrdinalSet64.insert c (J 0) s x) ∧
    (∀ s : OrdinalSet64, setCall c J S prog (.con "OrdinalSet64") "iter" [.ref (set64Val s)] h =
      (fun s => (iter64Val s, h)) <$> OrdinalSet64.iter (J 0) s) ∧
    (∀ s : OrdinalSet64, setCall c J S prog (.con "OrdinalSet64") "clone" [.ref (set64Val s)] h =
      .ok (set64Val s.clone, h)) ∧
    ∀ s : Iter64,
      (Place h a ps (iter64Val s) →
        setCall c J S prog (.con "Iter64") "next" [.mref a ps] h =
          (fun r => (optVal r.1, put h a ps (iter64Val r.2))) <$> Iter64.next c (J 0) s ∧
        setCall c J S prog (.con "Iter64") "next_back" [.mref a ps] h =
          (fun r => (optVal r.1, put h a ps (iter64Val r.2))) <$> Iter64.nextBack c (J 0) s) ∧
      setCall c J S prog (.con "Iter64") "len" [.ref (iter64Val s)] h = .ok (.uint .size s.len, h) ∧
      setCall c J S prog (.con "Iter64") "size_hint" [.ref (iter64Val s)] h = .ok (hintVal s.sizeHint, h) ∧
      setCall c J S prog (.con "Iter64") "clone" [.ref (iter64Val s)] h = .ok (iter64Val s.clone, h) :=
  .of ⟨set64_new 4, set64_default 3, set64_all 4, set64_fromIter 3, set64_contains 4, fun _ x hp => set64_insert 3 hp x,
    set64_iter 4, set64_clone 5, fun s => ⟨fun hp => ⟨iter64_next 5 hp, iter64_nextBack 5 hp⟩, iter64_len 5 s,
      iter64_sizeHint 4 s, iter64_clone 5 s⟩⟩

/-- An impl that breaks the contract, and a set in a field of a struct in the third variable. -/
example := C101_agrees_set release32 (twoImpls (α := Nat) (β := Nat) ⟨.ok 7, fun _ => .error .panic, fun _ => .ok none⟩
    ⟨.error .compileError, fun a => .ok (a + 100), fun i => .ok (some i)⟩) 5
  (h := [.lit 4, .lit 5, .obj "Foo" [("x", .lit 8), ("set", setVal (.small 6))]]) (a := 2) (ps := [.field "set"]) rfl
example : Place (P := two Nat Nat) [.lit 4, .lit 5, .obj "Foo" [("x", .lit 8), ("set", setVal (.small 6))]] 2 [.field "set"]
    (setVal (.small 6)) := ⟨rfl, by simp⟩
example := C101_agrees_values debug64 (twoImpls orderingImpl boolImpl) 1 (h := [valuesVal ⟨0, 3⟩]) (a := 0) (ps := [])
example := C101_agrees_array_set debug64 (twoImpls orderingImpl boolImpl) 1 (h := [arraySetVal [5]]) (a := 0) (ps := []) rfl
example := C101_agrees_set64 debug64 (twoImpls orderingImpl boolImpl) 1 (h := [set64Val 5, iter64Val 5]) (a := 1) (ps := [])

end OrdinalMap.Props
