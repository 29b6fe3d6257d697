import Verif.Model.Format
import Verif.Lemmas.Debug
import Verif.Lemmas.Effect
/-! # The builders of `core::fmt` make the calls that the specification says -/

namespace OrdinalMap.Format
open OrdinalMap

variable {ω σ ι K V τ : Type}

/-! ## Order of calls -/

theorem tryThen_eq (x y : M ω Bool) : tryThen x y = andThen x y := by
  funext st
  show M.bind x _ st = _
  unfold M.bind andThen
  rcases x st with ⟨e | b, st'⟩
  · rfl
  · cases b <;> rfl

theorem andThen_okay (x : M ω Bool) : andThen x okay = x := by
  funext st
  unfold andThen
  split
  · rename_i h; rw [h]; rfl
  · rfl

theorem okay_andThen (x : M ω Bool) : andThen okay x = x := rfl

theorem andThen_assoc (x y z : M ω Bool) : andThen (andThen x y) z = andThen x (andThen y z) := by
  funext st
  simp only [andThen]
  rcases x st with ⟨e | b, st'⟩
  · rfl
  · cases b <;> rfl

theorem inOrder_append (xs ys : List (M ω Bool)) : inOrder (xs ++ ys) = andThen (inOrder xs) (inOrder ys) := by
  induction xs with
  | nil => rfl
  | cons x xs ih => simp only [List.cons_append, inOrder, ih, andThen_assoc]

theorem inOrder_one (x : M ω Bool) : inOrder [x] = x := andThen_okay x

theorem andThen_true (x : M ω Bool) : andThen x (M.of (.ok true)) = x := andThen_okay x

theorem bind_andThen (x : M ω Bool) (f : Bool → M ω Bool) (hf : f false = M.of (.ok false)) :
    (x >>= f) = andThen x (f true) := by
  funext st
  show M.bind x f st = _
  unfold andThen
  unfold M.bind
  rcases h : x st with ⟨e | b, st'⟩
  · rfl
  · cases b
    · exact congrFun hf st'
    · rfl

/-! ## The indenting writer -/

theorem padLoop_eq (w : Writer ω) (ls : List (List Char)) : ∀ st : ω × Bool,
    padLoop w ls st = inOrder ((indentPiece.go st.2 ls).map (passOn w)) st := by
  induction ls with
  | nil => intro st; rfl
  | cons l ls ih =>
    rintro ⟨st, nl⟩
    cases nl
    · simp only [padLoop, tryThen_eq, indentPiece.go, lead, Bool.false_eq_true, if_false, List.nil_append, List.map_cons,
        inOrder]
      simp only [andThen, padIndent, inner, passOn, Bool.false_eq_true, if_false, okay, M.of]
      show M.bind _ _ (st, false) = _
      simp only [M.bind, setNewline, andThen, inner]
      rcases w (.str (String.ofList l)) st with ⟨e | b, st'⟩
      · rfl
      · cases b
        · rfl
        · exact ih _
    · simp only [padLoop, tryThen_eq, indentPiece.go, lead, if_true, List.cons_append, List.nil_append, List.map_cons,
        inOrder]
      simp only [andThen, padIndent, inner, passOn, if_true]
      rcases w (.str "    ") st with ⟨e | b, st'⟩
      · rfl
      · cases b
        · rfl
        · dsimp only
          show M.bind _ _ (st', true) = _
          simp only [M.bind, setNewline, andThen, inner]
          rcases w (.str (String.ofList l)) st' with ⟨e | b, st''⟩
          · rfl
          · cases b
            · rfl
            · exact ih _

theorem padAdapter_eq (w : Writer ω) : padAdapter w = indented w := by
  funext p st
  cases p with
  | str s => exact padLoop_eq w _ st
  | char ch =>
    obtain ⟨st, nl⟩ := st
    cases nl
    · simp only [padAdapter, tryThen_eq, indented, indentPiece, lead, Bool.false_eq_true, if_false, List.nil_append,
        List.map_cons, List.map_nil, inOrder_one]
      rfl
    · simp only [padAdapter, tryThen_eq, indented, indentPiece, lead, if_true, List.cons_append, List.nil_append,
        List.map_cons, List.map_nil, inOrder]
      simp only [andThen, padIndent, inner, passOn, if_true]
      rcases w (.str "    ") st with ⟨e | b, st'⟩
      · rfl
      · cases b
        · rfl
        · dsimp only
          show M.bind _ _ (st', true) = _
          simp only [M.bind, setNewline, inner]
          rcases w (.char ch) st' with ⟨e | b, st''⟩
          · rfl
          · cases b <;> rfl

theorem wrap_fst (x : M (ω × Bool) Bool) : (do let r ← wrap true x; M.of (.ok r.1)) = indent x := by
  funext st
  show M.bind _ _ st = _
  simp only [M.bind, wrap, indent]
  rcases x (st, true) with ⟨e | b, st'⟩ <;> rfl

/-! ## `debug_list`, `debug_set` -/

/-- One item, with its separators. -/
def segment (w : Writer ω) (o : Options) (hf : Bool) (x : Show) : List (M ω Bool) :=
  if o.alternate then (if hf then [] else [w (.str "\n")]) ++ [indent (inOrder [x _ (indented w) o, indented w (.str ",\n")])]
  else (if hf then [w (.str ", ")] else []) ++ [x ω w o]

/-- The items, with their separators. -/
def segments (w : Writer ω) (o : Options) : Bool → List Show → List (M ω Bool)
  | _, [] => []
  | hf, x :: xs => segment w o hf x ++ segments w o true xs

theorem segments_true (w : Writer ω) (o : Options) (xs : List Show) : segments w o true xs =
    if o.alternate then xs.map fun x => indent (inOrder [x _ (indented w) o, indented w (.str ",\n")])
    else xs.flatMap fun x => [w (.str ", "), x ω w o] := by
  induction xs with
  | nil => cases o.alternate <;> rfl
  | cons x xs ih =>
    rw [segments, ih, segment]
    cases o.alternate <;> rfl

theorem segments_false (w : Writer ω) (o : Options) (xs : List Show) : segments w o false xs = itemSteps w o xs := by
  cases xs with
  | nil => unfold itemSteps; cases o.alternate <;> rfl
  | cons x xs =>
    rw [segments, segments_true, segment]
    unfold itemSteps
    cases o.alternate <;> rfl

theorem entry_eq (w : Writer ω) (o : Options) (hf : Bool) (x : Show) :
    Inner.entry w o ⟨true, hf⟩ x = (do let r ← inOrder (segment w o hf x); M.of (.ok ⟨r, true⟩)) := by
  unfold Inner.entry segment
  simp only [if_true, tryThen_eq, padAdapter_eq, wrap_fst]
  cases o.alternate <;> cases hf <;>
    simp [okay_andThen, inOrder, andThen_true]

theorem entry_false (w : Writer ω) (o : Options) (hf : Bool) (x : Show) :
    Inner.entry w o ⟨false, hf⟩ x = M.of (.ok ⟨false, true⟩) := rfl

variable {next : σ → R (Option ι × σ)} {view : List ι → σ → Prop}

theorem entriesLoop_false (hn : ∀ s l, view l s → ∃ s', next s = .ok (l.head?, s') ∧ view l.tail s') (w : Writer ω)
    (o : Options) (item : ι → Show) : ∀ (fuel : Nat) (l : List ι) (s : σ) (hf : Bool), view l s → l.length < fuel →
      ∃ hf', entriesLoop w o next item fuel s ⟨false, hf⟩ = M.of (.ok ⟨false, hf'⟩) := by
  intro fuel
  induction fuel with
  | zero => intro l s _ _ h; omega
  | succ fuel ih =>
    intro l s hf hv hl
    obtain ⟨s', h1, h2⟩ := hn s l hv
    cases l with
    | nil => exact ⟨hf, by simp only [entriesLoop, h1, M.ok_bind, List.head?_nil]⟩
    | cons x l =>
      obtain ⟨hf', h3⟩ := ih l s' true h2 (by simp at hl; omega)
      exact ⟨hf', by simp only [entriesLoop, h1, M.ok_bind, List.head?_cons, entry_false]; exact h3⟩

theorem entriesLoop_true (hn : ∀ s l, view l s → ∃ s', next s = .ok (l.head?, s') ∧ view l.tail s') (w : Writer ω)
    (o : Options) (item : ι → Show) (f : Inner → M ω Bool) (y : M ω Bool) (hy : ∀ hf, f ⟨true, hf⟩ = y)
    (hx : ∀ hf, f ⟨false, hf⟩ = M.of (.ok false)) :
    ∀ (fuel : Nat) (l : List ι) (s : σ) (hf : Bool), view l s → l.length < fuel →
      (entriesLoop w o next item fuel s ⟨true, hf⟩ >>= f) = andThen (inOrder (segments w o hf (l.map item))) y := by
  intro fuel
  induction fuel with
  | zero => intro l s _ _ h; omega
  | succ fuel ih =>
    intro l s hf hv hl
    obtain ⟨s', h1, h2⟩ := hn s l hv
    cases l with
    | nil => simp only [entriesLoop, h1, M.ok_bind, List.head?_nil, hy]; rfl
    | cons x l =>
      have hl' : l.length < fuel := by simp at hl; omega
      obtain ⟨hf', h3⟩ := entriesLoop_false hn w o item fuel l s' true h2 hl'
      simp only [entriesLoop, h1, M.ok_bind, List.head?_cons, entry_eq, M.bind_assoc']
      rw [bind_andThen _ _ (by rw [h3, M.ok_bind, hx]), ih l s' true h2 hl', List.map_cons, segments, inOrder_append, andThen_assoc]

theorem debugSeq_show (opn cls : String) (view : List ι → σ → Prop)
    (hn : ∀ s l, view l s → ∃ s', next s = .ok (l.head?, s') ∧ view l.tail s') (item : ι → Show)
    {fuel : Nat} {l : List ι} {s : σ} (hv : view l s) (hl : l.length < fuel) :
    debugSeq opn cls next item (.ok (fuel, s)) = seqShow opn cls (l.map item) := by
  funext ω w o
  obtain ⟨hf', h3⟩ := entriesLoop_false hn w o item fuel l s false hv hl
  have h := entriesLoop_true hn w o item (fun b => if b.result then w (.str cls) else .of (.ok false)) (w (.str cls))
    (fun _ => rfl) (fun _ => rfl) fuel l s false hv hl
  simp only [segments_false] at h
  unfold debugSeq seqShow
  simp only [M.ok_bind]
  show (_ >>= fun r => _) = _
  rw [List.cons_append, inOrder, inOrder_append, inOrder_one, ← h]
  funext st
  show M.bind _ _ st = _
  unfold M.bind andThen
  rcases w (.str opn) st with ⟨e | b, st'⟩
  · rfl
  · cases b
    · dsimp only
      rw [h3]; rfl
    · rfl

/-! ## `debug_map` -/

theorem key_false (w : Writer ω) (o : Options) (hf hk nl : Bool) (k : Show) :
    MapBuilder.key w o ⟨false, hf, hk, nl⟩ k = M.of (.ok ⟨false, hf, hk, nl⟩) := rfl

theorem value_false (w : Writer ω) (o : Options) (hf hk nl : Bool) (v : Show) :
    MapBuilder.value w o ⟨false, hf, hk, nl⟩ v = M.of (.ok ⟨false, true, hk, nl⟩) := rfl

theorem key_plain (w : Writer ω) {o : Options} (ha : o.alternate = false) (hf nl : Bool) (k : Show) :
    MapBuilder.key w o ⟨true, hf, false, nl⟩ k =
      (andThen (if hf then w (.str ", ") else okay) (andThen (k ω w o) (w (.str ": "))) >>= fun r =>
        M.of (.ok ⟨r, hf, r, nl⟩)) := by
  unfold MapBuilder.key
  simp only [if_true, Bool.false_eq_true, if_false, ha, tryThen_eq]

theorem value_plain (w : Writer ω) {o : Options} (ha : o.alternate = false) (hf nl : Bool) (v : Show) :
    MapBuilder.value w o ⟨true, hf, true, nl⟩ v = (v ω w o >>= fun r => M.of (.ok ⟨r, true, !r, nl⟩)) := by
  unfold MapBuilder.value
  simp only [if_true, Bool.false_eq_true, if_false, ha, Bool.not_true]

theorem key_pretty (w : Writer ω) {o : Options} (ha : o.alternate = true) (hf nl : Bool) (k : Show) :
    MapBuilder.key w o ⟨true, hf, false, nl⟩ k =
      ((if hf then okay else w (.str "\n")) >>= fun b =>
        if b then wrap true (andThen (k _ (indented w) o) (indented w (.str ": "))) >>= fun r => M.of (.ok ⟨r.1, hf, r.1, r.2⟩)
        else M.of (.ok ⟨false, hf, false, nl⟩)) := by
  unfold MapBuilder.key
  simp only [if_true, Bool.false_eq_true, if_false, ha, tryThen_eq, padAdapter_eq]

theorem value_pretty (w : Writer ω) {o : Options} (ha : o.alternate = true) (hf nl : Bool) (v : Show) :
    MapBuilder.value w o ⟨true, hf, true, nl⟩ v =
      (wrap nl (andThen (v _ (indented w) o) (indented w (.str ",\n"))) >>= fun r => M.of (.ok ⟨r.1, true, !r.1, r.2⟩)) := by
  unfold MapBuilder.value
  simp only [if_true, Bool.false_eq_true, if_false, ha, Bool.not_true, tryThen_eq, padAdapter_eq]

/-- Two uses of one `PadAdapter`, one after the other. -/
theorem wrap_wrap (x y : M (ω × Bool) Bool) (f : Bool × Bool → M ω Bool) (g : Bool × Bool → M ω Bool) (z : M ω Bool)
    (h1 : ∀ nl, f (false, nl) = M.of (.ok false)) (h2 : ∀ nl, f (true, nl) = (wrap nl y >>= g))
    (h3 : ∀ nl, g (false, nl) = M.of (.ok false)) (h4 : ∀ nl, g (true, nl) = z) :
    (wrap true x >>= f) = andThen (indent (andThen x y)) z := by
  funext st
  show M.bind _ _ st = _
  simp only [M.bind, wrap, andThen, indent]
  rcases x (st, true) with ⟨e | b, st', nl⟩
  · rfl
  · cases b
    · exact congrFun (h1 _) _
    · dsimp only
      rw [h2]
      show M.bind _ _ st' = _
      simp only [M.bind, wrap]
      rcases y (st', nl) with ⟨e | b, st'', nl'⟩
      · rfl
      · cases b
        · exact congrFun (h3 _) _
        · exact congrFun (h4 _) _

/-- An entry: the key, and the value if the key was printed. -/
theorem mapEntry_eq (w : Writer ω) (o : Options) (hf nl : Bool) (key : K → Show) (value : V → Show) (p : K × V)
    (f : MapBuilder → M ω Bool) (y : M ω Bool) (hy : ∀ nl, f ⟨true, true, false, nl⟩ = y)
    (hx : ∀ hk nl, f ⟨false, true, hk, nl⟩ = M.of (.ok false)) :
    (MapBuilder.key w o ⟨true, hf, false, nl⟩ (key p.1) >>= fun b => b.value w o (value p.2) >>= f) =
      andThen (inOrder (segment w o hf (entryShow key value p))) y := by
  cases ha : o.alternate with
  | false =>
    simp only [key_plain w ha, M.bind_assoc', M.ok_bind]
    rw [bind_andThen _ _ (by rw [value_false, M.ok_bind, hx]), value_plain w ha, M.bind_assoc']
    simp only [M.ok_bind]
    rw [bind_andThen _ _ (by rw [hx])]
    simp only [Bool.not_true, hy]
    cases hf <;>
      simp [segment, ha, entryShow, inOrder, andThen_true, okay_andThen, andThen_assoc]
  | true =>
    simp only [key_pretty w ha, M.bind_assoc']
    rw [bind_andThen _ _ (by simp only [Bool.false_eq_true, if_false, M.ok_bind, value_false, hx])]
    simp only [if_true, M.bind_assoc', M.ok_bind]
    rw [wrap_wrap (y := andThen (value p.2 _ (indented w) o) (indented w (.str ",\n")))
      (g := fun r => f ⟨r.1, true, !r.1, r.2⟩) (z := y) (h1 := by intro nl; simp only [value_false, M.ok_bind, hx])
      (h2 := by intro nl; simp only [value_pretty w ha, M.bind_assoc', M.ok_bind]) (h3 := by intro nl; exact hx _ _)
      (h4 := by intro nl; exact hy _)]
    cases hf <;>
      simp [segment, ha, entryShow, inOrder, andThen_true, okay_andThen, andThen_assoc]

variable {nextP : σ → R (Option (K × V) × σ)} {viewP : List (K × V) → σ → Prop}

theorem mapEntriesLoop_false (hn : ∀ s l, viewP l s → ∃ s', nextP s = .ok (l.head?, s') ∧ viewP l.tail s') (w : Writer ω)
    (o : Options) (key : K → Show) (value : V → Show) : ∀ (fuel : Nat) (l : List (K × V)) (s : σ) (hf hk nl : Bool),
      viewP l s → l.length < fuel →
      ∃ hf', mapEntriesLoop w o nextP key value fuel s ⟨false, hf, hk, nl⟩ = M.of (.ok ⟨false, hf', hk, nl⟩) := by
  intro fuel
  induction fuel with
  | zero => intro l s _ _ _ _ h; omega
  | succ fuel ih =>
    intro l s hf hk nl hv hl
    obtain ⟨s', h1, h2⟩ := hn s l hv
    cases l with
    | nil => exact ⟨hf, by simp only [mapEntriesLoop, h1, M.ok_bind, List.head?_nil]⟩
    | cons x l =>
      obtain ⟨hf', h3⟩ := ih l s' true hk nl h2 (by simp at hl; omega)
      exact ⟨hf', by simp only [mapEntriesLoop, h1, M.ok_bind, List.head?_cons, key_false, value_false]; exact h3⟩

theorem mapEntriesLoop_true (hn : ∀ s l, viewP l s → ∃ s', nextP s = .ok (l.head?, s') ∧ viewP l.tail s') (w : Writer ω)
    (o : Options) (key : K → Show) (value : V → Show) (f : MapBuilder → M ω Bool) (y : M ω Bool)
    (hy : ∀ hf nl, f ⟨true, hf, false, nl⟩ = y) (hx : ∀ hf hk nl, f ⟨false, hf, hk, nl⟩ = M.of (.ok false)) :
    ∀ (fuel : Nat) (l : List (K × V)) (s : σ) (hf nl : Bool), viewP l s → l.length < fuel →
      (mapEntriesLoop w o nextP key value fuel s ⟨true, hf, false, nl⟩ >>= f) =
        andThen (inOrder (segments w o hf (l.map (entryShow key value)))) y := by
  intro fuel
  induction fuel with
  | zero => intro l s _ _ _ h; omega
  | succ fuel ih =>
    intro l s hf nl hv hl
    obtain ⟨s', h1, h2⟩ := hn s l hv
    cases l with
    | nil => simp only [mapEntriesLoop, h1, M.ok_bind, List.head?_nil, hy]; rfl
    | cons x l =>
      have hl' : l.length < fuel := by simp at hl; omega
      simp only [mapEntriesLoop, h1, M.ok_bind, List.head?_cons, M.bind_assoc']
      rw [mapEntry_eq w o hf nl key value x (fun b => mapEntriesLoop w o nextP key value fuel s' b >>= f)
        (andThen (inOrder (segments w o true (l.map (entryShow key value)))) y) (fun nl => ih l s' true nl h2 hl')
        (fun hk nl => by
          obtain ⟨hf', h3⟩ := mapEntriesLoop_false hn w o key value fuel l s' true hk nl h2 hl'
          rw [h3, M.ok_bind, hx])]
      rw [List.map_cons, segments, inOrder_append, andThen_assoc]

theorem debugMap_show (viewP : List (K × V) → σ → Prop)
    (hn : ∀ s l, viewP l s → ∃ s', nextP s = .ok (l.head?, s') ∧ viewP l.tail s') (key : K → Show) (value : V → Show)
    {fuel : Nat} {l : List (K × V)} {s : σ} (hv : viewP l s) (hl : l.length < fuel) :
    debugMap nextP key value (.ok (fuel, s)) = mapShow key value l := by
  funext ω w o
  have h := mapEntriesLoop_true hn w o key value
    (fun b => if b.result then if b.hasKey then .of (.error .panic) else w (.str "}") else .of (.ok false)) (w (.str "}"))
    (fun _ _ => rfl) (fun _ _ _ => rfl) fuel l s false true hv hl
  obtain ⟨hf', h3⟩ := mapEntriesLoop_false hn w o key value fuel l s false false true hv hl
  simp only [segments_false] at h
  unfold debugMap mapShow seqShow
  simp only [M.ok_bind]
  rw [List.cons_append, inOrder, inOrder_append, inOrder_one, ← h]
  rw [bind_andThen _ _ (by rw [h3]; rfl)]

/-! ## Pairs -/

theorem field_true (w : Writer ω) (o : Options) (i : Nat) (v : Show) : TupleBuilder.field w o ⟨true, i⟩ v =
    ((if o.alternate then andThen (if i = 0 then w (.str "(\n") else okay)
        (indent (andThen (v _ (indented w) o) (indented w (.str ",\n"))))
      else andThen (w (.str (if i = 0 then "(" else ", "))) (v ω w o)) >>= fun r => M.of (.ok ⟨r, i + 1⟩)) := by
  unfold TupleBuilder.field
  simp only [if_true, tryThen_eq, padAdapter_eq, wrap_fst]
  cases o.alternate <;> rfl

theorem field_false (w : Writer ω) (o : Options) (i : Nat) (v : Show) :
    TupleBuilder.field w o ⟨false, i⟩ v = M.of (.ok ⟨false, i + 1⟩) := rfl

theorem finish_false (w : Writer ω) (o : Options) (i : Nat) : TupleBuilder.finish w o ⟨false, i⟩ = M.of (.ok false) := by
  unfold TupleBuilder.finish
  split <;> rfl

theorem debugPair_show (key : K → Show) (value : V → Show) : debugPair key value = pairShow key value := by
  funext p ω w o
  unfold debugPair pairShow
  rw [bind_andThen _ _ (by simp only [field_false, M.ok_bind, finish_false]), field_true, M.bind_assoc']
  simp only [M.ok_bind]
  rw [bind_andThen _ _ (by simp only [field_false, M.ok_bind, finish_false]), field_true, M.bind_assoc']
  simp only [M.ok_bind]
  rw [bind_andThen _ _ (by rw [finish_false])]
  cases ha : o.alternate <;>
    simp [TupleBuilder.finish, tryThen_eq, inOrder, andThen_true, okay_andThen, andThen_assoc]

/-! ## Text -/

theorem textOf_append (ps qs : List Piece) : textOf (ps ++ qs) = textOf ps ++ textOf qs := by
  induction ps with
  | nil => simp [textOf]
  | cons p ps ih => simp only [List.cons_append, textOf, ih, String.append_assoc]

/-- Whether a text, after which something follows, ends a line. -/
def lineEnd (nl : Bool) (cs : List Char) : Bool :=
  match cs.getLast? with
  | none => nl
  | some ch => ch == '\n'

theorem lineEnd_cons (nl : Bool) (ch : Char) (cs : List Char) : lineEnd nl (ch :: cs) = lineEnd (ch == '\n') cs := by
  unfold lineEnd
  cases cs with
  | nil => rfl
  | cons d cs => rw [List.getLast?_cons_cons]; cases h : (d :: cs).getLast? <;> simp_all

theorem padChars_append (a b : List Char) : ∀ nl, padChars nl (a ++ b) = padChars nl a ++ padChars (lineEnd nl a) b := by
  induction a with
  | nil => intro nl; rfl
  | cons ch a ih => intro nl; simp only [List.cons_append, padChars, ih, List.append_assoc, lineEnd_cons]

theorem lineEnd_append (a b : List Char) : ∀ nl, lineEnd nl (a ++ b) = lineEnd (lineEnd nl a) b := by
  induction a with
  | nil => intro nl; rfl
  | cons ch a ih => intro nl; simp only [List.cons_append, lineEnd_cons, ih]

theorem splitLines_ne (cs : List Char) : ∀ l ∈ splitLines cs, l ≠ [] := by
  induction cs with
  | nil => intro l h; simp [splitLines] at h
  | cons ch cs ih =>
    intro l h
    unfold splitLines at h
    split at h
    · rcases List.mem_cons.1 h with rfl | h
      · simp
      · exact ih l h
    · split at h
      · simp at h; subst h; simp
      · rename_i l' ls e
        rcases List.mem_cons.1 h with rfl | h
        · simp
        · exact ih l (by rw [e]; exact List.mem_cons_of_mem _ h)

theorem splitLines_nil {cs : List Char} (h : splitLines cs = []) : cs = [] := by
  cases cs with
  | nil => rfl
  | cons ch cs =>
    unfold splitLines at h
    split at h
    · simp at h
    · split at h <;> simp at h

/-- Where the pieces leave an indenting writer. -/
def after (nl : Bool) : List (Piece × Bool) → Bool
  | [] => nl
  | p :: ps => after p.2 ps

theorem after_append (ps qs : List (Piece × Bool)) : ∀ nl, after nl (ps ++ qs) = after (after nl ps) qs := by
  induction ps with
  | nil => intro nl; rfl
  | cons p ps ih => intro nl; exact ih _

theorem after_lead (nl b : Bool) (p : Piece) (ps : List (Piece × Bool)) : after nl (lead nl ++ (p, b) :: ps) = after b ps := by
  cases nl <;> rfl

/-- The text of the pieces. -/
def chars (ps : List (Piece × Bool)) : List Char := (textOf (ps.map (·.1))).toList

theorem chars_append (ps qs : List (Piece × Bool)) : chars (ps ++ qs) = chars ps ++ chars qs := by
  simp [chars, textOf_append]

theorem chars_cons (p : Piece × Bool) (ps : List (Piece × Bool)) : chars (p :: ps) = p.1.text.toList ++ chars ps := by
  simp [chars, textOf]

theorem chars_nil : chars [] = [] := rfl

theorem chars_lead (nl : Bool) : chars (lead nl) = if nl then [' ', ' ', ' ', ' '] else [] := by cases nl <;> rfl

theorem go_spec (cs : List Char) : ∀ nl, chars (indentPiece.go nl (splitLines cs)) = padChars nl cs ∧
    after nl (indentPiece.go nl (splitLines cs)) = lineEnd nl cs := by
  induction cs with
  | nil => intro nl; exact ⟨rfl, rfl⟩
  | cons ch cs ih =>
    intro nl
    unfold splitLines
    split
    · rename_i e
      subst e
      obtain ⟨h1, h2⟩ := ih true
      constructor
      · simp only [indentPiece.go, chars_append, chars_cons, chars_lead, padChars, Piece.text, String.toList_ofList]
        have : ([('\n' : Char)].getLast? == some '\n') = true := rfl
        rw [this, h1]; rfl
      · rw [indentPiece.go, after_lead, lineEnd_cons]
        exact h2
    · rename_i hc
      have hc' : (ch == '\n') = false := by simpa using hc
      split
      · rename_i e
        obtain rfl := splitLines_nil e
        constructor
        · simp [indentPiece.go, chars_append, chars_cons, chars_lead, padChars, Piece.text, chars_nil]
        · rw [indentPiece.go, after_lead, lineEnd_cons]
          simp [indentPiece.go, after, lineEnd, hc']
      · rename_i l ls e
        obtain ⟨h1, h2⟩ := ih false
        rw [e] at h1 h2
        have hl : l ≠ [] := splitLines_ne cs l (by rw [e]; simp)
        have hg : (ch :: l).getLast? = l.getLast? := by
          cases l with
          | nil => exact absurd rfl hl
          | cons d l => rw [List.getLast?_cons_cons]
        constructor
        · simp only [indentPiece.go, chars_append, chars_cons, chars_lead, padChars, Piece.text, String.toList_ofList, hg,
            hc', ← h1]
          simp
        · rw [indentPiece.go, after_lead, lineEnd_cons, hg, hc', ← h2, indentPiece.go, after_lead]

theorem indentPiece_spec (nl : Bool) (p : Piece) : chars (indentPiece nl p) = padChars nl p.text.toList ∧
    after nl (indentPiece nl p) = lineEnd nl p.text.toList := by
  cases p with
  | str s => exact go_spec s.toList nl
  | char ch =>
    constructor
    · simp [indentPiece, chars_append, chars_cons, chars_lead, padChars, Piece.text, chars_nil]
    · rw [indentPiece, after_lead]; simp [after, lineEnd, Piece.text]

/-- What an indenting writer passes on for several calls. -/
def padAll : Bool → List Piece → List (Piece × Bool)
  | _, [] => []
  | nl, p :: ps => indentPiece nl p ++ padAll (after nl (indentPiece nl p)) ps

theorem padAll_chars (ps : List Piece) : ∀ nl, chars (padAll nl ps) = padChars nl (textOf ps).toList := by
  induction ps with
  | nil => intro nl; rfl
  | cons p ps ih =>
    intro nl
    obtain ⟨h1, h2⟩ := indentPiece_spec nl p
    simp only [padAll, chars_append, h1, h2, ih, textOf, String.toList_append, padChars_append]

theorem passOn_after (w : Writer ω) (qs : List (Piece × Bool)) : ∀ (st st' : ω) (nl nl' : Bool),
    inOrder (qs.map (passOn w)) (st, nl) = (.ok true, st', nl') → nl' = after nl qs := by
  induction qs with
  | nil => intro st st' nl nl' h; cases h; rfl
  | cons q qs ih =>
    intro st st' nl nl' h
    simp only [List.map_cons, inOrder, andThen, passOn] at h
    rcases hw : w q.1 st with ⟨e | b, st1⟩
    · simp [hw] at h
    · cases b
      · simp [hw] at h
      · rw [hw] at h
        exact ih _ _ _ _ h

theorem emitAll_indented (w : Writer ω) (ps : List Piece) : ∀ (st : ω) (nl : Bool),
    emitAll (indented w) ps (st, nl) = inOrder ((padAll nl ps).map (passOn w)) (st, nl) := by
  induction ps with
  | nil => intro st nl; rfl
  | cons p ps ih =>
    intro st nl
    simp only [padAll, List.map_append, inOrder_append]
    show andThen (indented w p) (emitAll (indented w) ps) (st, nl) = _
    simp only [andThen, indented]
    rcases h : inOrder ((indentPiece nl p).map (passOn w)) (st, nl) with ⟨e | b, st', nl'⟩
    · rfl
    · cases b
      · rfl
      · rw [passOn_after w _ _ _ _ _ h]
        exact ih _ _

theorem inOrder_passOn (w : Writer ω) (qs : List (Piece × Bool)) : ∀ (st : ω) (nl : Bool),
    (inOrder (qs.map (passOn w)) (st, nl)).1 = (emitAll w (qs.map (·.1)) st).1 ∧
    (inOrder (qs.map (passOn w)) (st, nl)).2.1 = (emitAll w (qs.map (·.1)) st).2 := by
  induction qs with
  | nil => intro st nl; exact ⟨rfl, rfl⟩
  | cons q qs ih =>
    intro st nl
    simp only [emitAll, List.map_cons, inOrder, andThen, passOn]
    rcases w q.1 st with ⟨e | b, st1⟩
    · exact ⟨rfl, rfl⟩
    · cases b
      · exact ⟨rfl, rfl⟩
      · exact ih _ _

theorem indent_emitAll (w : Writer ω) (ps : List Piece) :
    indent (emitAll (indented w) ps) = emitAll w ((padAll true ps).map (·.1)) := by
  funext st
  have h := inOrder_passOn w (padAll true ps) st true
  simp only [indent, emitAll_indented]
  exact Prod.ext h.1 h.2

/-- Code that writes the text in pieces, to any writer. -/
def Emits (x : (ω : Type) → Writer ω → M ω Bool) (t : String) : Prop :=
  ∃ ps, textOf ps = t ∧ ∀ (ω : Type) (w : Writer ω), x ω w = emitAll w ps

theorem Emits.piece (s : String) : Emits (fun _ w => w (.str s)) s :=
  ⟨[.str s], by simp [textOf, Piece.text], fun _ w => (inOrder_one _).symm⟩

theorem Emits.nothing : Emits (fun _ _ => inOrder []) "" := ⟨[], rfl, fun _ _ => rfl⟩

theorem Emits.andThen {x y : (ω : Type) → Writer ω → M ω Bool} {s t : String} (hx : Emits x s) (hy : Emits y t) :
    Emits (fun ω w => Format.andThen (x ω w) (y ω w)) (s ++ t) := by
  obtain ⟨ps, rfl, h1⟩ := hx
  obtain ⟨qs, rfl, h2⟩ := hy
  refine ⟨ps ++ qs, textOf_append _ _, fun ω w => ?_⟩
  simp only [h1, h2, emitAll, List.map_append, inOrder_append]

theorem Emits.indent {x : (ω : Type) → Writer ω → M ω Bool} {t : String} (hx : Emits x t) :
    Emits (fun _ w => Format.indent (x _ (indented w))) (pad t) := by
  obtain ⟨ps, rfl, h⟩ := hx
  refine ⟨(padAll true ps).map (·.1), ?_, fun ω w => ?_⟩
  · have h := padAll_chars ps true
    unfold chars at h
    rw [pad, ← h, String.ofList_toList]
  · dsimp only
    rw [h, indent_emitAll]

/-- The separators and items after the first. -/
theorem Emits.segments {o : Options} {item : ι → Show} {text : ι → String} (l : List ι)
    (h : ∀ x ∈ l, Writes (item x) o (text x)) :
    Emits (fun _ w => inOrder (Format.segments w o true (l.map item)))
      (if o.alternate then linesText (l.map text) else match l with | [] => "" | _ => ", " ++ commaText (l.map text)) := by
  induction l with
  | nil => cases o.alternate <;> exact Emits.nothing
  | cons x l ih =>
    have hx : Emits (fun ω w => item x ω w o) (text x) := h x (by simp)
    have ih := ih fun y hy => h y (by simp [hy])
    cases ha : o.alternate with
    | false =>
      rw [ha] at ih
      have := (Emits.piece ", ").andThen (hx.andThen ih)
      simp only [segments_true, ha, List.map_cons, List.flatMap_cons, List.cons_append, List.nil_append, inOrder,
        Bool.false_eq_true, if_false] at this ⊢
      cases l with
      | nil => simpa [commaText] using this
      | cons y l => simpa [commaText, String.append_assoc] using this
    | true =>
      rw [ha] at ih
      have := ((hx.andThen (Emits.piece ",\n")).indent).andThen ih
      simp only [segments_true, ha, List.map_cons, inOrder, andThen_true, if_true, linesText] at this ⊢
      exact this

theorem writes_seq (opn cls : String) {o : Options} {item : ι → Show} {text : ι → String} (l : List ι)
    (h : ∀ x ∈ l, Writes (item x) o (text x)) :
    Writes (seqShow opn cls (l.map item)) o (seqText opn cls o.alternate (l.map text)) := by
  show Emits (fun ω w => seqShow opn cls (l.map item) ω w o) _
  simp only [seqShow, List.cons_append, inOrder, inOrder_append, andThen_true]
  cases l with
  | nil =>
    have := (Emits.piece opn).andThen (Emits.nothing.andThen (Emits.piece cls))
    cases ha : o.alternate <;> simpa [itemSteps, seqText, commaText, ha] using this
  | cons x l =>
    have hx : Emits (fun ω w => item x ω w o) (text x) := h x (by simp)
    have ih := Emits.segments l fun y hy => h y (by simp [hy])
    simp only [List.map_cons, ← segments_false, segments, segment, inOrder_append]
    cases ha : o.alternate with
    | false =>
      have := (Emits.piece opn).andThen ((hx.andThen ih).andThen (Emits.piece cls))
      simp only [ha, Bool.false_eq_true, if_false, List.nil_append, inOrder_one] at this ⊢
      cases l with
      | nil => simpa [seqText, commaText, String.append_assoc] using this
      | cons y l => simpa [seqText, commaText, String.append_assoc] using this
    | true =>
      have := (Emits.piece opn).andThen ((((Emits.piece "\n").andThen (hx.andThen (Emits.piece ",\n")).indent).andThen ih).andThen
        (Emits.piece cls))
      simp only [ha, Bool.false_eq_true, if_false, if_true, List.cons_append, List.nil_append, inOrder, andThen_true] at this ⊢
      simpa [seqText, linesText, String.append_assoc] using this

theorem writes_entry {o : Options} {key : K → Show} {value : V → Show} {p : K × V} {s t : String}
    (hk : Writes (key p.1) o s) (hv : Writes (value p.2) o t) : Writes (entryShow key value p) o (s ++ ": " ++ t) := by
  have := Emits.andThen (x := fun ω w => key p.1 ω w o) (y := _) hk
    ((Emits.piece ": ").andThen (y := fun ω w => value p.2 ω w o) hv)
  show Emits (fun ω w => entryShow key value p ω w o) _
  simpa only [entryShow, inOrder, andThen_true, String.append_assoc] using this

theorem writes_pair {o : Options} {key : K → Show} {value : V → Show} {ks : K → String} {vs : V → String} (p : K × V)
    (hk : Writes (key p.1) o (ks p.1)) (hv : Writes (value p.2) o (vs p.2)) :
    Writes (pairShow key value p) o (pairText o.alternate ks vs p) := by
  have hk' : Emits (fun ω w => key p.1 ω w o) (ks p.1) := hk
  have hv' : Emits (fun ω w => value p.2 ω w o) (vs p.2) := hv
  show Emits (fun ω w => pairShow key value p ω w o) _
  unfold pairShow
  cases ha : o.alternate with
  | false =>
    have := (Emits.piece "").andThen ((Emits.piece "(").andThen (hk'.andThen ((Emits.piece ", ").andThen (hv'.andThen
      (Emits.piece ")")))))
    simpa [inOrder, andThen_true, pairText, seqText, commaText, String.append_assoc] using this
  | true =>
    have := (Emits.piece "").andThen ((Emits.piece "(\n").andThen ((hk'.andThen (Emits.piece ",\n")).indent.andThen
      ((hv'.andThen (Emits.piece ",\n")).indent.andThen (Emits.piece ")"))))
    have e : "(\n" = "(" ++ "\n" := rfl
    simpa [inOrder, andThen_true, pairText, seqText, linesText, String.append_assoc, e] using this

/-! ## The types of the crate -/

variable {c : Cfg} {I : OrdinalImpl K} {J : OrdinalImpl τ} {n : Nat}

theorem total_list (L : Lawful c I n) (key : K → Show) (value : V → Show) {s : TotalIter V} {ps : List (K × V)}
    (h : LView I n ps s) : totalIterOf c I key value s = listShow (pairShow key value) ps := by
  have hl : TotalIter.len s = ps.length := h.len (listIter_views V)
  rw [totalIterOf, debugSeq_show "[" "]" (next := TotalIter.next c I) (LView I n) (EView.next L (listIter_views V)) _ h (by omega),
    debugPair_show]
  rfl

theorem total_map (L : Lawful c I n) (key : K → Show) (value : V → Show) {s : TotalIter V} {ps : List (K × V)}
    (h : LView I n ps s) : totalMapOf c I key value s = mapShow key value ps := by
  have hl : TotalIter.len s = ps.length := h.len (listIter_views V)
  rw [totalMapOf, debugMap_show (nextP := TotalIter.next c I) (LView I n) (EView.next L (listIter_views V)) _ _ h (by omega)]

theorem sparse_list (L : Lawful c I n) (key : K → Show) (value : V → Show) {s : MapIter V} {ps : List (K × V)}
    (h : SView I n ps s) : mapIterOf c I key value s = listShow (pairShow key value) ps := by
  have hl : ps.length ≤ TotalIter.len s := h.len_le
  rw [mapIterOf, debugSeq_show "[" "]" (SView I n) (MapIter.next_view L) _ h (by omega), debugPair_show]
  rfl

theorem sparse_map (L : Lawful c I n) (key : K → Show) (value : V → Show) {s : MapIter V} {ps : List (K × V)}
    (h : SView I n ps s) : mapOf c I key value s = mapShow key value ps := by
  have hl : ps.length ≤ TotalIter.len s := h.len_le
  rw [mapOf, debugMap_show (SView I n) (MapIter.next_view L) _ _ h (by omega)]

theorem keys_list (L : Lawful c I n) (key : K → Show) {s : Keys Unit} {l : List K} (h : KView I n l s) :
    keys c I key s = listShow key l := by
  have hl : l.length ≤ TotalIter.len s := by
    obtain ⟨ps, h, rfl⟩ := h
    rw [List.length_map]; exact h.len_le
  show debugSeq "[" "]" (Keys.next c I) key (.ok (TotalIter.len s + 1, s)) = _
  rw [debugSeq_show "[" "]" (KView I n) ?_ _ h (by omega), listShow]
  rintro s l ⟨ps, h1, rfl⟩
  obtain ⟨s', e1, e2⟩ := MapIter.next_view L s ps h1
  refine ⟨s', ?_, ps.tail, e2, by simp⟩
  simp only [Keys.next, e1, OrdinalMap.ok_bind]
  cases ps <;> rfl

theorem values_list (L : Lawful c I n) (value : V → Show) {s : Values V} {l : List V} (h : VView I n l s) :
    debugSeq "[" "]" (Values.next c I) value (.ok (TotalIter.len s + 1, s)) = listShow value l := by
  have hl : l.length ≤ TotalIter.len s := by
    obtain ⟨ps, h, rfl⟩ := h
    rw [List.length_map]; exact h.len_le
  rw [debugSeq_show "[" "]" (VView I n) ?_ _ h (by omega), listShow]
  rintro s l ⟨ps, h1, rfl⟩
  obtain ⟨s', e1, e2⟩ := MapIter.next_view L s ps h1
  refine ⟨s', ?_, ps.tail, e2, by simp⟩
  simp only [Values.next, e1, OrdinalMap.ok_bind]
  cases ps <;> rfl

theorem setRef_eq (L : Lawful c J n) (item : τ → Show) {ws : SetRef} {m : τ → Bool} (h : Bits J m ws) :
    setRef c J item ws = setShow item (elements J n m) := by
  obtain ⟨it, h1, h2⟩ := SetIter.new_view L h
  have := SetIter.len_le L h2
  simp only [setRef, SetRef.iter, h1, OrdinalMap.ok_bind]
  rw [debugSeq_show "{" "}" (SetIter.View J n ws) (SetIter.next_view L ws) _ h2 (by omega), setShow]

end OrdinalMap.Format
