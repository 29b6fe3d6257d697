import Verif.Model.Debug
import Verif.Lemmas.MapMore
import Verif.Lemmas.Set
/-! # The `Debug` builders print what the specification says -/

namespace OrdinalMap
variable {K V τ σ ι : Type} {c : Cfg} {I : OrdinalImpl K} {n : Nat}

theorem entry_plain (o t : String) (h : Bool) :
    Builder.entry false ⟨o, h⟩ t = ⟨o ++ (if h then ", " else "") ++ t, true⟩ := rfl

theorem entry_pretty (o t : String) (h : Bool) :
    Builder.entry true ⟨o, h⟩ t = ⟨o ++ (if h then "" else "\n") ++ pad (t ++ ",\n"), true⟩ := rfl

theorem fold_plain (text : ι → String) (l : List ι) : ∀ o : String,
    (l.foldl (fun (b : Builder) x => b.entry false (text x)) (⟨o, true⟩ : Builder)).out =
      match l with | [] => o | _ => o ++ ", " ++ commaText (l.map text) := by
  induction l with
  | nil => intro o; rfl
  | cons x l ih =>
    intro o
    simp only [List.foldl_cons, entry_plain, if_true, ih]
    cases l with
    | nil => simp [commaText]
    | cons y l => simp only [List.map_cons, commaText, String.append_assoc]

theorem fold_pretty (text : ι → String) (l : List ι) : ∀ o : String,
    (l.foldl (fun (b : Builder) x => b.entry true (text x)) (⟨o, true⟩ : Builder)).out = o ++ linesText (l.map text) := by
  induction l with
  | nil => intro o; simp [linesText]
  | cons x l ih =>
    intro o
    simp only [List.foldl_cons, entry_pretty, if_true, ih, List.map_cons, linesText, String.append_assoc,
      String.empty_append]

theorem fold_text (opn cls : String) (alt : Bool) (text : ι → String) (l : List ι) :
    (l.foldl (fun (b : Builder) x => b.entry alt (text x)) (⟨opn, false⟩ : Builder)).out ++ cls = seqText opn cls alt (l.map text) := by
  cases l with
  | nil => cases alt <;> simp [seqText, commaText]
  | cons x l =>
    cases alt with
    | false =>
      simp only [List.foldl_cons, entry_plain, Bool.false_eq_true, if_false, fold_plain, seqText, List.map_cons]
      cases l with
      | nil => simp [commaText, String.append_assoc]
      | cons y l => simp [commaText, String.append_assoc]
    | true =>
      simp only [List.foldl_cons, entry_pretty, if_true, Bool.false_eq_true, if_false, fold_pretty, seqText,
        List.map_cons, linesText, String.append_assoc]

theorem debugPair_eq (alt : Bool) (key : K → String) (value : V → String) (p : K × V) :
    debugPair alt key value p = pairText alt key value p := by
  have := fold_text "(" ")" alt id [key p.1, value p.2]
  simpa [debugPair, pairText] using this

/-- `entries` on an iterator that has `l` left. -/
theorem entriesLoop_eq (alt : Bool) {next : σ → R (Option ι × σ)} (view : List ι → σ → Prop)
    (hn : ∀ s l, view l s → ∃ s', next s = .ok (l.head?, s') ∧ view l.tail s') (text : ι → String) :
    ∀ (fuel : Nat) (l : List ι) (s : σ) (b : Builder), view l s → l.length < fuel →
      entriesLoop alt next text fuel s b = .ok (l.foldl (fun (b : Builder) x => b.entry alt (text x)) b) := by
  intro fuel
  induction fuel with
  | zero => intro l s b _ h; omega
  | succ fuel ih =>
    intro l s b hv hf
    obtain ⟨s', h1, h2⟩ := hn s l hv
    cases l with
    | nil => simp only [entriesLoop, h1, ok_bind, List.head?_nil, List.foldl_nil]
    | cons x l =>
      simp only [entriesLoop, h1, ok_bind, List.head?_cons, List.foldl_cons]
      exact ih l s' _ h2 (by simp at hf; omega)

theorem debugSeq_eq (opn cls : String) (alt : Bool) {next : σ → R (Option ι × σ)} (view : List ι → σ → Prop)
    (hn : ∀ s l, view l s → ∃ s', next s = .ok (l.head?, s') ∧ view l.tail s') (text : ι → String)
    {fuel : Nat} {l : List ι} {s : σ} (hv : view l s) (hf : l.length < fuel) :
    debugSeq opn cls alt next text fuel s = .ok (seqText opn cls alt (l.map text)) := by
  simp only [debugSeq, entriesLoop_eq alt view hn text fuel l s _ hv hf, ok_bind, fold_text]

/-! ## Maps -/

theorem debugTotal_list (L : Lawful c I n) (alt : Bool) (key : K → String) (value : V → String) {s : TotalIter V}
    {ps : List (K × V)} (h : LView I n ps s) :
    debugList alt (TotalIter.next c I) (debugPair alt key value) (TotalIter.len s + 1) s =
      .ok (listText alt (pairText alt key value) ps) := by
  have hl : TotalIter.len s = ps.length := h.len (listIter_views V)
  rw [debugList, debugSeq_eq "[" "]" alt (next := TotalIter.next c I) (LView I n) (EView.next L (listIter_views V)) _ h (by omega), listText]
  congr 3
  funext p
  exact debugPair_eq alt key value p

theorem debugTotal_map (L : Lawful c I n) (alt : Bool) (key : K → String) (value : V → String) {s : TotalIter V}
    {ps : List (K × V)} (h : LView I n ps s) :
    debugMap alt (TotalIter.next c I) key value (TotalIter.len s + 1) s = .ok (mapText alt key value ps) := by
  have hl : TotalIter.len s = ps.length := h.len (listIter_views V)
  rw [debugMap, debugSeq_eq "{" "}" alt (next := TotalIter.next c I) (LView I n) (EView.next L (listIter_views V)) _ h (by omega), mapText]

theorem debugSparse_list (L : Lawful c I n) (alt : Bool) (key : K → String) (value : V → String) {s : MapIter V}
    {ps : List (K × V)} (h : SView I n ps s) :
    debugList alt (MapIter.next c I) (debugPair alt key value) (TotalIter.len s + 1) s =
      .ok (listText alt (pairText alt key value) ps) := by
  have hl : ps.length ≤ TotalIter.len s := h.len_le
  rw [debugList, debugSeq_eq "[" "]" alt (SView I n) (MapIter.next_view L) _ h (by omega), listText]
  congr 3
  funext p
  exact debugPair_eq alt key value p

theorem debugSparse_map (L : Lawful c I n) (alt : Bool) (key : K → String) (value : V → String) {s : MapIter V}
    {ps : List (K × V)} (h : SView I n ps s) :
    debugMap alt (MapIter.next c I) key value (TotalIter.len s + 1) s = .ok (mapText alt key value ps) := by
  have hl : ps.length ≤ TotalIter.len s := h.len_le
  rw [debugMap, debugSeq_eq "{" "}" alt (SView I n) (MapIter.next_view L) _ h (by omega), mapText]

theorem debugKeys (L : Lawful c I n) (alt : Bool) (key : K → String) {s : Keys V} {l : List K} (h : KView I n l s) :
    debugList alt (Keys.next c I) key (TotalIter.len s + 1) s = .ok (listText alt key l) := by
  have hl : l.length ≤ TotalIter.len s := by
    obtain ⟨ps, h, rfl⟩ := h
    rw [List.length_map]; exact h.len_le
  rw [debugList, debugSeq_eq "[" "]" alt (KView I n) ?_ _ h (by omega), listText]
  rintro s l ⟨ps, h1, rfl⟩
  obtain ⟨s', e1, e2⟩ := MapIter.next_view L s ps h1
  refine ⟨s', ?_, ps.tail, e2, by simp⟩
  simp only [Keys.next, e1, ok_bind]
  cases ps <;> rfl

theorem debugValues (L : Lawful c I n) (alt : Bool) (value : V → String) {s : Values V} {l : List V} (h : VView I n l s) :
    debugList alt (Values.next c I) value (TotalIter.len s + 1) s = .ok (listText alt value l) := by
  have hl : l.length ≤ TotalIter.len s := by
    obtain ⟨ps, h, rfl⟩ := h
    rw [List.length_map]; exact h.len_le
  rw [debugList, debugSeq_eq "[" "]" alt (VView I n) ?_ _ h (by omega), listText]
  rintro s l ⟨ps, h1, rfl⟩
  obtain ⟨s', e1, e2⟩ := MapIter.next_view L s ps h1
  refine ⟨s', ?_, ps.tail, e2, by simp⟩
  simp only [Values.next, e1, ok_bind]
  cases ps <;> rfl

/-- `IterMut::iter()`: what is left of a mutable iterator, with the current values. -/
theorem mv_iter (L : Lawful c I n) (m : K → V) {ps : List (K × Nat)} {s : TotalIterMut V}
    (h : MV I n ps (TotalIterMut.it s)) (hm : s.mem = store I n m) :
    LView I n (ps.map fun p => (p.1, m p.1)) (TotalIterMut.iter s) := by
  obtain ⟨mem, it⟩ := s
  obtain ⟨⟨⟨h1, h2⟩, h3, h4⟩, h5⟩ := h
  dsimp only at h1 h2 h3 h4 h5 hm
  subst hm
  have hlen : ps.length = it.iter.stop - it.iter.start := by
    have := congrArg List.length h2; simpa using this
  refine ⟨?_, by simpa [TotalIterMut.iter, TotalIter.new, Enumerate.new] using h3,
    by simpa [TotalIterMut.iter, TotalIter.new, Enumerate.new, Function.comp_def] using h4⟩
  simp only [TotalIterMut.iter, TotalIter.new, Enumerate.new, List.map_map, Function.comp_def]
  cases ps with
  | nil =>
    have : it.iter.stop ≤ it.iter.start := by simp at hlen; omega
    simp; omega
  | cons p ps =>
    have h6 : p.2 = it.iter.start := by
      have := congrArg List.head? h2
      rw [List.head?_range'] at this
      rw [if_neg (by simp at hlen; omega)] at this
      simpa using this
    have h7 : (values I n)[it.next]? = some p.1 := by
      have := congrArg List.head? h4
      rw [slice_head _ (by simp)] at this
      simpa using this.symm
    have h8 : it.next = it.iter.start := by
      have hlt : it.next < n := by simp at h3; omega
      obtain ⟨a, e1, _, e3⟩ := values_getElem L it.next hlt
      rw [h7] at e1
      obtain rfl : p.1 = a := by simpa using e1
      rw [← e3, ← h5 p (by simp), h6]
    have h9 : ((store I n m).take it.iter.stop).drop it.iter.start = (slice (values I n) it.iter.start it.iter.stop).map m := by
      simp [slice, store, List.map_take, List.map_drop]
    rw [h9]
    have h10 : it.next + (p :: ps).length = it.iter.stop := by rw [hlen, h8]; omega
    rw [h10, h8] at h4
    rw [← h4, List.map_map]
    rfl

/-! ## Sets -/

variable {J : OrdinalImpl τ}

theorem SetIter.next_view (L : Lawful c J n) (ws : SetRef) (s : SetIter) (l : List τ) (h : SetIter.View J n ws l s) :
    ∃ s', SetIter.next c J s = .ok (l.head?, s') ∧ SetIter.View J n ws l.tail s' := by
  obtain ⟨hs, l0, h1, rfl⟩ := h
  exact SetIter.nextLoop_view L ws l0 s hs h1 _ (by rw [OrdinalValues.view_len L h1]; omega)

theorem SetIter.len_le (L : Lawful c J n) {ws : SetRef} {s : SetIter} {l : List τ} (h : SetIter.View J n ws l s) :
    l.length ≤ s.iter.len := by
  obtain ⟨hs, l0, h1, rfl⟩ := h
  rw [OrdinalValues.view_len L h1]
  exact List.length_filter_le _ _

theorem SetRef.debug_eq (L : Lawful c J n) (alt : Bool) (item : τ → String) {ws : SetRef} {m : τ → Bool}
    (h : Bits J m ws) : SetRef.debug c J alt item ws = .ok (setText alt item (elements J n m)) := by
  obtain ⟨it, h1, h2⟩ := SetIter.new_view L h
  have := SetIter.len_le L h2
  simp only [SetRef.debug, SetRef.iter, h1, ok_bind]
  rw [debugSet, debugSeq_eq "{" "}" alt (SetIter.View J n ws) (SetIter.next_view L ws) _ h2 (by omega), setText]

end OrdinalMap
