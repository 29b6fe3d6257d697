import Verif.Lemmas.Tests
import Verif.Props.Consume
import Verif.Props.Order
/-! # The quickcheck tests pass -/

namespace OrdinalMap.Tests
open OrdinalMap OrdinalMap.Props

variable {K V : Type} [DecidableEq K] {c : Cfg} {I : OrdinalImpl K} {n : Nat}

/-! ## Maps -/

omit [DecidableEq K] in
theorem pairs_hnodup (L : Lawful c I n) (m : K → Option V) : HNodup (pairs I n m) := by
  have : (pairs I n m).map (·.1) = (values I n).filter fun k => (m k).isSome := by
    unfold pairs
    rw [List.map_filterMap]
    generalize values I n = l
    induction l with
    | nil => rfl
    | cons a l ih => cases h : m a <;> simp [h] <;> simpa using ih
  unfold HNodup
  rw [this]
  exact (values_nodup L).filter _

omit [DecidableEq K] in
theorem mem_pairs (L : Lawful c I n) (m : K → Option V) (k : K) (v : V) : (k, v) ∈ pairs I n m ↔ m k = some v := by
  unfold pairs
  rw [List.mem_filterMap]
  constructor
  · rintro ⟨k', -, h⟩
    cases hm : m k' with
    | none => rw [hm] at h; cases h
    | some w => rw [hm] at h; cases h; exact hm
  · intro h
    exact ⟨k, mem_values L k, by rw [h]; rfl⟩

theorem perm_pairs (L : Lawful c I n) {l : List (K × V)} (hl : HNodup l) (m : K → Option V)
    (h : ∀ k, hget l k = m k) : l.Perm (pairs I n m) := by
  have nd : ∀ {l : List (K × V)}, HNodup l → l.Nodup := fun h => (List.pairwise_map.1 h).imp fun h e => h (by rw [e])
  refine (List.perm_ext_iff_of_nodup (nd hl) (nd (pairs_hnodup L m))).2 fun ⟨k, v⟩ => ?_
  rw [mem_iff_hget hl, mem_pairs L, h]

theorem qcInserts_ok {σ : Type} (L : Lawful c I n) (insert : σ → K → V → R (Option V × σ)) (len : σ → R Nat)
    (P : (K → Option V) → σ → Prop)
    (hi : ∀ m s k v, P m s → ∃ s', insert s k v = .ok (m k, s') ∧ P (upd m k (some v)) s')
    (hlen : ∀ m s, P m s → len s = .ok (pairs I n m).length) :
    ∀ (vs : List (K × V)) (s : σ) (control : List (K × V)), HNodup control → P (hget control) s →
      ∃ s' control', qcInserts insert len vs s control = .ok (s', control') ∧ P (hget control') s' := by
  intro vs
  induction vs with
  | nil => intro s control _ h; exact ⟨s, control, rfl, h⟩
  | cons p vs ih =>
    intro s control hn h
    obtain ⟨k, v⟩ := p
    obtain ⟨s', h1, h2⟩ := hi _ _ k v h
    have e : upd (hget control) k (some v) = hget (hinsert control k v).2 := by
      funext k'; rw [hget_hinsert]; rfl
    rw [e] at h2
    have hn' := hnodup_hinsert hn k v
    obtain ⟨s'', control', h3, h4⟩ := ih s' _ hn' h2
    refine ⟨s'', control', ?_, h4⟩
    simp only [qcInserts, bind_ok, check_ok]
    exact ⟨_, h1, (), rfl, _, hlen _ _ h2, (), (perm_pairs L hn' _ fun _ => rfl).length_eq, h3⟩

theorem qcMap_ok (L : Lawful c I n) {sz : Nat} (hsz : n * sz ≤ 2 ^ (c.bits - 1) - 1) (vs : List (K × V))
    (keys : List K) : qcMap c I sz vs keys = .ok () := by
  obtain ⟨s, control, h1, b, h2⟩ := qcInserts_ok L (OMap.insert c I sz) (OMap.len c I)
    (fun m s => ∃ b, Stored I n b m s)
    (fun m s k v ⟨b, h⟩ => ⟨_, OMap.insert_eq L hsz h k v, true, .inl ⟨rfl, rfl⟩⟩)
    (fun m s ⟨b, h⟩ => h.count L) vs (OMap.new V) [] .nil ⟨false, .inr ⟨rfl, rfl, rfl⟩⟩
  simp only [qcMap, bind_ok, forEach_ok, check_ok]
  exact ⟨_, h1, fun k _ => ⟨_, OMap.get_eq L h2 k, rfl⟩⟩

theorem qcArrayMap_ok (L : Lawful c I n) (vs : List (K × V)) (keys : List K) : qcArrayMap c I vs keys = .ok () := by
  obtain ⟨s, control, h1, h2⟩ := qcInserts_ok L (OrdinalArrayMap.insert I) (OrdinalArrayMap.len c I)
    (fun m s => s = store I n m)
    (fun m s k v h => ⟨_, by rw [h]; exact OrdinalArrayMap.insert_eq L m k v, rfl⟩)
    (fun m s h => (show Stored I n true m s from .inl ⟨rfl, h⟩).count L) vs
    (store I n fun _ => none) [] .nil rfl
  simp only [qcArrayMap, bind_ok, forEach_ok, check_ok]
  refine ⟨_, L.size, _, OrdinalArrayMap.new_eq L, _, h1, fun k _ => ⟨_, ?_, rfl⟩⟩
  simp only [h2]
  exact OrdinalArrayMap.get_eq L _ k

theorem retainSpec_pure (keep : K → Bool) : ∀ (ks : List K) (m : K → Option V),
    retainSpec (fun k v () => .ok (keep k, v, ())) ks m () =
      .ok (fun k => if k ∈ ks ∧ keep k = false then none else m k, ()) := by
  intro ks
  induction ks with
  | nil => intro m; simp [retainSpec]
  | cons a ks ih =>
    intro m
    cases h : m a with
    | none =>
      simp only [retainSpec, h, ih]
      congr 2
      funext k
      by_cases e : k = a
      · subst e; simp [h]
      · simp [e]
    | some v =>
      simp only [retainSpec, h]
      show retainSpec _ ks _ () = _
      rw [ih]
      congr 2
      funext k
      by_cases e : k = a
      · subst e; cases hk : keep k <;> simp [upd, h]
      · simp [upd, e]

theorem hfromIter_spec (ps : List (K × V)) : HNodup (hfromIter ps) ∧ ∀ k, hget (hfromIter ps) k = lastValue ps k := by
  have key : ∀ (ps m : List (K × V)), HNodup m →
      HNodup (ps.foldl (fun m p => (hinsert m p.1 p.2).2) m) ∧
      ∀ k, hget (ps.foldl (fun m p => (hinsert m p.1 p.2).2) m) k = (lastValue ps k).or (hget m k) := by
    intro ps
    induction ps with
    | nil => intro m h; exact ⟨h, fun k => by simp [lastValue]⟩
    | cons p ps ih =>
      intro m h
      obtain ⟨h1, h2⟩ := ih _ (hnodup_hinsert h p.1 p.2)
      refine ⟨h1, fun k => ?_⟩
      rw [List.foldl_cons, h2, hget_hinsert]
      have hc : lastValue (p :: ps) k = (lastValue ps k).or (if p.1 = k then some p.2 else none) := by
        simp only [lastValue, List.reverse_cons, List.find?_append]
        cases ps.reverse.find? fun q => q.1 = k with
        | some q => simp
        | none => by_cases e : p.1 = k <;> simp [e]
      rw [hc]
      cases lastValue ps k with
      | some v => rfl
      | none =>
        by_cases e : k = p.1
        · simp [e]
        · simp [e, Ne.symm e]
  obtain ⟨h1, h2⟩ := key ps [] .nil
  exact ⟨h1, fun k => by rw [hfromIter, h2]; simp [hget]⟩

theorem hget_filter (m : List (K × V)) (p : K → Bool) (k : K) :
    hget (m.filter fun q => p q.1) k = if p k then hget m k else none := by
  unfold hget
  induction m with
  | nil => simp
  | cons q m ih =>
    by_cases e : q.1 = k
    · cases hp : p q.1
      · rw [List.filter_cons_of_neg (by simpa using hp), ih, ← e, hp]; simp
      · rw [List.filter_cons_of_pos (by simpa using hp), ← e, hp]; simp
    · cases hp : p q.1
      · rw [List.filter_cons_of_neg (by simpa using hp), ih, List.find?_cons_of_neg (by simpa using e)]
      · rw [List.filter_cons_of_pos (by simpa using hp), List.find?_cons_of_neg (by simpa using e), ih,
          List.find?_cons_of_neg (by simpa using e)]

theorem lastValue_of_hnodup {l : List (K × V)} (h : HNodup l) (k : K) : lastValue l k = hget l k := by
  have hr : HNodup l.reverse := by
    unfold HNodup; rw [List.map_reverse]; exact (List.reverse_perm _).nodup_iff.2 h
  have e : lastValue l k = hget l.reverse k := rfl
  rw [e]
  refine Option.ext fun v => ?_
  rw [← mem_iff_hget hr, ← mem_iff_hget h, List.mem_reverse]

theorem qcRetain_ok (L : Lawful c I n) (vs : List (K × V)) (keep : List K) : qcRetain c I vs keep = .ok () := by
  obtain ⟨s, h1, -, -⟩ := (C35_from_iter L vs).2
  have hs : OrdinalArrayMap.fromIter I n vs = .ok (store I n (lastValue vs)) := by
    have e : inserted (fun _ => none) vs = lastValue vs := by
      funext k; rw [inserted_eq]; simp
    simp only [OrdinalArrayMap.fromIter, OrdinalArrayMap.new_eq L, ok_bind, OrdinalArrayMap.extendLoop_eq L, e]
  let m : K → Option V := fun k => if keep.contains k then lastValue vs k else none
  have hr : OrdinalArrayMap.retain c I (store I n (lastValue vs))
      (fun k v () => .ok (keep.contains k, v, ())) () = .ok (store I n m, ()) := by
    rw [OrdinalArrayMap.retain_eq L, retainSpec_pure]
    show (.ok (store I n _, ()) : R _) = _
    congr 3
    funext k
    simp only [m, mem_values L k, true_and]
    cases keep.contains k <;> simp
  have hc : (MapIntoIterArray.it c I).collect (n + 1) (OrdinalArrayMap.intoIter (store I n m)) = .ok (pairs I n m) := by
    have h : Stored I n true m (store I n m) := .inl ⟨rfl, rfl⟩
    refine (MapIntoIterArray.behaves L (h.sview L)).yields.collect _ (Nat.lt_succ_of_le ?_)
    rw [pairs_length]
    exact Nat.le_trans (List.length_filter_le _ _) (Nat.le_of_eq (values_length L))
  simp only [qcRetain, bind_ok, check_ok]
  refine ⟨n, L.size, _, hs, _, hr, _, hc, ?_⟩
  obtain ⟨n1, g1⟩ := hfromIter_spec vs
  obtain ⟨n2, g2⟩ := hfromIter_spec (pairs I n m)
  have hg2 : ∀ k, hget (hfromIter (pairs I n m)) k = m k := by
    intro k
    rw [g2, lastValue_of_hnodup (pairs_hnodup L m)]
    exact Option.ext fun v => by rw [← mem_iff_hget (pairs_hnodup L m), mem_pairs L]
  have nf : HNodup ((hfromIter vs).filter fun p => keep.contains p.1) :=
    (List.Sublist.map _ List.filter_sublist).nodup n1
  have hgf : ∀ k, hget ((hfromIter vs).filter fun p => keep.contains p.1) k = m k := by
    intro k; rw [hget_filter _ fun k => keep.contains k, g1]
  refine ⟨?_, fun ⟨k, v⟩ hp => ?_⟩
  · rw [(perm_pairs L nf m hgf).length_eq, (perm_pairs L n2 m hg2).length_eq]
  · rw [hg2, ← hgf]; exact (mem_iff_hget nf k v).1 hp

/-! ## Sets -/

/-- One `insert`, from the statement about histories. -/
theorem behaves_insert {σ : Type} {api : SetApi σ K} {s : σ} {m : K → Bool} (h : SetBehavesLike api s m) (x : K) :
    ∃ s', api.insert s x = .ok (!m x, s') ∧ SetBehavesLike api s' (fun y => if y = x then true else m y) := by
  obtain ⟨s1, h1, -⟩ := h [.insert x]
  simp only [SetApi.run, bind_ok] at h1
  obtain ⟨⟨b, s'⟩, h2, ⟨bs, s''⟩, h3, h4⟩ := h1
  cases h3; cases h4
  refine ⟨s', h2, fun ops => ?_⟩
  obtain ⟨s2, h5, -⟩ := h (.insert x :: ops)
  simp only [SetApi.run, bind_ok] at h5
  obtain ⟨⟨b', t⟩, h6, ⟨bs, t'⟩, h7, h8⟩ := h5
  rw [h2] at h6
  cases h6
  injection h8 with h8
  injection h8 with h8 h9
  injection h8 with _ h8
  subst h9
  exact ⟨t', by rw [← h8]; exact h7, trivial⟩

theorem behaves_contains {σ : Type} {api : SetApi σ K} {s : σ} {m : K → Bool} (h : SetBehavesLike api s m) (x : K) :
    api.contains s x = .ok (m x) := by
  obtain ⟨s1, h1, -⟩ := h [.contains x]
  simp only [SetApi.run, bind_ok] at h1
  obtain ⟨b, h2, ⟨bs, s''⟩, h3, h4⟩ := h1
  cases h3; cases h4
  exact h2

theorem qcSet_ok {σ : Type} {api : SetApi σ K} {new : R σ} {s : σ} (hnew : new = .ok s)
    (h : SetBehavesLike api s fun _ => false) (vs keys : List K) : qcSet api new vs keys = .ok () := by
  have key : ∀ (vs : List K) (s : σ) (control : List K), SetBehavesLike api s (fun x => control.contains x) →
      ∃ s' control', qcSetInserts api vs s control = .ok (s', control') ∧
        SetBehavesLike api s' (fun x => control'.contains x) := by
    intro vs
    induction vs with
    | nil => intro s control h; exact ⟨s, control, rfl, h⟩
    | cons v vs ih =>
      intro s control h
      obtain ⟨s', h1, h2⟩ := behaves_insert h v
      have e : (fun y => if y = v then true else control.contains y) = fun y => (sinsert control v).2.contains y := by
        funext y
        unfold sinsert
        by_cases hv : control.contains v
        · simp only [hv, if_true]
          by_cases e : y = v
          · simp only [e, if_true, hv]
          · simp only [e, if_false]
        · simp only [hv]
          by_cases e : y = v <;> simp [e]
      rw [e] at h2
      obtain ⟨s'', control', h3, h4⟩ := ih s' _ h2
      refine ⟨s'', control', ?_, h4⟩
      simp only [qcSetInserts, bind_ok, check_ok]
      exact ⟨_, h1, (), rfl, h3⟩
  obtain ⟨s', control', h1, h2⟩ := key vs s [] (by simpa using h)
  simp only [qcSet, bind_ok, forEach_ok, check_ok]
  exact ⟨s, hnew, _, h1, fun x _ => ⟨_, behaves_contains h2 x, rfl⟩⟩

/-! ## Sorting -/

theorem mem_dedup (a : K) : ∀ l : List K, a ∈ dedup l ↔ a ∈ l
  | [] => by simp [dedup]
  | [b] => by simp [dedup]
  | b :: d :: l => by
    have ih := mem_dedup a (d :: l)
    unfold dedup
    split
    · rename_i e; subst e; simp [ih]
    · simp [ih]

theorem dedup_sorted {lt : K → K → Prop} (tri : ∀ a b, ¬ lt b a → a = b ∨ lt a b)
    (trans : ∀ a b d, lt a b → ¬ lt d b → lt a d) :
    ∀ l : List K, l.Pairwise (fun a b => ¬ lt b a) → (dedup l).Pairwise lt
  | [], _ => .nil
  | [b], _ => by simp [dedup]
  | b :: d :: l, h => by
    have ih := dedup_sorted tri trans (d :: l) h.tail
    unfold dedup
    split
    · exact ih
    · rename_i e
      refine List.pairwise_cons.2 ⟨fun x hx => ?_, ih⟩
      rw [mem_dedup] at hx
      have hbd : lt b d := (tri b d ((List.pairwise_cons.1 h).1 d (by simp))).resolve_left e
      rcases List.mem_cons.1 hx with rfl | hx
      · exact hbd
      · exact trans _ _ _ hbd ((List.pairwise_cons.1 h.tail).1 x hx)

theorem sortDedup_eq (L : Lawful c I n) {lt : K → K → Prop} (O : OrdCompat lt I) (vs : List K) :
    sortDedup lt vs = elements I n fun x => decide (x ∈ vs) := by
  have iff := Props.ordCompat_iff O
  letI : ∀ a b, Decidable (lt a b) := fun a b => Classical.propDecidable _
  refine (C71_unique (V := Unit) O).1 (fun a => decide (a ∈ vs) = true) _ _ ⟨?_, fun a => ?_⟩
    (elements_sortedListing L O _)
  · unfold sortDedup
    refine dedup_sorted (fun a b h => ?_) (fun a b d h1 h2 => ?_) _ ?_
    · rw [iff] at h ⊢
      rcases Nat.lt_or_ge (ordOf I a) (ordOf I b) with h' | h'
      · exact .inr h'
      · exact .inl (L.ord_inj (by omega))
    · rw [iff] at *; omega
    · refine (List.pairwise_mergeSort (fun a b d h1 h2 => ?_) (fun a b => ?_) vs).imp fun h => of_decide_eq_true h
      · have h1 := of_decide_eq_true h1
        have h2 := of_decide_eq_true h2
        refine decide_eq_true ?_
        rw [iff] at *; omega
      · rw [Bool.or_eq_true]
        rcases Nat.lt_or_ge (ordOf I b) (ordOf I a) with h' | h'
        · exact .inr (decide_eq_true (by rw [iff]; omega))
        · exact .inl (decide_eq_true (by rw [iff]; omega))
  · unfold sortDedup
    rw [mem_dedup, List.mem_mergeSort]; simp

omit [DecidableEq K] in
theorem elements_length (L : Lawful c I n) (m : K → Bool) : (elements I n m).length ≤ n := by
  exact Nat.le_trans (List.length_filter_le _ _) (Nat.le_of_eq (values_length L))

theorem qcIter_ok (L : Lawful c I n) (hpos : 0 < n) (hfit : n + 64 < c.M) {lt : K → K → Prop} (O : OrdCompat lt I)
    (vs : List K) : qcIter c I lt vs = .ok () := by
  obtain ⟨s, h1, h2⟩ := (C59_sets L vs).1 hpos hfit
  obtain ⟨s', h3, it, h4, h5⟩ := h2 []
  cases h3
  simp only [qcIter, bind_ok, check_ok]
  exact ⟨s, h1, it, h4, n, L.size, _, h5.collect _ (Nat.lt_succ_of_le (elements_length L _)), (sortDedup_eq L O vs).symm⟩

/-- A set collected into `OrdinalSet64`, and its iterator. -/
theorem iter64_of (L : Lawful c I n) (h64 : n ≤ 64) (vs : List K) :
    ∃ s it, OrdinalSet64.fromIter c I vs = .ok s ∧ OrdinalSet64.iter I s = .ok it ∧
      BehavesLike (Iter64.it c I) it (elements I n fun x => decide (x ∈ vs)) (fun rest it =>
        Iter64.len it = rest.length ∧ Iter64.sizeHint it = (rest.length, some rest.length)) := by
  obtain ⟨s, h1, h2⟩ := (C20_ordinal_set64 L h64).2 vs
  obtain ⟨m, h3, it, h4, h5⟩ := C22_iter64 L (.fromIter vs h1)
  have e : m = fun x => decide (x ∈ vs) := by
    funext x
    have := behaves_contains h2 x
    have h3 := h3 x
    simp only [OrdinalSet64.api] at this
    rw [this] at h3
    injection h3 with h3
    exact h3.symm
  subst e
  exact ⟨s, it, h1, h4, h5⟩

theorem qcIter64_ok (L : Lawful c I n) (h64 : n ≤ 64) {lt : K → K → Prop} (O : OrdCompat lt I) (vs : List K) :
    qcIter64 c I lt vs = .ok () ∧ qcRev64 c I lt vs = .ok () ∧ qcExactSize64 c I vs = .ok () := by
  obtain ⟨s, it, h1, h2, h3⟩ := iter64_of L h64 vs
  have hl := elements_length L fun x => decide (x ∈ vs)
  have hy := h3.yields
  refine ⟨?_, ?_, ?_⟩
  · simp only [qcIter64, bind_ok, check_ok]
    exact ⟨s, h1, it, h2, _, hy.collect _ (by omega), (sortDedup_eq L O vs).symm⟩
  · simp only [qcRev64, bind_ok, check_ok]
    exact ⟨s, h1, it, h2, _, hy.revCollect _ (by omega), by rw [sortDedup_eq L O vs]⟩
  · simp only [qcExactSize64, bind_ok]
    exact ⟨s, h1, it, h2, exactSize_ok (h3.mono fun _ _ h => h.1)⟩

end OrdinalMap.Tests
