import Verif.Text.MapSim
import Verif.Text.ParsedMap
/-!
# From the model to the text: histories of `OrdinalMap`
-/

namespace OrdinalMap.Text

variable {P : Nat → Type} {c : Cfg} {J : (p : Nat) → OrdinalImpl (P p)} {S m : Nat} {U : UserFns P}

section
variable {call : Machine P} {t : RT} {enc : List (Option (P 1)) → Val P} {path : List Proj} {F : Fns (P 0) (P 1)}

theorem writeSome_len {s s' : List (Option (P 1))} {i : Nat} {v : P 1} (h : writeSome s i v = .ok s') : s'.length = s.length := by
  simp only [writeSome] at h
  cases hi : s[i]? with
  | none => simp [hi] at h
  | some o => cases o with
    | none => simp [hi] at h
    | some u => simp [hi] at h; subst h; simp

theorem writeSlot_len {s s' : List (Option (P 1))} {i : Nat} {v : Option (P 1)} (h : writeSlot s i v = .ok s') : s'.length = s.length := by
  simp only [writeSlot] at h
  split at h
  · cases h; simp
  · simp at h

/-- The number of slots stays below `2 ^ bits`. -/
theorem map_keeps (T : MapText c J call t enc path F) {s op r} (hs : s.length < c.M) (hr : F.step c (J 0) s op = .ok r) :
    r.2.length < c.M := by
  have same {α : Type} {m : R α} {f : α → MapOut (P 0) (P 1)} (h : (do .ok (f (← m), s)) = Except.ok (ε := Fault) r) :
      r.2.length < c.M := by
    cases e : m with
    | error g => simp [e] at h
    | ok x => simp [e] at h; subst h; exact hs
  cases op with
  | get k => exact same (f := .opt) hr
  | len => exact same (f := .nat) hr
  | isEmpty => exact same (f := .bool) hr
  | iter ds =>
    simp only [Fns.step] at hr
    cases e : (MapIter.it c (J 0)).run (TotalIter.new s 0) ds with
    | error g => simp [e] at hr
    | ok x => simp [e] at hr; subst hr; exact hs
  | keys ds =>
    simp only [Fns.step] at hr
    cases e : (Keys.it c (J 0)).run (TotalIter.new s 0) ds with
    | error g => simp [e] at hr
    | ok x => simp [e] at hr; subst hr; exact hs
  | values ds =>
    simp only [Fns.step] at hr
    cases e : (Values.it c (J 0)).run (TotalIter.new s 0) ds with
    | error g => simp [e] at hr
    | ok x => simp [e] at hr; subst hr; exact hs
  | getMut k w =>
    simp only [Fns.step] at hr
    cases e : F.getMut s k with
    | error g => simp [e] at hr
    | ok o => cases o with
      | none => simp [e, getMutClient] at hr; subst hr; exact hs
      | some i =>
        simp only [e, ok_bind, getMutClient] at hr
        cases h1 : readSome s i with
        | error g => simp [h1] at hr
        | ok v => cases h2 : writeSome s i w with
          | error g => simp [h1, h2] at hr
          | ok s' => simp [h1, h2] at hr; subst hr; rw [writeSome_len h2]; exact hs
  | insert k v =>
    simp only [Fns.step] at hr
    cases e : F.insert s k v with
    | error g => simp [e] at hr
    | ok x => have := T.insert_len s k v x e hs; simp [e] at hr; subst hr; exact this
  | remove k =>
    simp only [Fns.step] at hr
    cases e : F.remove s k with
    | error g => simp [e] at hr
    | ok x => have := T.remove_len s k x e; simp [e] at hr; subst hr; exact this ▸ hs
  | orInsert k v w =>
    simp only [Fns.step] at hr
    cases e : F.entry s k with
    | error g => simp [e] at hr
    | ok x =>
      obtain ⟨en, s1⟩ := x
      have h1 := T.entry_len s k _ e hs
      simp only [e, ok_bind] at hr h1
      cases h2 : Entry.orInsert s1 en v with
      | error g => simp [h2] at hr
      | ok y =>
        obtain ⟨i, s2⟩ := y
        have h3 : s2.length = s1.length := by
          cases en with
          | occupied k j =>
            simp only [Entry.orInsert] at h2
            cases h4 : Entry.occupiedGetMut s1 j with
            | error g => simp [h4] at h2
            | ok j' => simp [h4] at h2; rw [h2.2]
          | vacant k j =>
            simp only [Entry.orInsert] at h2
            cases h4 : writeSlot s1 j (some v) with
            | error g => simp [h4] at h2
            | ok s3 => simp [h4] at h2; rw [← h2.2, writeSlot_len h4]
        simp only [h2, ok_bind] at hr
        cases h5 : readSome s2 i with
        | error g => simp [h5] at hr
        | ok v => cases h6 : writeSome s2 i w with
          | error g => simp [h5, h6] at hr
          | ok s' => simp [h5, h6] at hr; subst hr; rw [writeSome_len h6, h3]; exact h1
  | entry k v w =>
    simp only [Fns.step] at hr
    cases e : F.entry s k with
    | error g => simp [e] at hr
    | ok x =>
      obtain ⟨en, s1⟩ := x
      have h1 := T.entry_len s k _ e hs
      simp only [e, ok_bind] at hr h1
      cases en with
      | vacant k j =>
        simp only [entryClient] at hr
        cases h4 : Entry.vacantInsert s1 j v with
        | error g => simp [h4] at hr
        | ok s3 => simp [h4] at hr; subst hr; rw [writeSlot_len h4]; exact h1
      | occupied k j =>
        simp only [entryClient] at hr
        cases h4 : Entry.occupiedGet s1 j with
        | error g => simp [h4] at hr
        | ok v => cases h5 : Entry.occupiedGetMut s1 j with
          | error g => simp [h4, h5] at hr
          | ok i => cases h6 : writeSome s1 i w with
            | error g => simp [h4, h5, h6] at hr
            | ok s' => simp [h4, h5, h6] at hr; subst hr; rw [writeSome_len h6]; exact h1
  | iterMut ops =>
    simp only [Fns.step] at hr
    cases e : runOps (MutClient.step c (J 0)) ⟨TotalIterMut.new s, []⟩ ops with
    | error g => simp [e] at hr
    | ok x =>
      have := runOps_keeps (Inv := Handed c s.length) (fun s op r h1 h2 => handed_step (J := J) h1 h2) ops _ _ (handed_new hs) e
      simp [e] at hr; subst hr; rw [this.2.1]; exact hs
  | valuesMut ops =>
    simp only [Fns.step] at hr
    cases e : runOps (MutClient.stepV c (J 0)) ⟨TotalIterMut.new s, []⟩ ops with
    | error g => simp [e] at hr
    | ok x =>
      have := runOps_keeps (Inv := Handed c s.length) (fun s op r h1 h2 => handed_stepV (J := J) h1 h2) ops _ _ (handed_new hs) e
      simp [e] at hr; subst hr; rw [this.2.1]; exact hs
  | drain ds leak =>
    simp only [Fns.step] at hr
    cases e : (Drain.it c (J 0)).run (Drain.new s) ds with
    | error g => simp [e] at hr
    | ok x =>
      obtain ⟨h1, h2⟩ := drainRun_keeps (J := J) (within_new hs) e
      have h3 : x.2.mem.length = s.length := h2
      cases leak with
      | true => simp [e] at hr; subst hr; simp only [h3]; exact hs
      | false =>
        cases h4 : Drain.drop c (J 0) x.2 with
        | error g => simp [e, h4] at hr
        | ok s' => simp [e, h4] at hr; subst hr; rw [dropLoop_len h1 h4, h3]; exact hs
  | clear =>
    simp only [Fns.step] at hr
    cases e : F.clear s with
    | error g => simp [e] at hr
    | ok x => have := T.clear_len s x hs e; simp [e] at hr; subst hr; exact this ▸ hs

/-- Histories. -/
theorem MapText.run (T : MapText c J (mapCall c J S maps U) t enc path F) (ops s) (hs : s.length < c.M) :
    runOps (textMapStep (mapCall c J S maps U) t) (enc s) ops = (fun r => (r.1, enc r.2)) <$> runOps (F.step c (J 0)) s ops :=
  runOps_enc (Inv := fun s : List (Option (P 1)) => s.length < c.M) (fun s op h => T.step s op h) (fun s op r h1 h2 => map_keeps T h1 h2) ops s hs

theorem MapText.runsLike (T : MapText c J (mapCall c J S maps U) t enc path F) {μ : Type} {spec : μ → MapOp (P 0) (P 1) → MapOut (P 0) (P 1) × μ}
    {s : List (Option (P 1))} {m : μ} (hs : s.length < c.M) {obs : μ → List (Option (P 1)) → Prop} {obs' : μ → Val P → Prop}
    (ho : ∀ m s, s.length < c.M → obs m s → obs' m (enc s)) (hb : RunsLike (F.step c (J 0)) spec s m obs) :
    RunsLike (textMapStep (mapCall c J S maps U) t) spec (enc s) m obs' := by
  intro ops
  obtain ⟨s', h1, h2⟩ := hb ops
  have h3 := runOps_keeps (Inv := fun s : List (Option (P 1)) => s.length < c.M) (fun s op r h1 h2 => map_keeps T h1 h2) ops s _ hs h1
  exact ⟨enc s', by rw [T.run ops s hs, h1]; rfl, ho _ _ h3 h2⟩

end

/-! ## `OrdinalMap` -/

theorem initFull_len {s s' : OMap (P 1)} (hz : ∀ z, (J 0).size = .ok z → z < c.M) (hs : List.length s < c.M)
    (h : OMap.initFullMap c (J 0) 0 s = .ok s') : List.length s' < c.M := by
  simp only [OMap.initFullMap] at h
  split at h
  · cases hn : (J 0).size with
    | error f => simp [hn] at h
    | ok n =>
      have := hz n hn
      cases hw : withCapacity c 0 n with
      | error f => simp [hn, hw] at h
      | ok u => simp [hn, hw] at h; subst h; simpa using this
  · cases h; exact hs

theorem entry_new_slot {s : List (Option (P 1))} {k : P 0} {i : Nat} {e} (h : Entry.new s k i = .ok e) : entrySlot e < s.length := by
  simp only [Entry.new] at h
  cases hi : s[i]? with
  | none => simp [hi] at h
  | some o =>
    have := (List.getElem?_eq_some_iff.mp hi).1
    simp [hi] at h
    subst h
    split <;> exact this

theorem ordinalMap_text (hz : ∀ z, (J 0).size = .ok z → z < c.M) :
    MapText c J (mapCall c J S maps U) (.con "OrdinalMap") mapVal [.field "map"] (OMap.fns c (J 0) 0) where
  place s h := (place_var (v := mapVal s) (by simp)).map
  put s s' h := by
    rw [show [Proj.field "map"] = [] ++ [Proj.field "map"] from rfl, (place_var (v := mapVal s) (by simp)).put_map, put_var (by simp)]
    rfl
  get s k := map_get 7 s k
  getMut s k := (map_getMut 7 k (place_only (mapVal s))).trans rfl
  getMut_some s k i h := by
    simp only [OMap.fns, OMap.getMut] at h
    cases hk : (J 0).ordinal k with
    | error f => simp [hk] at h
    | ok j =>
      cases hj : s[j]? with
      | none => simp [hk, hj] at h
      | some o => cases o with
        | none => simp [hk, hj] at h
        | some v => simp [hk, hj] at h; subst h; exact ⟨v, hj⟩
  insert s k v := by
    have := map_insert (c := c) (J := J) (S := S) (U := U) 6 k v (place_only (mapVal s))
    simp only [put_only] at this
    exact this
  insert_len s k v r h hs := by
    simp only [OMap.fns, OMap.insert] at h
    cases hi : OMap.initFullMap c (J 0) 0 s with
    | error f => simp [hi] at h
    | ok s1 =>
      have h1 := initFull_len hz hs hi
      cases hk : (J 0).ordinal k with
      | error f => simp [hi, hk] at h
      | ok j =>
        cases hg : getIdx s1 j with
        | error f => simp [hi, hk, hg] at h
        | ok o =>
          cases hw : setIdx s1 j (some v) with
          | error f => simp [hi, hk, hg, hw] at h
          | ok s2 =>
            simp [hi, hk, hg, hw] at h
            subst h
            simp only [setIdx] at hw
            split at hw
            · cases hw; simpa using h1
            · simp at hw
  remove s k := by
    have := map_remove (c := c) (J := J) (S := S) (U := U) 7 k (place_only (mapVal s))
    simp only [put_only] at this
    exact this
  remove_len s k r h := by
    simp only [OMap.fns, OMap.remove] at h
    cases hk : (J 0).ordinal k with
    | error f => simp [hk] at h
    | ok j =>
      cases hj : s[j]? with
      | none => simp [hk, hj] at h; subst h; rfl
      | some o => simp [hk, hj] at h; subst h; simp
  entry s k := by
    have := map_entry (c := c) (J := J) (S := S) (U := U) 6 k (place_only (mapVal s))
    simp only [put_only] at this
    exact this
  entry_len s k r h hs := by
    simp only [OMap.fns, OMap.entry] at h
    cases hi : OMap.initFullMap c (J 0) 0 s with
    | error f => simp [hi] at h
    | ok s1 =>
      have h1 := initFull_len hz hs hi
      cases hk : (J 0).ordinal k with
      | error f => simp [hi, hk] at h
      | ok j =>
        cases hg : OrdinalTotalMap.slotOf s1 j with
        | error f => simp [hi, hk, hg] at h
        | ok i =>
          cases he : Entry.new s1 k i with
          | error f => simp [hi, hk, hg, he] at h
          | ok e => simp [hi, hk, hg, he] at h; subst h; exact h1
  entry_slot s k r h := by
    simp only [OMap.fns, OMap.entry] at h
    cases hi : OMap.initFullMap c (J 0) 0 s with
    | error f => simp [hi] at h
    | ok s1 =>
      cases hk : (J 0).ordinal k with
      | error f => simp [hi, hk] at h
      | ok j =>
        cases hg : OrdinalTotalMap.slotOf s1 j with
        | error f => simp [hi, hk, hg] at h
        | ok i =>
          cases he : Entry.new s1 k i with
          | error f => simp [hi, hk, hg, he] at h
          | ok e =>
            simp [hi, hk, hg, he] at h
            subst h
            exact entry_new_slot he
  len s hs := map_len 4 s hs
  isEmpty s hs := map_isEmpty 4 s (Nat.le_of_lt hs)
  iter s := map_iter 5 s
  keys s := map_keys 4 s
  values s := map_values 4 s
  iterMut s := map_iterMut 5 (place_only (mapVal s))
  valuesMut s := map_valuesMut 4 (place_only (mapVal s))
  drain s := map_drain 5 (place_only (mapVal s))
  clear s hs := by
    have := map_clear (c := c) (J := J) (S := S) (U := U) 3 (place_only (mapVal s)) (Nat.le_of_lt hs)
    simp only [put_only] at this
    exact this
  clear_len s s' hs h := dropLoop_len (J := J) (within_new hs) h

/-! ## `from_iter` -/

@[text] theorem self_map_insert {n : Nat} : (outM c J S U (n + 1)).self (.con "OrdinalMap") "insert" = some .refMut := rfl

/-- The loop in `from_iter`. -/
theorem map_extend {te : TyEnv} {h : Heap P} (n : Nat) (ht : te = ("Self", .con "OrdinalMap") :: mapTys S) (u : Val P)
    (xs : List (P 0 × P 1)) : ∀ s : OMap (P 1), forLoop (forBody c te (outM c J S U (n + 3)) .run [("map", h.length + 1), ("iter", h.length)]
      (.tuple (.cons (.path ["k"]) (.cons (.path ["v"]) .nil)))
      (.semi (.method (.path [⟨"map", .nil⟩]) "insert" .nil (.cons (.path [⟨"k", .nil⟩]) (.cons (.path [⟨"v", .nil⟩]) .nil))) .nil))
      (xs.map pairOwn) (h ++ [u, mapVal s]) =
      lift (OMap.extendLoop c (J 0) 0 s xs) fun s => Res.val .unit (h ++ [u, mapVal s]) := by
  subst ht
  induction xs with
  | nil => intro s; rfl
  | cons x xs ih =>
    intro s
    obtain ⟨k, v⟩ := x
    have hp : Place (h ++ [u, mapVal s, .usr 0 k, .usr 1 v]) (h.length + 1) [] (mapVal s) := place_var (by simp)
    have h1 := map_insert (c := c) (J := J) (S := S) (U := U) n k v hp
    have hq (w : Val P) : put (h ++ [u, mapVal s, .usr 0 k, .usr 1 v]) (h.length + 1) [] w = h ++ [u, w, .usr 0 k, .usr 1 v] := by
      rw [put_var (by simp), set_fresh rfl]
      rfl
    simp only [hq] at h1
    simp only [mapVal, slotsVal, phantom] at h1
    rw [List.map_cons, forLoop]
    cases hi : OMap.insert c (J 0) 0 s k v with
    | error f =>
      rw [show OMap.extendLoop c (J 0) 0 s ((k, v) :: xs) = .error f by simp [OMap.extendLoop, hi]]
      runs [forBody, mapVal, slotsVal, pairOwn, pairVal, h1, hi]
    | ok r =>
      obtain ⟨b, s'⟩ := r
      rw [show OMap.extendLoop c (J 0) 0 s ((k, v) :: xs) = OMap.extendLoop c (J 0) 0 s' xs by
        simp [OMap.extendLoop, hi], ← ih s']
      have : forBody c (("Self", .con "OrdinalMap") :: mapTys S) (outM c J S U (n + 3)) .run [("map", h.length + 1), ("iter", h.length)]
        (.tuple (.cons (.path ["k"]) (.cons (.path ["v"]) .nil)))
        (.semi (.method (.path [⟨"map", .nil⟩]) "insert" .nil (.cons (.path [⟨"k", .nil⟩]) (.cons (.path [⟨"v", .nil⟩]) .nil))) .nil)
        (pairOwn (k, v)) (h ++ [u, mapVal s]) = Res.val .unit (h ++ [u, mapVal s']) := by
        cases b <;> runs [forBody, mapVal, slotsVal, pairOwn, pairVal, slotVal, h1, hi]
      rw [this]
      rfl

theorem map_fromIter {h : Heap P} (n : Nat) (xs : List (P 0 × P 1)) :
    (outM c J S U (n + 4)).call (.con "OrdinalMap") "from_iter" [.arr (xs.map pairOwn)] h =
      (fun s => (mapVal s, h)) <$> OMap.fromIter c (J 0) 0 xs := by
  refine (outside_call (d := mapFn3_0) (n + 3) _ _ rfl rfl).trans ?_
  have h1 := map_extend (c := c) (J := J) (S := S) (U := U) (h := h) n rfl (.arr (xs.map pairOwn)) xs (OMap.new (P 1))
  have h2 (h : Heap P) := map_new (c := c) (J := J) (S := S) (U := U) (h := h) (n + 1)
  simp only [mapVal, slotsVal, phantom, OMap.new, List.map_nil] at h1 h2
  cases he : OMap.extendLoop c (J 0) 0 ([] : List (Option (P 1))) xs <;>
  runs [mapFn3_0, OMap.fromIter, OMap.new, mapVal, slotsVal, iterate, h1, h2, he]

/-! ## The program -/

theorem programIn_cons {t : Bool} {s : String} {ss : List (Bool × String)} {a b : Prog} (ha : parseIn t s = some a)
    (hb : programIn ss = some b) : programIn ((t, s) :: ss) = some (a ++ b) := by
  rw [programIn, ha, hb]

theorem programIn_mapSources : programIn mapSources = some maps :=
  programIn_cons ordinalTraits_parsedIn (programIn_cons values_parsedIn (programIn_cons mapEnumerate_parsed (programIn_cons
    totalIter_parsed (programIn_cons totalMap_parsed (programIn_cons totalArrayMap_parsed (programIn_cons mapIter_parsed
    (programIn_cons mapEntry_parsed (programIn_cons map_parsed (programIn_cons mapArrayMap_parsed (programIn_cons
    arrayFromIter_parsed (programIn_cons arrayAsMut_parsed rfl)))))))))))

theorem MapSources.of {Q : Prog → Prop} (h : Q maps) : MapSources Q := ⟨maps, programIn_mapSources, h⟩

end OrdinalMap.Text
