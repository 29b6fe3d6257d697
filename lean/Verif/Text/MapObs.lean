import Verif.Text.MapHist
import Verif.Props.Map
/-!
# From the model to the text: what can be observed of a sparse map
-/

namespace OrdinalMap.Text
open OrdinalMap.Props

variable {P : Nat → Type} {c : Cfg} {J : (p : Nat) → OrdinalImpl (P p)} {S : Nat} {U : UserFns P}

theorem intoIter_step_left {s : MapIntoIter (P 1)} {d : Dir} {r} (h : (MapIntoIter.it c (J 0)).step s d = .ok r) :
    (Enumerate.iter r.2).length ≤ (Enumerate.iter s).length := by
  cases d with
  | front =>
    refine (skipLoop_left (len := fun s : MapIntoIter (P 1) => (Enumerate.iter s).length) (fun s r hr => ?_) (fun x s r hr => ?_) _ s r h).1
    · exact nextItem_left hr
    · obtain ⟨k, o⟩ := x
      cases o <;> simp only [MapIntoIter.body, Except.ok.injEq] at hr <;> subst hr <;> rfl
  | back =>
    refine (skipLoop_left (len := fun s : MapIntoIter (P 1) => (Enumerate.iter s).length) (fun s r hr => ?_) (fun x s r hr => ?_) _ s r h).1
    · exact nextBackItem_left hr
    · obtain ⟨k, o⟩ := x
      cases o <;> simp only [MapIntoIter.body, Except.ok.injEq] at hr <;> subst hr <;> rfl

theorem intoIterArray_step_left {s : MapIntoIterArray (P 1)} {d : Dir} {r} (h : (MapIntoIterArray.it c (J 0)).step s d = .ok r) :
    (Enumerate.iter r.2).length ≤ (Enumerate.iter s).length := by
  cases d with
  | front =>
    refine (skipLoop_left (len := fun s : MapIntoIterArray (P 1) => (Enumerate.iter s).length) (fun s r hr => ?_) (fun x s r hr => ?_) _ s r h).1
    · exact nextItem_left hr
    · obtain ⟨k, o⟩ := x
      cases o <;> simp only [MapIntoIterArray.body, Except.ok.injEq] at hr <;> subst hr <;> rfl
  | back =>
    refine (skipLoop_left (len := fun s : MapIntoIterArray (P 1) => (Enumerate.iter s).length) (fun s r hr => ?_) (fun x s r hr => ?_) _ s r h).1
    · exact nextBackItem_left hr
    · obtain ⟨k, o⟩ := x
      cases o <;> simp only [MapIntoIterArray.body, Except.ok.injEq] at hr <;> subst hr <;> rfl

theorem textIntoIter_step (s : MapIntoIter (P 1)) (d : Dir) (hs : (Enumerate.iter s).length ≤ c.M) :
    (textMapIter (mapCall c J S maps U) "IntoIter" readPair 0).step [intoIterVal s] d =
      (fun r => (r.1, [intoIterVal r.2])) <$> (MapIntoIter.it c (J 0)).step s d := by
  have hq (u : Val P) : put [intoIterVal s] 0 [] u = [u] := put_var (by simp)
  cases d with
  | front =>
    have := intoIter_next (c := c) (J := J) (S := S) (U := U) (h := [intoIterVal s]) (a := 0) 5 (place_var (by simp)) hs
    simp only [hq] at this
    exact textNext_of (e := pairOwn) (g := fun s : MapIntoIter (P 1) => [intoIterVal s]) this fun _ _ => rfl
  | back =>
    have := intoIter_nextBack (c := c) (J := J) (S := S) (U := U) (h := [intoIterVal s]) (a := 0) 5 (place_var (by simp)) hs
    simp only [hq] at this
    exact textNext_of (e := pairOwn) (g := fun s : MapIntoIter (P 1) => [intoIterVal s]) this fun _ _ => rfl

theorem textIntoIterArray_step (s : MapIntoIterArray (P 1)) (d : Dir) (hs : (Enumerate.iter s).length ≤ c.M) :
    (textMapIter (mapCall c J S maps U) "IntoIterArray" readPair 0).step [intoIterArrayVal s] d =
      (fun r => (r.1, [intoIterArrayVal r.2])) <$> (MapIntoIterArray.it c (J 0)).step s d := by
  have hq (u : Val P) : put [intoIterArrayVal s] 0 [] u = [u] := put_var (by simp)
  cases d with
  | front =>
    have := intoIterArray_next (c := c) (J := J) (S := S) (U := U) (h := [intoIterArrayVal s]) (a := 0) 5 (place_var (by simp)) hs
    simp only [hq] at this
    exact textNext_of (e := pairOwn) (g := fun s : MapIntoIterArray (P 1) => [intoIterArrayVal s]) this fun _ _ => rfl
  | back =>
    have := intoIterArray_nextBack (c := c) (J := J) (S := S) (U := U) (h := [intoIterArrayVal s]) (a := 0) 5 (place_var (by simp)) hs
    simp only [hq] at this
    exact textNext_of (e := pairOwn) (g := fun s : MapIntoIterArray (P 1) => [intoIterArrayVal s]) this fun _ _ => rfl

/-- From iterators of the model to iterators of the text. -/
theorem iterates_of {σ τ : Type} {t : RT} {f x : String} {arg : Val P} {read : Heap P → Val P → R τ} {it : DEIter σ τ} {s : σ}
    {enc : σ → Val P} {Inv : σ → Prop} {l : List τ} {obs : List τ → σ → Prop} {obs' : Nat → Val P → Prop}
    (hc : mapCall c J S maps U t f [arg] [] = .ok (enc s, []))
    (hs : ∀ s d, Inv s → (textMapIter (mapCall c J S maps U) x read 0).step [enc s] d = (fun r => (r.1, [enc r.2])) <$> it.step s d)
    (hv : ∀ s d r, Inv s → it.step s d = .ok r → Inv r.2) (hI : Inv s) (ho : ∀ l s, obs l s → obs' l.length (enc s))
    (hb : BehavesLike it s l obs) : Iterates (mapCall c J S maps U) t f x arg read l obs' :=
  ⟨enc s, hc, iterBehaves_enc (enc := fun s => [enc s]) hs hv hI (fun l s h => ⟨_, rfl, ho l s h⟩) hb⟩

/-- A hint of the model is right in the text. -/
theorem hint_of {x : String} {k hi : Nat} {v : Val P} (h1 : (outM c J S U 9).call (.con x) "size_hint" [.ref v] [] = .ok (hintVal (0, some hi), []))
    (h2 : Brackets (0, some hi) k) : HintRight (mapCall c J S maps U) x k v :=
  ⟨0, hi, h1, h2.1, h2.2 hi rfl⟩

variable {n : Nat} {t : RT} {enc : List (Option (P 1)) → Val P} {path : List Proj} {F : Fns (P 0) (P 1)}

/-- `iter`, `keys` and `values`. -/
theorem MapText.iterates (T : MapText c J (mapCall c J S maps U) t enc path F) {s : List (Option (P 1))} {m : P 0 → Option (P 1)}
    (hs : s.length < c.M) (hg : IterGood c (J 0) n m (TotalIter.new s 0) (TotalIter.new s 0) (TotalIter.new s 0)) :
    IteratesLike (mapCall c J S maps U) t (enc s) (pairs (J 0) n m) := by
  obtain ⟨h1, h2, h3⟩ := hg
  refine ⟨?_, ?_, ?_⟩
  · refine iterates_of (Inv := fun s : MapIter (P 1) => s.iter.length ≤ c.M) (T.iter s) (fun s d h => textIter_step (S := S) (U := U) s d h)
      (fun s d r h1 h2 => Nat.le_trans (mapIter_step_left (J := J) h2) h1) (Nat.le_of_lt hs) (fun l s h => ⟨?_, ?_⟩) h1
    · exact hint_of (mapIter_sizeHint 6 s) h
    · exact mapIter_clone 5 s
  · refine iterates_of (Inv := fun s : Keys (P 1) => s.iter.length ≤ c.M) (enc := fun s => wrapVal "Keys" (mapIterVal s)) (T.keys s)
      (fun s d h => textKeys_step (S := S) (U := U) s d h)
      (fun s d r h1 h2 => Nat.le_trans (keys_step_left (J := J) h2) h1) (Nat.le_of_lt hs) (fun l s h => ⟨?_, ?_⟩) h2
    · exact hint_of (keys_sizeHint 5 s) h
    · exact keys_clone 4 s
  · refine iterates_of (Inv := fun s : Values (P 1) => s.iter.length ≤ c.M) (enc := fun s => wrapVal "Values" (mapIterVal s)) (T.values s)
      (fun s d h => textMapValues_step (S := S) (U := U) s d h)
      (fun s d r h1 h2 => Nat.le_trans (values_step_left (J := J) h2) h1) (Nat.le_of_lt hs) (fun l s h => ⟨?_, ?_⟩) h3
    · exact hint_of (mapValues_sizeHint 5 s) h
    · exact mapValues_clone 4 s

theorem map_intoIterates {s : OMap (P 1)} {ps : List (P 0 × P 1)} (hs : List.length s < c.M)
    (hb : BehavesLike (MapIntoIter.it c (J 0)) (OMap.intoIter s) ps (fun rest s => Brackets (MapIntoIter.sizeHint s) rest.length)) :
    Iterates (mapCall c J S maps U) (.con "OrdinalMap") "into_iter" "IntoIter" (mapVal s) readPair ps
      (HintRight (mapCall c J S maps U) "IntoIter") :=
  iterates_of (Inv := fun s : MapIntoIter (P 1) => (Enumerate.iter s).length ≤ c.M) (map_intoIter 5 s)
    (fun s d h => textIntoIter_step (S := S) (U := U) s d h)
    (fun s d r h1 h2 => Nat.le_trans (intoIter_step_left (J := J) h2) h1) (Nat.le_of_lt hs)
    (fun l s h => hint_of (intoIter_sizeHint 6 s) h) hb

end OrdinalMap.Text
