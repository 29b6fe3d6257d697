import Verif.Text.TotalFns
/-!
# `as_mut` of `OrdinalTotalArrayMap`, `array_as_mut`, and `array_from_iter` with any number of items, run from their texts
-/

namespace OrdinalMap.Text

variable {P : Nat → Type} {c : Cfg} {J : (p : Nat) → OrdinalImpl (P p)} {S : Nat} {h : Heap P} {U : UserFns P} {a : Nat} {ps : List Proj}

theorem whileLet_some {te : TyEnv} {o : Outside P} {md : Mode} {env : Env} {p : Pat} {e : Ex} {b : Blk} {v : Val P} {h h' : Heap P}
    {xs : List (String × Val P)} (he : eval c te o e md env h = Res.val v h') (hm : matchPat md h' p .move (.val v) = .ok (some xs)) :
    whileLetBody c te o md env p e b h = again ((evalBlk c te o b md (alloc xs env h').1 (alloc xs env h').2).scope md h'.length) := by
  rw [whileLetBody, he]
  simp only [whileLetStep, Res.val, hm]

theorem whileLet_none {te : TyEnv} {o : Outside P} {md : Mode} {env : Env} {p : Pat} {e : Ex} {b : Blk} {v : Val P} {h h' : Heap P}
    (he : eval c te o e md env h = Res.val v h') (hm : matchPat md h' p .move (.val v) = .ok none) :
    whileLetBody c te o md env p e b h = .ok (none, h') := by
  rw [whileLetBody, he]
  simp only [whileLetStep, Res.val, hm]

@[text] theorem blk_letT {te : TyEnv} {o : Outside P} {md : Mode} {env : Env} {h : Heap P} (p : Pat) (t : Ty) (e : Ex) (b : Blk) :
    evalBlk c te o (.letT p t e b) md env h =
      (eval c te o e md env h).onVal md fun v h => lift (matchPat md h p .move (.val (coerce (rty te t) v))) fun m => arm m
        (fun xs => evalBlk c te o b md (alloc xs env h).1 (alloc xs env h).2) (.error .compileError) := by
  rw [evalBlk]
  rfl

/-- The pattern of the loop. -/
def splitPat : Pat := .ctor ["Some"] (.cons (.tuple (.cons (.path ["first"]) (.cons (.path ["rest"]) .nil))) .nil)

/-- The expression of the loop. -/
def splitEx : Ex := .method (.path [⟨"array", .nil⟩]) "split_first_mut" .nil .nil

/-- The block of the loop. -/
def splitBlk : Blk := .semi (.method (.path [⟨"result", .nil⟩]) "push" .nil (.cons (.path [⟨"first", .nil⟩]) .nil))
  (.semi (.assign (.path [⟨"array", .nil⟩]) (.path [⟨"rest", .nil⟩])) .nil)

/-- The variables of `array_as_mut`. -/
def asMutEnv (k : Nat) : Env := [("result", k + 2), ("array", k + 1), ("array", k)]

abbrev asMutBody (c : Cfg) (te : TyEnv) (o : Outside P) (k : Nat) := whileLetBody c te o .run (asMutEnv k) splitPat splitEx splitBlk

theorem splitPat_some (h : Heap P) (r : Val P) (rs : List (Val P)) :
    matchPat .run h splitPat .move (.val (splitFirst (r :: rs))) = .ok (some [("first", r), ("rest", .it rs)]) := by
  rfl

theorem splitPat_none (h : Heap P) : matchPat .run h splitPat .move (.val (splitFirst [])) = .ok none := by
  rfl

/-- An iteration, when the slice is `x`, with `r` first and `rs` as the rest. -/
theorem asMut_step {te : TyEnv} (n : Nat) (u x r : Val P) (rs ws : List (Val P)) (hw : ws.length < S)
    (he : eval c te (outM c J S U (n + 1)) splitEx .run (asMutEnv h.length) (h ++ [u, x, .bld S ws]) =
      Res.val (splitFirst (r :: rs)) (h ++ [u, x, .bld S ws])) :
    asMutBody c te (outM c J S U (n + 1)) h.length (h ++ [u, x, .bld S ws]) =
      .ok (some (.loc (.val .unit)), h ++ [u, .it rs, .bld S (ws ++ [r])]) := by
  refine (whileLet_some he (splitPat_some _ r rs)).trans ?_
  runs [splitBlk, asMutEnv, hw]

theorem asMut_loop {te : TyEnv} (n : Nat) (u : Val P) (rs : List (Val P)) : ∀ (ws : List (Val P)) (k : Nat), ws.length + rs.length ≤ S → rs.length < k →
    whileLoop (asMutBody c te (outM c J S U (n + 1)) h.length) k (h ++ [u, .it rs, .bld S ws]) = Res.val .unit (h ++ [u, .it [], .bld S (ws ++ rs)]) := by
  have he (rs ws : List (Val P)) : eval c te (outM c J S U (n + 1)) splitEx .run (asMutEnv h.length) (h ++ [u, .it rs, .bld S ws]) =
      Res.val (splitFirst rs) (h ++ [u, .it rs, .bld S ws]) := by
    runs [splitEx, asMutEnv]
  induction rs with
  | nil =>
    intro ws k hw hk
    obtain ⟨k, rfl⟩ : ∃ j, k = j + 1 := ⟨k - 1, by simp at hk; omega⟩
    rw [whileLoop, asMutBody, whileLet_none (he [] ws) (splitPat_none _)]
    simp
  | cons r rs ih =>
    intro ws k hw hk
    simp only [List.length_cons] at hw hk
    obtain ⟨k, rfl⟩ : ∃ j, k = j + 1 := ⟨k - 1, by omega⟩
    rw [whileLoop, asMut_step n u (.it (r :: rs)) r rs ws (by omega) (he _ _)]
    have := ih (ws ++ [r]) k (by simp; omega) (by omega)
    simp only [List.append_assoc, List.cons_append, List.nil_append] at this
    exact this

/-- References to the elements of the array at a place. -/
def elemRefs (a : Nat) (ps : List Proj) (n : Nat) : List (Val P) := (List.range n).map fun i => .mref a (ps ++ [.idx i])

/-- The loop, with the array at a place. -/
theorem asMut_all {te : TyEnv} (n : Nat) (u : Val P) {vs : List (Val P)} (hv : vs.length = S) (hS : S < c.M) (hp : Place h a ps (.arr vs)) :
    ∃ x, whileLoop (asMutBody c te (outM c J S U (n + 1)) h.length) (c.M + 1) (h ++ [u, .mref a ps, .bld S []]) =
      Res.val .unit (h ++ [u, x, .bld S (elemRefs a ps S)]) := by
  have hl := hp.lt
  have hg := hp.get
  have he : eval c te (outM c J S U (n + 1)) splitEx .run (asMutEnv h.length) (h ++ [u, .mref a ps, .bld S []]) =
      Res.val (splitFirst (elemRefs a ps S)) (h ++ [u, .mref a ps, .bld S []]) := by
    runs [splitEx, asMutEnv, hl, hg, get_append, elemRefs, hv]
  rw [whileLoop]
  have hr : (elemRefs (P := P) a ps S).length = S := by simp [elemRefs]
  cases hrs : elemRefs (P := P) a ps S with
  | nil =>
    rw [hrs] at he
    rw [asMutBody, whileLet_none he (splitPat_none _)]
    exact ⟨_, rfl⟩
  | cons r rs =>
    rw [hrs] at he hr
    simp only [List.length_cons] at hr
    rw [asMut_step n u _ r rs [] (by simp; omega) he]
    exact ⟨_, asMut_loop n u rs [r] c.M (by simp; omega) (by omega)⟩

theorem arrayAsMut_run (n : Nat) {vs : List (Val P)} (hv : vs.length = S) (hS : S < c.M) (hp : Place h a ps (.arr vs)) :
    (outM c J S U (n + 2)).free "array_as_mut" [.mref a ps] h = .ok (.arr (elemRefs a ps S), h) := by
  refine (outside_free (d := arrayAsMutFn0_0) (n + 1) _ _ rfl).trans ?_
  obtain ⟨x, h1⟩ := asMut_all (c := c) (J := J) (U := U) (te := mapTys S) n (.mref a ps) hv hS hp
  simp only [asMutBody, asMutEnv, splitPat, splitEx, splitBlk, Cfg.M] at h1
  have hr : (elemRefs (P := P) a ps S).length = S := by simp [elemRefs]
  runs [arrayAsMutFn0_0, h1, hr]

theorem totalArr_asMut (n : Nat) {vs : List (Val P)} (hv : vs.length = S) (hS : S < c.M) (hp : Place h a ps (totalArrVal vs)) :
    (outM c J S U (n + 3)).call (.con "OrdinalTotalArrayMap") "as_mut" [.mref a ps] h =
      .ok (totalArrVal (elemRefs a (ps ++ [.field "map"]) S), h) := by
  refine (outside_call (d := totalArrayMapFn1_8) (n + 2) _ _ rfl rfl).trans ?_
  have hl := hp.lt
  have hg := hp.get
  have hm : Place (h ++ [.mref a ps]) a (ps ++ [.field "map"]) (.arr vs) := (hp.append _).totalArr
  have h1 := arrayAsMut_run (c := c) (J := J) (U := U) (h := h ++ [.mref a ps]) n hv hS hm
  have h2 (ws : List (Val P)) := totalArr_fromArray (c := c) (J := J) (S := S) (U := U) (h := h ++ [.mref a ps]) n ws
  simp only [totalArrVal, phantom] at hg h2
  runs [totalArrayMapFn1_8, hl, hg, get_append, h1, h2, totalArrVal]

/-! ## `array_from_iter` -/

/-- With too many items, `push` panics. -/
theorem fromIter_over {te : TyEnv} (n : Nat) (u : Val P) (us : List (Val P)) : ∀ ws : List (Val P), ws.length ≤ S → S < ws.length + us.length →
    forLoop (forBody c te (outM c J S U (n + 1)) .run [("builder", h.length + 1), ("iter", h.length)] (.path ["item"])
      (.semi (.method (.path [⟨"builder", .nil⟩]) "push" .nil (.cons (.path [⟨"item", .nil⟩]) .nil)) .nil))
      us (h ++ [u, .bld S ws]) = .error .panic := by
  induction us with
  | nil => intro ws h1 h2; simp at h2; omega
  | cons x us ih =>
    intro ws h1 h2
    simp only [List.length_cons] at h2
    rw [forLoop]
    by_cases hlt : ws.length < S
    · have : forBody c te (outM c J S U (n + 1)) .run [("builder", h.length + 1), ("iter", h.length)] (.path ["item"])
        (.semi (.method (.path [⟨"builder", .nil⟩]) "push" .nil (.cons (.path [⟨"item", .nil⟩]) .nil)) .nil)
        x (h ++ [u, .bld S ws]) = Res.val .unit (h ++ [u, .bld S (ws ++ [x])]) := by
        runs [forBody, hlt]
      rw [this]
      exact ih (ws ++ [x]) (by simp; omega) (by simp; omega)
    · have : forBody c te (outM c J S U (n + 1)) .run [("builder", h.length + 1), ("iter", h.length)] (.path ["item"])
        (.semi (.method (.path [⟨"builder", .nil⟩]) "push" .nil (.cons (.path [⟨"item", .nil⟩]) .nil)) .nil)
        x (h ++ [u, .bld S ws]) = .error .panic := by
        runs [forBody, hlt, fail]
      rw [this]

theorem fromIter_any (n : Nat) (us : List (Val P)) :
    (outM c J S U (n + 2)).free "array_from_iter" [.it us] h = (fun ws => (.arr ws, h)) <$> arrayFromIter S us := by
  by_cases hu : us.length = S
  · rw [fromIter_list n us hu, arrayFromIter_ok hu]; rfl
  · rw [arrayFromIter_panic hu]
    refine (outside_free (d := arrayFromIterFn0_0) (n + 1) _ _ rfl).trans ?_
    by_cases hl : us.length < S
    · have h1 := fromIter_loop (c := c) (J := J) (S := S) (U := U) (h := h) (te := mapTys S) n (.it us) us [] (by simp; omega)
      simp only [List.nil_append] at h1
      runs [arrayFromIterFn0_0, iterate, h1, hu, fail]
    · have h1 := fromIter_over (c := c) (J := J) (S := S) (U := U) (h := h) (te := mapTys S) n (.it us) us [] (by simp) (by simp; omega)
      runs [arrayFromIterFn0_0, iterate, h1, fail]

end OrdinalMap.Text
