import Verif.SpecTextDebug
import Verif.Text.SetMain
/-!
# Running the texts of `Debug`: what is common to them

Most have the body `f.debug_…().entries(self.g()).finish()`.
-/

namespace OrdinalMap.Text

variable {P : Nat → Type} {c : Cfg} {J : (p : Nat) → OrdinalImpl (P p)} {D : Printer P} {te : TyEnv} {prog : Prog}

theorem outF_start {f : String} (hf : startsBuilder f = true) (n : Nat) (r : P 2) (hs : Heap P) :
    (outsideF c J te prog D (n + 1)).call (.par 2) f [.mref 0 []] (.usr 2 r :: hs) = (do .ok (printerVal, .usr 2 (← D.start f r) :: hs)) := by
  simp only [outsideF, hf, if_true, onWorld]
  cases D.start f r <;> rfl

theorem outF_finish (n : Nat) (h : Heap P) :
    (outsideF c J te prog D (n + 1)).call (.con "DebugBuilder") "finish" [printerVal] h = onWorld D.finish h := rfl

theorem outF_entries (n : Nat) {it : Val P} {t : RT} (ht : typeOf it = some t) (h : Heap P) :
    (outsideF c J te prog D (n + 1)).call (.con "DebugBuilder") "entries" [printerVal, it] h = (do
      let h' ← entriesText ((outside c J te prog (n + 1)).call t "next" [.mref h.length []]) D.entry (c.M + 1) (h ++ [it])
      .ok (printerVal, h'.take h.length)) := by
  simp only [outsideF, printerVal]
  rw [if_neg (by decide), if_pos trivial]
  simp only [ht]

theorem outF_fmt (n : Nat) {x : String} {d : FnDef} (hx : x ≠ "Debug") (hp : prog.fn (.con x) "fmt" = some d) (args : List (Val P)) (h : Heap P) :
    (outsideF c J te prog D (n + 1)).call (.con x) "fmt" args h = (do
      let xs ← bindAll h d args
      (evalBlk c (("Self", .con x) :: te) (outsideF c J te prog D n) d.body .run (alloc xs [] h).1 (alloc xs [] h).2).out .run
        h.length (rty (("Self", .con x) :: te) d.ret)) := by
  simp only [outsideF]
  rw [if_neg (by decide), if_neg (by decide), if_neg (by decide), if_pos trivial, if_neg (by simpa using hx)]
  simp only [hp]

theorem outF_debug (n : Nat) {v f : Val P} {t : RT} (ht : typeOf v = some t) (h : Heap P) :
    (outsideF c J te prog D (n + 1)).call (.con "Debug") "fmt" [.ref v, f] h = (outsideF c J te prog D n).call t "fmt" [.ref v, f] h := by
  simp only [outsideF]
  rw [if_neg (by decide), if_neg (by decide), if_neg (by decide), if_pos trivial, if_pos trivial]
  simp only [ht]

/-- Functions that do not print. -/
def silent (f : String) : Bool := !(startsBuilder f || f == "entries" || f == "finish" || f == "fmt")

theorem outF_other (n : Nat) (t : RT) {f : String} (hf : silent f = true) (args : List (Val P)) (h : Heap P) :
    (outsideF c J te prog D (n + 1)).call t f args h = (outside c J te prog (n + 1)).call t f args h := by
  simp only [silent, Bool.not_eq_true', Bool.or_eq_false_iff, beq_eq_false_iff_ne] at hf
  simp [outsideF, hf]

theorem outF_self (n : Nat) (t : RT) {f : String} (hf : silent f = true) :
    (outsideF c J te prog D (n + 1)).self t f = (outside c J te prog (n + 1)).self t f := by
  simp only [silent, Bool.not_eq_true', Bool.or_eq_false_iff, beq_eq_false_iff_ne] at hf
  simp [outsideF, hf]

theorem outF_selfStart (n : Nat) (t : RT) {f : String} (hf : startsBuilder f = true) :
    (outsideF c J te prog D (n + 1)).self t f = some .refMut := by
  simp [outsideF, hf]

theorem outF_selfEntries (n : Nat) (t : RT) : (outsideF c J te prog D (n + 1)).self t "entries" = some .value := rfl
theorem outF_selfFinish (n : Nat) (t : RT) : (outsideF c J te prog D (n + 1)).self t "finish" = some .value := rfl

@[text] theorem eval_str {o : Outside P} {md : Mode} {env : Env} {h : Heap P} (s : String) :
    eval c te o (.str s) md env h = Res.val (.str s) h := rfl

theorem outF_write (n : Nat) (args : List (Val P)) (h : Heap P) :
    (outsideF c J te prog D (n + 1)).free "write!" (.mref 0 [] :: args) h = onWorld (D.write args) h := rfl

theorem outF_const (n : Nat) (t : RT) (x : String) :
    (outsideF c J te prog D (n + 1)).const t x = (outside c J te prog (n + 1)).const t x := rfl

/-- `f.debug_…().entries(self.g()).finish()`. -/
def printBody (f g : String) : Blk := .tail (.method (.method (.method (.path [⟨"f", .nil⟩]) f .nil .nil) "entries" .nil
  (.cons (.method (.path [⟨"self", .nil⟩]) g .nil .nil) .nil)) "finish" .nil .nil)

/-- What is printed: the calls of `next` and of the printer. -/
def printIt (D : Printer P) (f : String) (next : Heap P → R (Val P × Heap P)) (fuel : Nat) (h : Heap P) (it : Val P) (r : P 2) : R (Val P × Heap P) := do
  let r ← D.start f r
  let h' ← entriesText next D.entry fuel (.usr 2 r :: h ++ [it])
  onWorld D.finish (h'.take (h.length + 1))

/-- A text with this body. -/
theorem fmt_print (n : Nat) {x f g : String} {fs : List (String × Val P)} {ty ret : Ty} {u : String} {gs : List (String × Val P)} (hx : x ≠ "Debug")
    (hp : prog.fn (.con x) "fmt" = some ⟨"fmt", .ref, [(.path ["f"], .ref true ty)], ret, printBody f g⟩)
    (hr : ∀ v : Val P, coerce (rty (("Self", .con x) :: te) ret) v = v) (hf : f = "debug_list" ∨ f = "debug_map") (hg : g = "clone" ∨ g = "iter")
    (hs : (outside c J te prog (n + 1)).self (.con x) g = some .ref)
    (h : Heap P) (hc : ∀ r, (outside c J te prog (n + 1)).call (.con x) g [.ref (.obj x fs)] (.usr 2 r :: (h ++ [.ref (.obj x fs), .mref 0 []])) =
      .ok (.obj u gs, .usr 2 r :: (h ++ [.ref (.obj x fs), .mref 0 []]))) (r : P 2) :
    (outsideF c J te prog D (n + 2)).call (.con x) "fmt" [.ref (.obj x fs), .mref 0 []] (.usr 2 r :: h) = (do
      let (y, h') ← printIt D f ((outside c J te prog (n + 1)).call (.con u) "next" [.mref (h.length + 3) []]) (c.M + 1)
        (h ++ [.ref (.obj x fs), .mref 0 []]) (.obj u gs) r
      .ok (y, h'.take (h.length + 1))) := by
  refine (outF_fmt (n + 1) hx hp _ _).trans ?_
  have hb : (printerVal : Val P) = .obj "DebugBuilder" [] := rfl
  have e2 := outF_entries (c := c) (J := J) (te := te) (prog := prog) (D := D) n (it := .obj u gs) rfl
  have e3 := outF_finish (c := c) (J := J) (te := te) (prog := prog) (D := D) n
  have e4 := outF_selfFinish (c := c) (J := J) (te := te) (prog := prog) (D := D) n
  have e5 := outF_selfEntries (c := c) (J := J) (te := te) (prog := prog) (D := D) n
  simp only [hb] at e2 e3
  have hf' : startsBuilder f = true := by rcases hf with rfl | rfl <;> rfl
  have hg' : silent g = true := by rcases hg with rfl | rfl <;> rfl
  have e1 := outF_start (c := c) (J := J) (te := te) (prog := prog) (D := D) hf' n r (h ++ [.ref (.obj x fs), .mref 0 []])
  have e6 := outF_selfStart (c := c) (J := J) (te := te) (prog := prog) (D := D) n (.par 2) hf'
  have e7 := (outF_self (c := c) (J := J) (te := te) (prog := prog) (D := D) n (.con x) hg').trans hs
  have e8 := outF_other (c := c) (J := J) (te := te) (prog := prog) (D := D) n (.con x) hg'
  cases hstart : D.start f r with
  | error f' => rcases hf with rfl | rfl <;> rcases hg with rfl | rfl <;> runs [printBody, e6, e1, hstart, get_cons, printIt]
  | ok r' =>
    have he := e2 (.usr 2 r' :: (h ++ [.ref (.obj x fs), .mref 0 []]))
    cases hen : entriesText ((outside c J te prog (n + 1)).call (.con u) "next" [.mref (h.length + 3) []]) D.entry (2 ^ c.bits + 1)
      (.usr 2 r' :: (h ++ [.ref (.obj x fs), .mref 0 [], .obj u gs])) with
    | error f =>
      simp [Cfg.M, hen] at he
      rcases hf with rfl | rfl <;> rcases hg with rfl | rfl <;>
        runs [printBody, e6, e1, he, e4, e5, e7, e8, hc, hr, hb, hstart, get_cons, printIt, hen]
    | ok h' =>
      simp [Cfg.M, hen] at he
      cases hfin : onWorld D.finish (List.take (h.length + 2 + 1) h') <;>
      rcases hf with rfl | rfl <;> rcases hg with rfl | rfl <;>
        (runs [printBody, e6, e1, he, e3, e4, e5, e7, e8, hc, hr, hb, hstart, get_cons, printIt, hen, hfin]; try exact hr _)

theorem entriesText_enc {s ι : Type} {enc : s → Val P} {val : ι → Val P} {mnext : s → R (Option ι × s)} {Inv : s → Prop}
    {next : Heap P → R (Val P × Heap P)} {h : Heap P} {entry : Val P → P 2 → R (P 2)}
    (hn : ∀ r it, Inv it → next (.usr 2 r :: (h ++ [enc it])) = (fun x => (.opt (x.1.map val), .usr 2 r :: (h ++ [enc x.2]))) <$> mnext it)
    (hI : ∀ it x, Inv it → mnext it = .ok x → Inv x.2) : ∀ (fuel : Nat) (it : s) (r : P 2), Inv it →
    entriesText next entry fuel (.usr 2 r :: (h ++ [enc it])) =
      (fun x => .usr 2 x.1 :: (h ++ [enc x.2])) <$> entriesOf mnext (fun x => entry (val x)) fuel it r
  | 0, _, _, _ => rfl
  | fuel + 1, it, r, hi => by
    simp only [entriesText, entriesOf, hn r it hi]
    cases hm : mnext it with
    | error f => rfl
    | ok x =>
      obtain ⟨o, it'⟩ := x
      cases o with
      | none => rfl
      | some y =>
        cases he : entry (val y) r with
        | error f => simp [onWorld, he, Val.opt, Val.some]
        | ok r' =>
          simp only [ok_map, ok_bind, Option.map, Val.opt, Val.some, onWorld, he]
          exact entriesText_enc hn hI fuel it' r' (hI it _ hi hm)

theorem printIt_enc {s ι : Type} {enc : s → Val P} {val : ι → Val P} {mnext : s → R (Option ι × s)} {Inv : s → Prop}
    {next : Heap P → R (Val P × Heap P)} {h : Heap P}
    (hn : ∀ r it, Inv it → next (.usr 2 r :: (h ++ [enc it])) = (fun x => (.opt (x.1.map val), .usr 2 r :: (h ++ [enc x.2]))) <$> mnext it)
    (hI : ∀ it x, Inv it → mnext it = .ok x → Inv x.2) (f : String) (fuel : Nat) (it : s) (r : P 2) (hi : Inv it) :
    printIt D f next fuel h (enc it) r = (fun x => (x.1, .usr 2 x.2 :: h)) <$> D.printFrom f mnext val fuel it r := by
  simp only [printIt, Printer.printFrom, List.cons_append]
  cases D.start f r with
  | error f => rfl
  | ok r =>
    simp only [ok_bind, entriesText_enc (entry := D.entry) hn hI fuel it r hi]
    cases entriesOf mnext (fun x => D.entry (val x)) fuel it r with
    | error f => rfl
    | ok x =>
      simp only [ok_map, ok_bind, List.take_succ_cons, List.take_left, onWorld]
      cases D.finish x.1 <;> rfl

/-- `put` into the last variable. -/
theorem put_last (h : Heap P) (v w : Val P) : put (h ++ [v]) h.length [] w = h ++ [w] := by rw [put_var (by simp)]; simp

/-- A text that prints through an iterator `enc it` prints what the iterator of the model yields. -/
theorem fmt_enc_at {s ι : Type} (n : Nat) {x f g u : String} {v : Val P} {fs : List (String × Val P)} {ty ret : Ty} (enc : s → Val P)
    (gs : s → List (String × Val P)) (val : ι → Val P) {mnext : s → R (Option ι × s)} {Inv : s → Prop} {it : s} (hx : x ≠ "Debug")
    (hp : prog.fn (.con x) "fmt" = some ⟨"fmt", .ref, [(.path ["f"], .ref true ty)], ret, printBody f g⟩)
    (hr : ∀ v : Val P, coerce (rty (("Self", .con x) :: te) ret) v = v) (hf : f = "debug_list" ∨ f = "debug_map") (hg : g = "clone" ∨ g = "iter")
    (hs : (outside c J te prog (n + 1)).self (.con x) g = some .ref) (hv : v = .obj x fs) (he : ∀ it, enc it = .obj u (gs it))
    (h : Heap P) (hc : ∀ r, (outside c J te prog (n + 1)).call (.con x) g [.ref v] (.usr 2 r :: (h ++ [.ref v, .mref 0 []])) =
      .ok (enc it, .usr 2 r :: (h ++ [.ref v, .mref 0 []])))
    (hn : ∀ (h : Heap P) a it, Inv it → Place h a [] (enc it) → (outside c J te prog (n + 1)).call (.con u) "next" [.mref a []] h =
      (fun x => (.opt (x.1.map val), put h a [] (enc x.2))) <$> mnext it)
    (hI : ∀ it x, Inv it → mnext it = .ok x → Inv x.2) (hi : Inv it) (r : P 2) :
    (outsideF c J te prog D (n + 2)).call (.con x) "fmt" [.ref v, .mref 0 []] (.usr 2 r :: h) =
      (fun x => (x.1, .usr 2 x.2 :: h)) <$> D.printFrom f mnext val (c.M + 1) it r := by
  subst hv
  simp only [he] at hc hn
  rw [fmt_print n hx hp hr hf hg hs h hc r, printIt_enc (enc := fun it => .obj u (gs it)) (val := val) (Inv := Inv) ?_ hI f _ it r hi]
  · cases D.printFrom f mnext val (c.M + 1) it r <;> simp
  · intro r it hi
    have hl : (.usr 2 r :: (h ++ [.ref (.obj x fs), .mref 0 []] ++ [.obj u (gs it)]) : Heap P) =
      (.usr 2 r :: (h ++ [.ref (.obj x fs), .mref 0 []])) ++ [.obj u (gs it)] := rfl
    have hl' : h.length + 3 = (.usr 2 r :: (h ++ [.ref (.obj x fs), .mref 0 []]) : Heap P).length := by simp
    rw [hl, hl', hn _ _ it hi (place_var (by simp))]
    simp only [put_last]
    rfl

/-- The same, if the iterator is made without the heap. -/
theorem fmt_enc {s ι : Type} (n : Nat) {x f g u : String} {v : Val P} {fs : List (String × Val P)} {ty ret : Ty} (enc : s → Val P)
    (gs : s → List (String × Val P)) (val : ι → Val P) {mnext : s → R (Option ι × s)} {Inv : s → Prop} {it : s} (hx : x ≠ "Debug")
    (hp : prog.fn (.con x) "fmt" = some ⟨"fmt", .ref, [(.path ["f"], .ref true ty)], ret, printBody f g⟩)
    (hr : ∀ v : Val P, coerce (rty (("Self", .con x) :: te) ret) v = v) (hf : f = "debug_list" ∨ f = "debug_map") (hg : g = "clone" ∨ g = "iter")
    (hs : (outside c J te prog (n + 1)).self (.con x) g = some .ref) (hv : v = .obj x fs) (he : ∀ it, enc it = .obj u (gs it))
    (hc : ∀ h, (outside c J te prog (n + 1)).call (.con x) g [.ref v] h = .ok (enc it, h))
    (hn : ∀ (h : Heap P) a it, Inv it → Place h a [] (enc it) → (outside c J te prog (n + 1)).call (.con u) "next" [.mref a []] h =
      (fun x => (.opt (x.1.map val), put h a [] (enc x.2))) <$> mnext it)
    (hI : ∀ it x, Inv it → mnext it = .ok x → Inv x.2) (hi : Inv it) (h : Heap P) (r : P 2) :
    (outsideF c J te prog D (n + 2)).call (.con x) "fmt" [.ref v, .mref 0 []] (.usr 2 r :: h) =
      (fun x => (x.1, .usr 2 x.2 :: h)) <$> D.printFrom f mnext val (c.M + 1) it r := 
  fmt_enc_at n enc gs val hx hp hr hf hg hs hv he h (fun _ => hc _) hn hI hi r

theorem fmtText_eq {t : String} {v : Val P} {m : P 2 → R (Val P × P 2)} {r : P 2}
    (he : (outsideF c J te prog D 9).call (.con t) "fmt" [.ref v, .mref 0 []] [.usr 2 r] = (fun x => (x.1, [.usr 2 x.2])) <$> m r) :
    fmtText c J te prog D t v r = m r := by
  rw [fmtText, he]
  cases m r <;> rfl

end OrdinalMap.Text
