import Verif.Lemmas.LedgerSafe
import Verif.Props.Caught
import Verif.Props.Effect
/-!
# C96: no value is lost, and none is there twice

The slots of a map hold values that may be owners of something (`Box`, `File`, …).  Whatever the implementation of
`Ordinal` does (wrong, different from call to call, panicking at any call, the panics caught and the map used further),
every value that was in the map or was handed to it is, after every history of operations, exactly once in one of three
places: in the map, handed back to the caller, destroyed.  An operation that returns destroys nothing, except the
assignments through references, `clear` and the end of a `Drain`; an operation that panics leaves the map with the
values it had, except `iter_mut`, `values_mut`, `clear` and `drain`.

C88 is about honest implementations and says more about them; C80 has the absence of undefined behaviour up to the
first panic.
-/

namespace OrdinalMap.Ledger
open Upd Caught

variable {σ s K V ω ο α : Type} {c : Cfg} {J : SImpl σ K}

/-- The books of a caught operation. -/
theorem balanced_caught {h : s → List V} {x : Upd σ s ο} {inn : List V} {bk : Ended ο → List V} {dest part : Bool} {m : s}
    (hx : Pays h (Off dest) (Off part) m x inn (fun o => bk (.returned o))) (hb : bk .panicked = []) {st st' m' e}
    (he : catchUnwind x (st, m) = (.ok e, (st', m'))) : ∃ d, Balanced (h m) inn (bk e) (h m') dest part e d := by
  obtain ⟨d, g1, g2, g3⟩ := hx st
  simp only [catchUnwind] at he
  generalize x (st, m) = r at *
  obtain ⟨f | a, st₁, m₁⟩ := r
  · cases f <;> simp only [Prod.mk.injEq, Except.ok.injEq, reduceCtorEq, false_and] at he
    obtain ⟨rfl, rfl, rfl⟩ := he
    exact ⟨d, by simpa [outR, hb] using g1, fun ⟨_, h⟩ => (nomatch h), fun _ e => g3 e rfl⟩
  · simp only [Prod.mk.injEq, Except.ok.injEq] at he
    obtain ⟨rfl, rfl, rfl⟩ := he
    exact ⟨d, by simpa [outR] using g1, fun _ e => g2 e ⟨_, rfl⟩, fun h => (nomatch h)⟩

/-- What a `drain` has handed out, if the caller has got it. -/
def gotE : Ended (List (Option (K × V))) → List V
  | .returned os => got os
  | _ => []

/-- The books of a `drain`. -/
theorem balanced_drain (ds : List Dir) (leak : Bool) (m : List (Option V)) {st st' m' e}
    (he : drain c J ds leak (st, m) = (.ok e, (st', m'))) :
    ∃ d, (held m' ++ gotE e ++ d).Perm (held m) ∧
      ((∃ o, e = .returned o) → leak = true → d = []) := by
  simp only [drain, zoom, bind, M.bind, catchWith] at he
  obtain ⟨d, g1, g2, -⟩ := runDirs_pays (c := c) (J := J) ds (Drain.new m) st
  have g0 : behind (Drain.new m) = held m := rfl
  rw [g0] at g1
  generalize runDirs (drainNext c J) (drainNextBack c J) ds (st, Drain.new m) = r at *
  obtain ⟨f | os, st₁, it₁⟩ := r
  · cases f <;> simp only [outR, List.append_nil, Prod.mk.injEq, reduceCtorEq, false_and] at he g1
    obtain ⟨d', k1, -, -⟩ := drainDrop_pays (c := c) (J := J) it₁ st₁
    generalize drainDrop c J (st₁, it₁) = r at *
    obtain ⟨f | ⟨⟩, st₂, it₂⟩ := r
    · cases f <;> simp only [M.of, outR, List.append_nil, Except.ok.injEq, reduceCtorEq, false_and] at he k1
      obtain ⟨rfl, rfl, rfl⟩ := he
      exact ⟨d' ++ d, by simp only [behind, gotE] at *; perms [g1, k1], fun ⟨_, h⟩ => (nomatch h)⟩
    · simp only [M.of, outR, List.append_nil, Except.ok.injEq] at he k1
      obtain ⟨rfl, rfl, rfl⟩ := he
      exact ⟨d' ++ d, by simp only [behind, gotE] at *; perms [g1, k1], fun ⟨_, h⟩ => (nomatch h)⟩
  · obtain rfl := g2 trivial ⟨_, rfl⟩
    simp only [outR, List.append_nil, M.bind, catchUnwind] at he g1
    cases leak with
    | true =>
      simp only [M.of, if_true, Prod.mk.injEq, Except.ok.injEq] at he
      obtain ⟨rfl, rfl, rfl⟩ := he
      exact ⟨[], by simpa [behind, gotE] using g1, fun _ _ => rfl⟩
    | false =>
      obtain ⟨d', k1, -, -⟩ := drainDrop_pays (c := c) (J := J) it₁ st₁
      simp only [Bool.false_eq_true, if_false] at he
      generalize drainDrop c J (st₁, it₁) = r at *
      obtain ⟨f | ⟨⟩, st₂, it₂⟩ := r
      · cases f <;> simp only [M.of, outR, List.append_nil, Prod.mk.injEq, Except.ok.injEq, reduceCtorEq, false_and] at he k1
        obtain ⟨rfl, rfl, rfl⟩ := he
        exact ⟨d' ++ got os, by simp only [behind, gotE] at *; perms [g1, k1], fun ⟨_, h⟩ => (nomatch h)⟩
      · simp only [M.of, outR, List.append_nil, Prod.mk.injEq, Except.ok.injEq] at he k1
        obtain ⟨rfl, rfl, rfl⟩ := he
        exact ⟨d', by simp only [behind, gotE] at *; perms [g1, k1], fun _ h => (nomatch h)⟩

theorem balanced_drainStep (ds : List Dir) (leak : Bool) (m : List (Option V)) {st st' m' e}
    (he : (drain c J ds leak >>= fun e => (match e with
      | .returned os => M.of (.ok (.returned (.items os)))
      | .panicked => M.of (.ok .panicked)
      | .aborted => M.of (.ok .aborted) : Upd σ (List (Option V)) (Ended (MapOut K V)))) (st, m) = (.ok e, (st', m'))) :
    ∃ d, Balanced (held m) (given (.drain ds leak : MapOp K V)) (back (.drain ds leak) e) (held m')
      (destroys (.drain ds leak : MapOp K V)) (partway (.drain ds leak : MapOp K V)) e d := by
  simp only [bind, M.bind] at he
  generalize hr : drain c J ds leak (st, m) = r at *
  obtain ⟨f | e₁, st₁, m₁⟩ := r
  · simp at he
  · obtain ⟨d, g1, g2⟩ := balanced_drain ds leak m hr
    cases e₁ <;> simp only [M.of, Prod.mk.injEq, Except.ok.injEq] at he <;> obtain ⟨rfl, rfl, rfl⟩ := he
    · exact ⟨d, by simpa [given, back, got, gotE] using g1, fun _ h => g2 ⟨_, rfl⟩ (by simpa [destroys] using h),
        fun h => (nomatch h)⟩
    · exact ⟨d, by simpa [given, back, gotE] using g1, fun ⟨_, h⟩ => (nomatch h), fun _ h => by simp [partway] at h⟩
    · exact ⟨d, by simpa [given, back, gotE] using g1, fun ⟨_, h⟩ => (nomatch h), fun h => (nomatch h)⟩

theorem back_panicked (op : MapOp K V) : back op .panicked = [] := by cases op <;> rfl
theorem backT_panicked (op : TotalOp K V) : backT op .panicked = [] := by cases op <;> rfl

/-- Steps of `Books` make histories. -/
theorem books_run {step : ω → Upd σ s (Ended ο)} {vals : s → List V} {given : ω → List V} {back : ω → Ended ο → List V}
    {destroys partway : ω → Bool} {Q : s → Prop} (hs : ∀ op m, Q m → Safe Q m (step op))
    (hb : ∀ op m, Q m → ∀ st st' m' e, step op (st, m) = (.ok e, (st', m')) →
      ∃ d, Balanced (vals m) (given op) (back op e) (vals m') (destroys op) (partway op) e d) {m : s} (hm : Q m) :
    Books step vals given back destroys partway m := by
  have hrun : ∀ ops m, Q m → Safe Q m (Caught.run step ops) := by
    intro ops
    induction ops with
    | nil => exact fun m h => safe_of _ (by simp [Sound]) h
    | cons op ops ih =>
      refine fun m h => safe_bind (hs op m h) fun e m h => ?_
      cases e with
      | aborted => exact safe_of _ (by simp [Sound]) h
      | returned o => exact safe_bind (ih m h) fun es m h => safe_of _ (by simp [Sound]) h
      | panicked => exact safe_bind (ih m h) fun es m h => safe_of _ (by simp [Sound]) h
  refine ⟨fun ops st => (hrun ops m hm st).1, fun ops st es st' m' he op e st'' m'' hstep => ?_, fun ops => ?_⟩
  · have := (hrun ops m hm st).2
    rw [he] at this
    exact hb op m' this _ _ _ _ hstep
  · induction ops generalizing m with
    | nil =>
      intro st es st' m' he
      simp only [Caught.run, M.of, Prod.mk.injEq, Except.ok.injEq] at he
      obtain ⟨rfl, rfl, rfl⟩ := he
      exact ⟨Nat.le_refl _, [], by simp [backs], fun _ _ => rfl⟩
    | cons op ops ih =>
      intro st es st' m' he
      simp only [Caught.run, bind, M.bind] at he
      have h1 := hs op m hm st
      generalize hr : step op (st, m) = r at *
      obtain ⟨f | e, st₁, m₁⟩ := r
      · simp at he
      · obtain ⟨d, b1, b2, -⟩ := hb op m hm _ _ _ _ hr
        have key : ∀ e, (M.bind (Caught.run step ops) fun es => M.of (.ok (e :: es))) (st₁, m₁) = (.ok es, (st', m')) →
            (vals m₁ ++ back op e ++ d).Perm (vals m ++ given op) →
            ((∃ o, e = .returned o) → destroys op = false → d = []) →
            es.length ≤ (op :: ops).length ∧ ∃ destroyed,
              (vals m' ++ backs back (op :: ops) es ++ destroyed).Perm
                (vals m ++ ((op :: ops).take es.length).flatMap given) ∧
              ((∀ e ∈ es, ∃ o, e = .returned o) → (∀ op' ∈ op :: ops, destroys op' = false) → destroyed = []) := by
          intro e he b1 b2
          simp only [M.bind] at he
          generalize hr2 : Caught.run step ops (st₁, m₁) = r at *
          obtain ⟨f | es', st₂, m₂⟩ := r
          · simp at he
          · simp only [M.of, Prod.mk.injEq, Except.ok.injEq] at he
            obtain ⟨rfl, rfl, rfl⟩ := he
            obtain ⟨k0, d', k1, k2⟩ := ih h1.2 _ _ _ _ hr2
            refine ⟨by simp only [List.length_cons]; omega, d' ++ d, ?_, fun ha ho => ?_⟩
            · simp only [backs, List.length_cons, List.take_succ_cons, List.flatMap_cons]
              perms [b1, k1]
            · rw [k2 (fun e h => ha e (by simp [h])) fun o h => ho o (by simp [h]), b2 (ha e (by simp)) (ho op (by simp))]
              rfl
        cases e with
        | aborted =>
          simp only [M.of, Prod.mk.injEq, Except.ok.injEq] at he
          obtain ⟨rfl, rfl, rfl⟩ := he
          refine ⟨by simp, d, ?_, fun ha _ => ?_⟩
          · simp only [backs, List.length_cons, List.length_nil, List.take_succ_cons, List.take_zero, List.flatMap_cons,
              List.flatMap_nil, List.append_nil]
            exact b1
          · obtain ⟨o, h⟩ := ha .aborted (by simp)
            cases h
        | returned o => exact key _ he b1 b2
        | panicked => exact key _ he b1 b2

end OrdinalMap.Ledger

namespace OrdinalMap.Props
open OrdinalMap Ledger

variable {σ K V ω ο s : Type} {c : Cfg} {J : SImpl σ K}

/-- C96 for `OrdinalMap`. -/
theorem C96_map (hJ : SoundSImpl c J) (sz : Nat) (m : OMap V) (hm : m.length < c.M) :
    Books (Caught.omapStep c J sz) held given back destroys partway m := by
  refine books_run (Q := fun m : OMap V => m.length < c.M) (fun op m h => safe_omapStep hJ sz op m h)
    (fun op m h st st' m' e he => ?_) hm
  obtain ⟨ds, leak, rfl⟩ | ⟨h1, -⟩ := drain_or op
  · exact balanced_drainStep ds leak m he
  · rw [Caught.omapStep] at he
    · exact balanced_caught (bk := back op) (omapOp_pays sz op h1 m) (back_panicked op) he
    · exact h1

example := C96_map (flipImpl_sound debug64) 8 (OMap.new Nat) debug64.M_pos
example := C96_map (tiredImpl_sound release32) 8 [some 5, none, some (6 : Nat)] (by decide)

/-- C96 for `OrdinalArrayMap`. -/
theorem C96_array_map (hJ : SoundSImpl c J) (m : OrdinalArrayMap V) (hm : List.length m < c.M) :
    Books (Caught.amapStep c J) held given back destroys partway m := by
  refine books_run (Q := fun m' : OrdinalArrayMap V => List.length m' = List.length m)
    (fun op m h => safe_amapStep hJ op hm m h) (fun op m h st st' m' e he => ?_) rfl
  obtain ⟨ds, leak, rfl⟩ | ⟨h1, -⟩ := drain_or op
  · exact balanced_drainStep ds leak m he
  · rw [Caught.amapStep] at he
    · exact balanced_caught (bk := back op) (amapOp_pays op h1 m) (back_panicked op) he
    · exact h1

example := C96_array_map (flipImpl_sound debug64) [some 5, some (6 : Nat)] (by decide)

/-- C96 for the total maps.  `len` is what `len()` of the type evaluates. -/
theorem C96_total (hJ : SoundSImpl c J) (len : R Nat) (hlen : Sound len) (m : List V) (hm : m.length < c.M) :
    Books (Caught.totalStep c J len) id givenT backT destroysT partwayT m :=
  books_run (Q := fun m' : List V => m'.length = m.length) (fun op m h => safe_totalStep hJ len hlen op hm m h)
    (fun op m _ _ _ _ _ he => balanced_caught (bk := backT op) (totalOp_pays len op m) (backT_panicked op) he) rfl

example := C96_total (flipImpl_sound debug64) (.ok 2) (Sound.mk_ok 2) [5, (6 : Nat)] (by decide)

/-- C96, values that are all different: none is handed back twice, and none that has been handed back is still in the
map. -/
theorem C96_once {step : ω → Upd σ s (Ended ο)} {vals : s → List V} {given : ω → List V} {back : ω → Ended ο → List V}
    {destroys partway : ω → Bool} {m : s} (h : Books step vals given back destroys partway m) {ops : List ω} {st st' : σ}
    {es : List (Ended ο)} {m' : s} (hr : Caught.run step ops (st, m) = (.ok es, (st', m')))
    (hn : (vals m ++ ops.flatMap given).Nodup) : (vals m' ++ backs back ops es).Nodup := by
  obtain ⟨-, d, h1, -⟩ := h.all _ _ _ _ _ hr
  have h2 : (vals m ++ (ops.take es.length).flatMap given).Nodup := by
    refine hn.sublist (List.Sublist.append_left ?_ _)
    have : ops.flatMap given = (ops.take es.length).flatMap given ++ (ops.drop es.length).flatMap given := by
      rw [← List.flatMap_append, List.take_append_drop]
    rw [this]
    exact List.sublist_append_left _ _
  exact (h1.nodup_iff.2 h2).sublist (List.sublist_append_left _ _)

/-! ## Concrete histories -/

-- Two inserts of one key, which has ordinal 0 first and 1 then: both values are in the map.  Then `remove` finds the
-- first, and `drain` asks for the key 0, is told that there is none, and panics.
example : Caught.run (Caught.omapStep debug64 flipImpl 8) [.insert true (5 : Nat), .insert true 6, .remove true,
    .drain [.front] true] (false, OMap.new Nat) =
    (.ok [.returned (.opt none), .returned (.opt none), .returned (.opt (some 5)), .panicked], (true, [none, some 6])) := by
  rfl
example := C96_once (C96_map (flipImpl_sound debug64) 8 (OMap.new Nat) debug64.M_pos) (ops := [.insert true 5,
  .insert true 6, .remove true, .drain [.front] true]) (st := false) rfl (by decide)
-- `clear` is stopped by a panic after one value: 5 is destroyed, 6 is still there, and `insert` hands it back.
example : Caught.run (Caught.omapStep debug64 tiredImpl 8) [.clear, .insert true (7 : Nat)] (2, [some 5, some 6]) =
    (.ok [.panicked, .returned (.opt (some 6))], (3, [none, some 7])) := by rfl
example : backs back [.clear, .insert true (7 : Nat)] [.panicked, .returned (.opt (some 6) : MapOut Bool Nat)] = [6] := rfl

end OrdinalMap.Props
