import Verif.Text.BuilderRun
import Verif.Props.Arrays
/-!
# C108: the source text of `array_builder.rs`
-/

namespace OrdinalMap.Props
open OrdinalMap.Text

variable {P : Nat → Type} {c : Cfg} {S : Nat} {D : P 0 → P 2 → R (P 2)}

theorem builderFn_new (r : P 2) : builderFn c S D arrayBuilderTree "new" [] r = .ok (builderVal (cells 0 [] S) 0, r) := by
  rw [builderFn, builder_new 5]
  rfl

theorem builderMut_push (hS : S < c.M) (v : P 0) (items : List (P 0)) (hl : items.length < S) (r : P 2) :
    builderMut c S D arrayBuilderTree "push" (builderVal (cells 0 items (S - items.length)) items.length) [.usr 0 v] r =
      .ok (builderVal (cells 0 (items ++ [v]) (S - (items ++ [v]).length)) (items ++ [v]).length, r) := by
  rw [builderMut, builder_push 7 hS r true v items hl]
  rfl

theorem builderMut_full (v : P 0) (items : List (P 0)) (hl : items.length = S) (r : P 2) :
    builderMut c S D arrayBuilderTree "push" (builderVal (cells 0 items (S - items.length)) items.length) [.usr 0 v] r =
      .error .panic := by
  rw [builderMut, builder_full 7 r true v items hl]
  rfl

theorem builder_holds (items : List (P 0)) (hl : items.length ≤ S) :
    Holds c S D arrayBuilderTree (builderVal (cells 0 items (S - items.length)) items.length) items := by
  refine ⟨fun r => ?_, fun r => ?_, fun r => ?_⟩
  · have := builder_drop (c := c) (S := S) (D := D) (h := [.bool true]) 7 1 rfl (S - items.length) items r
    simp only [List.cons_append, List.nil_append] at this
    rw [builderMut, this]
    cases dropAll D items r <;> rfl
  · rw [builderFn]
    split
    · rename_i he
      rw [builder_tryFinish_full 5 true items he r]
      rfl
    · rw [builder_tryFinish_err 5 true items (by omega) r]
      cases dropAll D items r <;> rfl
  · rw [builderFn]
    split
    · rename_i he
      rw [builder_finish_full 4 items he r]
      rfl
    · rw [builder_finish_err 4 items (by omega) r]
      cases dropAll D items r <;> rfl

theorem fill_spec (hS : S < c.M) (items : List (P 0)) (r : P 2) :
    (items.length ≤ S →
      fill c S D arrayBuilderTree items r = .ok (builderVal (cells 0 items (S - items.length)) items.length, r)) ∧
    (S < items.length → fill c S D arrayBuilderTree items r = .error .panic) := by
  have key : ∀ (items vs : List (P 0)), vs.length ≤ S →
      (vs.length + items.length ≤ S → items.foldlM (fun (b, r) v => builderMut c S D arrayBuilderTree "push" b [.usr 0 v] r)
          (builderVal (cells 0 vs (S - vs.length)) vs.length, r) =
        .ok (builderVal (cells 0 (vs ++ items) (S - (vs ++ items).length)) (vs ++ items).length, r)) ∧
      (S < vs.length + items.length → items.foldlM (fun (b, r) v => builderMut c S D arrayBuilderTree "push" b [.usr 0 v] r)
          (builderVal (cells 0 vs (S - vs.length)) vs.length, r) = .error .panic) := by
    intro items
    induction items with
    | nil =>
      intro vs h
      refine ⟨fun _ => ?_, fun h => by simp at h; omega⟩
      rw [List.append_nil]
      rfl
    | cons v items ih =>
      intro vs h
      simp only [List.foldlM_cons, List.length_cons]
      rcases Nat.lt_or_ge vs.length S with hlt | hge
      · rw [builderMut_push hS v vs hlt r, ok_bind]
        have := ih (vs ++ [v]) (by simp; omega)
        rw [List.append_assoc, List.singleton_append] at this
        have e : (vs ++ [v]).length = vs.length + 1 := by simp
        exact ⟨fun h => this.1 (by omega), fun h => this.2 (by omega)⟩
      · rw [builderMut_full v vs (by omega) r]
        exact ⟨fun _ => by omega, fun _ => rfl⟩
  rw [fill, builderFn_new, ok_bind]
  have := key items [] (by simp)
  simpa using this

/-- C108: the text of `array_builder.rs`, run on uninitialized memory with raw pointers, where anything undefined is an error.
`new` and up to `S` calls of `push` return, and the builder then holds what was pushed: its `drop` drops exactly these items, each once and
in order; `try_finish` and `finish` return exactly these items, and drop none, if there are `S` of them, and otherwise drop each once, in
order, before they fail.  One `push` more panics.  `D` is any destructor of `T`; it changes the state of the world, and may panic. -/
theorem C108_builder : ∃ prog, parse arrayBuilderRs = some prog ∧
    ∀ {P : Nat → Type} (c : Cfg) (S : Nat) (D : P 0 → P 2 → R (P 2)) (items : List (P 0)) (r : P 2), S < c.M →
      (items.length ≤ S → ∃ b, fill c S D prog items r = .ok (b, r) ∧ Holds c S D prog b items) ∧
      (S < items.length → fill c S D prog items r = .error .panic) :=
  ⟨_, arrayBuilder_parsed, fun _ _ _ items r hS =>
    ⟨fun hl => ⟨_, (fill_spec hS items r).1 hl, builder_holds items hl⟩, (fill_spec hS items r).2⟩⟩

/-- Numbers, a world that is a list of those dropped, and nothing else. -/
abbrev LogTypes : Nat → Type
  | 0 => Nat
  | 2 => List Nat
  | _ => Empty

/-- The destructor that logs. -/
def logDrop : LogTypes 0 → LogTypes 2 → R (LogTypes 2) := fun v (r : List Nat) => .ok (r ++ [v])

/-- Two numbers. -/
def two : List (LogTypes 0) := [(7 : Nat), (8 : Nat)]

/-- A world. -/
def logged (l : List Nat) : LogTypes 2 := l

/-- Two items in an array of three: `try_finish` drops both and fails.  Two in an array of two: they are returned, and none is dropped. -/
example : ∃ prog, parse arrayBuilderRs = some prog ∧ ∀ c : Cfg,
    (∃ b, fill c 3 logDrop prog two (logged []) = .ok (b, logged []) ∧
      builderFn c 3 logDrop prog "try_finish" [b] (logged []) = .ok (.con "Err" [.con "ArrayNotFilled" []], logged [7, 8])) ∧
    (∃ b, fill c 2 logDrop prog two (logged []) = .ok (b, logged []) ∧
      builderFn c 2 logDrop prog "try_finish" [b] (logged []) = .ok (.con "Ok" [itemsVal two], logged [])) ∧
    fill c 1 logDrop prog two (logged []) = .error .panic := by
  obtain ⟨prog, hp, h⟩ := C108_builder
  refine ⟨prog, hp, fun c => ?_⟩
  have hM : 3 < c.M := by
    rcases c.bits_ok with e | e <;> simp [Cfg.M, e]
  obtain ⟨b, hb, hh⟩ := (h c 3 logDrop two (logged []) (by omega)).1 (by decide)
  obtain ⟨b', hb', hh'⟩ := (h c 2 logDrop two (logged []) (by omega)).1 (by decide)
  exact ⟨⟨b, hb, hh.tryFinish _⟩, ⟨b', hb', hh'.tryFinish _⟩, (h c 1 logDrop two (logged []) (by omega)).2 (by decide)⟩

/-- The evaluator's own `ArrayBuilder`: `new`, and a `push` of each item. -/
def stdFill (S : Nat) (items : List (P 0)) : R (Val P) :=
  items.foldlM (fun b v => match stdMut .run b "push" [.usr 0 v] with
    | some r => Prod.snd <$> r
    | none => stuck) (.bld S [])

theorem stdFill_spec (items : List (P 0)) :
    stdFill S items = if items.length ≤ S then .ok (.bld S (items.map (.usr 0 ·))) else .error .panic := by
  have key : ∀ (items : List (P 0)) (vs : List (Val P)), vs.length ≤ S →
      items.foldlM (fun b v => match stdMut .run b "push" [.usr 0 v] with
        | some r => Prod.snd <$> r
        | none => stuck) (.bld S vs) =
      if vs.length + items.length ≤ S then .ok (.bld S (vs ++ items.map (.usr 0 ·))) else (.error .panic : R (Val P)) := by
    intro items
    induction items with
    | nil =>
      intro vs h
      simp [h, pure, Except.pure]
    | cons v items ih =>
      intro vs h
      simp only [List.foldlM_cons, List.length_cons, stdMut, if_true]
      rcases Nat.lt_or_ge vs.length S with hlt | hge
      · have e : (vs ++ [(.usr 0 v : Val P)]).length = vs.length + 1 := by simp
        have := ih (vs ++ [.usr 0 v]) (by omega)
        rw [e, List.append_assoc, List.singleton_append, show vs.length + 1 + items.length = vs.length + (items.length + 1) by omega] at this
        rw [if_pos hlt]
        exact this
      · rw [if_neg (by omega), if_neg (by omega)]
        rfl
  simpa [stdFill] using key items [] (by simp)

/-- C108: the `ArrayBuilder` that the evaluator supplies to other texts is that of the source text.  Filling them succeeds or panics
alike, and once filled, `finish` returns the same array, or neither returns. -/
theorem C108_supplied : ∃ prog, parse arrayBuilderRs = some prog ∧
    ∀ {P : Nat → Type} (c : Cfg) (S : Nat) (D : P 0 → P 2 → R (P 2)) (items : List (P 0)) (r : P 2), S < c.M →
      (∀ e, fill c S D prog items r = .error e ↔ stdFill (P := P) S items = .error e) ∧
      ∀ b b' r' w, fill c S D prog items r = .ok (b, r') → stdFill S items = .ok b' →
        ((∃ r'', builderFn c S D prog "finish" [b] r' = .ok (w, r'')) ↔ stdMethod c .run b' "finish" [] = some (.ok w)) := by
  refine ⟨_, arrayBuilder_parsed, fun c S D items r hS => ?_⟩
  rw [stdFill_spec]
  by_cases hl : items.length ≤ S
  · rw [(fill_spec hS items r).1 hl, if_pos hl]
    refine ⟨fun e => ⟨fun h => (nomatch h), fun h => (nomatch h)⟩, fun b b' r' w hb hb' => ?_⟩
    cases hb
    cases hb'
    rw [(builder_holds items hl).finish r]
    simp only [stdMethod, if_true, List.length_map]
    by_cases he : items.length = S
    · rw [if_pos he, if_pos he, itemsVal]
      exact ⟨fun ⟨_, h⟩ => by cases h; rfl, fun h => ⟨r, by cases h; rfl⟩⟩
    · rw [if_neg he, if_neg he]
      refine ⟨fun ⟨_, h⟩ => ?_, fun h => by cases h⟩
      cases hd : dropAll D items r <;> rw [hd] at h <;> cases h
  · rw [(fill_spec hS items r).2 (by omega), if_neg hl]
    exact ⟨fun e => ⟨fun h => by cases h; rfl, fun h => by cases h; rfl⟩, fun b b' r' w hb => nomatch hb⟩

example : stdFill 2 two = .ok (.bld 2 (two.map (.usr 0 ·))) ∧ stdFill 1 two = .error .panic := ⟨rfl, rfl⟩

/-- C108: the text and the model of C46 agree: both can be filled or neither, and what the text passes to the destructor or returns is
what the model says is dropped or returned. -/
theorem C108_model : ∃ prog, parse arrayBuilderRs = some prog ∧
    ∀ {P : Nat → Type} (c : Cfg) (S : Nat) (D : P 0 → P 2 → R (P 2)) (items : List (P 0)) (r : P 2), S < c.M →
      (∀ e, fill c S D prog items r = .error e ↔ items.foldlM ArrayBuilder.push (ArrayBuilder.new (P 0) S) = .error e) ∧
      ∀ b b' r', fill c S D prog items r = .ok (b, r') → items.foldlM ArrayBuilder.push (ArrayBuilder.new (P 0) S) = .ok b' →
        (∀ r, Prod.snd <$> builderMut c S D prog "drop" b [] r = b'.drop >>= (dropAll D · r)) ∧
        ∀ r, builderFn c S D prog "try_finish" [b] r = (do
          let f ← b'.tryFinish
          let r ← dropAll D f.dropped r
          .ok (match f.result with
            | some a => .con "Ok" [itemsVal a]
            | none => .con "Err" [.con "ArrayNotFilled" []], r)) := by
  refine ⟨_, arrayBuilder_parsed, fun c S D items r hS => ?_⟩
  have hm := C46_builder S items
  by_cases hl : items.length ≤ S
  · obtain ⟨m, h1, h2, h3⟩ := hm.1 hl
    rw [(fill_spec hS items r).1 hl, h1]
    refine ⟨fun e => ⟨fun h => (nomatch h), fun h => (nomatch h)⟩, fun b b' r' hb hb' => ?_⟩
    cases hb
    cases hb'
    refine ⟨fun r => ?_, fun r => ?_⟩
    · rw [(builder_holds items hl).drop r, h2]
      rfl
    · rw [(builder_holds items hl).tryFinish r, h3, ok_bind]
      by_cases he : items.length = S
      · rw [if_pos he, if_pos he]
        rfl
      · rw [if_neg he, if_neg he]
        cases dropAll D items r <;> rfl
  · rw [(fill_spec hS items r).2 (by omega), hm.2 (by omega)]
    exact ⟨fun e => ⟨fun h => by cases h; rfl, fun h => by cases h; rfl⟩, fun b b' r' hb => nomatch hb⟩

end OrdinalMap.Props
