import Verif.Model.Map
/-!
# Ownership and unwinding

The functions of the other model files return a fault when user code panics.  Here the same loops are
written with what Rust does next: unwinding drops what the frame owns.  `Outcome.returned = none`
means that the function unwound; `Outcome.dropped` lists the values dropped.  `Lemmas/Own.lean` shows
that these loops return what the plain ones return, and panic when the plain ones panic.
-/

namespace OrdinalMap

variable {K V W E ρ : Type}

/-! ## `try_new` and `new` of the total maps -/

namespace OrdinalTotalMap

/-- `tryNewLoop` (total/map.rs:29-35) with drop accounting.  `made` are the values `init` returned so
far.  On `?` and on a panic (of `init`, or of `from_ordinal` inside the iterator) the `Vec` is dropped,
front to back. -/
def tryNewLoopO (I : OrdinalImpl K) (init : K → ρ → R (Except E V × ρ)) :
    Nat → OrdinalValues → List V → List V → ρ → R (List V × Outcome V (Except E (List V) × ρ))
  | 0, _, _, _, _ => .error .diverge
  | fuel + 1, it, map, made, r =>
    match OrdinalValues.next I it with
    | .error .panic => .ok (made, ⟨none, map⟩)
    | .error f => .error f
    | .ok (none, _) => .ok (made, ⟨some (.ok map, r), []⟩)
    | .ok (some v, it) =>
      match init v r with
      | .error .panic => .ok (made, ⟨none, map⟩)
      | .error f => .error f
      | .ok (.error e, r) => .ok (made, ⟨some (.error e, r), map⟩)
      | .ok (.ok x, r) => tryNewLoopO I init fuel it (map ++ [x]) (made ++ [x]) r

/-- `OrdinalTotalMap::try_new` (total/map.rs:27-36) with drop accounting: the values `init` returned
and the outcome.  A capacity overflow panics before anything is made. -/
def tryNewO (c : Cfg) (I : OrdinalImpl K) (sz : Nat) (init : K → ρ → R (Except E V × ρ)) (r : ρ) :
    R (List V × Outcome V (Except E (List V) × ρ)) := do
  let n ← I.size
  match withCapacity c sz n with
  | .error .panic => .ok ([], ⟨none, []⟩)
  | .error f => .error f
  | .ok () =>
    let it ← OrdinalValues.new I
    tryNewLoopO I init (OrdinalValues.len it + 1) it [] [] r

end OrdinalTotalMap

namespace OrdinalTotalArrayMap

/-- `tryNewLoop` (total/array_map.rs:54-60) with drop accounting.  When `push` panics, its argument is
dropped before the builder.  `finish` of a builder that is not full drops the builder and panics. -/
def tryNewLoopO (I : OrdinalImpl K) (init : K → ρ → R (Except E V × ρ)) :
    Nat → OrdinalValues → ArrayBuilder V → List V → ρ → R (List V × Outcome V (Except E (List V) × ρ))
  | 0, _, _, _, _ => .error .diverge
  | fuel + 1, it, a, made, r =>
    match OrdinalValues.next I it with
    | .error .panic => do .ok (made, ← unwindBuilder a [])
    | .error f => .error f
    | .ok (none, _) => do
      let f ← a.tryFinish
      .ok (made, ⟨f.result.map fun l => (.ok l, r), f.dropped⟩)
    | .ok (some v, it) =>
      match init v r with
      | .error .panic => do .ok (made, ← unwindBuilder a [])
      | .error f => .error f
      | .ok (.error e, r) => do
        let d ← a.drop
        .ok (made, ⟨some (.error e, r), d⟩)
      | .ok (.ok x, r) =>
        match a.push x with
        | .error .panic => do .ok (made ++ [x], ← unwindBuilder a [x])
        | .error f => .error f
        | .ok a => tryNewLoopO I init fuel it a (made ++ [x]) r

/-- `OrdinalTotalArrayMap::try_new` (total/array_map.rs:51-61) with drop accounting. -/
def tryNewO (I : OrdinalImpl K) (S : Nat) (init : K → ρ → R (Except E V × ρ)) (r : ρ) :
    R (List V × Outcome V (Except E (List V) × ρ)) := do
  assertS I S
  let it ← OrdinalValues.new I
  tryNewLoopO I init (OrdinalValues.len it + 1) it (ArrayBuilder.new V S) [] r

/-- What happened to the values in a `map`: the inputs moved into the closure, the inputs dropped
otherwise, the outputs the closure returned, and the outcome with the outputs dropped. -/
structure MapLedger (V W ρ : Type) where
  passed : List V
  droppedIn : List V
  made : List W
  out : Outcome W (List W × ρ)

/-- `mapLoop` (total/array_map.rs:125, array_from_iter.rs:8-11) with drop accounting.  On a panic the
input iterator drops the inputs not yet taken (`OrdinalEnumerate::next`, enumerate.rs:25-30, holds the
input it took while it calls `from_ordinal`), and the builder drops the outputs. -/
def mapLoopO (c : Cfg) (I : OrdinalImpl K) (f : K → V → ρ → R (W × ρ)) :
    Nat → TotalIntoIterArray V → ArrayBuilder W → List V → List W → ρ → R (MapLedger V W ρ)
  | 0, _, _, _, _, _ => .error .diverge
  | fuel + 1, it, b, passed, made, r =>
    match TotalIntoIterArray.next c I it with
    | .error .panic => do .ok ⟨passed, Enumerate.iter it, made, ← unwindBuilder b []⟩
    | .error e => .error e
    | .ok (none, it) => do
      let g ← b.tryFinish
      .ok ⟨passed, Enumerate.iter it, made, ⟨g.result.map fun l => (l, r), g.dropped⟩⟩
    | .ok (some (k, v), it) =>
      match f k v r with
      | .error .panic => do .ok ⟨passed ++ [v], Enumerate.iter it, made, ← unwindBuilder b []⟩
      | .error e => .error e
      | .ok (w, r) =>
        match b.push w with
        | .error .panic => do .ok ⟨passed ++ [v], Enumerate.iter it, made ++ [w], ← unwindBuilder b [w]⟩
        | .error e => .error e
        | .ok b => mapLoopO c I f fuel it b (passed ++ [v]) (made ++ [w]) r

/-- `OrdinalTotalArrayMap::map` (total/array_map.rs:123-128) with drop accounting. -/
def mapO (c : Cfg) (I : OrdinalImpl K) (S : Nat) (s : OrdinalTotalArrayMap V) (f : K → V → ρ → R (W × ρ))
    (r : ρ) : R (MapLedger V W ρ) :=
  mapLoopO c I f (TotalIntoIterArray.len (intoIter s) + 1) (intoIter s) (ArrayBuilder.new W S) [] [] r

end OrdinalTotalArrayMap

/-! ## `retain` -/

namespace OrdinalArrayMap

/-- What a call of the closure of `retain` does: it leaves a value behind the reference it was given,
and returns a verdict (`some keep`) or panics (`none`). -/
abbrev RetainCall (V ρ : Type) := Option Bool × V × ρ

/-- The loop of `retain` (array_map.rs:149-155), for a closure that may panic after writing through
its reference.  Returns whether `retain` returned, and the memory of the map, which the caller still
owns after unwinding. -/
def retainLoopU (c : Cfg) (I : OrdinalImpl K) (f : K → V → ρ → RetainCall V ρ) :
    Nat → MapIterMut V → ρ → R (Bool × OrdinalArrayMap V × ρ)
  | 0, _, _ => .error .diverge
  | fuel + 1, s, r => do
    match ← TotalIterMut.next c I s with
    | (none, s) => .ok (true, s.mem, r)
    | (some (key, slot), s) => do
      match ← readSlot s.mem slot with
      | none => retainLoopU c I f fuel s r
      | some value => do
        let (verdict, value, r) := f key value r
        let mem ← writeSome s.mem slot value
        match verdict with
        | none => .ok (false, mem, r)
        | some keep => do
          let mem ← if keep then .ok mem else writeSlot mem slot none
          retainLoopU c I f fuel ⟨mem, s.it⟩ r

/-- `OrdinalArrayMap::retain` (array_map.rs:145-156) seen by a caller that catches the panic. -/
def retainU (c : Cfg) (I : OrdinalImpl K) (s : OrdinalArrayMap V) (f : K → V → ρ → RetainCall V ρ)
    (r : ρ) : R (Bool × OrdinalArrayMap V × ρ) :=
  retainLoopU c I f (TotalIterMut.len (iterMut s) + 1) (iterMut s) r

/-- The loop of `retain` (array_map.rs:149-155), for a closure that may panic and values whose
destructor may panic (`dtor` returns `true`).  The assignment `*value_opt = None` drops the old value
and stores `None` also when the destructor unwinds. -/
def retainLoopD (c : Cfg) (I : OrdinalImpl K) (f : K → V → ρ → RetainCall V ρ) (dtor : V → ρ → Bool × ρ) :
    Nat → MapIterMut V → ρ → R (Bool × OrdinalArrayMap V × ρ)
  | 0, _, _ => .error .diverge
  | fuel + 1, s, r => do
    match ← TotalIterMut.next c I s with
    | (none, s) => .ok (true, s.mem, r)
    | (some (key, slot), s) => do
      match ← readSlot s.mem slot with
      | none => retainLoopD c I f dtor fuel s r
      | some value => do
        let (verdict, value, r) := f key value r
        let mem ← writeSome s.mem slot value
        match verdict with
        | none => .ok (false, mem, r)
        | some true => retainLoopD c I f dtor fuel ⟨mem, s.it⟩ r
        | some false => do
          let (panics, r) := dtor value r
          let mem ← writeSlot mem slot none
          if panics then .ok (false, mem, r) else retainLoopD c I f dtor fuel ⟨mem, s.it⟩ r

/-- `OrdinalArrayMap::retain` (array_map.rs:145-156) seen by a caller that catches the panic of the
closure or of a destructor. -/
def retainD (c : Cfg) (I : OrdinalImpl K) (s : OrdinalArrayMap V) (f : K → V → ρ → RetainCall V ρ)
    (dtor : V → ρ → Bool × ρ) (r : ρ) : R (Bool × OrdinalArrayMap V × ρ) :=
  retainLoopD c I f dtor (TotalIterMut.len (iterMut s) + 1) (iterMut s) r

end OrdinalArrayMap

/-! ## Dropping a `Drain` -/

namespace Drain

/-- `for _ in self {}` (map/iter.rs:280) when dropping an item may panic: `dtor` is the destructor of
the pair, `true` if it panics.  Returns whether the loop ended, the items whose destructor ran, in
order, and the slice, which the owner of the map still has after unwinding.  (The drop glue that runs
after `Drain::drop` unwinds drops the field `iter`, which owns nothing.) -/
def dropLoopD (c : Cfg) (I : OrdinalImpl K) (dtor : K × V → ρ → Bool × ρ) :
    Nat → Drain V → ρ → R (Bool × List (K × V) × List (Option V) × ρ)
  | 0, _, _ => .error .diverge
  | fuel + 1, s, r => do
    match ← next c I s with
    | (none, s) => .ok (true, [], s.mem, r)
    | (some p, s) => do
      let (panics, r) := dtor p r
      if panics then .ok (false, [p], s.mem, r)
      else do
        let (b, d, mem, r) ← dropLoopD c I dtor fuel s r
        .ok (b, p :: d, mem, r)

/-- `Drop for Drain` (map/iter.rs:278-282); also `clear` (map.rs:142-144, array_map.rs:140-142), on a
fresh `Drain`. -/
def dropD (c : Cfg) (I : OrdinalImpl K) (dtor : K × V → ρ → Bool × ρ) (s : Drain V) (r : ρ) :
    R (Bool × List (K × V) × List (Option V) × ρ) :=
  dropLoopD c I dtor (TotalIterMut.len s + 1) s r

end Drain

/-! ## `from_iter` of the sparse maps -/

/-- The values a sparse map owns, front to back: what dropping it drops. -/
def held (s : List (Option V)) : List V := s.filterMap id

/-- The loop of `from_iter` (map.rs:157-159, array_map.rs:169-171) with drop accounting, for `insert` of
either map.  `items` are what the iterator yields before it ends, by returning `None` or by a panic.
The result of `insert` is dropped at the end of the statement.  When `insert` panics (before it stores)
its argument is dropped, and then the map.  Returns the values taken from the iterator and the outcome. -/
def fromIterLoopO (insert : List (Option V) → K → V → R (Option V × List (Option V))) :
    List (Option V) → List V → List V → List (K × V) → IterEnd → R (List V × Outcome V (List (Option V)))
  | s, dropped, taken, [], .exhausted => .ok (taken, ⟨some s, dropped⟩)
  | s, dropped, taken, [], .panics => .ok (taken, ⟨none, dropped ++ held s⟩)
  | s, dropped, taken, (k, v) :: items, e =>
    match insert s k v with
    | .ok (old, s) => fromIterLoopO insert s (dropped ++ old.toList) (taken ++ [v]) items e
    | .error .panic => .ok (taken ++ [v], ⟨none, dropped ++ v :: held s⟩)
    | .error f => .error f

/-- `FromIterator for OrdinalMap` (map.rs:155-161) with drop accounting. -/
def OMap.fromIterO (c : Cfg) (I : OrdinalImpl K) (sz : Nat) (items : List (K × V)) (e : IterEnd) :
    R (List V × Outcome V (OMap V)) :=
  fromIterLoopO (OMap.insert c I sz) (OMap.new V) [] [] items e

/-- `FromIterator for OrdinalArrayMap` (array_map.rs:167-173) with drop accounting. -/
def OrdinalArrayMap.fromIterO (I : OrdinalImpl K) (S : Nat) (items : List (K × V)) (e : IterEnd) :
    R (List V × Outcome V (OrdinalArrayMap V)) :=
  match OrdinalArrayMap.new V I S with
  | .ok s => fromIterLoopO (OrdinalArrayMap.insert I) s [] [] items e
  | .error .panic => .ok ([], ⟨none, []⟩)
  | .error f => .error f

end OrdinalMap
