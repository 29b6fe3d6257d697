import Verif.Spec
/-!
# Consuming an iterator

The provided methods of `std::iter::Iterator` and `DoubleEndedIterator`, as the standard library
defines them from `next` and `next_back`, and what they must return on an iterator that yields `l`.
The iterators of the crate do not override them, except `count` and `last` of `OrdinalValues` (C17).
`fuel` bounds the loops.
-/

namespace OrdinalMap
variable {σ ι β γ : Type}

namespace DEIter

/-- `Iterator::try_fold`; a `for` loop whose body may `break`/`return` is this.  Everything that
consumes an iterator from the front (`fold`, `collect`, `count`, `last`, `find`, `position`, `all`,
`any`, `for_each`, `sum`, `min`, …) is `try_fold` with some closure. -/
def tryFold (it : DEIter σ ι) (f : β → ι → Except γ β) : Nat → σ → β → R (Except γ β × σ)
  | 0, _, _ => .error .diverge
  | fuel + 1, s, b => do
    match ← it.next s with
    | (none, s) => .ok (.ok b, s)
    | (some x, s) =>
      match f b x with
      | .error r => .ok (.error r, s)
      | .ok b => tryFold it f fuel s b

/-- `DoubleEndedIterator::try_rfold`; consuming `rev()` is this. -/
def tryRfold (it : DEIter σ ι) (f : β → ι → Except γ β) : Nat → σ → β → R (Except γ β × σ)
  | 0, _, _ => .error .diverge
  | fuel + 1, s, b => do
    match ← it.nextBack s with
    | (none, s) => .ok (.ok b, s)
    | (some x, s) =>
      match f b x with
      | .error r => .ok (.error r, s)
      | .ok b => tryRfold it f fuel s b

/-- `Iterator::nth` (std: `advance_by(n).ok()?; next()`). -/
def nth (it : DEIter σ ι) : Nat → σ → R (Option ι × σ)
  | 0, s => it.next s
  | k + 1, s => do
    match ← it.next s with
    | (none, s) => .ok (none, s)
    | (some _, s) => nth it k s

/-- `DoubleEndedIterator::nth_back`. -/
def nthBack (it : DEIter σ ι) : Nat → σ → R (Option ι × σ)
  | 0, s => it.nextBack s
  | k + 1, s => do
    match ← it.nextBack s with
    | (none, s) => .ok (none, s)
    | (some _, s) => nthBack it k s

/-- `collect::<Vec<_>>()`. -/
def collect (it : DEIter σ ι) (fuel : Nat) (s : σ) : R (List ι) := do
  match ← it.tryFold (γ := Empty) (fun l x => .ok (l ++ [x])) fuel s [] with
  | (.ok l, _) => .ok l
  | (.error e, _) => nomatch e

/-- `rev().collect::<Vec<_>>()`. -/
def revCollect (it : DEIter σ ι) (fuel : Nat) (s : σ) : R (List ι) := do
  match ← it.tryRfold (γ := Empty) (fun l x => .ok (l ++ [x])) fuel s [] with
  | (.ok l, _) => .ok l
  | (.error e, _) => nomatch e

/-- `Iterator::count`. -/
def count (it : DEIter σ ι) (fuel : Nat) (s : σ) : R Nat := do
  match ← it.tryFold (γ := Empty) (fun k _ => .ok (k + 1)) fuel s 0 with
  | (.ok l, _) => .ok l
  | (.error e, _) => nomatch e

/-- `Iterator::last`. -/
def last (it : DEIter σ ι) (fuel : Nat) (s : σ) : R (Option ι) := do
  match ← it.tryFold (γ := Empty) (fun _ x => .ok (some x)) fuel s none with
  | (.ok l, _) => .ok l
  | (.error e, _) => nomatch e

/-- `Iterator::find`. -/
def find (it : DEIter σ ι) (p : ι → Bool) (fuel : Nat) (s : σ) : R (Option ι × σ) := do
  match ← it.tryFold (fun () x => if p x then .error x else .ok ()) fuel s () with
  | (.ok (), s) => .ok (none, s)
  | (.error x, s) => .ok (some x, s)

end DEIter

/-- `try_fold` on a list: the result, and what is left unvisited. -/
def listTryFold (f : β → ι → Except γ β) : List ι → β → Except γ β × List ι
  | [], b => (.ok b, [])
  | x :: l, b =>
    match f b x with
    | .error r => (.error r, l)
    | .ok b => listTryFold f l b

/-- What consuming an iterator that yields `l` must do, for every consumer.  What is left is again
`Yields`-related, so consumers can be mixed with each other and with single calls. -/
structure Yields (it : DEIter σ ι) (s : σ) (l : List ι) : Prop where
  collect : ∀ fuel, l.length < fuel → it.collect fuel s = .ok l
  revCollect : ∀ fuel, l.length < fuel → it.revCollect fuel s = .ok l.reverse
  count : ∀ fuel, l.length < fuel → it.count fuel s = .ok l.length
  last : ∀ fuel, l.length < fuel → it.last fuel s = .ok l.getLast?
  find : ∀ p fuel, l.length < fuel → (it.find p fuel s).map (·.1) = .ok (l.find? p)
  tryFold : ∀ {β γ : Type} (f : β → ι → Except γ β) (b : β) fuel, l.length < fuel →
    ∃ s', it.tryFold f fuel s b = .ok ((listTryFold f l b).1, s') ∧ BehavesLike it s' (listTryFold f l b).2
  tryRfold : ∀ {β γ : Type} (f : β → ι → Except γ β) (b : β) fuel, l.length < fuel →
    ∃ s', it.tryRfold f fuel s b = .ok ((listTryFold f l.reverse b).1, s') ∧
      BehavesLike it s' (listTryFold f l.reverse b).2.reverse
  nth : ∀ k, ∃ s', it.nth k s = .ok (l[k]?, s') ∧ BehavesLike it s' (l.drop (k + 1))
  nthBack : ∀ k, ∃ s', it.nthBack k s = .ok (l.reverse[k]?, s') ∧ BehavesLike it s' (l.take (l.length - (k + 1)))

/-! ## Adapters of the standard library that need the length -/

/-- A Rust iterator that is `DoubleEndedIterator + ExactSizeIterator`. -/
structure ESIter (σ ι : Type) extends DEIter σ ι where
  len : σ → Nat
  sizeHint : σ → Nat × Option Nat

/-- The provided `ExactSizeIterator::len` (std), which `Skip`, `Take`, `Peekable` and `StepBy` use:
`let (lower, upper) = self.size_hint(); assert_eq!(upper, Some(lower)); lower`. -/
def providedLen (hint : Nat × Option Nat) : R Nat :=
  if hint.2 = some hint.1 then .ok hint.1 else .error .panic

namespace ESIter
variable {τ κ : Type}

/-- `Iterator::rev`. -/
def rev (E : ESIter σ ι) : DEIter σ ι := ⟨E.nextBack, E.next⟩

/-- `Iterator::skip` (std `Skip { iter, n }`). -/
def skip (E : ESIter σ ι) : DEIter (σ × Nat) ι where
  next p :=
    if 0 < p.2 then do
      let (o, s) ← E.nth p.2 p.1
      .ok (o, s, 0)
    else do
      let (o, s) ← E.next p.1
      .ok (o, s, 0)
  nextBack p := do
    let hint := E.sizeHint p.1
    let len ← providedLen (hint.1 - p.2, hint.2.map (· - p.2))
    if 0 < len then do
      let (o, s) ← E.nextBack p.1
      .ok (o, s, p.2)
    else .ok (none, p)

/-- `Iterator::take` (std `Take { iter, n }`). -/
def take (E : ESIter σ ι) : DEIter (σ × Nat) ι where
  next p :=
    if p.2 = 0 then .ok (none, p)
    else do
      let (o, s) ← E.next p.1
      .ok (o, s, p.2 - 1)
  nextBack p :=
    if p.2 = 0 then .ok (none, p)
    else do
      let (o, s) ← E.nthBack (E.len p.1 - p.2) p.1
      .ok (o, s, p.2 - 1)

/-- `Iterator::enumerate` (std `Enumerate { iter, count }`). -/
def enumerate (E : ESIter σ ι) : DEIter (σ × Nat) (Nat × ι) where
  next p := do
    match ← E.next p.1 with
    | (none, s) => .ok (none, s, p.2)
    | (some a, s) => .ok (some (p.2, a), s, p.2 + 1)
  nextBack p := do
    match ← E.nextBack p.1 with
    | (none, s) => .ok (none, s, p.2)
    | (some a, s) => .ok (some (p.2 + E.len s, a), s, p.2)

/-- `for _ in 0..k { iter.next_back(); }`, in `Zip::next_back`. -/
def trim (E : ESIter σ ι) : Nat → σ → R σ
  | 0, s => .ok s
  | k + 1, s => do
    let (_, s) ← E.nextBack s
    trim E k s

/-- `Iterator::zip` (std `Zip { a, b }`). -/
def zip (E : ESIter σ ι) (F : ESIter τ κ) : DEIter (σ × τ) (ι × κ) where
  next p := do
    match ← E.next p.1 with
    | (none, s) => .ok (none, s, p.2)
    | (some x, s) => do
      match ← F.next p.2 with
      | (none, t) => .ok (none, s, t)
      | (some y, t) => .ok (some (x, y), s, t)
  nextBack p := do
    let s ← E.trim (E.len p.1 - F.len p.2) p.1
    let t ← F.trim (F.len p.2 - E.len p.1) p.2
    let (x, s) ← E.nextBack s
    let (y, t) ← F.nextBack t
    match x, y with
    | some x, some y => .ok (some (x, y), s, t)
    | none, none => .ok (none, s, t)
    | _, _ => .error .panic

/-- The length is exact. -/
def LenExact (E : ESIter σ ι) (rest : List ι) (s : σ) : Prop := E.len s = rest.length

/-- The size hint is exact. -/
def HintExact (E : ESIter σ ι) (rest : List ι) (s : σ) : Prop :=
  E.sizeHint s = (rest.length, some rest.length)

end ESIter

/-- What `rev`, `take`, `enumerate` and `zip` must do over an iterator that yields `l`. -/
structure Adapts (E : ESIter σ ι) (s : σ) (l : List ι) : Prop where
  rev : BehavesLike E.rev s l.reverse
  take : ∀ k, BehavesLike E.take (s, k) (l.take k)
  enumerate : ∀ k, BehavesLike E.enumerate (s, k) (l.zipIdx k |>.map fun p => (p.2, p.1))
  /-- with any other exact-size iterator, on either side -/
  zip : ∀ {τ κ : Type} (F : ESIter τ κ) (t : τ) (m : List κ), BehavesLike F.toDEIter t m F.LenExact →
    BehavesLike (E.zip F) (s, t) (l.zip m) ∧ BehavesLike (F.zip E) (t, s) (m.zip l)

/-- The same for `skip`. -/
def AdaptsSkip (E : ESIter σ ι) (s : σ) (l : List ι) : Prop :=
  ∀ k, BehavesLike E.skip (s, k) (l.drop k)

end OrdinalMap
