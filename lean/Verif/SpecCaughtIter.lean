import Verif.SpecCaught
import Verif.Model.CaughtIter
/-!
# Specification of iterators whose panics are caught
-/

namespace OrdinalMap

variable {K V ι ο : Type}

/-- A caught panic loses the item that the call would have returned, and nothing else. -/
def Lossy.after (l : List ι) (d : Dir) (l' : List ι) : Prop := l ≠ [] ∧ l' = (Deque.step l d).2

/-- A caught panic loses at most the item that the call would have returned. -/
def Lossy.afterSome (l : List ι) (d : Dir) (l' : List ι) : Prop := l' = l ∨ Lossy.after l d l'

/-- The first value is lost, and each key goes to the next value. -/
def Pairing.shift (ps : List (K × ι)) : List (K × ι) := (ps.map (·.1)).zip (ps.map (·.2)).tail

/-- What a caught panic leaves of an iterator over keys and values.  `next_back` loses a pair; `next` loses a value
but no key. -/
def Pairing.after (ps : List (K × ι)) : Dir → List (K × ι) → Prop
  | .front, ps' => ps ≠ [] ∧ ps' = shift ps
  | .back, ps' => ps ≠ [] ∧ ps' = ps.dropLast

namespace Sparse

/-- How many keys without a value are at that end. -/
def absent (ps : List (K × Option V)) : Dir → Nat
  | .front => (ps.takeWhile (·.2.isNone)).length
  | .back => (ps.reverse.takeWhile (·.2.isNone)).length

/-- `j` keys taken off that end. -/
def skip (ps : List ι) (j : Nat) : Dir → List ι
  | .front => ps.drop j
  | .back => ps.take (ps.length - j)

/-- A call on an ideal iterator over a sparse map: keys without a value are passed over. -/
def step (ps : List (K × Option V)) (d : Dir) : Option (K × V) × List (K × Option V) :=
  let (o, rest) := Deque.step (skip ps (absent ps d) d) d
  (o.bind fun p => p.2.map fun v => (p.1, v), rest)

/-- What a caught panic leaves of it: some of the keys without a value have been passed over before. -/
def after (ps : List (K × Option V)) (d : Dir) (ps' : List (K × Option V)) : Prop :=
  ∃ j, j ≤ absent ps d ∧ Pairing.after (skip ps j d) d ps'

end Sparse

/-- How many of these calls were a `next()` that panicked. -/
def frontPanics : List Dir → List (Ended ο) → Nat
  | .front :: ds, .panicked :: es => frontPanics ds es + 1
  | _ :: ds, _ :: es => frontPanics ds es
  | _, _ => 0

/-- How many of these calls panicked. -/
def panics : List (Ended ο) → Nat
  | [] => 0
  | .panicked :: es => panics es + 1
  | _ :: es => panics es

/-- The items of the calls that returned one. -/
def yielded : List (Ended (Option ι)) → List ι
  | [] => []
  | .returned (some x) :: es => x :: yielded es
  | _ :: es => yielded es

end OrdinalMap
