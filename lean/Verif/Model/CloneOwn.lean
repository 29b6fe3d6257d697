import Verif.SpecCloneOwn
import Verif.Model.Map
import Verif.Model.TotalMap
/-!
# `Clone` of the maps, with a `V::clone` that may panic

The loops of `std` are modelled with the guards that drop what was cloned so far when `clone` panics.  (A destructor that
panics during this unwinding aborts the program, so it is not followed.)  For `Copy` types `std` may copy the bits instead;
that is not modelled.
-/

namespace OrdinalMap.CloneOwn
open OrdinalMap

variable {α V ρ : Type}

/-- `Option::clone`. -/
def option (cl : V → ρ → Option V × ρ) : Option V → ρ → Option (Option V) × ρ
  | none, r => (some none, r)
  | some v, r =>
    match cl v r with
    | (some w, r) => (some (some w), r)
    | (none, r) => (none, r)

/-- The loop of `<[T]>::to_vec`: `done` is the vector, which its guard drops when `clone` panics. -/
def toVecLoop (cl : α → ρ → Option α × ρ) : List α → List α → ρ → Cloned α (List α) ρ
  | [], done, r => ⟨some done, [], r⟩
  | x :: xs, done, r =>
    match cl x r with
    | (some y, r) => toVecLoop cl xs (done ++ [y]) r
    | (none, r) => ⟨none, done, r⟩

/-- `Box<[T]>::clone`: `to_vec().into_boxed_slice()`. -/
def boxedSlice (cl : α → ρ → Option α × ρ) (s : List α) (r : ρ) : Cloned α (List α) ρ := toVecLoop cl s [] r

/-- `[T; S]::clone`: fill an array; the `Guard` drops the initialised prefix when `clone` panics.  The second list: the slots
that are filled. -/
def array (cl : α → ρ → Option α × ρ) (s : List α) (r : ρ) : Cloned α (List α) ρ := go s.length 0 [] r
where
  /-- `todo` slots are left, slot `i` is next. -/
  go : Nat → Nat → List α → ρ → Cloned α (List α) ρ
  | 0, _, filled, r => ⟨some filled, [], r⟩
  | todo + 1, i, filled, r =>
    match s[i]? with
    | none => ⟨none, filled, r⟩
    | some x =>
      match cl x r with
      | (some y, r) => go todo (i + 1) (filled ++ [y]) r
      | (none, r) => ⟨none, filled, r⟩

/-- `vec::IntoIter::clone`: `as_slice().to_vec().into_iter()`. -/
def vecIntoIter (cl : α → ρ → Option α × ρ) (s : List α) (r : ρ) : Cloned α (List α) ρ := toVecLoop cl s [] r

/-- `array::IntoIter::clone`: clone the items left into a new, empty `IntoIter`, which is dropped when `clone` panics. -/
def arrayIntoIter (cl : α → ρ → Option α × ρ) : List α → List α → ρ → Cloned α (List α) ρ
  | [], alive, r => ⟨some alive, [], r⟩
  | x :: xs, alive, r =>
    match cl x r with
    | (some y, r) => arrayIntoIter cl xs (alive ++ [y]) r
    | (none, r) => ⟨none, alive, r⟩

/-- The values among dropped `Option`s. -/
def values {β : Type} (o : Cloned (Option V) β ρ) : Cloned V β ρ := ⟨o.returned, o.dropped.filterMap id, o.state⟩

/-- Put the inner iterator back into a `OrdinalEnumerate` (enumerate.rs:56-65). -/
def enumerate {σ : Type} (next : Nat) (o : Cloned α σ ρ) : Cloned α (Enumerate σ) ρ :=
  ⟨o.returned.map fun it => ⟨next, it⟩, o.dropped, o.state⟩

/-- `Clone for OrdinalMap` (map.rs:164-171). -/
def omap (cl : V → ρ → Option V × ρ) (s : OMap V) (r : ρ) : Cloned V (OMap V) ρ := values (boxedSlice (option cl) s r)

/-- `Clone for OrdinalTotalMap` (total/map.rs:132-139). -/
def totalMap (cl : V → ρ → Option V × ρ) (s : OrdinalTotalMap V) (r : ρ) : Cloned V (OrdinalTotalMap V) ρ := boxedSlice cl s r

/-- `Clone for OrdinalTotalArrayMap` (total/array_map.rs:204-211). -/
def totalArrayMap (cl : V → ρ → Option V × ρ) (s : OrdinalTotalArrayMap V) (r : ρ) : Cloned V (OrdinalTotalArrayMap V) ρ :=
  array cl s r

/-- `Clone for OrdinalArrayMap` (array_map.rs:176-182). -/
def arrayMap (cl : V → ρ → Option V × ρ) (s : OrdinalArrayMap V) (r : ρ) : Cloned V (OrdinalArrayMap V) ρ :=
  values (totalArrayMap (option cl) s r)

/-- `Clone for total::IntoIter` (total/iter.rs:222-228). -/
def totalIntoIter (cl : V → ρ → Option V × ρ) (s : TotalIntoIter V) (r : ρ) : Cloned V (TotalIntoIter V) ρ :=
  enumerate (Enumerate.next s) (vecIntoIter cl (Enumerate.iter s) r)

/-- `Clone for total::IntoIterArray` (total/iter.rs:156-162). -/
def totalIntoIterArray (cl : V → ρ → Option V × ρ) (s : TotalIntoIterArray V) (r : ρ) : Cloned V (TotalIntoIterArray V) ρ :=
  enumerate (Enumerate.next s) (arrayIntoIter cl (Enumerate.iter s) [] r)

/-- `Clone for IntoIter` (map/iter.rs:423-429). -/
def mapIntoIter (cl : V → ρ → Option V × ρ) (s : MapIntoIter V) (r : ρ) : Cloned V (MapIntoIter V) ρ :=
  values (totalIntoIter (option cl) s r)

/-- `Clone for IntoIterArray` (map/iter.rs:364-371). -/
def mapIntoIterArray (cl : V → ρ → Option V × ρ) (s : MapIntoIterArray V) (r : ρ) : Cloned V (MapIntoIterArray V) ρ :=
  values (totalIntoIterArray (option cl) s r)

end OrdinalMap.CloneOwn
