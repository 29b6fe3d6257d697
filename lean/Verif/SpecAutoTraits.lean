import Verif.Model.AutoTraits
/-!
# What the types count as

`like` names a plain Rust type for each type of the crate.  The type of the crate should have the same `Send`, `Sync`
and subtypes as that type.
-/

namespace OrdinalMap

/-- A public type of the crate. -/
inductive Public where
  | map | arrayMap | totalMap | totalArrayMap
  | intoIter | intoIterArray | totalIntoIter | totalIntoIterArray
  | iter | keys | values | totalIter
  | iterMut | valuesMut | drain | totalIterMut | occupiedEntry | vacantEntry | entry
  | set | arraySet | set64 | iter64 | setIter | ordinalValues | atomic
deriving DecidableEq

namespace Public

/-- The type in the model; those without a lifetime or without `V` ignore these arguments. -/
def ty (a : Nat) (K V : RTy) : Public → RTy
  | map => .OrdinalMap K V
  | arrayMap => .OrdinalArrayMap K V
  | totalMap => .OrdinalTotalMap K V
  | totalArrayMap => .OrdinalTotalArrayMap K V
  | intoIter => .IntoIter K V
  | intoIterArray => .IntoIterArray K V
  | totalIntoIter => .TotalIntoIter K V
  | totalIntoIterArray => .TotalIntoIterArray K V
  | iter => .Iter a K V
  | keys => .Keys a K V
  | values => .Values a K V
  | totalIter => .TotalIter a K V
  | iterMut => .IterMut a K V
  | valuesMut => .ValuesMut a K V
  | drain => .Drain a K V
  | totalIterMut => .TotalIterMut a K V
  | occupiedEntry => .OccupiedEntry a K V
  | vacantEntry => .VacantEntry a K V
  | entry => .Entry a K V
  | set => .OrdinalSet K
  | arraySet => .OrdinalArraySet K
  | set64 => .OrdinalSet64 K
  | iter64 => .Iter64 K
  | setIter => .SetIter a K
  | ordinalValues => .OrdinalValues K
  | atomic => .AtomicOrdinal K

/-- `(K, V)`, `(K, &'a V)`, `(K, &'a mut V)`, `K` or `(K, &'a ())`. -/
def like (a : Nat) (K V : RTy) : Public → RTy
  | map | arrayMap | totalMap | totalArrayMap | intoIter | intoIterArray | totalIntoIter | totalIntoIterArray =>
    .both K V
  | iter | keys | values | totalIter => .both K (.ref a V)
  | iterMut | valuesMut | drain | totalIterMut | occupiedEntry | vacantEntry | entry => .both K (.refMut a V)
  | set | arraySet | set64 | iter64 | ordinalValues | atomic => K
  | setIter => .both K (.ref a .plain)

/-- The `Item` of the iterators. -/
def item (a : Nat) (K V : RTy) : Public → Option RTy
  | intoIter | intoIterArray | totalIntoIter | totalIntoIterArray | drain => some (.both K V)
  | iter | totalIter => some (.both K (.ref a V))
  | iterMut | totalIterMut => some (.both K (.refMut a V))
  | keys | iter64 | setIter | ordinalValues => some K
  | values => some (.ref a V)
  | valuesMut => some (.refMut a V)
  | _ => none

/-- The types that borrow from a collection. -/
def borrows : Public → Bool
  | iter | keys | values | totalIter | iterMut | valuesMut | drain | totalIterMut | occupiedEntry | vacantEntry | entry
  | setIter => true
  | _ => false

/-- The types with a parameter `V`. -/
def hasV : Public → Bool
  | set | arraySet | set64 | iter64 | setIter | ordinalValues | atomic => false
  | _ => true

/-- The types that keep their values of type `V` inside themselves or claim to (`std::vec::IntoIter`). -/
def inline : Public → Bool
  | arrayMap | totalArrayMap | intoIter | intoIterArray | totalIntoIter | totalIntoIterArray => true
  | _ => false

end Public

/-- The same type up to lifetimes that are interchangeable. -/
def RTy.same (t u : RTy) : Prop := t.sub u ∧ u.sub t

end OrdinalMap
