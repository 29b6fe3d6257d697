import Verif.SpecDebug
import Verif.Model.Set
import Verif.Model.Map
import Verif.Model.TotalMap
/-!
# Model of the `Debug` impls

`debug_list`, `debug_set` and `debug_map` of `core::fmt` are modelled as they are written there: a
builder that remembers whether it has printed an entry.  `entries` takes items from the iterator until
`None`; `fuel` bounds the rounds.  `key`, `value`, `item` are the `Debug` of `K`, `V`, `T` under the
same flag `alt`.
-/

namespace OrdinalMap

variable {K V τ σ ι : Type}

/-- `DebugInner` of `core::fmt`. -/
structure Builder where
  out : String
  hasFields : Bool

/-- `DebugInner::entry` (also `DebugMap::entry`, whose entry is `key: value`). -/
def Builder.entry (alt : Bool) (b : Builder) (text : String) : Builder :=
  if alt then ⟨b.out ++ (if b.hasFields then "" else "\n") ++ pad (text ++ ",\n"), true⟩
  else ⟨b.out ++ (if b.hasFields then ", " else "") ++ text, true⟩

/-- `entries`. -/
def entriesLoop (alt : Bool) (next : σ → R (Option ι × σ)) (text : ι → String) : Nat → σ → Builder → R Builder
  | 0, _, _ => .error .diverge
  | fuel + 1, s, b => do
    let (o, s) ← next s
    match o with
    | none => .ok b
    | some x => entriesLoop alt next text fuel s (b.entry alt (text x))

/-- `f.debug_…().entries(it).finish()`. -/
def debugSeq (opn cls : String) (alt : Bool) (next : σ → R (Option ι × σ)) (text : ι → String) (fuel : Nat) (s : σ) :
    R String := do
  let b ← entriesLoop alt next text fuel s ⟨opn, false⟩
  .ok (b.out ++ cls)

/-- `debug_list`. -/
def debugList (alt : Bool) (next : σ → R (Option ι × σ)) (text : ι → String) (fuel : Nat) (s : σ) : R String :=
  debugSeq "[" "]" alt next text fuel s

/-- `debug_set`. -/
def debugSet (alt : Bool) (next : σ → R (Option ι × σ)) (text : ι → String) (fuel : Nat) (s : σ) : R String :=
  debugSeq "{" "}" alt next text fuel s

/-- `debug_map`. -/
def debugMap (alt : Bool) (next : σ → R (Option (K × V) × σ)) (key : K → String) (value : V → String) (fuel : Nat)
    (s : σ) : R String :=
  debugSeq "{" "}" alt next (fun p => key p.1 ++ ": " ++ value p.2) fuel s

/-- `Debug` of a pair (`debug_tuple("")`). -/
def debugPair (alt : Bool) (key : K → String) (value : V → String) (p : K × V) : String :=
  (((⟨"(", false⟩ : Builder).entry alt (key p.1)).entry alt (value p.2)).out ++ ")"

/-! ## Total map iterators (total/iter.rs) and total maps -/

/-- `Debug for total::Iter` (total/iter.rs:60-64): prints a clone. -/
def TotalIter.debug (c : Cfg) (I : OrdinalImpl K) (alt : Bool) (key : K → String) (value : V → String)
    (s : TotalIter V) : R String :=
  debugList alt (TotalIter.next c I) (debugPair alt key value) (TotalIter.len s + 1) (TotalIter.clone s)

/-- `Debug for total::IterMut` (total/iter.rs:110-114). -/
def TotalIterMut.debug (c : Cfg) (I : OrdinalImpl K) (alt : Bool) (key : K → String) (value : V → String)
    (s : TotalIterMut V) : R String :=
  debugList alt (TotalIter.next c I) (debugPair alt key value) (TotalIter.len (TotalIterMut.iter s) + 1) (TotalIterMut.iter s)

/-- `Debug for total::IntoIter` (total/iter.rs:216-220). -/
def TotalIntoIter.debug (c : Cfg) (I : OrdinalImpl K) (alt : Bool) (key : K → String) (value : V → String)
    (s : TotalIntoIter V) : R String :=
  debugList alt (TotalIter.next c I) (debugPair alt key value) (TotalIter.len (TotalIntoIter.iter s) + 1) (TotalIntoIter.iter s)

/-- `Debug for total::IntoIterArray` (total/iter.rs:164-168). -/
def TotalIntoIterArray.debug (c : Cfg) (I : OrdinalImpl K) (alt : Bool) (key : K → String) (value : V → String)
    (s : TotalIntoIterArray V) : R String :=
  debugList alt (TotalIter.next c I) (debugPair alt key value) (TotalIter.len (TotalIntoIterArray.iter s) + 1)
    (TotalIntoIterArray.iter s)

/-- `Debug for OrdinalTotalMap` (total/map.rs:141-145). -/
def OrdinalTotalMap.debug (c : Cfg) (I : OrdinalImpl K) (alt : Bool) (key : K → String) (value : V → String)
    (s : OrdinalTotalMap V) : R String :=
  debugMap alt (TotalIter.next c I) key value (TotalIter.len (OrdinalTotalMap.iter s) + 1) (OrdinalTotalMap.iter s)

/-- `Debug for OrdinalTotalArrayMap` (total/array_map.rs:219-223). -/
def OrdinalTotalArrayMap.debug (c : Cfg) (I : OrdinalImpl K) (alt : Bool) (key : K → String) (value : V → String)
    (s : OrdinalTotalArrayMap V) : R String :=
  debugMap alt (TotalIter.next c I) key value (TotalIter.len (OrdinalTotalArrayMap.iter s) + 1)
    (OrdinalTotalArrayMap.iter s)

/-! ## Sparse map iterators (map/iter.rs) and maps -/

/-- `Debug for Iter` (map/iter.rs:62-66): prints a clone. -/
def MapIter.debug (c : Cfg) (I : OrdinalImpl K) (alt : Bool) (key : K → String) (value : V → String)
    (s : MapIter V) : R String :=
  debugList alt (MapIter.next c I) (debugPair alt key value) (TotalIter.len s + 1) (MapIter.clone s)

/-- `Debug for IterMut` (map/iter.rs:116-120). -/
def MapIterMut.debug (c : Cfg) (I : OrdinalImpl K) (alt : Bool) (key : K → String) (value : V → String)
    (s : MapIterMut V) : R String :=
  debugList alt (MapIter.next c I) (debugPair alt key value) (TotalIter.len (MapIterMut.iter s) + 1) (MapIterMut.iter s)

/-- `Debug for Keys<K, ()>` (map/iter.rs:165-169): prints a clone. -/
def Keys.debug (c : Cfg) (I : OrdinalImpl K) (alt : Bool) (key : K → String) (s : Keys Unit) : R String :=
  debugList alt (Keys.next c I) key (TotalIter.len s + 1) (Keys.clone s)

/-- `Debug for Values` (map/iter.rs:214-218): prints a clone. -/
def Values.debug (c : Cfg) (I : OrdinalImpl K) (alt : Bool) (value : V → String) (s : Values V) : R String :=
  debugList alt (Values.next c I) value (TotalIter.len s + 1) (Values.clone s)

/-- `Debug for ValuesMut` (map/iter.rs:260-264). -/
def ValuesMut.debug (c : Cfg) (I : OrdinalImpl K) (alt : Bool) (value : V → String) (s : ValuesMut V) : R String :=
  debugList alt (Values.next c I) value (TotalIter.len (ValuesMut.iter s) + 1) (ValuesMut.iter s)

/-- `Debug for IntoIterArray` (map/iter.rs:358-362). -/
def MapIntoIterArray.debug (c : Cfg) (I : OrdinalImpl K) (alt : Bool) (key : K → String) (value : V → String)
    (s : MapIntoIterArray V) : R String :=
  debugList alt (MapIter.next c I) (debugPair alt key value) (TotalIter.len (MapIntoIterArray.iter s) + 1)
    (MapIntoIterArray.iter s)

/-- `Debug for IntoIter` (map/iter.rs:417-421). -/
def MapIntoIter.debug (c : Cfg) (I : OrdinalImpl K) (alt : Bool) (key : K → String) (value : V → String)
    (s : MapIntoIter V) : R String :=
  debugList alt (MapIter.next c I) (debugPair alt key value) (TotalIter.len (MapIntoIter.iter s) + 1) (MapIntoIter.iter s)

/-- `Debug for OrdinalMap` (map/map.rs:173-177). -/
def OMap.debug (c : Cfg) (I : OrdinalImpl K) (alt : Bool) (key : K → String) (value : V → String) (s : OMap V) : R String :=
  debugMap alt (MapIter.next c I) key value (TotalIter.len (OMap.iter s) + 1) (OMap.iter s)

/-- `Debug for OrdinalArrayMap` (map/array_map.rs:184-188). -/
def OrdinalArrayMap.debug (c : Cfg) (I : OrdinalImpl K) (alt : Bool) (key : K → String) (value : V → String)
    (s : OrdinalArrayMap V) : R String :=
  debugMap alt (MapIter.next c I) key value (TotalIter.len (OrdinalArrayMap.iter s) + 1) (OrdinalArrayMap.iter s)

/-! ## Sets -/

/-- `Debug for set::Iter` (set/iter.rs:64-68): prints a clone. -/
def SetIter.debug (c : Cfg) (I : OrdinalImpl τ) (alt : Bool) (item : τ → String) (s : SetIter) : R String :=
  debugList alt (SetIter.next c I) item (s.iter.len + 1) s.clone

/-- `Debug for OrdinalSetRef` (set/set_ref.rs:47-51). -/
def SetRef.debug (c : Cfg) (I : OrdinalImpl τ) (alt : Bool) (item : τ → String) (s : SetRef) : R String := do
  let it ← SetRef.iter I s
  debugSet alt (SetIter.next c I) item (it.iter.len + 1) it

/-- `Debug for OrdinalSet` (set/set.rs:114-118). -/
def OrdinalSet.debug (c : Cfg) (I : OrdinalImpl τ) (alt : Bool) (item : τ → String) (s : OrdinalSet) : R String := do
  SetRef.debug c I alt item (← OrdinalSet.asRef c I s)

/-- `Debug for OrdinalArraySet` (set/array.rs:105-109). -/
def OrdinalArraySet.debug (c : Cfg) (I : OrdinalImpl τ) (S : Nat) (alt : Bool) (item : τ → String) (s : OrdinalArraySet) :
    R String := do
  SetRef.debug c I alt item (← OrdinalArraySet.asRef c I S s)

/-- `Debug for Iter64` (set/set64.rs:63-67): prints a clone. -/
def Iter64.debug (c : Cfg) (I : OrdinalImpl τ) (alt : Bool) (item : τ → String) (s : Iter64) : R String :=
  debugList alt (Iter64.next c I) item (Iter64.len s + 1) (Iter64.clone s)

/-- `Debug for OrdinalSet64` (set/set64.rs:160-164). -/
def OrdinalSet64.debug (c : Cfg) (I : OrdinalImpl τ) (alt : Bool) (item : τ → String) (s : OrdinalSet64) : R String := do
  SetRef.debug c I alt item (← OrdinalSet64.asRef c I s)

end OrdinalMap
