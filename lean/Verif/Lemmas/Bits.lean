import Verif.Model.Set
/-! # Bits of `u64` words -/

namespace OrdinalMap

theorem getLsbD_mask (k i : Nat) (hk : k < 64) :
    ((1 : BitVec 64) <<< k).getLsbD i = decide (i = k) := by
  simp only [BitVec.getLsbD_shiftLeft, BitVec.ofNat_eq_ofNat, BitVec.getLsbD_one]
  by_cases h : i = k
  · subst h; simp [hk]
  · have : decide (i = k) = false := by simp [h]
    rw [this]
    by_cases h2 : i < k
    · simp [h2]
    · have : i - k ≠ 0 := by omega
      simp [this]

theorem and_mask (w : BitVec 64) (k : Nat) (hk : k < 64) :
    (w &&& ((1 : BitVec 64) <<< k) != 0) = w.getLsbD k := by
  have key : w &&& ((1 : BitVec 64) <<< k) = 0 ↔ w.getLsbD k = false := by
    constructor
    · intro h
      have := congrArg (fun v => BitVec.getLsbD v k) h
      simp only [BitVec.getLsbD_and, getLsbD_mask k k hk] at this
      simpa using this
    · intro h
      apply BitVec.eq_of_getLsbD_eq
      intro i hi
      rw [BitVec.getLsbD_and, getLsbD_mask k i hk]
      by_cases e : i = k
      · subst e; simp [h]
      · simp [e]
  cases hb : w.getLsbD k
  · rw [key.2 hb]; rfl
  · have : w &&& ((1 : BitVec 64) <<< k) ≠ 0 := by
      intro h; rw [key.1 h] at hb; cases hb
    simp only [bne_iff_ne]; exact this

theorem or_mask (w : BitVec 64) (k i : Nat) (hk : k < 64) :
    (w ||| ((1 : BitVec 64) <<< k)).getLsbD i = (w.getLsbD i || decide (i = k)) := by
  rw [BitVec.getLsbD_or, getLsbD_mask k i hk]

theorem andNot_mask (w : BitVec 64) (k i : Nat) (hk : k < 64) :
    (w &&& ~~~((1 : BitVec 64) <<< k)).getLsbD i = (w.getLsbD i && !decide (i = k)) := by
  rw [BitVec.getLsbD_and, BitVec.getLsbD_not, getLsbD_mask k i hk]
  by_cases h : i < 64
  · simp [h]
  · simp [BitVec.getLsbD_of_ge w i (by omega)]

theorem shl64_ok (c : Cfg) (x : BitVec 64) {s : Nat} (h : s < 64) : shl64 c x s = .ok (x <<< s) := by
  simp [shl64, h]

theorem mod64_lt (i : Nat) : i % 64 < 64 := Nat.mod_lt _ (by decide)

/-- Bit `i` of a bitmap; absent words are zero. -/
def wbit (ws : List (BitVec 64)) (i : Nat) : Bool :=
  match ws[i / 64]? with
  | none => false
  | some w => w.getLsbD (i % 64)

theorem wbit_single (w : BitVec 64) {i : Nat} (h : i < 64) : wbit [w] i = w.getLsbD i := by
  have h1 : i / 64 = 0 := by omega
  have h2 : i % 64 = i := by omega
  simp [wbit, h1, h2]

theorem wbit_nil (i : Nat) : wbit [] i = false := rfl

theorem wbit_replicate (k i : Nat) : wbit (List.replicate k 0) i = false := by
  unfold wbit
  by_cases h : i / 64 < k
  · simp [h]
  · simp [h]

theorem wbit_set (ws : List (BitVec 64)) (i j : Nat) (w : BitVec 64) (hi : ws[i / 64]? = some w) :
    wbit (ws.set (i / 64) (w ||| ((1 : BitVec 64) <<< (i % 64)))) j = (wbit ws j || decide (j = i)) := by
  have hl : i / 64 < ws.length := (List.getElem?_eq_some_iff.1 hi).1
  unfold wbit
  by_cases h : j / 64 = i / 64
  · rw [h, List.getElem?_set_self hl, hi]
    simp only [or_mask _ _ _ (mod64_lt i)]
    congr 1
    rw [decide_eq_decide]
    constructor
    · intro; omega
    · intro e; rw [e]
  · rw [List.getElem?_set_ne (fun e => h e.symm)]
    have : j ≠ i := fun e => h (by rw [e])
    simp [this]

theorem divCeil_spec (n : Nat) : n ≤ divCeil n 64 * 64 ∧ divCeil n 64 * 64 < n + 64 := by
  unfold divCeil
  split <;> omega

theorem lt_divCeil {n i : Nat} (h : i < n) : i / 64 < divCeil n 64 := by
  have := divCeil_spec n
  omega

/-! ## Counting and finding bits -/

/-- The set bits, increasing. -/
def bitsOf (w : BitVec 64) : List Nat := (List.range 64).filter fun i => w.getLsbD i

theorem trailingZeros_eq (w : BitVec 64) : trailingZeros w = ((bitsOf w).head?).getD 64 := by
  rw [trailingZeros, bitsOf, List.head?_filter]

theorem leadingZeros_eq (w : BitVec 64) :
    leadingZeros w = match (bitsOf w).getLast? with | none => 64 | some i => 63 - i := by
  rw [leadingZeros, bitsOf, List.getLast?_filter]
  rfl

theorem countOnes_eq (w : BitVec 64) : countOnes w = (bitsOf w).length := by
  rw [countOnes, bitsOf, List.countP_eq_length_filter]

end OrdinalMap
