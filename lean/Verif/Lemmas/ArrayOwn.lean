import Verif.Model.Ordinal
import Verif.Lemmas.ArrayBuilder
/-! # Ownership in `<[T; N]>::from_ordinal` -/

namespace OrdinalMap
open ArrayBuilder

/-- Nothing lost, nothing dropped twice: the array (if any) and the drops make up the log. -/
def Accounted {T : Type} (log : List T) (o : Outcome T (Option (List T))) : Prop :=
  (((o.returned.bind id).getD []) ++ o.dropped).Perm log

theorem arrayFromLoopO_spec {α : Type} (A : OrdinalImpl α) (s : Nat) (hs : A.size = .ok s)
    (hA : ∀ i, A.fromOrdinal i = .error .panic ∨ ∃ o, A.fromOrdinal i = .ok o) (S : Nat) :
    ∀ (k n : Nat) (vs : List α), vs.length + k = S →
    ∃ log o, arrayFromLoopO A k n (holding S vs) vs = .ok (log, o) ∧ Accounted log o := by
  intro k
  induction k with
  | zero =>
    intro n vs hk
    unfold arrayFromLoopO
    by_cases hn : n = 0
    · refine ⟨vs, _, by simp [hn, tryFinish_full (show vs.length = S by omega)]; rfl, ?_⟩
      simp [Accounted, List.reverse_perm]
    · refine ⟨vs, _, by simp [hn, drop_holding]; rfl, ?_⟩
      simp [Accounted]
  | succ k ih =>
    intro n vs hk
    unfold arrayFromLoopO
    simp only [hs, ok_bind, checkedRem]
    by_cases h0 : s = 0
    · exact ⟨vs, _, by simp [h0, drop_holding]; rfl, by simp [Accounted]⟩
    · simp only [h0, if_false]
      rcases hA (n % s) with e | ⟨o, e⟩
      · exact ⟨vs, _, by simp [e, unwindBuilder, drop_holding]; rfl, by simp [Accounted]⟩
      · cases o with
        | none => exact ⟨vs, _, by simp [e, unwindBuilder, drop_holding]; rfl, by simp [Accounted]⟩
        | some a =>
          simp only [e, push_holding a (show vs.length < S by omega), divU_ok h0, ok_bind]
          exact ih (n / s) (vs ++ [a]) (by simp; omega)

end OrdinalMap
