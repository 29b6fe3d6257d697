import Verif.Text.TotalMain
/-!
# The texts of `default` of the total maps
-/

namespace OrdinalMap.Text

variable {P : Nat → Type} {c : Cfg} {J : (p : Nat) → OrdinalImpl (P p)} {S : Nat} {D : P 2 → R (P 1 × P 2)}

@[text] theorem outM_default {U : UserFns P} (n : Nat) (h : Heap P) : (outM c J S U (n + 1)).call (.par 1) "default" [] h = U 1 [] h := by
  have : maps.dflt "default" = none := rfl
  simp only [outM, outside, this]
  simp

/-- `|_| V::default()` -/
theorem defaultFn_calls (n : Nat) (x : String) : CallsFn (outM c J S (defaultFn D) (n + 2))
    (.clo (("Self", .con x) :: mapTys S) [] (.cons .wild .nil) (.call (.path [⟨"V", .nil⟩, ⟨"default", .nil⟩]) .nil))
    (fun r => [.usr 2 r]) (fun _ r => D r) (.usr 1 ·) where
  len _ _ := rfl
  apply k r xs := by
    rw [outside_clo]
    cases hd : D r <;> runs [defaultFn, hd]

theorem totalMap_default (n : Nat) (hz : ∀ z, (J 0).size = .ok z → z < c.M) (r : P 2) :
    (outM c J S (defaultFn D) (n + 6)).call (.con "OrdinalTotalMap") "default" [] [.usr 2 r] =
      (fun p => (boxMapVal p.1, [.usr 2 p.2])) <$> OrdinalTotalMap.new c (J 0) 0 (fun _ r => D r) r := by
  refine (outside_call (d := totalMapFn2_0) (n + 5) _ _ rfl rfl).trans ?_
  have h1 := totalMap_new n (defaultFn_calls (c := c) (J := J) (S := S) (D := D) n "OrdinalTotalMap") hz r
  cases hm : OrdinalTotalMap.new c (J 0) 0 (fun _ r => D r) r with
  | error f => rw [hm] at h1; runs [totalMapFn2_0, h1]
  | ok p =>
    rw [hm] at h1
    simp only [totalMapVal, phantom] at h1
    runs [totalMapFn2_0, h1, boxMapVal, totalMapVal, ofV]

theorem totalArr_default (n : Nat) (hS : S < c.M) (r : P 2) :
    (outM c J S (defaultFn D) (n + 6)).call (.con "OrdinalTotalArrayMap") "default" [] [.usr 2 r] =
      (fun p => (arrayMapVal p.1, [.usr 2 p.2])) <$> OrdinalTotalArrayMap.new (J 0) S (fun _ r => D r) r := by
  refine (outside_call (d := totalArrayMapFn5_0) (n + 5) _ _ rfl rfl).trans ?_
  have h1 := totalArr_new n (defaultFn_calls (c := c) (J := J) (S := S) (D := D) n "OrdinalTotalArrayMap") hS r
  cases hm : OrdinalTotalArrayMap.new (J 0) S (fun _ r => D r) r with
  | error f => rw [hm] at h1; runs [totalArrayMapFn5_0, h1]
  | ok p =>
    rw [hm] at h1
    simp only [totalArrVal, phantom] at h1
    runs [totalArrayMapFn5_0, h1, arrayMapVal, totalArrVal, ofV]

end OrdinalMap.Text
