import Verif.Text.ImplsNonZero
import Verif.Text.ImplsGeneric
import Verif.Text.ImplsArray
import Verif.Text.Parsed
/-!
# From agreement with the model to the contract
-/

namespace OrdinalMap.Text

theorem program_cons {s : String} {ss : List String} {a b : Prog} (ha : parse s = some a) (hb : program ss = some b) :
    program (s :: ss) = some (a ++ b) := by
  rw [program, ha, hb]

theorem program_sources : program sources = some impls :=
  program_cons primitive_parsed (program_cons nonZero_parsed (program_cons char_parsed (program_cons ordering_parsed
    (program_cons std_parsed (program_cons either_parsed (program_cons boxed_parsed (program_cons array_parsed rfl)))))))

theorem Sources.of {Q : Prog → Prop} (h : Q impls) : Sources Q := ⟨impls, program_sources, h⟩

variable {P : Nat → Type} {c : Cfg} {J : (p : Nat) → OrdinalImpl (P p)} {N : Nat} {prog : Prog} {α : Type} {t : RT}
  {enc : α → Val P} {I : OrdinalImpl α} {n : Nat}

theorem TextAgrees.lawful (T : TextAgrees c J N prog t enc I) (L : Lawful c I n) : TextLawful c J N prog t enc n where
  inj := T.inj
  size := by rw [T.size, L.size]; rfl
  fits := L.fits
  ordinal a := by
    obtain ⟨i, hi, h1, h2⟩ := L.ordinal a
    refine ⟨i, hi, ?_, ?_⟩
    · rw [T.ordinal, h1]; rfl
    · rw [T.fromOrdinal i (Nat.lt_trans hi L.fits), h2]; rfl
  fromOrdinal i hi := by
    obtain ⟨a, h1, h2⟩ := L.fromOrdinal i hi
    refine ⟨a, ?_, ?_⟩
    · rw [T.fromOrdinal i (Nat.lt_trans hi L.fits), h1]; rfl
    · rw [T.ordinal, h2]; rfl

theorem TextAgrees.strict (T : TextAgrees c J N prog t enc I) (S : Strict c I n) : TextStrict c J N prog t n := by
  intro i hi hM
  rw [T.fromOrdinal i hM, S i hi hM]; rfl

theorem TextAgrees.both (T : TextAgrees c J N prog t enc I) (L : Lawful c I n ∧ Strict c I n) :
    TextLawful c J N prog t enc n ∧ TextStrict c J N prog t n := ⟨T.lawful L.1, T.strict L.2⟩

end OrdinalMap.Text
