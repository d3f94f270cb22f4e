import Verif.Model.InsertCi
import Verif.Lemmas.Writes
import Mathlib.Tactic.FinCases

namespace Ccpy.ExternalCorrection
open Ccpy.Writes Ccpy.Spec Equiv

variable {R : Type*} [AddCommGroup R]

theorem covers_ciWritesAa (a b i j : ℕ) (x : R) :
    Covers (likeSpin 2) ![a, b] ![i, j] x (ciWritesAa a b i j x) :=
  covers_of_pattern _ _ _ _ pattern4 _ (by simp [vec_comp2, pattern4, ciWritesAa]) pattern4_all pattern4_only

theorem covers_ciWritesBb (a b i j : ℕ) (x : R) :
    Covers (likeSpin 2) ![a, b] ![i, j] x (ciWritesBb a b i j x) :=
  covers_of_pattern _ _ _ _ pattern4 _ (by simp [vec_comp2, pattern4, ciWritesBb]) pattern4_all pattern4_only

theorem covers_ciWritesAb (a b i j : ℕ) (x : R) :
    Covers (distinctSpin 2) ![a, b] ![i, j] x (ciWritesAb a b i j x) where
  all := by rintro g rfl; simp [ciWritesAb]
  only := by
    intro w hw
    refine ⟨1, rfl, ?_⟩
    simp only [ciWritesAb, List.mem_singleton] at hw
    rw [hw]; simp

theorem covers_ciWritesAaa (a b c i j k : ℕ) (x : R) :
    Covers (likeSpin 3) ![a, b, c] ![i, j, k] x (ciWritesAaa a b c i j k x) :=
  covers_of_pattern _ _ _ _ pattern36 _ (by simp [vec_comp3, pattern36, ciWritesAaa]) pattern36_all pattern36_only

theorem covers_ciWritesBbb (a b c i j k : ℕ) (x : R) :
    Covers (likeSpin 3) ![a, b, c] ![i, j, k] x (ciWritesBbb a b c i j k x) :=
  covers_of_pattern _ _ _ _ pattern36 _ (by simp [vec_comp3, pattern36, ciWritesBbb]) pattern36_all pattern36_only

theorem covers_ciWritesAab (a b c i j k : ℕ) (x : R) :
    Covers spinAab ![a, b, c] ![i, j, k] x (ciWritesAab a b c i j k x) :=
  covers_of_pattern _ _ _ _ patternAab _ (by simp [vec_comp3, patternAab, ciWritesAab]) patternAab_all patternAab_only

theorem covers_ciWritesAbb (a b c i j k : ℕ) (x : R) :
    Covers spinAbb ![a, b, c] ![i, j, k] x (ciWritesAbb a b c i j k x) :=
  covers_of_pattern _ _ _ _ patternAbb _ (by simp [vec_comp3, patternAbb, ciWritesAbb]) patternAbb_all patternAbb_only

theorem injective_vec3 {a b c : ℕ} (h1 : a ≠ b) (h2 : a ≠ c) (h3 : b ≠ c) :
    Function.Injective ![a, b, c] := by
  intro i j h
  fin_cases i <;> fin_cases j <;> simp_all

theorem injective_vec2 {a b : ℕ} (h1 : a ≠ b) : Function.Injective ![a, b] := by
  intro i j h
  fin_cases i <;> fin_cases j <;> simp_all

end Ccpy.ExternalCorrection
