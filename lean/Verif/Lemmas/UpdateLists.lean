import Verif.Lemmas.UpdateLoops

/-! The written-out element lists of the kernels follow the permutation patterns. -/

namespace Ccpy.UpdateKernels
open Ccpy.Writes Ccpy.Spec

theorem vec_comp1 (f : Fin 1 → ℕ) (p : Fin 1) : f ∘ ![p] = ![f p] := by
  funext i; match i with | 0 => rfl

theorem terms1_at (x : It2) : termsT1a x.2.1 x.1 = At (key1 x) pat1 := by
  simp [At, pat1, termsT1a, key1, vec_comp1]
theorem resids1_at (x : It2) : residsT1a x.2.1 x.1 = At (key1 x) pat1 := by
  simp [At, pat1, residsT1a, key1, vec_comp1]
theorem copies1_at (x : It2) : [(key1 x, 1)] = At (key1 x) pat1 := by
  simp [At, pat1, key1, vec_comp1]

theorem terms2_at (x : It4) :
    termsT2a x.2.2.1 x.2.2.2.1 x.1 x.2.1 = At (key2 x) pattern4 := by
  simp [At, pattern4, termsT2a, key2, vec_comp2]
theorem resids2_at (x : It4) :
    residsT2a x.2.2.1 x.2.2.2.1 x.1 x.2.1 = At (key2 x) pattern4 := by
  simp [At, pattern4, residsT2a, key2, vec_comp2]
theorem copies2_at (x : It4) :
    (key2 x, 1) :: copiesT2a x.2.2.1 x.2.2.2.1 x.1 x.2.1 = At (key2 x) pattern4 := by
  simp [At, pattern4, copiesT2a, key2, vec_comp2]

theorem terms2b_at (x : It4) :
    termsT2b x.2.2.2.1 x.2.2.1 x.2.1 x.1 = At (key2b x) pat2b := by
  simp [At, pat2b, termsT2b, key2b, vec_comp2]
theorem resids2b_at (x : It4) :
    residsT2b x.2.2.2.1 x.2.2.1 x.2.1 x.1 = At (key2b x) pat2b := by
  simp [At, pat2b, residsT2b, key2b, vec_comp2]
theorem copies2b_at (x : It4) : [(key2b x, 1)] = At (key2b x) pat2b := by
  simp [At, pat2b, key2b, vec_comp2]

theorem terms3_at (x : It6) :
    termsT3a x.2.2.2.2.2.1 x.2.2.2.2.1 x.2.2.2.1 x.2.2.1 x.2.1 x.1 = At (key3 x) patTerms3 := by
  simp [At, patTerms3, prodPat', termsT3a, key3, vec_comp3]
theorem resids3_at (x : It6) :
    residsT3a x.2.2.2.2.2.1 x.2.2.2.2.1 x.2.2.2.1 x.2.2.1 x.2.1 x.1 = At (key3 x) patResids3 := by
  simp [At, patResids3, prodPat, residsT3a, key3, vec_comp3]
theorem copies3_at (x : It6) :
    (key3 x, 1) :: copiesT3a x.2.2.2.2.2.1 x.2.2.2.2.1 x.2.2.2.1 x.2.2.1 x.2.1 x.1 =
      At (key3 x) patCopies3 := by
  simp [At, patCopies3, prodPat, copiesT3a, key3, vec_comp3]

theorem terms3b_at (x : It6) :
    termsT3b x.2.2.2.2.1 x.2.2.2.1 x.2.2.2.2.2.1 x.2.1 x.1 x.2.2.1 = At (key3b x) patternAab := by
  simp [At, patternAab, termsT3b, key3b, vec_comp3]
theorem resids3b_at (x : It6) :
    residsT3b x.2.2.2.2.1 x.2.2.2.1 x.2.2.2.2.2.1 x.2.1 x.1 x.2.2.1 = At (key3b x) patternAab := by
  simp [At, patternAab, residsT3b, key3b, vec_comp3]
theorem copies3b_at (x : It6) :
    (key3b x, 1) :: copiesT3b x.2.2.2.2.1 x.2.2.2.1 x.2.2.2.2.2.1 x.2.1 x.1 x.2.2.1 =
      At (key3b x) patternAab := by
  simp [At, patternAab, copiesT3b, key3b, vec_comp3]

theorem terms3c_at (x : It6) :
    termsT3c x.2.2.2.1 x.2.2.2.2.2.1 x.2.2.2.2.1 x.1 x.2.2.1 x.2.1 = At (key3c x) patternAbb := by
  simp [At, patternAbb, termsT3c, key3c, vec_comp3]
theorem resids3c_at (x : It6) :
    residsT3c x.2.2.2.1 x.2.2.2.2.2.1 x.2.2.2.2.1 x.1 x.2.2.1 x.2.1 = At (key3c x) patternAbb := by
  simp [At, patternAbb, residsT3c, key3c, vec_comp3]
theorem copies3c_at (x : It6) :
    (key3c x, 1) :: copiesT3c x.2.2.2.1 x.2.2.2.2.2.1 x.2.2.2.2.1 x.1 x.2.2.1 x.2.1 =
      At (key3c x) patternAbb := by
  simp [At, patternAbb, copiesT3c, key3c, vec_comp3]

end Ccpy.UpdateKernels
