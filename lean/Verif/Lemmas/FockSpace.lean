import Verif.Spec.FockSpace
import Mathlib.Tactic.Ring
import Mathlib.Tactic.Module
import Mathlib.Tactic.NoncommRing

namespace Ccpy.Fock

variable {ι : Type*} [LinearOrder ι]

theorem ann_det (x : ι) (D : Finset ι) : ann x (det D) = if x ∈ D then sgn x D • det (D.erase x) else 0 := by
  unfold ann det
  rw [Finsupp.linearCombination_single, one_smul]

theorem cre_det (x : ι) (D : Finset ι) : cre x (det D) = if x ∈ D then 0 else sgn x D • det (insert x D) := by
  unfold cre det
  rw [Finsupp.linearCombination_single, one_smul]

/-- Linear maps that agree on determinants are equal. -/
theorem ext_det {f g : Vec ι →ₗ[ℚ] Vec ι} (h : ∀ D, f (det D) = g (det D)) : f = g :=
  Finsupp.lhom_ext' fun D => LinearMap.ext_ring (h D)

theorem sgn_mul_self (x : ι) (D : Finset ι) : sgn x D * sgn x D = 1 := by
  unfold sgn
  rw [← pow_add, ← two_mul, pow_mul]
  norm_num

theorem sgn_insert {x y : ι} {D : Finset ι} (hy : y ∉ D) :
    sgn x (insert y D) = (if y < x then -1 else 1) * sgn x D := by
  unfold sgn
  rw [Finset.filter_insert]
  split_ifs with h
  · rw [Finset.card_insert_of_notMem (by simp [hy]), pow_succ]
    ring
  · ring

theorem sgn_erase {x y : ι} {D : Finset ι} (hy : y ∈ D) :
    sgn x (D.erase y) = (if y < x then -1 else 1) * sgn x D := by
  have h := sgn_insert (x := x) (Finset.notMem_erase y D)
  rw [Finset.insert_erase hy] at h
  rw [h, ← mul_assoc]
  split_ifs <;> ring

theorem ann_ann (x y : ι) : ann x ∘ₗ ann y = -(ann y ∘ₗ ann x) := by
  apply ext_det
  intro D
  simp only [LinearMap.comp_apply, LinearMap.neg_apply, ann_det]
  by_cases hxy : x = y
  · subst hxy
    by_cases hx : x ∈ D
    · simp [hx, ann_det]
    · simp [hx]
  · by_cases hx : x ∈ D
    · by_cases hy : y ∈ D
      · simp only [hx, hy, if_true, map_smul, ann_det, Finset.mem_erase, ne_eq, hxy, Ne.symm hxy, not_false_iff,
          true_and, sgn_erase hx, sgn_erase hy, smul_smul]
        rw [Finset.erase_right_comm]
        rcases lt_or_gt_of_ne hxy with h | h
        · simp only [h, h.not_gt, if_true, if_false]
          module
        · simp only [h, h.not_gt, if_true, if_false]
          module
      · simp [hx, hy, ann_det]
    · by_cases hy : y ∈ D
      · simp [hx, hy, ann_det]
      · simp [hx, hy]

theorem cre_cre (x y : ι) : cre x ∘ₗ cre y = -(cre y ∘ₗ cre x) := by
  apply ext_det
  intro D
  simp only [LinearMap.comp_apply, LinearMap.neg_apply, cre_det]
  by_cases hxy : x = y
  · subst hxy
    by_cases hx : x ∈ D
    · simp [hx]
    · simp [hx, cre_det]
  · by_cases hx : x ∈ D
    · by_cases hy : y ∈ D
      · simp [hx, hy]
      · simp [hx, hy, cre_det]
    · by_cases hy : y ∈ D
      · simp [hx, hy, cre_det]
      · simp only [hx, hy, if_false, map_smul, cre_det, Finset.mem_insert, hxy, Ne.symm hxy, or_false,
          sgn_insert hx, sgn_insert hy, smul_smul]
        rw [Finset.insert_comm]
        rcases lt_or_gt_of_ne hxy with h | h
        · simp only [h, h.not_gt, if_true, if_false]
          module
        · simp only [h, h.not_gt, if_true, if_false]
          module

/-- Anticommutation of annihilation and creation operators. -/
theorem ann_cre (x y : ι) : ann x ∘ₗ cre y = (if x = y then LinearMap.id else 0) - cre y ∘ₗ ann x := by
  apply ext_det
  intro D
  simp only [LinearMap.comp_apply, LinearMap.sub_apply, cre_det, ann_det]
  by_cases hxy : x = y
  · subst hxy
    by_cases hx : x ∈ D
    · have hne : x ∉ D.erase x := Finset.notMem_erase x D
      simp only [hx, if_true, map_zero, map_smul, cre_det, hne, if_false, LinearMap.id_apply,
        Finset.insert_erase hx, sgn_erase hx, lt_irrefl, one_mul, smul_smul, sgn_mul_self, one_smul, sub_self]
    · simp only [hx, if_false, map_zero, map_smul, ann_det, Finset.mem_insert_self, if_true, LinearMap.id_apply,
        Finset.erase_insert hx, sgn_insert hx, lt_irrefl, one_mul, smul_smul, sgn_mul_self, one_smul, sub_zero]
  · rw [if_neg hxy]
    simp only [LinearMap.zero_apply, zero_sub]
    by_cases hx : x ∈ D
    · by_cases hy : y ∈ D
      · simp [hx, hy, cre_det, Ne.symm hxy]
      · simp only [hx, hy, if_true, if_false, map_smul, ann_det, cre_det, Finset.mem_insert, Finset.mem_erase,
          or_true, and_false, sgn_insert hy, sgn_erase hx, smul_smul]
        rw [Finset.erase_insert_of_ne (Ne.symm hxy)]
        rcases lt_or_gt_of_ne hxy with h | h
        · simp only [h, h.not_gt, if_true, if_false]
          module
        · simp only [h, h.not_gt, if_true, if_false]
          module
    · by_cases hy : y ∈ D
      · simp [hx, hy]
      · simp [hx, hy, ann_det, hxy]

theorem ann_cre_apply (x y : ι) (v : Vec ι) : ann x (cre y v) = (if x = y then v else 0) - cre y (ann x v) := by
  have := congrArg (fun f => f v) (ann_cre x y)
  simp only [LinearMap.comp_apply, LinearMap.sub_apply] at this
  rw [this]
  split_ifs <;> rfl

theorem ann_ann_apply (x y : ι) (v : Vec ι) : ann x (ann y v) = -ann y (ann x v) :=
  congrArg (fun f => f v) (ann_ann x y)

theorem cre_cre_apply (x y : ι) (v : Vec ι) : cre x (cre y v) = -cre y (cre x v) :=
  congrArg (fun f => f v) (cre_cre x y)

/-! Inner product -/

theorem inner_det_left (D : Finset ι) (w : Vec ι) : inner (det D) w = w D := by
  unfold inner det
  rw [Finsupp.sum_single_index (zero_mul _), one_mul]

theorem inner_add_left (u v w : Vec ι) : inner (u + v) w = inner u w + inner v w :=
  Finsupp.sum_add_index' (fun _ => zero_mul _) fun _ _ _ => add_mul _ _ _

theorem inner_smul_left (c : ℚ) (v w : Vec ι) : inner (c • v) w = c * inner v w := by
  unfold inner
  rw [Finsupp.sum_smul_index fun _ => zero_mul _, Finsupp.mul_sum]
  exact Finsupp.sum_congr fun D _ => mul_assoc _ _ _

theorem inner_add_right (v w w' : Vec ι) : inner v (w + w') = inner v w + inner v w' := by
  unfold inner
  rw [← Finsupp.sum_add]
  exact Finsupp.sum_congr fun D _ => by rw [Finsupp.add_apply, mul_add]

theorem inner_smul_right (c : ℚ) (v w : Vec ι) : inner v (c • w) = c * inner v w := by
  unfold inner
  rw [Finsupp.mul_sum]
  exact Finsupp.sum_congr fun D _ => by rw [Finsupp.smul_apply, smul_eq_mul]; ring

theorem inner_zero_left (w : Vec ι) : inner 0 w = 0 := Finsupp.sum_zero_index
theorem inner_zero_right (v : Vec ι) : inner v 0 = 0 := by
  unfold inner
  simp

theorem inner_neg_left (v w : Vec ι) : inner (-v) w = -inner v w := by
  have := inner_smul_left (-1) v w
  rwa [neg_one_smul, neg_one_mul] at this
theorem inner_neg_right (v w : Vec ι) : inner v (-w) = -inner v w := by
  have := inner_smul_right (-1) v w
  rwa [neg_one_smul, neg_one_mul] at this

theorem inner_sum_right {κ : Type*} (s : Finset κ) (v : Vec ι) (w : κ → Vec ι) :
    inner v (∑ k ∈ s, w k) = ∑ k ∈ s, inner v (w k) := by
  classical
  induction s using Finset.induction with
  | empty => simp [inner_zero_right]
  | insert a s ha ih => rw [Finset.sum_insert ha, Finset.sum_insert ha, inner_add_right, ih]

theorem inner_sum_left {κ : Type*} (s : Finset κ) (v : κ → Vec ι) (w : Vec ι) :
    inner (∑ k ∈ s, v k) w = ∑ k ∈ s, inner (v k) w := by
  classical
  induction s using Finset.induction with
  | empty => simp [inner_zero_left]
  | insert a s ha ih => rw [Finset.sum_insert ha, Finset.sum_insert ha, inner_add_left, ih]

theorem inner_det_det (D E : Finset ι) : inner (det D) (det E) = if D = E then 1 else 0 := by
  classical
  rw [inner_det_left, det, Finsupp.single_apply]
  simp only [eq_comm]

/-- Determinants span. -/
theorem induction_det {P : Vec ι → Prop} (h0 : P 0) (hadd : ∀ v w, P v → P w → P (v + w))
    (hdet : ∀ (c : ℚ) D, P (c • det D)) (v : Vec ι) : P v := by
  induction v using Finsupp.induction_linear with
  | zero => exact h0
  | add f g hf hg => exact hadd f g hf hg
  | single D c =>
    have := hdet c D
    rwa [det, Finsupp.smul_single, smul_eq_mul, mul_one] at this

/-- The annihilation operator is the adjoint of the creation operator. -/
theorem inner_cre (x : ι) (v w : Vec ι) : inner (cre x v) w = inner v (ann x w) := by
  refine induction_det (P := fun v => inner (cre x v) w = inner v (ann x w)) ?_ ?_ ?_ v
  · rw [map_zero, inner_zero_left, inner_zero_left]
  · intro v v' h h'; rw [map_add, inner_add_left, inner_add_left, h, h']
  · intro c D
    rw [map_smul, inner_smul_left, inner_smul_left]
    congr 1
    refine induction_det (P := fun w => inner (cre x (det D)) w = inner (det D) (ann x w)) ?_ ?_ ?_ w
    · rw [map_zero, inner_zero_right, inner_zero_right]
    · intro v v' h h'; rw [map_add, inner_add_right, inner_add_right, h, h']
    · intro c E
      rw [map_smul, inner_smul_right, inner_smul_right]
      congr 1
      rw [cre_det, ann_det]
      by_cases hD : x ∈ D
      · rw [if_pos hD, inner_zero_left]
        by_cases hE : x ∈ E
        · rw [if_pos hE, inner_smul_right, inner_det_det, if_neg, mul_zero]
          rintro rfl
          exact Finset.notMem_erase x E hD
        · rw [if_neg hE, inner_zero_right]
      · rw [if_neg hD, inner_smul_left, inner_det_det]
        by_cases hE : x ∈ E
        · rw [if_pos hE, inner_smul_right, inner_det_det]
          by_cases he : insert x D = E
          · have he' : D = E.erase x := by rw [← he, Finset.erase_insert hD]
            rw [if_pos he, if_pos he', ← he, sgn_insert hD, if_neg (lt_irrefl x), one_mul]
          · rw [if_neg he, if_neg, mul_zero, mul_zero]
            rintro rfl
            exact he (Finset.insert_erase hE)
        · rw [if_neg hE, inner_zero_right, if_neg, mul_zero]
          rintro rfl
          exact hE (Finset.mem_insert_self x D)

theorem inner_comm (v w : Vec ι) : inner v w = inner w v := by
  refine induction_det (P := fun v => inner v w = inner w v) ?_ ?_ ?_ v
  · rw [inner_zero_left, inner_zero_right]
  · intro v v' h h'; rw [inner_add_left, inner_add_right, h, h']
  · intro c D
    rw [inner_smul_left, inner_smul_right]
    congr 1
    refine induction_det (P := fun w => inner (det D) w = inner w (det D)) ?_ ?_ ?_ w
    · rw [inner_zero_left, inner_zero_right]
    · intro v v' h h'; rw [inner_add_left, inner_add_right, h, h']
    · intro c E
      rw [inner_smul_left, inner_smul_right, inner_det_det, inner_det_det]
      simp only [eq_comm]

theorem inner_ann (x : ι) (v w : Vec ι) : inner (ann x v) w = inner v (cre x w) := by
  rw [inner_comm, ← inner_cre, inner_comm]

end Ccpy.Fock
