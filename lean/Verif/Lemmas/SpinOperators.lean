import Verif.Lemmas.FockSpace
import Mathlib.Tactic.Linarith
import Mathlib.Algebra.BigOperators.Group.Finset.Piecewise
import Mathlib.Data.Finset.Image
import Mathlib.Algebra.Module.BigOperators

/-! Spin operators and the reference determinant: commutators, adjoints, vacuum conditions. -/

namespace Ccpy.Fock

variable {ι : Type*} [LinearOrder ι] {up down : ℕ → ι} {n na nb : ℕ}

/-- Different labels are different spin orbitals. -/
structure Labels (up down : ℕ → ι) : Prop where
  up_inj : ∀ p q, up p = up q ↔ p = q
  down_inj : ∀ p q, down p = down q ↔ p = q
  ud : ∀ p q, up p ≠ down q
  du : ∀ p q, down q ≠ up p

theorem raising_apply (v : Vec ι) :
    raising n up down v = ∑ p ∈ Finset.range n, cre (up p) (ann (down p) v) := by
  unfold raising
  rw [LinearMap.sum_apply]
  rfl

theorem lowering_apply (v : Vec ι) :
    lowering n up down v = ∑ p ∈ Finset.range n, cre (down p) (ann (up p) v) := by
  unfold lowering
  rw [LinearMap.sum_apply]
  rfl

theorem projection_apply (v : Vec ι) : projection n up down v =
    (1 / 2 : ℚ) • ∑ p ∈ Finset.range n, (cre (up p) (ann (up p) v) - cre (down p) (ann (down p) v)) := by
  unfold projection
  rw [LinearMap.smul_apply, LinearMap.sum_apply]
  rfl

/-- `S₋` is the adjoint of `S₊`. -/
theorem inner_lowering (v w : Vec ι) : inner v (lowering n up down w) = inner (raising n up down v) w := by
  rw [lowering_apply, raising_apply, inner_sum_right, inner_sum_left]
  refine Finset.sum_congr rfl fun p _ => ?_
  rw [inner_cre, inner_ann]

theorem raising_cre_up (L : Labels up down) (a : ℕ) (v : Vec ι) :
    raising n up down (cre (up a) v) = cre (up a) (raising n up down v) := by
  rw [raising_apply, raising_apply, map_sum]
  refine Finset.sum_congr rfl fun p _ => ?_
  rw [ann_cre_apply, if_neg (L.du a p), zero_sub, map_neg, cre_cre_apply, neg_neg]

theorem raising_cre_down {a : ℕ} (ha : a < n) (L : Labels up down) (v : Vec ι) :
    raising n up down (cre (down a) v) = cre (up a) v + cre (down a) (raising n up down v) := by
  rw [raising_apply, raising_apply, map_sum]
  have : ∀ p ∈ Finset.range n, cre (up p) (ann (down p) (cre (down a) v)) =
      (if p = a then cre (up a) v else 0) + cre (down a) (cre (up p) (ann (down p) v)) := by
    intro p _
    rw [ann_cre_apply, map_sub, cre_cre_apply (up p) (down a), sub_neg_eq_add]
    simp only [L.down_inj]
    split_ifs with h
    · rw [h]
    · rw [map_zero]
  rw [Finset.sum_congr rfl this, Finset.sum_add_distrib, Finset.sum_ite_eq' (Finset.range n) a,
    if_pos (Finset.mem_range.mpr ha)]

theorem raising_ann_up {i : ℕ} (hi : i < n) (L : Labels up down) (v : Vec ι) :
    raising n up down (ann (up i) v) = -ann (down i) v + ann (up i) (raising n up down v) := by
  rw [raising_apply, raising_apply, map_sum]
  have : ∀ p ∈ Finset.range n, cre (up p) (ann (down p) (ann (up i) v)) =
      (if p = i then -ann (down i) v else 0) + ann (up i) (cre (up p) (ann (down p) v)) := by
    intro p _
    rw [ann_cre_apply (up i), ann_ann_apply (down p), map_neg]
    simp only [L.up_inj]
    by_cases h : p = i
    · rw [if_pos h, if_pos h.symm, h]
      abel
    · rw [if_neg h, if_neg (Ne.symm h)]
      abel
  rw [Finset.sum_congr rfl this, Finset.sum_add_distrib, Finset.sum_ite_eq' (Finset.range n) i,
    if_pos (Finset.mem_range.mpr hi)]

theorem raising_ann_down (L : Labels up down) (i : ℕ) (v : Vec ι) :
    raising n up down (ann (down i) v) = ann (down i) (raising n up down v) := by
  rw [raising_apply, raising_apply, map_sum]
  refine Finset.sum_congr rfl fun p _ => ?_
  rw [ann_cre_apply (down i), if_neg (L.du p i), zero_sub, ann_ann_apply (down p), map_neg]

/-- Number operators. -/
theorem number_cre (x y : ι) (v : Vec ι) :
    cre x (ann x (cre y v)) = cre y (cre x (ann x v)) + if x = y then cre y v else 0 := by
  rw [ann_cre_apply, map_sub, cre_cre_apply x y, sub_neg_eq_add]
  split_ifs with h
  · rw [h, add_comm]
  · rw [map_zero, zero_add, add_zero]

theorem number_ann (x y : ι) (v : Vec ι) :
    cre x (ann x (ann y v)) = ann y (cre x (ann x v)) - if x = y then ann y v else 0 := by
  rw [ann_cre_apply y, ann_ann_apply x y, map_neg]
  by_cases h : x = y
  · rw [if_pos h, if_pos h.symm, h]
    abel
  · rw [if_neg h, if_neg (Ne.symm h)]
    abel

theorem projection_cre (y : ι) (c : ℚ) (v : Vec ι)
    (hc : ∑ p ∈ Finset.range n, ((if up p = y then (1 : ℚ) else 0) - if down p = y then 1 else 0) = 2 * c) :
    projection n up down (cre y v) = cre y (projection n up down v) + c • cre y v := by
  rw [projection_apply, projection_apply, map_smul, map_sum]
  have : ∀ p ∈ Finset.range n, cre (up p) (ann (up p) (cre y v)) - cre (down p) (ann (down p) (cre y v)) =
      cre y (cre (up p) (ann (up p) v) - cre (down p) (ann (down p) v)) +
        ((if up p = y then (1 : ℚ) else 0) - if down p = y then 1 else 0) • cre y v := by
    intro p _
    rw [number_cre, number_cre, map_sub]
    split_ifs <;> module
  rw [Finset.sum_congr rfl this, Finset.sum_add_distrib, ← Finset.sum_smul, hc, smul_add, smul_smul]
  congr 2
  ring

theorem projection_ann (y : ι) (c : ℚ) (v : Vec ι)
    (hc : ∑ p ∈ Finset.range n, ((if up p = y then (1 : ℚ) else 0) - if down p = y then 1 else 0) = 2 * c) :
    projection n up down (ann y v) = ann y (projection n up down v) - c • ann y v := by
  rw [projection_apply, projection_apply, map_smul, map_sum]
  have : ∀ p ∈ Finset.range n, cre (up p) (ann (up p) (ann y v)) - cre (down p) (ann (down p) (ann y v)) =
      ann y (cre (up p) (ann (up p) v) - cre (down p) (ann (down p) v)) -
        ((if up p = y then (1 : ℚ) else 0) - if down p = y then 1 else 0) • ann y v := by
    intro p _
    rw [number_ann, number_ann, map_sub]
    split_ifs <;> module
  rw [Finset.sum_congr rfl this, Finset.sum_sub_distrib, ← Finset.sum_smul, hc, smul_sub, smul_smul]
  congr 2
  ring

theorem count_up (L : Labels up down) {a : ℕ} (ha : a < n) :
    ∑ p ∈ Finset.range n, ((if up p = up a then (1 : ℚ) else 0) - if down p = up a then 1 else 0) =
      2 * (1 / 2) := by
  simp only [L.up_inj, L.du, if_false, sub_zero]
  rw [Finset.sum_ite_eq' (Finset.range n) a, if_pos (Finset.mem_range.mpr ha)]
  norm_num

theorem count_down (L : Labels up down) {a : ℕ} (ha : a < n) :
    ∑ p ∈ Finset.range n, ((if up p = down a then (1 : ℚ) else 0) - if down p = down a then 1 else 0) =
      2 * (-(1 / 2)) := by
  simp only [L.down_inj, L.ud, if_false, zero_sub, Finset.sum_neg_distrib]
  rw [Finset.sum_ite_eq' (Finset.range n) a, if_pos (Finset.mem_range.mpr ha)]
  norm_num

/-- Vectors with a definite spin projection. -/
def HasSz (n : ℕ) (up down : ℕ → ι) (m : ℚ) (v : Vec ι) : Prop := projection n up down v = m • v

theorem HasSz.cre_up (L : Labels up down) {m : ℚ} {v : Vec ι} (h : HasSz n up down m v) {a : ℕ} (ha : a < n) :
    HasSz n up down (m + 1 / 2) (cre (up a) v) := by
  unfold HasSz at *
  rw [projection_cre _ _ _ (count_up L ha), h, map_smul, add_smul]

theorem HasSz.cre_down (L : Labels up down) {m : ℚ} {v : Vec ι} (h : HasSz n up down m v) {a : ℕ} (ha : a < n) :
    HasSz n up down (m - 1 / 2) (cre (down a) v) := by
  unfold HasSz at *
  rw [projection_cre _ _ _ (count_down L ha), h, map_smul, neg_smul, sub_smul, sub_eq_add_neg]

theorem HasSz.ann_up (L : Labels up down) {m : ℚ} {v : Vec ι} (h : HasSz n up down m v) {a : ℕ} (ha : a < n) :
    HasSz n up down (m - 1 / 2) (ann (up a) v) := by
  unfold HasSz at *
  rw [projection_ann _ _ _ (count_up L ha), h, map_smul, sub_smul]

theorem HasSz.ann_down (L : Labels up down) {m : ℚ} {v : Vec ι} (h : HasSz n up down m v) {a : ℕ} (ha : a < n) :
    HasSz n up down (m + 1 / 2) (ann (down a) v) := by
  unfold HasSz at *
  rw [projection_ann _ _ _ (count_down L ha), h, map_smul, neg_smul, sub_neg_eq_add, add_smul]

/-- Matrix elements of `S²` between a vector and one with definite projection. -/
theorem inner_spinSquared {m : ℚ} {w : Vec ι} (h : HasSz n up down m w) (v : Vec ι) :
    inner v (spinSquared n up down w) =
      inner (raising n up down v) (raising n up down w) + m * (m + 1) * inner v w := by
  unfold spinSquared
  rw [LinearMap.add_apply, inner_add_right, LinearMap.comp_apply, inner_lowering, LinearMap.comp_apply,
    LinearMap.add_apply, h, map_add, map_smul, LinearMap.id_apply, h, inner_add_right, inner_smul_right,
    inner_smul_right]
  ring

/-! The reference determinant -/

theorem ann_reference_up (L : Labels up down) {a : ℕ} (ha : na ≤ a) : ann (up a) (reference up down na nb) = 0 := by
  unfold reference
  rw [ann_det, if_neg]
  simp only [Finset.mem_union, Finset.mem_image, Finset.mem_range, not_or, not_exists, not_and]
  exact ⟨fun p hp e => by rw [L.up_inj] at e; omega, fun p _ e => L.du a p e⟩

theorem ann_reference_down (L : Labels up down) {a : ℕ} (ha : nb ≤ a) :
    ann (down a) (reference up down na nb) = 0 := by
  unfold reference
  rw [ann_det, if_neg]
  simp only [Finset.mem_union, Finset.mem_image, Finset.mem_range, not_or, not_exists, not_and]
  exact ⟨fun p _ e => L.ud p a e, fun p hp e => by rw [L.down_inj] at e; omega⟩

theorem cre_reference_up {i : ℕ} (hi : i < na) : cre (up i) (reference up down na nb) = 0 := by
  unfold reference
  rw [cre_det, if_pos]
  exact Finset.mem_union_left _ (Finset.mem_image_of_mem _ (Finset.mem_range.mpr hi))

theorem cre_reference_down {i : ℕ} (hi : i < nb) : cre (down i) (reference up down na nb) = 0 := by
  unfold reference
  rw [cre_det, if_pos]
  exact Finset.mem_union_right _ (Finset.mem_image_of_mem _ (Finset.mem_range.mpr hi))

theorem inner_reference : inner (reference up down na nb) (reference up down na nb) = 1 := by
  unfold reference
  rw [inner_det_det, if_pos rfl]

/-- Occupied down orbitals being also occupied up, the reference has the largest projection. -/
theorem raising_reference (L : Labels up down) (hab : nb ≤ na) : raising n up down (reference up down na nb) = 0 := by
  rw [raising_apply]
  refine Finset.sum_eq_zero fun p _ => ?_
  by_cases hp : p < nb
  · have := cre_cre_apply (up p) (down p) (reference up down na nb)
    have h2 := ann_cre_apply (down p) (up p) (reference up down na nb)
    rw [if_neg (L.du p p), zero_sub, cre_reference_up (by omega), map_zero] at h2
    exact neg_eq_zero.mp h2.symm
  · rw [ann_reference_down L (by omega), map_zero]

theorem hasSz_reference (L : Labels up down) (ha : na ≤ n) (hb : nb ≤ n) :
    HasSz n up down (((na : ℚ) - nb) / 2) (reference up down na nb) := by
  unfold HasSz
  rw [projection_apply]
  have hu : ∀ p, cre (up p) (ann (up p) (reference up down na nb)) =
      (if p < na then (1 : ℚ) else 0) • reference up down na nb := by
    intro p
    by_cases hp : p < na
    · have := ann_cre_apply (up p) (up p) (reference up down na nb)
      rw [cre_reference_up hp, map_zero, if_pos rfl] at this
      rw [if_pos hp, one_smul]
      exact (sub_eq_zero.mp this.symm).symm
    · rw [ann_reference_up L (by omega), map_zero, if_neg hp, zero_smul]
  have hd : ∀ p, cre (down p) (ann (down p) (reference up down na nb)) =
      (if p < nb then (1 : ℚ) else 0) • reference up down na nb := by
    intro p
    by_cases hp : p < nb
    · have := ann_cre_apply (down p) (down p) (reference up down na nb)
      rw [cre_reference_down hp, map_zero, if_pos rfl] at this
      rw [if_pos hp, one_smul]
      exact (sub_eq_zero.mp this.symm).symm
    · rw [ann_reference_down L (by omega), map_zero, if_neg hp, zero_smul]
  simp only [hu, hd, ← sub_smul]
  rw [← Finset.sum_smul, smul_smul, Finset.sum_sub_distrib]
  congr 1
  have count : ∀ k, k ≤ n → ∑ p ∈ Finset.range n, (if p < k then (1 : ℚ) else 0) = k := by
    intro k hk
    rw [← Finset.sum_filter, Finset.sum_const, nsmul_eq_mul, mul_one]
    congr 1
    have : (Finset.range n).filter (· < k) = Finset.range k := by
      ext x; simp only [Finset.mem_filter, Finset.mem_range]; omega
    rw [this, Finset.card_range]
  rw [count _ ha, count _ hb]
  ring

/-! Rules moving operators that vanish on the reference to the right. -/

section rules
variable (L : Labels up down)
include L

theorem uu_cre {a : ℕ} (b : ℕ) (v : Vec ι) :
    ann (up a) (cre (up b) v) = (if a = b then v else 0) - cre (up b) (ann (up a) v) := by
  rw [ann_cre_apply]; simp only [L.up_inj]
theorem ud_cre {a : ℕ} (b : ℕ) (v : Vec ι) : ann (up a) (cre (down b) v) = -cre (down b) (ann (up a) v) := by
  rw [ann_cre_apply, if_neg (L.ud a b), zero_sub]
theorem du_cre {a : ℕ} (b : ℕ) (v : Vec ι) : ann (down a) (cre (up b) v) = -cre (up b) (ann (down a) v) := by
  rw [ann_cre_apply, if_neg (L.du b a), zero_sub]
theorem dd_cre {a : ℕ} (b : ℕ) (v : Vec ι) :
    ann (down a) (cre (down b) v) = (if a = b then v else 0) - cre (down b) (ann (down a) v) := by
  rw [ann_cre_apply]; simp only [L.down_inj]

end rules

end Ccpy.Fock
