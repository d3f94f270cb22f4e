import Verif.Model.Goodson
import Mathlib.Analysis.SpecificLimits.Normed
import Mathlib.Tactic.FieldSimp
import Mathlib.Tactic.LinearCombination
import Mathlib.Tactic.Linarith
import Mathlib.Tactic.Positivity

/-! # C50: Goodson's extrapolations -/

namespace Ccpy.Goodson

theorem pyDiv_ok {x y : ℝ} (h : y ≠ 0) : pyDiv x y = .ok (x / y) := if_neg h

theorem pyDiv_zero {x : ℝ} : pyDiv x 0 = .error .zeroDivision := if_pos rfl

theorem pySqrt_ok {x : ℝ} (h : 0 ≤ x) : pySqrt x = .ok (Real.sqrt x) := if_neg (not_lt.mpr h)

theorem pySqrt_neg {x : ℝ} (h : x < 0) : pySqrt x = .error .mathDomain := if_pos h

/-- C50, quadratic approximant: with both increments nonzero and a nonnegative discriminant it is
defined; its distance `y` from the reference solves the quadratic equation δ₃ y² - δ₂² y + δ₂³ = 0, and
it differs from the partial sum δ₁ + δ₂ + δ₃ by at most 12 δ₃² / |δ₂|. -/
theorem C50_quadratic {eRef e1 e2 : ℝ} (h2 : e1 ≠ eRef) (h3 : e2 ≠ e1)
    (hd : 4 * (e2 - e1) / (e1 - eRef) ≤ 1) :
    ∃ e, goodson eRef e1 e2 "ccq" = .ok e ∧
      (e2 - e1) * (e - eRef) ^ 2 - (e1 - eRef) ^ 2 * (e - eRef) + (e1 - eRef) ^ 3 = 0 ∧
      |e - e2| ≤ 12 * (e2 - e1) ^ 2 / |e1 - eRef| := by
  have k2 : e1 - eRef ≠ 0 := sub_ne_zero.mpr h2
  have k3 : e2 - e1 ≠ 0 := sub_ne_zero.mpr h3
  set a := e1 - eRef with ha
  set b := e2 - e1 with hb
  set r := Real.sqrt (1 - 4 * b / a) with hr
  have hr0 : 0 ≤ r := Real.sqrt_nonneg _
  have hr2 : r ^ 2 = 1 - 4 * b / a := Real.sq_sqrt (by linarith)
  have hb4 : b = a * (1 - r ^ 2) / 4 := by rw [hr2]; field_simp; ring
  refine ⟨eRef + 1 / 2 * a ^ 2 / b * (1 - r), ?_, ?_, ?_⟩
  · simp only [goodson, if_true, quadraticPade, ← ha, ← hb, pyDiv_ok k2, pyDiv_ok k3, Except.bind,
      bind, pySqrt_ok (show (0 : ℝ) ≤ 1 - 4 * b / a by linarith), pure, Except.pure]
    rfl
  · have hs : a * r ^ 2 = a - 4 * b := by rw [hr2]; field_simp
    have : eRef + 1 / 2 * a ^ 2 / b * (1 - r) - eRef = a ^ 2 * (1 - r) / (2 * b) := by
      field_simp
      ring
    rw [this]
    field_simp
    linear_combination a ^ 3 * hs
  · have h1r : (1 : ℝ) + r ≠ 0 := by positivity
    have hne : 1 - r ^ 2 ≠ 0 := by
      intro h0
      rw [h0] at hb4
      exact k3 (by rw [hb4]; ring)
    have hmr : 1 - r ≠ 0 := by
      intro h0
      apply hne
      have : r = 1 := by linarith
      rw [this]; ring
    have e1' : eRef + 1 / 2 * a ^ 2 / b * (1 - r) - e2 = 4 * b ^ 2 / a * ((3 + r) / (1 + r) ^ 3) := by
      have : e2 = eRef + a + b := by rw [ha, hb]; ring
      rw [this, hb4]
      have : (1 - r ^ 2) = (1 - r) * (1 + r) := by ring
      rw [this]
      field_simp
      ring
    rw [e1', abs_mul, abs_div, abs_of_nonneg (by positivity : (0 : ℝ) ≤ 4 * b ^ 2),
      abs_of_nonneg (by positivity : (0 : ℝ) ≤ (3 + r) / (1 + r) ^ 3)]
    have hq : (3 + r) / (1 + r) ^ 3 ≤ 3 := by
      rw [div_le_iff₀ (by positivity)]
      nlinarith [pow_nonneg hr0 2, pow_nonneg hr0 3]
    have ha' : 0 < |a| := abs_pos.mpr k2
    calc 4 * b ^ 2 / |a| * ((3 + r) / (1 + r) ^ 3) ≤ 4 * b ^ 2 / |a| * 3 :=
          mul_le_mul_of_nonneg_left hq (by positivity)
      _ = 12 * b ^ 2 / |a| := by ring

/-- C50, rational approximant: it is the reference plus δ₂² / (δ₂ - δ₃), and exceeds the partial sum by
δ₃² / (δ₂ - δ₃). -/
theorem C50_rational {eRef e1 e2 : ℝ} (h1 : eRef ≠ 0) (h2 : e1 ≠ eRef) (h3 : e2 - e1 ≠ e1 - eRef) :
    ∃ e, goodson eRef e1 e2 "ccr" = .ok e ∧
      e = eRef + (e1 - eRef) ^ 2 / ((e1 - eRef) - (e2 - e1)) ∧
      e - e2 = (e2 - e1) ^ 2 / ((e1 - eRef) - (e2 - e1)) := by
  have k2 : e1 - eRef ≠ 0 := sub_ne_zero.mpr h2
  have k3 : (e1 - eRef) - (e2 - e1) ≠ 0 := sub_ne_zero.mpr (Ne.symm h3)
  have k4 : 1 - (e2 - e1) / (e1 - eRef) ≠ 0 := by
    intro h0
    apply k3
    have : (e2 - e1) / (e1 - eRef) = 1 := by linarith
    rw [div_eq_one_iff_eq k2] at this
    linarith
  have e4 : (1 - (e2 - e1) / (e1 - eRef)) = ((e1 - eRef) - (e2 - e1)) / (e1 - eRef) := by
    field_simp
  have hv : eRef * (1 + (e1 - eRef) / eRef - (e2 - e1) / (e1 - eRef)) / (1 - (e2 - e1) / (e1 - eRef))
      = eRef + (e1 - eRef) ^ 2 / ((e1 - eRef) - (e2 - e1)) := by
    rw [e4]
    field_simp
    ring
  refine ⟨_, ?_, hv, ?_⟩
  · simp only [goodson, rationalPade, pyDiv_ok h1, pyDiv_ok k2, pyDiv_ok k4, Except.bind, bind,
      show ("ccr" : String) ≠ "ccq" by decide, if_false, if_true]
  · rw [hv]
    field_simp
    ring

/-- C50, rational approximant: if the corrections decrease it is the sum of the geometric series that
starts with δ₂, δ₃. -/
theorem C50_rational_series {eRef e1 e2 : ℝ} (h1 : eRef ≠ 0) (h2 : e1 ≠ eRef)
    (hlt : |e2 - e1| < |e1 - eRef|) :
    ∃ e, goodson eRef e1 e2 "ccr" = .ok e ∧
      HasSum (fun k : ℕ => (e1 - eRef) * ((e2 - e1) / (e1 - eRef)) ^ k) (e - eRef) := by
  have k2 : e1 - eRef ≠ 0 := sub_ne_zero.mpr h2
  have h3 : e2 - e1 ≠ e1 - eRef := fun h => by rw [h] at hlt; exact lt_irrefl _ hlt
  obtain ⟨e, he, hv, -⟩ := C50_rational h1 h2 h3
  refine ⟨e, he, ?_⟩
  have hr : |(e2 - e1) / (e1 - eRef)| < 1 := by
    rw [abs_div, div_lt_one (abs_pos.mpr k2)]
    exact hlt
  have hs := (hasSum_geometric_of_abs_lt_one hr).mul_left (e1 - eRef)
  have k3 : (e1 - eRef) - (e2 - e1) ≠ 0 := sub_ne_zero.mpr (Ne.symm h3)
  have e4 : (1 - (e2 - e1) / (e1 - eRef)) = ((e1 - eRef) - (e2 - e1)) / (e1 - eRef) := by
    field_simp
  have hval : (e1 - eRef) * (1 - (e2 - e1) / (e1 - eRef))⁻¹ = e - eRef := by
    rw [hv, e4]
    field_simp
    ring
  rw [← hval]
  exact hs

/-- C50, continued fraction: it is defined when all denominators are nonzero, and its value `e` solves
(δ₁ (δ₂ - δ₃) - δ₂²) e = δ₁² (δ₂ - δ₃). -/
theorem C50_continued_fraction_partial {eRef e1 e2 : ℝ} (h1 : eRef ≠ 0) (h2 : e1 ≠ eRef)
    (h3 : e2 - e1 ≠ e1 - eRef)
    (h4 : eRef * ((e1 - eRef) - (e2 - e1)) ≠ (e1 - eRef) ^ 2) :
    ∃ e, goodson eRef e1 e2 "cccf" = .ok e ∧
      (eRef * ((e1 - eRef) - (e2 - e1)) - (e1 - eRef) ^ 2) * e
        = eRef ^ 2 * ((e1 - eRef) - (e2 - e1)) := by
  have k2 : e1 - eRef ≠ 0 := sub_ne_zero.mpr h2
  have k3 : (e1 - eRef) - (e2 - e1) ≠ 0 := sub_ne_zero.mpr (Ne.symm h3)
  have k5 : eRef * ((e1 - eRef) - (e2 - e1)) - (e1 - eRef) ^ 2 ≠ 0 := sub_ne_zero.mpr h4
  have e4 : (1 - (e2 - e1) / (e1 - eRef)) = ((e1 - eRef) - (e2 - e1)) / (e1 - eRef) := by
    field_simp
  have k4 : 1 - (e2 - e1) / (e1 - eRef) ≠ 0 := by
    rw [e4]
    exact div_ne_zero k3 k2
  have e6 : 1 - (e1 - eRef) / eRef / (1 - (e2 - e1) / (e1 - eRef))
      = (eRef * ((e1 - eRef) - (e2 - e1)) - (e1 - eRef) ^ 2) / (eRef * ((e1 - eRef) - (e2 - e1))) := by
    rw [e4]
    field_simp
  have k6 : 1 - (e1 - eRef) / eRef / (1 - (e2 - e1) / (e1 - eRef)) ≠ 0 := by
    rw [e6]
    exact div_ne_zero k5 (mul_ne_zero h1 k3)
  refine ⟨eRef / (1 - (e1 - eRef) / eRef / (1 - (e2 - e1) / (e1 - eRef))), ?_, ?_⟩
  · simp only [goodson, continuedFraction, pyDiv_ok h1, pyDiv_ok k2, pyDiv_ok k4, pyDiv_ok k6,
      Except.bind, bind, show ("cccf" : String) ≠ "ccq" by decide,
      show ("cccf" : String) ≠ "ccr" by decide, if_false, if_true]
  · rw [e6, div_div_eq_mul_div, mul_div_cancel₀ _ k5]
    ring

/-- The continued fraction does not reproduce the partial sum it extrapolates, even when the last
correction vanishes: from -100, -101, -101 it gives -10000/99. -/
theorem C50_continued_fraction_fails :
    ∃ e, goodson (-100) (-101) (-101) "cccf" = .ok e ∧ e = -10000 / 99 := by
  obtain ⟨e, h1, h2⟩ := C50_continued_fraction_partial (eRef := -100) (e1 := -101) (e2 := -101)
    (by norm_num) (by norm_num) (by norm_num) (by norm_num)
  refine ⟨e, h1, ?_⟩
  norm_num at h2
  linarith

/-- When the last correction vanishes (nothing left to add) the quadratic approximant raises. -/
theorem C50_no_correction_fails (eRef e1 : ℝ) :
    goodson eRef e1 e1 "ccq" = .error .zeroDivision := by
  simp only [goodson, if_true, quadraticPade, sub_self, pyDiv_zero]
  rfl

/-- A correction larger than a quarter of the correlation energy, of the same sign, raises. -/
theorem C50_large_correction_error {eRef e1 e2 : ℝ} (h2 : e1 ≠ eRef) (h3 : e2 ≠ e1)
    (hd : 1 < 4 * (e2 - e1) / (e1 - eRef)) : goodson eRef e1 e2 "ccq" = .error .mathDomain := by
  have k2 : e1 - eRef ≠ 0 := sub_ne_zero.mpr h2
  have k3 : e2 - e1 ≠ 0 := sub_ne_zero.mpr h3
  simp only [goodson, if_true, quadraticPade, pyDiv_ok k2, pyDiv_ok k3, Except.bind, bind,
    pySqrt_neg (show 1 - 4 * (e2 - e1) / (e1 - eRef) < 0 by linarith)]

/-- No correlation energy raises, in all three. -/
theorem C50_no_correlation_error (eRef e2 : ℝ) (hr : eRef ≠ 0) (h : e2 ≠ eRef) :
    ∀ a ∈ ["ccq", "ccr", "cccf"], goodson eRef eRef e2 a = .error .zeroDivision := by
  have k : e2 - eRef ≠ 0 := sub_ne_zero.mpr h
  intro a ha
  simp only [List.mem_cons, List.not_mem_nil, or_false] at ha
  rcases ha with rfl | rfl | rfl
  · simp only [goodson, if_true, quadraticPade, sub_self, pyDiv_zero, pyDiv_ok k, Except.bind, bind]
  · simp only [goodson, rationalPade, sub_self, pyDiv_zero, pyDiv_ok hr, Except.bind, bind,
      show ("ccr" : String) ≠ "ccq" by decide, if_false, if_true]
  · simp only [goodson, continuedFraction, sub_self, pyDiv_zero, pyDiv_ok hr, Except.bind, bind,
      show ("cccf" : String) ≠ "ccq" by decide, show ("cccf" : String) ≠ "ccr" by decide, if_false,
      if_true]

/-- An unknown name is silently accepted and gives energy zero. -/
theorem C50_unknown_name_fails (eRef e1 e2 : ℝ) {a : String} (h1 : a ≠ "ccq") (h2 : a ≠ "ccr")
    (h3 : a ≠ "cccf") : goodson eRef e1 e2 a = .ok 0 := by
  simp only [goodson, if_neg h1, if_neg h2, if_neg h3]

/-- Typical energies meet the hypotheses of all theorems. -/
example : (-101 : ℝ) ≠ -100 ∧ (-101.1 : ℝ) ≠ -101 ∧ 4 * ((-101.1 : ℝ) - -101) / (-101 - -100) ≤ 1 ∧
    (-100 : ℝ) ≠ 0 ∧ (-101.1 : ℝ) - -101 ≠ -101 - -100 ∧ |(-101.1 : ℝ) - -101| < |(-101 : ℝ) - -100| ∧
    (-100 : ℝ) * ((-101 - -100) - (-101.1 - -101)) ≠ (-101 - -100) ^ 2 := by
  refine ⟨by norm_num, by norm_num, by norm_num, by norm_num, by norm_num, ?_, by norm_num⟩
  rw [abs_of_neg (by norm_num), abs_of_neg (by norm_num)]
  norm_num

/-- And energies that make the quadratic approximant raise. -/
example : goodson 0 (-1) (-2) "ccq" = .error .mathDomain :=
  C50_large_correction_error (by norm_num) (by norm_num) (by norm_num)

end Ccpy.Goodson
