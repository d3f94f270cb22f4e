import Verif.Model.Adaptive
import Mathlib.Algebra.BigOperators.Group.List.Basic
import Mathlib.Tactic.Linarith
import Mathlib.Tactic.Ring
import Mathlib.Tactic.Positivity
import Mathlib.Tactic.Push

/-! Helper lemmas for C19 and C20. -/

namespace Ccpy.Adaptive

open Ccpy.Excitations

theorem pyInt_le {x : ℚ} (h : 0 ≤ x) : (pyInt x : ℚ) ≤ x := by
  rw [pyInt, if_pos h]
  exact Int.floor_le x

theorem pyInt_gt {x : ℚ} (h : 0 ≤ x) : x - 1 < (pyInt x : ℚ) := by
  rw [pyInt, if_pos h]
  exact Int.sub_one_lt_floor x

theorem pyInt_nonneg {x : ℚ} (h : 0 ≤ x) : 0 ≤ pyInt x := by
  rw [pyInt, if_pos h]
  exact Int.floor_nonneg.mpr h

theorem oneIncrement_nonneg (total : ℕ) : 0 ≤ oneIncrement total := pyInt_nonneg (by positivity)

theorem oneIncrement_le (total : ℕ) : (oneIncrement total : ℚ) * 100 ≤ total := by
  have := pyInt_le (x := (total : ℚ) / 100) (by positivity)
  unfold oneIncrement
  linarith

/-- The entries of the plan. -/
theorem percentAdds_get {total : ℕ} {ps adds : List ℚ} (h : percentAdds total ps = some adds) :
    adds.length = ps.length ∧ ps ≠ [] ∧ ∀ i, i < ps.length → adds.getD i 0 =
      if i + 1 = ps.length then 1
      else if ps.getD (i + 1) 0 = 100 then total - oneIncrement total * ps.getD i 0
      else oneIncrement total * (ps.getD (i + 1) 0 - ps.getD i 0) := by
  unfold percentAdds at h
  by_cases hp : ps.length = 0
  · simp [hp] at h
  · rw [if_neg hp] at h
    obtain rfl := (Option.some.inj h).symm
    refine ⟨by simp, by rintro rfl; simp at hp, fun i hi => ?_⟩
    simp [List.getD_eq_getElem?_getD, hi]

theorem take_sum_succ (l : List ℚ) (i : ℕ) : (l.take (i + 1)).sum = (l.take i).sum + l.getD i 0 := by
  by_cases h : i < l.length
  · rw [List.take_succ_eq_append_getElem h, List.sum_append, List.sum_singleton,
      List.getD_eq_getElem?_getD, List.getElem?_eq_getElem h]
    rfl
  · push Not at h
    rw [List.take_of_length_le (by omega), List.take_of_length_le h, List.getD_eq_getElem?_getD,
      List.getElem?_eq_none h]
    simp

theorem pairwise_getD {ps : List ℚ} (h : ps.Pairwise (· < ·)) {i j : ℕ} (hij : i < j)
    (hj : j < ps.length) : ps.getD i 0 < ps.getD j 0 := by
  rw [List.getD_eq_getElem?_getD, List.getD_eq_getElem?_getD, List.getElem?_eq_getElem hj,
    List.getElem?_eq_getElem (by omega : i < ps.length)]
  exact List.pairwise_iff_getElem.mp h i j (by omega) hj hij

/-- `halve` entry by entry. -/
theorem halve_true_get (adds : List ℚ) (i : ℕ) :
    (halve true adds).getD i 0 = if i < adds.length then (pyInt (adds.getD i 0 / 2) : ℚ) else 0 := by
  unfold halve
  rw [if_pos rfl]
  by_cases h : i < adds.length
  · simp [List.getD_eq_getElem?_getD, h]
  · simp [List.getD_eq_getElem?_getD, h]

end Ccpy.Adaptive
