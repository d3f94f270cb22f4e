import Verif.Lemmas.Diis
import Verif.Spec.LeastSquares
import Mathlib.Algebra.Order.Ring.Unbundled.Rat
import Mathlib.Data.Rat.Defs
import Mathlib.Tactic.NormNum
import Mathlib.Tactic.FinCases

/-! C22: the extrapolation combines the stored vectors with the weights of sum one that minimise the
norm of the combined residual. -/

namespace Ccpy.Diis

open Ccpy.Spec

section field
variable {K : Type} [Field K] [DecidableEq K]

/-- C22. The linear solver: a returned vector solves the system, and the system has no other solution. -/
theorem C22_solver (n : ℕ) (hn : 0 < n) (A : ℕ → ℕ → K) (b x : ℕ → K)
    (h : solveGauss n A b = some x) :
    (∀ r, r < n → ∑ c ∈ Finset.range n, A r c * x c = b r) ∧
    ∀ y : ℕ → K, (∀ r, r < n → ∑ c ∈ Finset.range n, A r c * y c = b r) →
      ∀ c, c < n → y c = x c := by
  rcases solveGauss_cases n hn A b with ⟨x', h1, h2, S', h3, h4⟩ | ⟨h1, -⟩
  · rw [h1] at h
    obtain rfl := Option.some.inj h
    exact ⟨h2, fun y hy => reduced_unique h3 h4 hy h2⟩
  · rw [h1] at h
    cases h

example : (solveGauss (K := ℚ) 2 (fun r c => if r = c then 2 else 1) (fun r => r)).map
    (fun x => (x 0, x 1)) = some (-1/3, 2/3) := by decide +kernel

/-- C22. The solver divides by zero only if some leading square block of the matrix is singular:
a combination of its rows with last weight one vanishes. -/
theorem C22_solver_undefined (n : ℕ) (hn : 0 < n) (A : ℕ → ℕ → K) (b : ℕ → K)
    (h : solveGauss n A b = none) :
    ∃ k, k < n ∧ ∃ l : ℕ → K, l k = 1 ∧
      ∀ c, c ≤ k → ∑ q ∈ Finset.range (k + 1), l q * A q c = 0 := by
  rcases solveGauss_cases n hn A b with ⟨x', h1, -⟩ | ⟨-, j, S', hj, h2, h3⟩
  · rw [h1] at h
    cases h
  · obtain ⟨l, hl1, hl2⟩ := h2.comb j hj
    refine ⟨j, hj, l, hl1, fun c hc => ?_⟩
    rw [← hl2]
    rcases Nat.lt_or_ge c j with hlt | hge
    · exact h2.zero c hlt j hlt hj
    · rw [show c = j by omega]
      exact h3

example : solveGauss (K := ℚ) 2 (fun r c => if r = c then 0 else -1) (fun r => r) = none := by
  have : (solveGauss (K := ℚ) 2 (fun r c => if r = c then 0 else -1) (fun r => r)).isNone = true := by
    decide +kernel
  exact Option.isNone_iff_eq_none.mp this

omit [DecidableEq K] in
theorem dot_eq (dim : ℕ) (u v : ℕ → K) : dot dim u v = ∑ p ∈ Finset.range dim, u p * v p :=
  sum_range_list dim _

omit [DecidableEq K] in
theorem bMatrix_block (size dim : ℕ) (r : ℕ → ℕ → K) {i j : ℕ} (hi : i < size) (hj : j < size) :
    bMatrix size dim r i j = ∑ p ∈ Finset.range dim, r i p * r j p := by
  unfold bMatrix
  rw [if_neg (by omega), if_pos ⟨hi, hj⟩]
  split_ifs
  · exact dot_eq dim _ _
  · rw [dot_eq]
    exact Finset.sum_congr rfl fun p _ => mul_comm _ _

omit [DecidableEq K] in
theorem bMatrix_border (size dim : ℕ) (r : ℕ → ℕ → K) {i : ℕ} (hi : i < size) :
    bMatrix size dim r i size = -1 ∧ bMatrix size dim r size i = -1 := by
  unfold bMatrix
  constructor
  · rw [if_neg (by omega), if_neg (by omega)]
  · rw [if_neg (by omega), if_neg (by omega)]

omit [DecidableEq K] in
theorem bMatrix_corner (size dim : ℕ) (r : ℕ → ℕ → K) : bMatrix size dim r size size = 0 := by
  unfold bMatrix
  rw [if_pos ⟨rfl, rfl⟩]

omit [DecidableEq K] in
/-- `∑ q, l q * B q c` for a row combination of the Gram block. -/
theorem gram_row (size dim : ℕ) (r : ℕ → ℕ → K) (l : ℕ → K) {m c : ℕ} (hm : m ≤ size) (hc : c < size) :
    ∑ q ∈ Finset.range m, l q * bMatrix size dim r q c
      = ∑ p ∈ Finset.range dim, combination m l r p * r c p := by
  have : ∀ q ∈ Finset.range m, l q * bMatrix size dim r q c
      = ∑ p ∈ Finset.range dim, l q * r q p * r c p := by
    intro q hq
    rw [Finset.mem_range] at hq
    rw [bMatrix_block size dim r (by omega) hc, Finset.mul_sum]
    exact Finset.sum_congr rfl fun p _ => by ring
  rw [Finset.sum_congr rfl this, Finset.sum_comm]
  refine Finset.sum_congr rfl fun p _ => ?_
  unfold combination
  rw [Finset.sum_mul]

omit [DecidableEq K] in
/-- `∑ c, x c * (∑ p, g p * r c p) = ∑ p, g p * combination p`. -/
theorem sum_pairing (dim m : ℕ) (r : ℕ → ℕ → K) (x g : ℕ → K) :
    ∑ c ∈ Finset.range m, x c * ∑ p ∈ Finset.range dim, g p * r c p
      = ∑ p ∈ Finset.range dim, g p * combination m x r p := by
  simp only [Finset.mul_sum]
  rw [Finset.sum_comm]
  refine Finset.sum_congr rfl fun p _ => ?_
  unfold combination
  rw [Finset.mul_sum]
  exact Finset.sum_congr rfl fun c _ => by ring

/-- The conditions satisfied by the solution of the DIIS system. -/
theorem weights_conditions {size dim : ℕ} {r : ℕ → ℕ → K} {x : ℕ → K}
    (h : solveGauss (size + 1) (bMatrix size dim r) (rhs size) = some x) :
    Affine size x ∧ ∀ i, i < size →
      ∑ p ∈ Finset.range dim, combination size x r p * r i p = x size := by
  obtain ⟨h1, -⟩ := C22_solver _ (Nat.succ_pos _) _ _ _ h
  constructor
  · have := h1 size (by omega)
    rw [Finset.sum_range_succ, bMatrix_corner, rhs, if_pos rfl, zero_mul, add_zero,
      Finset.sum_congr rfl (g := fun c => -x c) fun c hc => by
        rw [(bMatrix_border size dim r (Finset.mem_range.mp hc)).2]; ring,
      Finset.sum_neg_distrib] at this
    exact neg_injective this
  · intro i hi
    have := h1 i (by omega)
    rw [Finset.sum_range_succ, (bMatrix_border size dim r hi).1, rhs, if_neg (by omega)] at this
    have e : ∑ c ∈ Finset.range size, bMatrix size dim r i c * x c
        = ∑ q ∈ Finset.range size, x q * bMatrix size dim r q i := by
      refine Finset.sum_congr rfl fun c hc => ?_
      rw [Finset.mem_range] at hc
      rw [bMatrix_block size dim r hi hc, bMatrix_block size dim r hc hi, mul_comm]
      congr 1
      exact Finset.sum_congr rfl fun p _ => mul_comm _ _
    rw [e, gram_row size dim r x (le_refl _) hi] at this
    linear_combination this

/-- C22. The result is the combination of the stored vectors with weights of sum one; in particular
component `p` is `a` if all stored vectors have `a` there. -/
theorem C22_affine (size dim : ℕ) (t r : ℕ → ℕ → K) (y : ℕ → K)
    (h : extrapolate size dim t r = some y) :
    (∃ w, Affine size w ∧ ∀ p, y p = combination size w t p) ∧
    ∀ p a, (∀ i, i < size → t i p = a) → y p = a := by
  unfold extrapolate at h
  rw [Option.map_eq_some_iff] at h
  obtain ⟨x, hx, rfl⟩ := h
  have hw := (weights_conditions hx).1
  constructor
  · exact ⟨x, hw, fun p => sum_range_list _ _⟩
  · intro p a ha
    show ((List.range size).map fun i => x i * t i p).sum = a
    rw [sum_range_list, Finset.sum_congr rfl (g := fun i => x i * a) fun i hi => by
      rw [ha i (Finset.mem_range.mp hi)], ← Finset.sum_mul]
    rw [show ∑ i ∈ Finset.range size, x i = 1 from hw, one_mul]

end field

section ordered
variable {K : Type} [Field K] [LinearOrder K] [IsStrictOrderedRing K]

theorem normSq_zero {dim : ℕ} {u : ℕ → K} (h : normSq dim u ≤ 0) : ∀ p, p < dim → u p = 0 := by
  intro p hp
  have h0 : normSq dim u = 0 := le_antisymm h (Finset.sum_nonneg fun q _ => sq_nonneg _)
  have := (Finset.sum_eq_zero_iff_of_nonneg (fun q _ => sq_nonneg (u q))).mp h0 p (Finset.mem_range.mpr hp)
  exact pow_eq_zero_iff (two_ne_zero) |>.mp this

/-- C22. Whenever the extrapolation is defined, its weights are the minimiser of the norm of the combined
residual among all weights of sum one, and the only one. -/
theorem C22_weights (size dim : ℕ) (t r : ℕ → ℕ → K) (y : ℕ → K)
    (h : extrapolate size dim t r = some y) :
    ∃ w, Minimises size dim r w ∧ ∀ p, y p = combination size w t p := by
  unfold extrapolate at h
  rw [Option.map_eq_some_iff] at h
  obtain ⟨x, hx, rfl⟩ := h
  obtain ⟨hw, hg⟩ := weights_conditions hx
  refine ⟨x, ⟨hw, fun u hu => ?_⟩, fun p => sum_range_list _ _⟩
  have key : normSq dim (combination size u r) = normSq dim (combination size x r)
      + normSq dim (fun p => combination size u r p - combination size x r p) := by
    have e : ∑ p ∈ Finset.range dim, combination size x r p *
        (combination size u r p - combination size x r p) = 0 := by
      have e1 := sum_pairing dim size r u (combination size x r)
      have e2 := sum_pairing dim size r x (combination size x r)
      have c1 : ∀ z : ℕ → K, Affine size z → ∑ c ∈ Finset.range size,
          z c * ∑ p ∈ Finset.range dim, combination size x r p * r c p = x size := by
        intro z hz
        rw [Finset.sum_congr rfl (g := fun c => z c * x size) fun c hc => by
          rw [hg c (Finset.mem_range.mp hc)], ← Finset.sum_mul,
          show ∑ c ∈ Finset.range size, z c = 1 from hz, one_mul]
      rw [c1 u hu] at e1
      rw [c1 x hw] at e2
      simp only [mul_sub, Finset.sum_sub_distrib]
      rw [← e1, ← e2, sub_self]
    unfold normSq
    rw [← Finset.sum_add_distrib, ← sub_eq_zero, ← Finset.sum_sub_distrib]
    have : ∀ p ∈ Finset.range dim, combination size u r p ^ 2 - (combination size x r p ^ 2
        + (combination size u r p - combination size x r p) ^ 2)
        = 2 * (combination size x r p * (combination size u r p - combination size x r p)) := by
      intro p _
      ring
    rw [Finset.sum_congr rfl this, ← Finset.mul_sum, e, mul_zero]
  have hpos : 0 ≤ normSq dim (fun p => combination size u r p - combination size x r p) :=
    Finset.sum_nonneg fun _ _ => sq_nonneg _
  constructor
  · linarith
  · intro hle
    have hz := normSq_zero (u := fun p => combination size u r p - combination size x r p)
      (dim := dim) (by linarith)
    -- then `u`, with the same multiplier, solves the same linear system
    have huniq := (C22_solver _ (Nat.succ_pos _) _ _ _ hx).2
      (fun i => if i = size then x size else u i) (by
        intro i hi
        rw [Finset.sum_range_succ, if_pos rfl]
        have e0 : ∑ c ∈ Finset.range size, bMatrix size dim r i c * (if c = size then x size else u c)
            = ∑ c ∈ Finset.range size, bMatrix size dim r i c * u c := by
          refine Finset.sum_congr rfl fun c hc => ?_
          rw [Finset.mem_range] at hc
          rw [if_neg (by omega)]
        rw [e0]
        rcases Nat.lt_succ_iff_lt_or_eq.mp hi with hlt | rfl
        · rw [(bMatrix_border size dim r hlt).1, rhs, if_neg (by omega)]
          have e : ∑ c ∈ Finset.range size, bMatrix size dim r i c * u c
              = ∑ q ∈ Finset.range size, u q * bMatrix size dim r q i := by
            refine Finset.sum_congr rfl fun c hc => ?_
            rw [Finset.mem_range] at hc
            rw [bMatrix_block size dim r hlt hc, bMatrix_block size dim r hc hlt, mul_comm]
            congr 1
            exact Finset.sum_congr rfl fun p _ => mul_comm _ _
          rw [e, gram_row size dim r u (le_refl _) hlt, ← hg i hlt, Finset.sum_congr rfl
            (g := fun p => combination size x r p * r i p) fun p hp => by
              have := hz p (Finset.mem_range.mp hp)
              rw [sub_eq_zero.mp this]]
          ring
        · rw [bMatrix_corner, rhs, if_pos rfl, zero_mul, add_zero,
            Finset.sum_congr rfl (g := fun c => -u c) fun c hc => by
              rw [(bMatrix_border i dim r (Finset.mem_range.mp hc)).2]; ring,
            Finset.sum_neg_distrib, show ∑ c ∈ Finset.range i, u c = 1 from hu])
    intro i hi
    have := huniq i (by omega)
    rwa [if_neg (by omega)] at this

/-- C22. The extrapolation is defined whenever the stored residuals are linearly independent. -/
theorem C22_defined (size dim : ℕ) (t r : ℕ → ℕ → K) (hs : 0 < size)
    (hr : Independent size dim r) : ∃ y, extrapolate size dim t r = some y := by
  unfold extrapolate
  cases hx : solveGauss (size + 1) (bMatrix size dim r) (rhs size) with
  | some x => exact ⟨_, rfl⟩
  | none =>
    exfalso
    obtain ⟨k, hk, l, hl, hrow⟩ := C22_solver_undefined _ (Nat.succ_pos _) _ _ hx
    rcases Nat.lt_succ_iff_lt_or_eq.mp hk with hlt | rfl
    · -- a combination of the residuals with last weight one vanishes
      have hnorm : normSq dim (combination (k + 1) l r) ≤ 0 := by
        have e := sum_pairing dim (k + 1) r l (combination (k + 1) l r)
        rw [Finset.sum_congr rfl (g := fun _ => (0 : K)) fun c hc => by
          rw [Finset.mem_range] at hc
          rw [← gram_row size dim r l (m := k + 1) (by omega) (by omega : c < size),
            hrow c (by omega), mul_zero], Finset.sum_const_zero] at e
        unfold normSq
        rw [Finset.sum_congr rfl fun p _ => pow_two _, ← e]
      have hz := normSq_zero hnorm
      have := hr (fun i => if i ≤ k then l i else 0) (fun p hp => by
        refine Eq.trans ?_ (hz p hp)
        show ∑ i ∈ Finset.range size, (if i ≤ k then l i else 0) * r i p
          = ∑ i ∈ Finset.range (k + 1), l i * r i p
        rw [← Finset.sum_subset (Finset.range_mono (by omega : k + 1 ≤ size))]
        · refine Finset.sum_congr rfl fun q hq => ?_
          rw [Finset.mem_range] at hq
          rw [if_pos (by omega)]
        · intro q _ hq
          rw [Finset.mem_range] at hq
          rw [if_neg (by omega), zero_mul]) k hlt
      rw [if_pos (le_refl k), hl] at this
      exact one_ne_zero this
    · have hcol : ∀ c, c < k → ∑ p ∈ Finset.range dim, combination k l r p * r c p = 1 := by
        intro c hc
        have := hrow c (by omega)
        rw [Finset.sum_range_succ, gram_row k dim r l (le_refl k) hc,
          (bMatrix_border k dim r hc).2, hl] at this
        linear_combination this
      have hsum : ∑ q ∈ Finset.range k, l q = 0 := by
        have := hrow k (le_refl k)
        rw [Finset.sum_range_succ, bMatrix_corner, mul_zero, add_zero,
          Finset.sum_congr rfl (g := fun c => -l c) fun c hc => by
            rw [(bMatrix_border k dim r (Finset.mem_range.mp hc)).1]; ring,
          Finset.sum_neg_distrib] at this
        exact neg_eq_zero.mp this
      have hnorm : normSq dim (combination k l r) ≤ 0 := by
        have e := sum_pairing dim k r l (combination k l r)
        rw [Finset.sum_congr rfl (g := fun c => l c) fun c hc => by
          rw [hcol c (Finset.mem_range.mp hc), mul_one], hsum] at e
        unfold normSq
        rw [Finset.sum_congr rfl fun p _ => pow_two _, ← e]
      have hz := normSq_zero hnorm
      have := hcol 0 hs
      rw [Finset.sum_congr rfl (g := fun _ => (0 : K)) fun p hp => by
        rw [hz p (Finset.mem_range.mp hp), zero_mul], Finset.sum_const_zero] at this
      exact zero_ne_one this

end ordered

/-! A concrete case: two stored vectors with independent residuals (1,0) and (1,1). -/

/-- The residuals (1,0), (1,1). -/
def sampleResiduals : ℕ → ℕ → ℚ := fun i p => if p = 0 then 1 else if i = 1 then 1 else 0

example : Independent 2 2 sampleResiduals := by
  intro w h i hi
  have h0 := h 0 (by decide)
  have h1 := h 1 (by decide)
  simp [combination, sampleResiduals, Finset.sum_range_succ] at h0 h1
  have : i = 0 ∨ i = 1 := by omega
  rcases this with rfl | rfl <;> linarith

example : (extrapolate 2 2 (fun i _ => (i : ℚ)) sampleResiduals).map (fun y => y 0) = some 0 := by
  decide +kernel

/-- C22, disagreement: with one stored vector and a zero residual the system has exactly one solution
(weight one), but elimination without row exchanges divides by zero. -/
theorem C22_zero_pivot_fails :
    (∀ dim : ℕ, ∀ t : ℕ → ℕ → ℚ, extrapolate 1 dim t (fun _ _ => 0) = none) ∧
    ∀ dim : ℕ, Minimises (K := ℚ) 1 dim (fun _ _ => 0) (fun _ => 1) := by
  constructor
  · intro dim t
    have : solveGauss (K := ℚ) 2 (bMatrix 1 dim fun _ _ => 0) (rhs 1) = none := by
      have hc : column (K := ℚ) 2 ⟨bMatrix 1 dim fun _ _ => 0, rhs 1⟩ 0 = none := by
        unfold column
        rw [if_pos]
        show bMatrix (K := ℚ) 1 dim (fun _ _ => 0) 0 0 = 0
        rw [bMatrix_block 1 dim _ (by decide) (by decide)]
        simp
      have hf : forward (K := ℚ) 2 ⟨bMatrix 1 dim fun _ _ => 0, rhs 1⟩ = none := by
        unfold forward
        rw [show List.range (2 - 1) = [0] from rfl, List.foldlM_cons, hc]
        rfl
      unfold solveGauss
      rw [hf]
      rfl
    unfold extrapolate
    rw [this]
    rfl
  · intro dim
    refine ⟨by simp [Affine], fun u hu => ⟨?_, fun _ i hi => ?_⟩⟩
    · simp [normSq, combination]
    · have : i = 0 := by omega
      subst this
      simpa [Affine] using hu

/-- C22, disagreement: a history that has become stationary (all stored vectors equal, all residuals
equal and nonzero) is not reproduced; the elimination divides by zero. -/
theorem C22_constant_history_fails :
    extrapolate (K := ℚ) 2 1 (fun _ _ => 5) (fun _ _ => 1) = none ∧
    ∀ w : ℕ → ℚ, Affine 2 w → ∀ p, combination 2 w (fun _ _ => 5) p = 5 := by
  constructor
  · have : solveGauss (K := ℚ) 3 (bMatrix 2 1 fun _ _ => 1) (rhs 2) = none :=
      Option.isNone_iff_eq_none.mp (by decide +kernel)
    unfold extrapolate
    rw [this]
    rfl
  · intro w hw p
    unfold combination
    rw [← Finset.sum_mul, show ∑ i ∈ Finset.range 2, w i = 1 from hw, one_mul]

end Ccpy.Diis
