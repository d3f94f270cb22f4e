import Verif.Lemmas.PivotedCholesky
import Mathlib.Tactic.FinCases
import Mathlib.Tactic.NormNum

/-! C31: pivoted Cholesky decomposition. -/

namespace Ccpy.PivotedCholesky
open Finset

theorem residual_psd_step {A : ℕ → ℕ → ℝ} {N m : ℕ} (hA : ∀ p < N, ∀ q < N, A p q = A q p) {s s' : State}
    (h : Inv A N m s) (hs : step A N m s = some s') (hP : PSD N (residual A s.R m)) :
    PSD N (residual A s'.R (m + 1)) := by
  obtain ⟨hi, hold, hR, hprod, hcase, hpN⟩ := inv_step hA h hs
  rcases hcase with hc | he
  · have := psd_step hpN hP (fun p hp q hq => residual_comm hA hp hq) hc hprod
    have e : (fun p q => residual A s.R m p q - s'.R m p * s'.R m q) = residual A s'.R (m + 1) := by
      funext p q
      rw [residual_succ, residual_congr hR]
    rwa [e] at this
  · intro x
    refine le_of_eq (sum_eq_zero fun p hp => sum_eq_zero fun q hq => ?_).symm
    obtain ⟨i, hiN, rfl⟩ := hi.surj p (mem_range.mp hp)
    rw [hi.pivots i (by omega) q (mem_range.mp hq)]
    ring

theorem loop_spec {A : ℕ → ℕ → ℝ} {N : ℕ} {tol : ℝ} (hA : ∀ p < N, ∀ q < N, A p q = A q p) (fuel : ℕ) :
    ∀ m s m' s', Inv A N m s → loop A N tol fuel m s = some (m', s') →
      Inv A N m' s' ∧ m' ≤ m + fuel ∧ (m' = m + fuel ∨ s'.err ≤ tol) ∧ (m' = 0 → s' = s) ∧
        (PSD N (residual A s.R m) → PSD N (residual A s'.R m')) := by
  induction fuel with
  | zero =>
    intro m s m' s' h hl
    simp only [loop, Option.some.injEq, Prod.mk.injEq] at hl
    obtain ⟨rfl, rfl⟩ := hl
    exact ⟨h, le_rfl, Or.inl rfl, fun _ => rfl, id⟩
  | succ fuel ih =>
    intro m s m' s' h hl
    simp only [loop] at hl
    split_ifs at hl with he
    · rcases hst : step A N m s with _ | s1
      · rw [hst] at hl; simp at hl
      · rw [hst] at hl
        obtain ⟨h1, h2, h3, h4, h5⟩ := ih (m + 1) s1 m' s' (inv_step hA h hst).1 hl
        refine ⟨h1, by omega, ?_, ?_, fun hP => h5 (residual_psd_step hA h hst hP)⟩
        · rcases h3 with h3 | h3
          · exact Or.inl (by omega)
          · exact Or.inr h3
        · intro hz
          -- a step has been made
          exfalso
          have : ∀ fuel m s m' s', loop A N tol fuel m s = some (m', s') → m ≤ m' := by
            intro fuel
            induction fuel with
            | zero =>
              intro m s m' s' h
              simp only [loop, Option.some.injEq, Prod.mk.injEq] at h
              omega
            | succ f ihf =>
              intro m s m' s' h
              simp only [loop] at h
              split_ifs at h with hh
              · rcases hst : step A N m s with _ | s1
                · rw [hst] at h; simp at h
                · rw [hst] at h
                  have := ihf _ _ _ _ h
                  omega
              · simp only [Option.some.injEq, Prod.mk.injEq] at h
                omega
          have := this _ _ _ _ _ hl
          omega
    · simp only [Option.some.injEq, Prod.mk.injEq] at hl
      obtain ⟨rfl, rfl⟩ := hl
      exact ⟨h, by omega, Or.inr (not_lt.mp he), fun _ => rfl, id⟩

/-- C31.  For a symmetric matrix, the returned rows reproduce the matrix on the rows and columns of the
pivots used: there are as many different pivots as rows, and `RᵀR` agrees with `A` in each of their rows.
Hence a decomposition with `N` rows is exact. -/
theorem C31_pivots (A : ℕ → ℕ → ℝ) (N rankMax : ℕ) (tol : ℝ) (hA : ∀ p < N, ∀ q < N, A p q = A q p) (m : ℕ)
    (s : State) (h : pivotedChol A N rankMax tol = some (m, s)) :
    m ≤ rankMax ∧ m ≤ N ∧ (∀ l < m, s.piv l < N) ∧ (∀ l < m, ∀ l' < m, s.piv l = s.piv l' → l = l') ∧
      (∀ l < m, ∀ q < N, ∑ k ∈ range m, s.R k (s.piv l) * s.R k q = A (s.piv l) q) ∧
      (m = N → ∀ p < N, ∀ q < N, ∑ k ∈ range m, s.R k p * s.R k q = A p q) := by
  obtain ⟨hi, hm, _⟩ := loop_spec hA rankMax 0 _ m s (inv_start A N) h
  have hle := hi.le
  have hpiv : ∀ l < m, ∀ q < N, ∑ k ∈ range m, s.R k (s.piv l) * s.R k q = A (s.piv l) q := by
    intro l hl q hq
    have := hi.pivots l hl q hq
    unfold residual at this
    linarith
  refine ⟨by omega, hi.le, fun l hl => hi.maps l (by omega), fun l hl l' hl' e => hi.inj l (by omega) l' (by omega) e,
    hpiv, fun he p hp q hq => ?_⟩
  obtain ⟨i, hiN, rfl⟩ := hi.surj p hp
  exact hpiv i (by omega) q hq

/-- C31.  The tracked array `d` holds the diagonal of `A - RᵀR` for the orbitals that are not pivots. -/
theorem C31_diagonal (A : ℕ → ℕ → ℝ) (N rankMax : ℕ) (tol : ℝ) (hA : ∀ p < N, ∀ q < N, A p q = A q p) (m : ℕ)
    (s : State) (h : pivotedChol A N rankMax tol = some (m, s)) (q : ℕ) (hq : q < N)
    (hnot : ∀ l < m, s.piv l ≠ q) : s.d q = A q q - ∑ k ∈ range m, s.R k q * s.R k q := by
  obtain ⟨hi, _⟩ := loop_spec hA rankMax 0 _ m s (inv_start A N) h
  obtain ⟨i, hiN, rfl⟩ := hi.surj q hq
  exact hi.diag i (by
    by_contra hlt
    exact hnot i (by omega) rfl) hiN

theorem trace_residual {A : ℕ → ℕ → ℝ} {N m : ℕ} {s : State} (hi : Inv A N m s) :
    ∑ p ∈ range N, residual A s.R m p p = ∑ j ∈ Ico m N, s.d (s.piv j) := by
  have h1 : ∑ p ∈ range N, residual A s.R m p p = ∑ i ∈ range N, residual A s.R m (s.piv i) (s.piv i) := by
    symm
    refine sum_bij (fun i _ => s.piv i) ?_ ?_ ?_ ?_
    · intro i hi'; exact mem_range.mpr (hi.maps i (mem_range.mp hi'))
    · intro i hi' j hj e; exact hi.inj i (mem_range.mp hi') j (mem_range.mp hj) e
    · intro q hq
      obtain ⟨i, hiN, e⟩ := hi.surj q (mem_range.mp hq)
      exact ⟨i, mem_range.mpr hiN, e⟩
    · intro i _; rfl
  rw [h1, ← sum_range_add_sum_Ico _ hi.le, sum_eq_zero, zero_add]
  · refine sum_congr rfl fun j hj => ?_
    rw [mem_Ico] at hj
    exact (hi.diag j hj.1 hj.2).symm
  · intro l hl
    have := hi.le
    have := mem_range.mp hl
    exact hi.pivots l this _ (hi.maps l (by omega))

/-- C31.  For a positive semidefinite matrix the decomposition is returned without a NaN and without an
exception, for every rank limit and every tolerance that is not negative.  `A - RᵀR` is positive semidefinite.
If the rank limit was not used up, its trace and every one of its elements are within the tolerance. -/
theorem C31_psd (A : ℕ → ℕ → ℝ) (N rankMax : ℕ) (tol : ℝ) (hA : ∀ p < N, ∀ q < N, A p q = A q p) (hP : PSD N A)
    (ht : 0 ≤ tol) :
    ∃ m s, pivotedChol A N rankMax tol = some (m, s) ∧
      PSD N (fun p q => A p q - ∑ k ∈ range m, s.R k p * s.R k q) ∧
      (m < rankMax → ∑ p ∈ range N, (A p p - ∑ k ∈ range m, s.R k p * s.R k p) ≤ tol ∧
        ∀ p < N, ∀ q < N, |A p q - ∑ k ∈ range m, s.R k p * s.R k q| ≤ tol) := by
  have hP0 : PSD N (residual A (start A N).R 0) := by
    have : residual A (start A N).R 0 = A := by funext p q; simp [residual]
    rwa [this]
  have some : ∀ fuel m s, Inv A N m s → PSD N (residual A s.R m) → (m = 0 → s = start A N) →
      ∃ m' s', loop A N tol fuel m s = some (m', s') := by
    intro fuel
    induction fuel with
    | zero => exact fun m s _ _ _ => ⟨m, s, rfl⟩
    | succ fuel ih =>
      intro m s hi hp h0
      simp only [loop]
      split_ifs with he
      · have hpos : ∃ j, m ≤ j ∧ j < N ∧ 0 < s.d (s.piv j) := by
          rcases Nat.eq_zero_or_pos m with hz | hz
          · have hs := h0 hz
            subst hs
            subst hz
            by_contra hno
            push Not at hno
            have : ∑ p ∈ range N, |A p p| = 0 := sum_eq_zero fun p hp' => by
              have h1 := hno p (Nat.zero_le _) (mem_range.mp hp')
              have h2 := psd_diag hP (mem_range.mp hp')
              rw [abs_eq_zero]
              exact le_antisymm h1 h2
            have he' : ∑ p ∈ range N, |A p p| > tol := he
            linarith
          · by_contra hno
            push Not at hno
            have := hi.err hz
            have hle : s.err ≤ 0 := by
              rw [this]
              refine sum_nonpos fun j hj => ?_
              rw [mem_Ico] at hj
              exact hno j hj.1 hj.2
            linarith
        obtain ⟨j, hmj, hjN, hj⟩ := hpos
        obtain ⟨s1, hs1⟩ := step_isSome (A := A) (by omega) j hmj hjN hj
        rw [hs1]
        exact ih (m + 1) s1 (inv_step hA hi hs1).1 (residual_psd_step hA hi hs1 hp) (by omega)
      · exact ⟨m, s, rfl⟩
  obtain ⟨m, s, hms⟩ := some rankMax 0 (start A N) (inv_start A N) hP0 fun _ => rfl
  obtain ⟨hi, hm, hstop, hzero, hpsd⟩ := loop_spec hA rankMax 0 _ m s (inv_start A N) hms
  have hres := hpsd hP0
  refine ⟨m, s, hms, hres, fun hlt => ?_⟩
  have herr : s.err ≤ tol := hstop.resolve_left (by omega)
  have htr : ∑ p ∈ range N, residual A s.R m p p ≤ tol := by
    rw [trace_residual hi]
    rcases Nat.eq_zero_or_pos m with hz | hz
    · have hs := hzero hz
      subst hz
      subst hs
      refine le_trans ?_ herr
      rw [Nat.Ico_zero_eq_range]
      exact sum_le_sum fun p _ => le_abs_self _
    · rwa [← hi.err hz]
  refine ⟨htr, fun p hp q hq => ?_⟩
  have hnn : ∀ p ∈ range N, 0 ≤ residual A s.R m p p := fun p hp => psd_diag hres (mem_range.mp hp)
  show |residual A s.R m p q| ≤ tol
  by_cases hpq : p = q
  · subst hpq
    rw [abs_of_nonneg (hnn p (mem_range.mpr hp))]
    exact (single_le_sum hnn (mem_range.mpr hp)).trans htr
  · have h2 := psd_offdiag hres (fun p hp q hq => residual_comm hA hp hq) hp hq hpq
    have h3 : residual A s.R m p p + residual A s.R m q q ≤ tol := by
      refine le_trans ?_ htr
      have : ∑ x ∈ ({p, q} : Finset ℕ), residual A s.R m x x ≤ ∑ x ∈ range N, residual A s.R m x x :=
        sum_le_sum_of_subset_of_nonneg (by
          intro x hx
          simp only [mem_insert, mem_singleton] at hx
          rcases hx with rfl | rfl <;> exact mem_range.mpr (by assumption)) fun x hx _ => hnn x hx
      rwa [sum_pair hpq] at this
    have h4 := abs_nonneg (residual A s.R m p q)
    linarith

/-- C31, error branches: a negative tolerance runs past the last row and raises ValueError, and a matrix
with negative diagonal elements only gives NaN. -/
theorem C31_errors (A : ℕ → ℕ → ℝ) (N rankMax : ℕ) (tol : ℝ) (hr : 0 < rankMax) :
    (N = 0 → tol < 0 → pivotedChol A N rankMax tol = none) ∧
    (0 < N → (∀ p < N, A p p < 0) → tol < ∑ p ∈ range N, |A p p| → pivotedChol A N rankMax tol = none) := by
  obtain ⟨f, rfl⟩ : ∃ f, rankMax = f + 1 := ⟨rankMax - 1, by omega⟩
  unfold pivotedChol
  simp only [loop]
  refine ⟨fun hN ht => ?_, fun hN hneg ht => ?_⟩
  · subst hN
    rw [if_pos (by simpa [start] using ht)]
    simp [step]
  · rw [if_pos (by simpa [start] using ht)]
    have : step A N 0 (start A N) = none := by
      unfold step
      rw [if_neg (by omega)]
      have hk := argmax_le (fun k => (start A N).d ((start A N).piv (0 + k))) (N - 0 - 1)
      have hpiv : exchange (start A N).piv 0 (0 + argmax (fun k => (start A N).d ((start A N).piv (0 + k))) (N - 0 - 1)) 0 =
          argmax (fun k => (start A N).d ((start A N).piv (0 + k))) (N - 0 - 1) := by
        rw [exchange_eq, Function.comp_apply, Equiv.swap_apply_left]
        simp [start]
      simp only [hpiv]
      rw [if_pos (Or.inl (show (start A N).d _ < 0 from hneg _ (by omega)))]
    rw [this]

/-- A matrix of rank two. -/
def exA (p q : ℕ) : ℝ := (p + 1) * (q + 1) + (if p = q then if p = 0 then 1 else 0 else 0)

example : (∀ p < 3, ∀ q < 3, exA p q = exA q p) ∧ PSD 3 exA := by
  constructor
  · intro p _ q _
    unfold exA
    by_cases h : p = q
    · subst h; rfl
    · rw [if_neg h, if_neg (Ne.symm h)]; ring
  · intro x
    have : ∑ p ∈ range 3, ∑ q ∈ range 3, x p * exA p q * x q =
        (x 0 + 2 * x 1 + 3 * x 2) ^ 2 + x 0 ^ 2 := by
      simp [sum_range_succ, exA]
      ring
    rw [this]
    positivity

end Ccpy.PivotedCholesky
