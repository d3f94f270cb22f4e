import Verif.Lemmas.Davidson
import Mathlib.Algebra.Module.Prod
import Mathlib.LinearAlgebra.Prod
import Mathlib.Tactic.NormNum

/-! C24, C25: the Davidson solvers diagonalise the matrix of the operator in the current subspace, and what their flags mean.

`H` is the operator applied by `HR`, taken to be linear; `dot` is taken to be symmetric.  Nothing is assumed of the eigenvalue
routine, the choice of the root, the preconditioner, the orthogonalisation, `qr` or the norm. -/

namespace Ccpy.Davidson

open Finset

variable {V : Type} [AddCommGroup V] [Module ℚ V]

/-- The state at the beginning of iteration `k`, when the iterations before it did not converge. -/
inductive Reached (t : Tools V) (maxSize nrest : ℕ) (b₀ : V) (omega : ℚ) : ℕ → State V → Prop
  | start : Reached t maxSize nrest b₀ omega 0 (start t b₀ omega)
  | next {k : ℕ} {s : State V} : Reached t maxSize nrest b₀ omega k s →
      (advance t maxSize nrest k (project t s)).1.converged = false →
      Reached t maxSize nrest b₀ omega (k + 1) (advance t maxSize nrest k (project t s)).1

theorem Reached.inv {t : Tools V} {maxSize : ℕ} {b₀ : V} {omega : ℚ} (hdot : ∀ x y, t.dot x y = t.dot y x) (H : V →ₗ[ℚ] V)
    (hH : ∀ x, t.HR x = H x) (hm : 0 < maxSize) {k : ℕ} {s : State V} (h : Reached t maxSize 1 b₀ omega k s) :
    Inv t H maxSize s := by
  induction h with
  | start => exact inv_start t H hH hm b₀ omega
  | next _ _ ih => exact inv_advance t hdot H hH hm ih _

/-- C24.  In every iteration, also after restarts, the matrix that is diagonalised is the matrix of the operator in the current
basis vectors, and the basis fits into the workspace. -/
theorem C24_projected (t : Tools V) (hdot : ∀ x y, t.dot x y = t.dot y x) (H : V →ₗ[ℚ] V) (hH : ∀ x, t.HR x = H x)
    {maxSize : ℕ} (hm : 0 < maxSize) {b₀ : V} {omega : ℚ} {k : ℕ} {s : State V} (h : Reached t maxSize 1 b₀ omega k s) :
    (project t s).size ≤ maxSize ∧ ∀ p q, p < (project t s).size → q < (project t s).size →
      (project t s).G p q = t.dot ((project t s).B p) (H ((project t s).B q)) :=
  ⟨(h.inv hdot H hH hm).le, fun _ _ hp hq => project_full t hdot H (h.inv hdot H hH hm) hp hq⟩

/-- C24.  The vector whose norm is tested is the error of the current vector in the eigenvalue equation. -/
theorem C24_residual (t : Tools V) (hdot : ∀ x y, t.dot x y = t.dot y x) (H : V →ₗ[ℚ] V) (hH : ∀ x, t.HR x = H x)
    {maxSize : ℕ} (hm : 0 < maxSize) {b₀ : V} {omega : ℚ} {k : ℕ} {s : State V} (h : Reached t maxSize 1 b₀ omega k s) :
    ∃ r, (advance t maxSize 1 k (project t s)).1.r = some r ∧
      (advance t maxSize 1 k (project t s)).2 = H r - (advance t maxSize 1 k (project t s)).1.omega • r := by
  have hres := residual_eq H s.size s.B s.sigma (h.inv hdot H hH hm).sigma
  unfold advance
  dsimp only
  split
  · exact ⟨_, rfl, hres _ _⟩
  · split <;> exact ⟨_, rfl, hres _ _⟩

/-- C24.  A root reported as converged solves the eigenvalue equation to within the tolerance. -/
theorem C24_converged (t : Tools V) (hdot : ∀ x y, t.dot x y = t.dot y x) (H : V →ₗ[ℚ] V) (hH : ∀ x, t.HR x = H x)
    {maxSize maxit : ℕ} {b₀ : V} {omega₀ : ℚ} {r : V} {omega : ℚ} (h : davidson t maxSize maxit b₀ omega₀ = some (r, omega, true)) :
    t.norm (H r - omega • r) < t.ampTol := by
  unfold davidson at h
  split at h
  · exact absurd h (by simp)
  · rename_i hm
    have hinv := inv_loop t hdot H hH (Nat.pos_of_ne_zero hm) maxit 0 _ (inv_start t H hH (Nat.pos_of_ne_zero hm) b₀ omega₀)
    dsimp only at h
    rw [Option.map_eq_some_iff] at h
    obtain ⟨r', hr', he⟩ := h
    rw [Prod.mk.injEq, Prod.mk.injEq] at he
    obtain ⟨h1, h2, h3⟩ := he
    obtain ⟨r'', hr'', hn⟩ := hinv.conv h3
    rw [hr'] at hr''
    rw [← h1, ← h2, Option.some.inj hr'']
    exact hn

/-- C24.  The solver returns whenever there is room for one vector and at least one iteration; otherwise it raises. -/
theorem C24_returns (t : Tools V) (maxSize maxit : ℕ) (b₀ : V) (omega₀ : ℚ) :
    (davidson t maxSize maxit b₀ omega₀).isSome = true ↔ 0 < maxSize ∧ 0 < maxit := by
  unfold davidson
  split
  · rename_i h; simp [h]
  · rename_i h
    cases maxit with
    | zero => simp [loop, start]
    | succ n =>
      simp only [Option.isSome_map, Nat.succ_pos, and_true, loop]
      have h1 := advance_r t maxSize 1 0 (project t (start t b₀ omega₀))
      split
      · simp [Option.isSome_iff_ne_none, h1]; omega
      · simp [Option.isSome_iff_ne_none, loop_r t maxSize 1 n _ _ h1]; omega

/-! #### A concrete run with a restart -/

/-- The matrix with eigenvector (3, 4) and eigenvalue 25. -/
def sampleH : ℚ × ℚ →ₗ[ℚ] ℚ × ℚ where
  toFun x := (9 * x.1 + 12 * x.2, 12 * x.1 + 16 * x.2)
  map_add' x y := by ext <;> simp <;> ring
  map_smul' c x := by ext <;> simp <;> ring

def sample : Tools (ℚ × ℚ) where
  HR x := (9 * x.1 + 12 * x.2, 12 * x.1 + 16 * x.2)
  dot x y := x.1 * y.1 + x.2 * y.2
  norm x := |x.1| + |x.2|
  eig n G _ _ := if n = 1 then (G 0 0, fun _ => 1) else (25, fun p => if p = 0 then 3 / 5 else 4 / 5)
  correct _ _ _ _ := (0, 1)
  qr X := X
  ampTol := 1 / 1000
  energyTol := 1 / 1000

/-- The subspace of two vectors is full in the second iteration; the third one converges after a restart. -/
example : davidson sample 2 5 (1, 0) 0 = some ((3 / 5, 4 / 5), 25, true) ∧ davidson sample 2 2 (1, 0) 0 = some ((3 / 5, 4 / 5), 25, false) ∧
    (∀ x, sample.HR x = sampleH x) ∧ (∀ x y, sample.dot x y = sample.dot y x) ∧
    (∃ s, Reached sample 2 1 (1, 0) 0 2 s ∧ s.size = 1) := by
  refine ⟨by decide +kernel, by decide +kernel, fun x => rfl, fun x y => by simp [sample, mul_comm], ?_⟩
  exact ⟨_, .next (.next .start (by decide +kernel)) (by decide +kernel), by decide +kernel⟩

/-- C24.  Why the number of restart vectors has to be one (`solvers.py:111`, "> 1 does not work, why?"): with two of them
the first diagonal element is not computed again after a restart. -/
theorem C24_two_restart_vectors : ∃ (t : Tools (ℚ × ℚ)) (s : State (ℚ × ℚ)), (∀ x, t.HR x = sampleH x) ∧
    (∀ x y, t.dot x y = t.dot y x) ∧ Reached t 2 2 (1, 0) 0 2 s ∧ (project t s).size = 2 ∧
    (project t s).G 0 0 ≠ t.dot ((project t s).B 0) (sampleH ((project t s).B 0)) := by
  refine ⟨{ sample with qr := fun X p => X (1 - p) }, _, fun x => rfl, fun x y => by simp [sample, mul_comm],
    .next (.next .start (by decide +kernel)) (by decide +kernel), by decide +kernel, by decide +kernel⟩

/-! ### Several roots -/

/-- The state at the beginning of an iteration of the block solver. -/
inductive ReachedBlock (t : Tools V) (maxSize nroot : ℕ) (b₀ : ℕ → V) (omega : ℕ → ℚ) : Block V → Prop
  | start : ReachedBlock t maxSize nroot b₀ omega (startBlock t nroot b₀ omega)
  | next {s s' : Block V} : ReachedBlock t maxSize nroot b₀ omega s → sweep t maxSize nroot s = some s' →
      allConverged nroot s' = false → ReachedBlock t maxSize nroot b₀ omega { s' with size := s'.size + s'.added }

theorem ReachedBlock.inv {t : Tools V} {maxSize nroot : ℕ} {b₀ : ℕ → V} {omega : ℕ → ℚ} (hdot : ∀ x y, t.dot x y = t.dot y x)
    (H : V →ₗ[ℚ] V) (hH : ∀ x, t.HR x = H x) {s : Block V} (h : ReachedBlock t maxSize nroot b₀ omega s) : BlockInv t H s := by
  induction h with
  | start => exact blockInv_start t H hH nroot b₀ omega
  | next _ hs _ ih => exact (sweep_inv t hdot H hH ih hs).1

/-- C24, for the block solver. -/
theorem C24_block_projected (t : Tools V) (hdot : ∀ x y, t.dot x y = t.dot y x) (H : V →ₗ[ℚ] V) (hH : ∀ x, t.HR x = H x)
    {maxSize nroot : ℕ} {b₀ : ℕ → V} {omega : ℕ → ℚ} {s : Block V} (h : ReachedBlock t maxSize nroot b₀ omega s) :
    ∀ p q, p < (projectBlock t s).size → q < (projectBlock t s).size →
      (projectBlock t s).G p q = t.dot ((projectBlock t s).B p) (H ((projectBlock t s).B q)) :=
  fun _ _ hp hq => projectBlock_full t hdot H (h.inv hdot H hH) hp hq

/-- C25.  A root reported as converged by the block solver solves the eigenvalue equation to within the tolerance. -/
theorem C25_converged (t : Tools V) (hdot : ∀ x y, t.dot x y = t.dot y x) (H : V →ₗ[ℚ] V) (hH : ∀ x, t.HR x = H x)
    {nroot maxit : ℕ} {b₀ : ℕ → V} {omega : ℕ → ℚ} {s : Block V} (h : blockDavidson t nroot maxit b₀ omega = some s) {j : ℕ}
    (hj : s.converged j = true) : t.norm (H (s.R j) - s.omega j • s.R j) < t.ampTol := by
  unfold blockDavidson at h
  split at h
  · exact loopBlock_conv t hdot H hH maxit (blockInv_start t H hH nroot b₀ omega) h j hj
  · exact absurd h (by simp)

/-- C25, the part that holds.  A workspace with room for one more iteration is always large enough; and if all roots converge
within the allowed number of iterations there, the workspace the program allocates is large enough too and gives the same
result. -/
theorem C25_workspace_partial (t : Tools V) {nroot maxit : ℕ} (hm : 0 < maxit) (b₀ : ℕ → V) (omega : ℕ → ℚ) :
    ∃ s, loopBlock t (nroot * (maxit + 1)) nroot maxit (startBlock t nroot b₀ omega) = some s ∧
      (allConverged nroot s = true → blockDavidson t nroot maxit b₀ omega = some s) := by
  obtain ⟨s, hs⟩ := loop_enough t (maxSize := nroot * (maxit + 1)) (nroot := nroot) maxit (s := startBlock t nroot b₀ omega)
    (by simp only [startBlock]; rw [Nat.mul_succ]; omega)
  refine ⟨s, hs, fun hall => ?_⟩
  unfold blockDavidson
  obtain ⟨n, rfl⟩ : ∃ n, maxit = n + 1 := ⟨maxit - 1, by omega⟩
  rw [if_pos (by rw [Nat.mul_succ]; omega)]
  refine loop_resize t (n + 1) ?_ hs hall
  simp only [startBlock]
  rw [Nat.add_sub_cancel, Nat.mul_succ]
  omega

/-- C25 fails: the block solver never returns with no root converged; when none converges it raises IndexError in the last
allowed iteration instead of reporting it. -/
theorem C25_fails (t : Tools V) {nroot maxit : ℕ} (hn : 0 < nroot) (b₀ : ℕ → V) (omega : ℕ → ℚ) (s : Block V)
    (h : blockDavidson t nroot maxit b₀ omega = some s) : ∃ j < nroot, s.converged j = true := by
  by_contra hcon
  push Not at hcon
  unfold blockDavidson at h
  split at h
  · rename_i hle
    have := loop_none_converged t hn maxit (by simpa [startBlock] using hle) h (fun j hj => by simpa using hcon j hj)
    simp only [startBlock] at this
    omega
  · exact absurd h (by simp)

/-- C25 fails: an operator with one root that has not converged after three iterations. -/
theorem C25_one_root_fails : ∃ t : Tools (ℚ × ℚ), (∀ x, t.HR x = sampleH x) ∧ blockDavidson t 1 3 (fun _ => (1, 0)) (fun _ => 0) = none := by
  refine ⟨{ sample with ampTol := 0 }, fun x => rfl, ?_⟩
  cases h : blockDavidson { sample with ampTol := 0 } 1 3 (fun _ => (1, 0)) (fun _ => 0) with
  | none => rfl
  | some s =>
    obtain ⟨j, hj, hc⟩ := C25_fails _ (by decide) _ _ _ h
    have := C25_converged { sample with ampTol := 0 } (fun x y => by simp [sample, mul_comm]) sampleH (fun x => rfl) h hc
    exact absurd this (by simp only [sample, not_lt]; positivity)

/-- Two roots; the second one converges at once. -/
def sampleBlock : Tools (ℚ × ℚ) :=
  { sample with eig := fun n G j _ => if j = 1 then (0, fun p => if p = 0 then 0 else if p = 1 then 1 else 0) else if n = 2 then (9, fun p => if p = 0 then 1 else 0) else (25, fun p => if p = 0 then 3 / 5 else if p = 2 then 4 / 5 else 0), energyTol := 100 }

example : ((blockDavidson sampleBlock 2 2 (fun j => if j = 0 then (1, 0) else (4, -3)) (fun _ => 0)).map
    fun s => (s.R 0, s.R 1, s.omega 0, s.converged 0, s.converged 1, s.size)) = some ((3 / 5, 4 / 5), (4, -3), 25, true, true, 3) := by
  decide +kernel

end Ccpy.Davidson
