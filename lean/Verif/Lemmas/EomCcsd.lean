import Verif.Lemmas.CcElements
import Verif.Engine.Clusters
import Verif.Model.EomCcsd

/-! The comparisons for the EOM-CCSD matrix-vector product. -/

namespace Ccpy.EomCcsd
open Ccpy.Fock Ccpy.Tensor Ccpy.Engine Ccpy.HbarCcsd

variable {ι : Type*} [LinearOrder ι]

/-- The product, from the stored Hamiltonian and amplitudes on. -/
def sigma : Amps := HR excitation amplitudes stored (buildHbarCcsd amplitudes stored false) false

section
set_option maxRecDepth 100000
theorem check_a : dcheck (groups tableC) (listC 0) listH sigma.a [1, 4] [] false
    (commR [(true, 4), (false, 1)]) = true := by decide +kernel
theorem check_b : dcheck (groups tableC) (listC 0) listH sigma.b [3, 6] [] false
    (commR [(true, 6), (false, 3)]) = true := by decide +kernel
theorem check_aa : dcheck (groups tableC) (listC 0) listH sigma.aa [1, 5, 8, 12] [] false
    (commR [(true, 8), (true, 12), (false, 5), (false, 1)]) = true := by decide +kernel
theorem check_ab : dcheck (groups tableC) (listC 0) listH sigma.ab [1, 7, 8, 14] [] false
    (commR [(true, 8), (true, 14), (false, 7), (false, 1)]) = true := by decide +kernel
theorem check_bb : dcheck (groups tableC) (listC 0) listH sigma.bb [3, 7, 10, 14] [] false
    (commR [(true, 10), (true, 14), (false, 7), (false, 3)]) = true := by decide +kernel
end

section
variable {S : Orbitals ι} (h : S.Proper) {Z : Fock.Integrals} (hZ : Z.Antisym) {T : Cluster} (hT : T.Antisym)
  {R : Cluster} (hR : R.Antisym)
include h hZ hT hR

theorem value_a {a i : ℕ} (h₁ : a < S.ua) (h₂ : i < S.na) :
    value S Z (Cluster.store [T, R]) sigma.a [a, i] = S.element (S.singleA a i) (commutatorR S Z T R) := by
  have hρ : ExtOk (dimS S) [1, 4] (env [1, 4] [a, i]) := fun v hv => by
    simp only [List.mem_cons, List.not_mem_nil, or_false] at hv
    rcases hv with rfl | rfl <;> assumption
  refine (value_commR h hZ hT hR (by decide) check_a hρ).trans ?_
  rw [evalO_two, element_single]
  rfl

theorem value_b {a i : ℕ} (h₁ : a < S.ub) (h₂ : i < S.nb) :
    value S Z (Cluster.store [T, R]) sigma.b [a, i] = S.element (S.singleB a i) (commutatorR S Z T R) := by
  have hρ : ExtOk (dimS S) [3, 6] (env [3, 6] [a, i]) := fun v hv => by
    simp only [List.mem_cons, List.not_mem_nil, or_false] at hv
    rcases hv with rfl | rfl <;> assumption
  refine (value_commR h hZ hT hR (by decide) check_b hρ).trans ?_
  rw [evalO_two, element_single]
  rfl

theorem value_aa {a b i j : ℕ} (h₁ : a < S.ua) (h₂ : b < S.ua) (h₃ : i < S.na) (h₄ : j < S.na) :
    value S Z (Cluster.store [T, R]) sigma.aa [a, b, i, j] = S.element (S.doubleAA a b i j) (commutatorR S Z T R) := by
  have hρ : ExtOk (dimS S) [1, 5, 8, 12] (env [1, 5, 8, 12] [a, b, i, j]) := fun v hv => by
    simp only [List.mem_cons, List.not_mem_nil, or_false] at hv
    rcases hv with rfl | rfl | rfl | rfl <;> assumption
  refine (value_commR h hZ hT hR (by decide) check_aa hρ).trans ?_
  rw [evalO_four, element_double]
  rfl

theorem value_ab {a b i j : ℕ} (h₁ : a < S.ua) (h₂ : b < S.ub) (h₃ : i < S.na) (h₄ : j < S.nb) :
    value S Z (Cluster.store [T, R]) sigma.ab [a, b, i, j] = S.element (S.doubleAB a b i j) (commutatorR S Z T R) := by
  have hρ : ExtOk (dimS S) [1, 7, 8, 14] (env [1, 7, 8, 14] [a, b, i, j]) := fun v hv => by
    simp only [List.mem_cons, List.not_mem_nil, or_false] at hv
    rcases hv with rfl | rfl | rfl | rfl <;> assumption
  refine (value_commR h hZ hT hR (by decide) check_ab hρ).trans ?_
  rw [evalO_four, element_double]
  rfl

theorem value_bb {a b i j : ℕ} (h₁ : a < S.ub) (h₂ : b < S.ub) (h₃ : i < S.nb) (h₄ : j < S.nb) :
    value S Z (Cluster.store [T, R]) sigma.bb [a, b, i, j] = S.element (S.doubleBB a b i j) (commutatorR S Z T R) := by
  have hρ : ExtOk (dimS S) [3, 7, 10, 14] (env [3, 7, 10, 14] [a, b, i, j]) := fun v hv => by
    simp only [List.mem_cons, List.not_mem_nil, or_false] at hv
    rcases hv with rfl | rfl | rfl | rfl <;> assumption
  refine (value_commR h hZ hT hR (by decide) check_bb hρ).trans ?_
  rw [evalO_four, element_double]
  rfl

end

end Ccpy.EomCcsd
